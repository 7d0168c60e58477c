import Verif.Model.Databank
import Verif.Model.Text
/-
# Model of modbus_tk/simulator.py (the commands and `_handle`) and of simulator_rpc_client.py

Strings and byte strings are both `Text`, as in Python 2 (in Python 3 the RPC part mixes `str` and `bytes` and raises TypeError).
-/
namespace Modbus

/-- the state behind the commands: the databank of the server, the hooks, the functions declared with `declare_hook`
    (simulator.py:191, 222-224), the verbosity of the server -/
structure SimSt where
  st : DbSt
  hooks : Registry
  declared : List (Text × Hook)
  verbose : Int

/-- a command function: it gets the words of the line and returns a text or None -/
abbrev SimCmd := List Text → PyM SimSt (Option Text)

def onDb {α} (f : PyM DbSt α) : PyM SimSt α := fun s =>
  let r := f s.st
  (r.1, { s with st := r.2 })

/-- `slave = self.server.get_slave(slave_id)` followed by a call on the slave object -/
def onSlave {α} (slaveId : Int) (f : PyM SlaveSt α) : PyM SimSt α := fun s =>
  match Dict.get? s.st.db.slaves slaveId with
  | none => (.error .missingKey, s)
  | some sl =>
    let r := f ⟨sl, s.st.heap⟩
    (r.1, { s with st := { db := { s.st.db with slaves := Dict.set s.st.db.slaves slaveId r.2.sl }, heap := r.2.heap } })

/-- `args[i]` -/
def arg (args : List Text) (i : Nat) : PyM SimSt Text :=
  match args[i]? with
  | some a => return a
  | none => PyM.raise .indexError

/-- `int(s)` -/
def toInt (s : Text) : PyM SimSt Int :=
  match parseInt s with
  | some i => return i
  | none => PyM.raise .valueError

/-- `int(args[i])` -/
def intArg (args : List Text) (i : Nat) : PyM SimSt Int := do
  let a ← arg args i
  toInt a

/-- the loop of simulator.py:289-290 -/
def toInts : List Text → PyM SimSt (List Int)
  | [] => return []
  | a :: as => do
    let v ← toInt a
    let vs ← toInts as
    return v :: vs

/-- `_tuple_to_str`, simulator.py:226-231 -/
def tupleToStr (vs : List Int) : Text := (vs.flatMap fun v => ' ' :: intText v).drop 1

/-- simulator.py:233-237 (`Server.add_slave` with its defaults, modbus.py:1028-1030) -/
def doAddSlave : SimCmd := fun args => do
  let slaveId ← intArg args 1
  let _ ← onDb (addSlave slaveId true none)
  return some (intText slaveId)

/-- simulator.py:239-246 -/
def doHasSlave : SimCmd := fun args => do
  let slaveId ← intArg args 1
  PyM.tryExcept (do
      let _ ← onDb (getSlave slaveId)
      return some "1".toList)
    (fun _ => return some "0".toList)

/-- simulator.py:248-252 -/
def doRemoveSlave : SimCmd := fun args => do
  let slaveId ← intArg args 1
  onDb (removeSlave slaveId)
  return some []

/-- simulator.py:254-257 -/
def doRemoveAllSlaves : SimCmd := fun _ => do
  onDb removeAllSlaves
  return some []

/-- simulator.py:259-268 -/
def doAddBlock : SimCmd := fun args => do
  let slaveId ← intArg args 1
  let name ← arg args 2
  let blockType ← intArg args 3
  let startingAddress ← intArg args 4
  let length ← intArg args 5
  onSlave slaveId (addBlock (String.ofList name) blockType startingAddress length)
  return some name

/-- simulator.py:270-275; the result is None -/
def doRemoveBlock : SimCmd := fun args => do
  let slaveId ← intArg args 1
  let name ← arg args 2
  onSlave slaveId (removeBlock (String.ofList name))
  return none

/-- simulator.py:277-281; the result is None -/
def doRemoveAllBlocks : SimCmd := fun args => do
  let slaveId ← intArg args 1
  onSlave slaveId removeAllBlocks
  return none

/-- simulator.py:283-294.  The two calls on the slave are separate (another thread may write in between). -/
def doSetValues : SimCmd := fun args => do
  let slaveId ← intArg args 1
  let name ← arg args 2
  let address ← intArg args 3
  let values ← toInts (args.drop 4)
  let s ← PyM.get
  onSlave slaveId (onHeap (setValues s.hooks (String.ofList name) address (.seq values)))
  let values ← onSlave slaveId (onHeap (getValues (String.ofList name) address values.length))
  return some (tupleToStr values)

/-- simulator.py:296-304 -/
def doGetValues : SimCmd := fun args => do
  let slaveId ← intArg args 1
  let name ← arg args 2
  let address ← intArg args 3
  let length ← intArg args 4
  let values ← onSlave slaveId (onHeap (getValues (String.ofList name) address length))
  return some (tupleToStr values)

/-- simulator.py:306-310 -/
def doInstallHook : SimCmd := fun args => do
  let hookName ← arg args 1
  let fctName ← arg args 2
  let s ← PyM.get
  match Dict.get? s.declared fctName with
  | none => PyM.raise .keyError
  | some f => do
    PyM.set { s with hooks := installHook s.hooks (String.ofList hookName) f }
    return none

/-- simulator.py:312-321; a KeyError is logged and forgotten -/
def doUninstallHook : SimCmd := fun args => do
  let hookName ← arg args 1
  let s ← PyM.get
  match uninstallHook s.hooks (String.ofList hookName) none with
  | .ok R => do
    PyM.set { s with hooks := R }
    return none
  | .error .keyError => return none
  | .error e => PyM.raise e

/-- simulator.py:323-327 -/
def doSetVerbose : SimCmd := fun args => do
  let verbose ← intArg args 1
  PyM.modify fun s => { s with verbose := verbose }
  return some (intText verbose)

/-- `self.cmds`, simulator.py:193-206 -/
def simCmds : List (Text × SimCmd) :=
  [("add_slave".toList, doAddSlave), ("has_slave".toList, doHasSlave), ("remove_slave".toList, doRemoveSlave),
   ("remove_all_slaves".toList, doRemoveAllSlaves), ("add_block".toList, doAddBlock), ("remove_block".toList, doRemoveBlock),
   ("remove_all_blocks".toList, doRemoveAllBlocks), ("set_values".toList, doSetValues), ("get_values".toList, doGetValues),
   ("install_hook".toList, doInstallHook), ("uninstall_hook".toList, doUninstallHook), ("set_verbose".toList, doSetVerbose)]

/-- `add_command(name, fct)`, simulator.py:208-210 -/
def addCommand (cmds : List (Text × SimCmd)) (name : Text) (f : SimCmd) : List (Text × SimCmd) := Dict.set cmds name f

/-- `"%s" % answer` -/
def answerText : Option Text → Text
  | some t => t
  | none => "None".toList

/-- one round of the loop of `_handle`, simulator.py:332-344: the answer, and whether the loop ends.  `errText`: the text of an
    exception. -/
def simStep (cmds : List (Text × SimCmd)) (errText : PyErr → Text) (cmd : Text) (s : SimSt) : Text × Bool × SimSt :=
  let args := splitOn ' ' (stripChars isCrLf cmd)
  let name := args.headD []
  if "quit".toList.isPrefixOf cmd then ("bye-bye\r\n".toList, true, s)
  else match Dict.get? cmds name with
    | some f =>
      match f args s with
      | (.ok answer, s') => (name ++ " done: ".toList ++ answerText answer ++ "\r\n".toList, false, s')
      | (.error e, s') => (name ++ " error: ".toList ++ errText e ++ "\r\n".toList, false, s')
    | none => ("error: unknown command ".toList ++ name ++ "\r\n".toList, false, s)

/-- the loop of `_handle`, simulator.py:329-344, on the commands that arrive in the input queue: the answers put in the output
    queue, the final state, the commands left in the queue and whether the loop has ended -/
def simRun (cmds : List (Text × SimCmd)) (errText : PyErr → Text) : List Text → SimSt → List Text × SimSt × List Text × Bool
  | [], s => ([], s, [], false)
  | cmd :: rest, s =>
    match simStep cmds errText cmd s with
    | (answer, true, s') => ([answer], s', rest, true)
    | (answer, false, s') =>
      let r := simRun cmds errText rest s'
      (answer :: r.1, r.2)

/-! ## The RPC interface and its client -/

/-- The bytes `recv(1024)` returns when the message arrives in one piece. -/
def recv1024 (m : Text) : Text := m.take 1024

/-- `RpcHandler.handle`, simulator.py:89-99, with the simulator's `_handle`: nobody else uses the queues -/
def rpcHandle (cmds : List (Text × SimCmd)) (errText : PyErr → Text) (query : Text) (s : SimSt) : Text × Bool × SimSt :=
  simStep cmds errText (stripChars isSpace (recv1024 query)) s

/-- `_response_to_values`, simulator_rpc_client.py:36-42 -/
def responseToValues (response command : Text) : Except PyErr Text :=
  let pre := command ++ " done: ".toList
  if pre.isPrefixOf response then .ok (response.drop pre.length) else .error .generic

/-- `_rpc_call`, simulator_rpc_client.py:26-34 -/
def rpcCall (cmds : List (Text × SimCmd)) (errText : PyErr → Text) (query : Text) : PyM SimSt Text := fun s =>
  let r := rpcHandle cmds errText query s
  (responseToValues (stripChars isCrLf (recv1024 r.1)) ((splitOn ' ' query).headD []), r.2.2)

/-- `get_values`, simulator_rpc_client.py:88-92 -/
def rpcGetValues (cmds : List (Text × SimCmd)) (errText : PyErr → Text) (slaveId : Int) (name : Text) (address length : Int) :
    PyM SimSt (List Int) := do
  let ret ← rpcCall cmds errText ("get_values ".toList ++ intText slaveId ++ ' ' :: name ++ ' ' :: intText address ++ ' ' :: intText length)
  toInts (splitOn ' ' ret)

/-- `set_values`, simulator_rpc_client.py:81-86 -/
def rpcSetValues (cmds : List (Text × SimCmd)) (errText : PyErr → Text) (slaveId : Int) (name : Text) (address : Int) (values : List Int) :
    PyM SimSt Text :=
  rpcCall cmds errText ("set_values ".toList ++ intText slaveId ++ ' ' :: name ++ ' ' :: intText address ++
    values.flatMap fun v => ' ' :: intText v)

/-- `has_slave`, simulator_rpc_client.py:59-64 -/
def rpcHasSlave (cmds : List (Text × SimCmd)) (errText : PyErr → Text) (slaveId : Int) : PyM SimSt Bool := do
  let ret ← rpcCall cmds errText ("has_slave ".toList ++ intText slaveId)
  return decide (ret = "1".toList)

/-- `add_slave`, simulator_rpc_client.py:44-47 -/
def rpcAddSlave (cmds : List (Text × SimCmd)) (errText : PyErr → Text) (slaveId : Int) : PyM SimSt Text :=
  rpcCall cmds errText ("add_slave ".toList ++ intText slaveId)

/-- `add_block`, simulator_rpc_client.py:66-69 -/
def rpcAddBlock (cmds : List (Text × SimCmd)) (errText : PyErr → Text) (slaveId : Int) (name : Text) (bt start length : Int) :
    PyM SimSt Text :=
  rpcCall cmds errText ("add_block ".toList ++ intText slaveId ++ ' ' :: name ++ ' ' :: intText bt ++ ' ' :: intText start ++
    ' ' :: intText length)

/-- `remove_slave`, simulator_rpc_client.py:49-52 -/
def rpcRemoveSlave (cmds : List (Text × SimCmd)) (errText : PyErr → Text) (slaveId : Int) : PyM SimSt Text :=
  rpcCall cmds errText ("remove_slave ".toList ++ intText slaveId)

/-- `remove_all_slaves`, simulator_rpc_client.py:54-57 -/
def rpcRemoveAllSlaves (cmds : List (Text × SimCmd)) (errText : PyErr → Text) : PyM SimSt Unit := do
  let _ ← rpcCall cmds errText "remove_all_slaves".toList

/-- `remove_block`, simulator_rpc_client.py:71-74 -/
def rpcRemoveBlock (cmds : List (Text × SimCmd)) (errText : PyErr → Text) (slaveId : Int) (name : Text) : PyM SimSt Unit := do
  let _ ← rpcCall cmds errText ("remove_block ".toList ++ intText slaveId ++ ' ' :: name)

/-- `remove_all_blocks`, simulator_rpc_client.py:76-79 -/
def rpcRemoveAllBlocks (cmds : List (Text × SimCmd)) (errText : PyErr → Text) (slaveId : Int) : PyM SimSt Unit := do
  let _ ← rpcCall cmds errText ("remove_all_blocks ".toList ++ intText slaveId)

/-- `install_hook`, simulator_rpc_client.py:94-97 -/
def rpcInstallHook (cmds : List (Text × SimCmd)) (errText : PyErr → Text) (hook fct : Text) : PyM SimSt Unit := do
  let _ ← rpcCall cmds errText ("install_hook ".toList ++ hook ++ ' ' :: fct)

/-- `uninstall_hook`, simulator_rpc_client.py:99-102 (`fct` is empty by default) -/
def rpcUninstallHook (cmds : List (Text × SimCmd)) (errText : PyErr → Text) (hook fct : Text) : PyM SimSt Unit := do
  let _ ← rpcCall cmds errText ("uninstall_hook ".toList ++ hook ++ ' ' :: fct)

end Modbus
