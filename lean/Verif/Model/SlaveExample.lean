import Verif.Model.Simulator
/-
# Model of examples/tcpslave_example.py and examples/rtuslave_example.py: a server with a console

The two programs differ in the server they create.  The state is that of `Model/Simulator.lean` (`declared` and `verbose` play no part).  The server threads work on the same databank between the lines.
-/
namespace Modbus

/-- the elements of a tuple after the first: `, v` each -/
def tupleTail : List Int → Text
  | [] => []
  | v :: vs => ',' :: ' ' :: (intText v ++ tupleTail vs)

/-- `str(values)` for the tuple `get_values` returns (modbus.py:892-894): `()`, `(5,)`, `(5, 6)` -/
def tupleText : List Int → Text
  | [] => ['(', ')']
  | [v] => '(' :: (intText v ++ [',', ')'])
  | v :: vs => '(' :: (intText v ++ tupleTail vs ++ [')'])

/-- how the loop of the program ends -/
inductive ConsoleEnd
  | quit
  | raised (e : PyErr)
  deriving DecidableEq, Repr

/-- the branches of the loop, tcpslave_example.py:43-80, rtuslave_example.py:46-83: what is written to the standard output -/
def consoleCmd (args : List Text) : PyM SimSt Text := do
  let cmd := args.headD []
  if cmd = "add_slave".toList then do
    let slaveId ← intArg args 1
    let _ ← onDb (addSlave slaveId true none)
    return "done: slave ".toList ++ intText slaveId ++ " added\r\n".toList
  else if cmd = "add_block".toList then do
    let slaveId ← intArg args 1
    let name ← arg args 2
    let blockType ← intArg args 3
    let startingAddress ← intArg args 4
    let length ← intArg args 5
    onSlave slaveId (addBlock (String.ofList name) blockType startingAddress length)
    return "done: block ".toList ++ name ++ " added\r\n".toList
  else if cmd = "set_values".toList then do
    let slaveId ← intArg args 1
    let name ← arg args 2
    let address ← intArg args 3
    let values ← toInts (args.drop 4)
    let s ← PyM.get
    onSlave slaveId (onHeap (setValues s.hooks (String.ofList name) address (.seq values)))
    let values ← onSlave slaveId (onHeap (getValues (String.ofList name) address values.length))
    return "done: values written: ".toList ++ tupleText values ++ "\r\n".toList
  else if cmd = "get_values".toList then do
    let slaveId ← intArg args 1
    let name ← arg args 2
    let address ← intArg args 3
    let length ← intArg args 4
    let values ← onSlave slaveId (onHeap (getValues (String.ofList name) address length))
    return "done: values read: ".toList ++ tupleText values ++ "\r\n".toList
  else return "unknown command ".toList ++ cmd ++ "\r\n".toList

/-- one turn of the loop, tcpslave_example.py:36-80, rtuslave_example.py:39-83; no exception is caught: it leaves the loop.  The line is not stripped: its end stays in the last word. -/
def consoleStep (line : Text) (s : SimSt) : Text × Option ConsoleEnd × SimSt :=
  if "quit".toList.isPrefixOf line then ("bye-bye\r\n".toList, some .quit, s)
  else match consoleCmd (splitOn ' ' line) s with
    | (.ok text, s') => (text, none, s')
    | (.error e, s') => ([], some (.raised e), s')

/-- what the program has done: the text written, the end of the loop, the number of calls of `server.stop()`, the lines not read -/
structure ConsoleRun where
  written : Text
  ended : Option ConsoleEnd
  stops : Nat
  unread : List Text
  st : SimSt

/-- the loop and the `finally` of tcpslave_example.py:35-82, rtuslave_example.py:38-85.  Before each line the server threads may change the state: `work n` is what they do before the `n`-th line. -/
def consoleRun (work : Nat → SimSt → SimSt) : Nat → List Text → SimSt → ConsoleRun
  | _, [], s => ⟨[], none, 0, [], s⟩
  | n, line :: lines, s =>
    match consoleStep line (work n s) with
    | (text, some e, s') => ⟨text, some e, 1, lines, s'⟩
    | (text, none, s') =>
      let r := consoleRun work (n + 1) lines s'
      { r with written := text ++ r.written }

/-- the databank when the loop begins: `server.add_slave(1)`, `slave_1.add_block('0', cst.HOLDING_REGISTERS, 0, 100)`, tcpslave_example.py:32-33, rtuslave_example.py:36-37 (HOLDING_REGISTERS = 3) -/
def consoleInit : PyM SimSt Unit := do
  let _ ← onDb (addSlave 1 true none)
  onSlave 1 (addBlock "0" 3 0 100)

end Modbus
