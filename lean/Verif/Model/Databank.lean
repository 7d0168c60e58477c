import Verif.Model.Slave
import Verif.Model.Query
/-
# Model of `Databank` (modbus.py:897-985) and of `Server._handle` (modbus.py:1076-1096)
-/
namespace Modbus

/-- `Databank`, modbus.py:897-906.  Slave objects are stored by value (a slave that was removed and is still held by
    the user is outside the model); their memories are heap references. -/
structure Databank where
  slaves : List (Int × Slave)
  errorOnMissingSlave : Bool
  deriving DecidableEq, Repr

/-- the databank together with the heap -/
structure DbSt where
  db : Databank
  heap : Heap

/-- `Databank.add_slave`, modbus.py:908-917. -/
def addSlave (slaveId : Int) (unsigned : Bool) (memory : Option Nat) : PyM DbSt Slave := fun s =>
  if slaveId ≤ 0 ∨ slaveId > 255 then (.error .generic, s)
  else if Dict.has s.db.slaves slaveId then (.error .duplicatedKey, s)
  else
    let (sl, h) := Slave.new slaveId unsigned memory s.heap
    (.ok sl, { db := { s.db with slaves := Dict.set s.db.slaves slaveId sl }, heap := h })

/-- `Databank.get_slave`, modbus.py:919-925. -/
def getSlave (slaveId : Int) : PyM DbSt Slave := fun s =>
  match Dict.get? s.db.slaves slaveId with
  | some sl => (.ok sl, s)
  | none => (.error .missingKey, s)

/-- `Databank.remove_slave`, modbus.py:927-933. -/
def removeSlave (slaveId : Int) : PyM DbSt Unit := fun s =>
  if Dict.has s.db.slaves slaveId then
    (.ok (), { s with db := { s.db with slaves := Dict.erase s.db.slaves slaveId } })
  else (.error .missingKey, s)

/-- `Databank.remove_all_slaves`, modbus.py:935-938. -/
def removeAllSlaves : PyM DbSt Unit := fun s => (.ok (), { s with db := { s.db with slaves := [] } })

/-- the broadcast loop, modbus.py:952-953 (dictionaries iterate in insertion order) -/
def broadcastLoop (R : Registry) (pdu : Bytes) : List (Int × Slave) → PyM Heap Unit
  | [] => return ()
  | (_, sl) :: rest => do
      let _ ← handleRequest R sl pdu true
      broadcastLoop R pdu rest

/-- the part of the `try` block after the parsing of the request, modbus.py:950-967.
    `none` is Python's None, `some []` is `""`. -/
def dbBody (R : Registry) (mac : Mac) (db : Databank) (q : mac.Q) (slaveId : Int) (pdu : Bytes) :
    PyM Heap (Option Bytes) :=
  if slaveId = 0 then do
    broadcastLoop R pdu db.slaves
    return none
  else
    match Dict.get? db.slaves slaveId with
    | none => if db.errorOnMissingSlave then PyM.raise .missingKey else return (some [])
    | some sl => do
        let responsePdu ← handleRequest R sl pdu false
        let response ← PyM.lift (mac.buildResponse responsePdu q).1
        return (some response)

/-- the exception handlers and the end of `Databank.handle_request`, modbus.py:968-985.
    `func_code + 0x80` above 255 makes `struct.pack` raise. -/
def dbExcept (R : Registry) (pdu : Bytes) (e : PyErr) : PyM Heap (Option Bytes) :=
  match e with
  | .invalidRequest => return (some [])
  | .missingKey => return (some [])
  | e => do
      callHook_ R "modbus.Databank.on_error" (.exc e pdu)
      let funcCode ← (if pdu.length > 0 then PyM.lift (unpackSingle Code.B (slice pdu 0 1)) else pure 1 : PyM Heap Int)
      let r ← PyM.lift (structPack (be [Code.B, Code.B]) [funcCode + 0x80, defines.SLAVE_DEVICE_FAILURE])
      return (some r)

/-- `Databank.handle_request(query, request)`, modbus.py:940-985. -/
def dbHandle (R : Registry) (mac : Mac) (db : Databank) (request : Bytes) : PyM Heap (Option Bytes) :=
  match mac.parseRequest request mac.new with
  | (.error e, _) => dbExcept R [] e
  | (.ok (slaveId, pdu), q) => PyM.tryExcept (dbBody R mac db q slaveId pdu) (dbExcept R pdu)

/-- `if retval: x = retval` -/
def replaceIfTruthy (retval : Option Bytes) (x : Option Bytes) : Option Bytes :=
  match retval with
  | some [] => x
  | some v => some v
  | none => x

/-- what a hook sees of a response that may be None -/
def msgArg : Option Bytes → HookArg
  | some b => .msg b
  | none => .noMsg

/-- `Server._handle`, modbus.py:1076-1096 (logging left out). -/
def serverHandle (R : Registry) (mac : Mac) (db : Databank) (request : Bytes) : PyM Heap (Option Bytes) := do
  let retval ← PyM.lift (callHooks R "modbus.Server.before_handle_request" (.msg request))
  let request := (replaceIfTruthy retval (some request)).getD []
  let response ← dbHandle R mac db request
  let retval ← PyM.lift (callHooks R "modbus.Server.after_handle_request" (msgArg response))
  return (replaceIfTruthy retval response)

end Modbus
