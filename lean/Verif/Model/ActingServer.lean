import Verif.Model.ActingHooks
import Verif.Model.Databank
/-
# `Databank.handle_request` and `Server._handle` with hook functions that act

As in `Model/ActingHooks.lean`, hook functions may change the memory of the slaves and the program; here also the databank (they may add and remove slaves).  The state is the heap, the databank and `ω`, everything
else of the program; the functions called by the slaves (`eHandleRequest`) get the same state.

Simplification: slave objects are values with references into the heap, as in `Model/Databank.lean`.
-/
namespace Modbus

variable {ω : Type}

/-- the heap, the databank, the program -/
abbrev ASt (ω : Type) := Heap × (Databank × ω)

/-- `call_hooks(name, args)` without use of the answer -/
def aCall_ (R : ERegistry (Databank × ω)) (name : String) (a : HookArg) : PyM (ASt ω) Unit := do
  let _ ← eCallHooks R name { data := a }

/-- the broadcast loop, modbus.py:952-953: the slaves are looked up one by one.  `keys0` are the keys at the beginning: when the dictionary has another size, the iterator raises RuntimeError at its next step (also at
    the last one).  Simplification: so it does here when functions replaced slaves by as many others. -/
def aBroadcast (R : ERegistry (Databank × ω)) (pdu : Bytes) (keys0 : List Int) : List Int → PyM (ASt ω) Unit
  | [] => return ()
  | k :: ks => fun s =>
    match Dict.get? s.2.1.slaves k with
    | none => (.error .keyError, s)
    | some sl =>
      match eHandleRequest R sl pdu true s with
      | (.error e, s') => (.error e, s')
      | (.ok _, s') => if s'.2.1.slaves.map Prod.fst = keys0 then aBroadcast R pdu keys0 ks s' else (.error .generic, s')

/-- modbus.py:950-967 -/
def aBody (R : ERegistry (Databank × ω)) (mac : Mac) (q : mac.Q) (slaveId : Int) (pdu : Bytes) : PyM (ASt ω) (Option Bytes) := fun s =>
  if slaveId = 0 then (do
    aBroadcast R pdu (s.2.1.slaves.map Prod.fst) (s.2.1.slaves.map Prod.fst)
    return none : PyM (ASt ω) (Option Bytes)) s
  else
    match Dict.get? s.2.1.slaves slaveId with
    | none => if s.2.1.errorOnMissingSlave then (.error .missingKey, s) else (.ok (some []), s)
    | some sl => (do
        let responsePdu ← eHandleRequest R sl pdu false
        let response ← PyM.lift (mac.buildResponse responsePdu q).1
        return (some response) : PyM (ASt ω) (Option Bytes)) s

/-- modbus.py:968-985 -/
def aExcept (R : ERegistry (Databank × ω)) (pdu : Bytes) (e : PyErr) : PyM (ASt ω) (Option Bytes) :=
  match e with
  | .invalidRequest => return (some [])
  | .missingKey => return (some [])
  | e => do
      aCall_ R "modbus.Databank.on_error" (.exc e pdu)
      let funcCode ← (if pdu.length > 0 then PyM.lift (unpackSingle Code.B (slice pdu 0 1)) else pure 1 : PyM (ASt ω) Int)
      let r ← PyM.lift (structPack (be [Code.B, Code.B]) [funcCode + 0x80, defines.SLAVE_DEVICE_FAILURE])
      return (some r)

/-- `Databank.handle_request(query, request)`, modbus.py:940-985 -/
def aDbHandle (R : ERegistry (Databank × ω)) (mac : Mac) (request : Bytes) : PyM (ASt ω) (Option Bytes) :=
  match mac.parseRequest request mac.new with
  | (.error e, _) => aExcept R [] e
  | (.ok (slaveId, pdu), q) => PyM.tryExcept (aBody R mac q slaveId pdu) (aExcept R pdu)

/-- `Server._handle`, modbus.py:1076-1096 (logging left out) -/
def aServerHandle (R : ERegistry (Databank × ω)) (mac : Mac) (request : Bytes) : PyM (ASt ω) (Option Bytes) := do
  let retval ← eCallHooks R "modbus.Server.before_handle_request" { data := .msg request }
  let request := (replaceIfTruthy retval (some request)).getD []
  let response ← aDbHandle R mac request
  let retval ← eCallHooks R "modbus.Server.after_handle_request" { data := msgArg response }
  return (replaceIfTruthy retval response)

end Modbus
