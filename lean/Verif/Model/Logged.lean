import Verif.Model.Verbose
import Verif.Model.Simulator
/-
# `Slave.handle_request`, `Databank.handle_request` and `Server._handle` with all their log lines (modbus.py:559-636, 731-774, 940-985, 1076-1096)

As in `Model/Verbose.lean` the state is the memory and the lines written, and the handler of the log may raise into the code that logs.  `txt e` is `str(excpt)`.
Simplification: the level of the logger is DEBUG, as `create_logger` sets it by default, so every line reaches the handler; hook functions do not act.
-/
namespace Modbus

/-- `Slave._read_registers`, modbus.py:559-580 -/
def lReadRegisters (lg : Logger) (sl : Slave) (bt : Int) (pdu : Bytes) : PyM (Heap × List Text) Bytes := do
  match ← PyM.lift (structUnpack (be [Code.H, Code.H]) (slice pdu 1 5)) with
  | [startingAddress, quantity] =>
    if quantity ≤ 0 ∨ quantity > 125 then do
      logLine lg ("quantity_of_x is ".toList ++ intText quantity)
      PyM.raise (.modbusError defines.ILLEGAL_DATA_VALUE)
    else do
      let (block, offset) ← unlogged (getBlockAndOffset sl bt startingAddress quantity)
      let values ← unlogged (getSlice block offset (offset + quantity))
      let header ← PyM.lift (structPack (be [Code.B]) [2 * quantity])
      PyM.lift (packRegsLoop (regCode sl) values header)
  | _ => PyM.raise .structError -- unreachable

/-- `Slave._read_holding_registers`, modbus.py:582-585 -/
def lReadHoldingRegisters (lg : Logger) (R : Registry) (sl : Slave) (pdu : Bytes) : PyM (Heap × List Text) Bytes := do
  unlogged (callHook_ R "modbus.Slave.handle_read_holding_registers_request" (.msg pdu))
  lReadRegisters lg sl defines.HOLDING_REGISTERS pdu

/-- `Slave._read_input_registers`, modbus.py:587-590 -/
def lReadInputRegisters (lg : Logger) (R : Registry) (sl : Slave) (pdu : Bytes) : PyM (Heap × List Text) Bytes := do
  unlogged (callHook_ R "modbus.Slave.handle_read_input_registers_request" (.msg pdu))
  lReadRegisters lg sl defines.ANALOG_INPUTS pdu

/-- `Slave._read_write_multiple_registers`, modbus.py:598-636 -/
def lReadWriteMultipleRegisters (lg : Logger) (R : Registry) (sl : Slave) (pdu : Bytes) : PyM (Heap × List Text) Bytes := do
  unlogged (callHook_ R "modbus.Slave.handle_read_write_multiple_registers_request" (.msg pdu))
  match ← PyM.lift (structUnpack (be [Code.H, Code.H, Code.H, Code.H, Code.B]) (slice pdu 1 10)) with
  | [readAddress, readQuantity, writeAddress, writeQuantity, writeByteCount] =>
    if readQuantity ≤ 0 ∨ readQuantity > 125 then do
      logLine lg ("quantity_of_x_to_read is ".toList ++ intText readQuantity)
      PyM.raise (.modbusError defines.ILLEGAL_DATA_VALUE)
    else do
      let (block, offset) ← unlogged (getBlockAndOffset sl defines.HOLDING_REGISTERS readAddress readQuantity)
      let values ← unlogged (getSlice block offset (offset + readQuantity))
      let header ← PyM.lift (structPack (be [Code.B]) [2 * readQuantity])
      let response ← PyM.lift (packRegsLoop (regCode sl) values header)
      if writeQuantity ≤ 0 ∨ writeQuantity > 123 ∨ writeByteCount ≠ writeQuantity * 2 then
        PyM.raise (.modbusError defines.ILLEGAL_DATA_VALUE)
      else do
        let (wblock, woffset) ← unlogged (getBlockAndOffset sl defines.HOLDING_REGISTERS writeAddress writeQuantity)
        let _ ← unlogged (writeRegsLoop R (regCode sl) wblock woffset pdu 10 writeQuantity.toNat 0 0)
        return response
  | _ => PyM.raise .structError -- unreachable

/-- `_fn_code_map`, modbus.py:488-500; the other handlers write no lines -/
def lFnCodeMap (lg : Logger) (R : Registry) (sl : Slave) (fc : Int) : Option (Bytes → PyM (Heap × List Text) Bytes) :=
  if fc = defines.READ_INPUT_REGISTERS then some (lReadInputRegisters lg R sl)
  else if fc = defines.READ_HOLDING_REGISTERS then some (lReadHoldingRegisters lg R sl)
  else if fc = defines.READ_WRITE_MULTIPLE_REGISTERS then some (lReadWriteMultipleRegisters lg R sl)
  else (fnCodeMap R sl fc).map fun f pdu => unlogged (f pdu)

/-- the line of modbus.py:765, with its arguments inserted -/
def broadcastLine (responsePdu : Bytes) : Text := "broadcast: ".toList ++ getLogBuffer "!!".toList responsePdu

/-- the part of the `try` block after the function code is known, modbus.py:746-769 -/
def lDispatch (lg : Logger) (R : Registry) (sl : Slave) (fc : Int) (pdu : Bytes) (broadcast : Bool) : PyM (Heap × List Text) Bytes :=
  match lFnCodeMap lg R sl fc with
  | none => PyM.raise (.modbusError defines.ILLEGAL_FUNCTION)
  | some f =>
    if broadcast ∧ cantBeBroadcasted fc then PyM.raise .invalidRequest
    else do
      let responsePdu ← f pdu
      if responsePdu ≠ [] then
        if broadcast then do
          unlogged (callHook_ R "modbus.Slave.on_handle_broadcast" (.msg responsePdu))
          logLine lg (broadcastLine responsePdu)
          return []
        else do
          let hd ← PyM.lift (structPack (be [Code.B]) [fc])
          return hd ++ responsePdu
      else PyM.raise .generic

/-- `Slave.handle_request`, modbus.py:731-774; see `handleRequest` -/
def lHandleRequest (lg : Logger) (txt : PyErr → Text) (R : Registry) (sl : Slave) (pdu : Bytes) (broadcast : Bool) : PyM (Heap × List Text) Bytes :=
  match callHooks R "modbus.Slave.handle_request" (.msg pdu) with
  | .error (.modbusError code) => do
      logLine lg (txt (.modbusError code))
      PyM.raise .unboundLocal
  | .error e => PyM.raise e
  | .ok (some retval) => return retval
  | .ok none => do
    let fc ← PyM.lift (unpackSingle Code.B (slice pdu 0 1))
    PyM.tryExcept (lDispatch lg R sl fc pdu broadcast) (fun e =>
      match e with
      | .modbusError code => do
          logLine lg (txt (.modbusError code))
          unlogged (callHook_ R "modbus.Slave.on_exception" (.exc (.modbusError code) pdu))
          PyM.lift (structPack (be [Code.B, Code.B]) [fc + 128, code])
      | e => PyM.raise e)

/-- the broadcast loop, modbus.py:952-953 -/
def lBroadcastLoop (lg : Logger) (txt : PyErr → Text) (R : Registry) (pdu : Bytes) : List (Int × Slave) → PyM (Heap × List Text) Unit
  | [] => return ()
  | (_, sl) :: rest => do
      let _ ← lHandleRequest lg txt R sl pdu true
      lBroadcastLoop lg txt R pdu rest

/-- modbus.py:950-967; see `dbBody` -/
def lDbBody (lg : Logger) (txt : PyErr → Text) (R : Registry) (mac : Mac) (db : Databank) (q : mac.Q) (slaveId : Int) (pdu : Bytes) :
    PyM (Heap × List Text) (Option Bytes) :=
  if slaveId = 0 then do
    lBroadcastLoop lg txt R pdu db.slaves
    return none
  else
    match Dict.get? db.slaves slaveId with
    | none => if db.errorOnMissingSlave then PyM.raise .missingKey else return (some [])
    | some sl => do
        let responsePdu ← lHandleRequest lg txt R sl pdu false
        let response ← PyM.lift (mac.buildResponse responsePdu q).1
        return (some response)

/-- the exception handlers of `Databank.handle_request`, modbus.py:968-985; see `dbExcept` -/
def lDbExcept (lg : Logger) (txt : PyErr → Text) (R : Registry) (pdu : Bytes) (e : PyErr) : PyM (Heap × List Text) (Option Bytes) :=
  match e with
  | .invalidRequest => do
      logLine lg ("invalid request: ".toList ++ txt .invalidRequest)
      return (some [])
  | .missingKey => do
      logLine lg ("handle request failed: ".toList ++ txt .missingKey)
      return (some [])
  | e => do
      unlogged (callHook_ R "modbus.Databank.on_error" (.exc e pdu))
      logLine lg ("handle request failed: ".toList ++ txt e)
      let funcCode ← (if pdu.length > 0 then PyM.lift (unpackSingle Code.B (slice pdu 0 1)) else pure 1 : PyM (Heap × List Text) Int)
      let r ← PyM.lift (structPack (be [Code.B, Code.B]) [funcCode + 0x80, defines.SLAVE_DEVICE_FAILURE])
      return (some r)

/-- `Databank.handle_request(query, request)`, modbus.py:940-985; see `dbHandle` -/
def lDbHandle (lg : Logger) (txt : PyErr → Text) (R : Registry) (mac : Mac) (db : Databank) (request : Bytes) : PyM (Heap × List Text) (Option Bytes) :=
  match mac.parseRequest request mac.new with
  | (.error e, _) => lDbExcept lg txt R [] e
  | (.ok (slaveId, pdu), q) => PyM.tryExcept (lDbBody lg txt R mac db q slaveId pdu) (lDbExcept lg txt R pdu)

/-- `Server._handle`, modbus.py:1076-1096; see `serverHandleV` -/
def lServerHandle (verbose : Bool) (lg : Logger) (txt : PyErr → Text) (R : Registry) (mac : Mac) (db : Databank) (request : Bytes) : PyM (Heap × List Text) (Option Bytes) := do
  if verbose then logLine lg (getLogBuffer "-->".toList request) else pure ()
  let retval ← PyM.lift (callHooks R "modbus.Server.before_handle_request" (.msg request))
  let request := (replaceIfTruthy retval (some request)).getD []
  let response ← lDbHandle lg txt R mac db request
  let retval ← PyM.lift (callHooks R "modbus.Server.after_handle_request" (msgArg response))
  let response := replaceIfTruthy retval response
  match response with
  | some (b :: bs) => if verbose then logLine lg (getLogBuffer "<--".toList (b :: bs)) else pure ()
  | _ => pure ()
  return response

end Modbus
