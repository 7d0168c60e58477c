import Verif.Model.Serial
import Verif.Model.Master
import Verif.Model.Databank
/-
# Model of `RtuMaster` (modbus_rtu.py:85-174) and `RtuServer` (modbus_rtu.py:177-314)
-/
namespace Modbus

/-! ## The master -/

/-- the attributes of an `RtuMaster` that matter -/
structure RtuCfg where
  /-- `self.use_sw_timeout`, modbus_rtu.py:89 -/
  useSwTimeout : Bool := false
  /-- `self.handle_local_echo`, modbus_rtu.py:104 -/
  handleLocalEcho : Bool := false

/-- `RtuMaster._do_open`, modbus_rtu.py:106-110. -/
def rtuDoOpen (R : Registry) : PyM Port Unit := fun s =>
  if s.isOpen then (.ok (), s)
  else (do
    let _ ← PyM.lift (callHooks R "modbus_rtu.RtuMaster.before_open" .obj)
    portOpen) s

/-- `RtuMaster._do_close`, modbus_rtu.py:112-117; the result None is false. -/
def rtuDoClose (R : Registry) : PyM Port Bool := fun s =>
  if s.isOpen then (do
    portClose
    let _ ← PyM.lift (callHooks R "modbus_rtu.RtuMaster.after_close" .obj)
    return true) s
  else (.ok false, s)

/-- `RtuMaster._send`, modbus_rtu.py:126-140. -/
def rtuSend (R : Registry) (cfg : RtuCfg) (request : Bytes) : PyM Port Unit := do
  let retval ← PyM.lift (callHooks R "modbus_rtu.RtuMaster.before_send" (.msg request))
  let request := retval.getD request
  portResetInput
  portCheck
  portWrite request
  portCheck
  if cfg.handleLocalEcho then do
    let _ ← portRead request.length
    return ()
  else return ()

/-- the number of bytes asked for, modbus_rtu.py:148-153 -/
def rtuAsk (timeout : Option Nat) (expectedLength readedLen : Int) : Nat :=
  if timeout ≠ none ∧ timeout ≠ some 0 then
    (if expectedLength - readedLen > 0 then expectedLength - readedLen else 1).toNat
  else (if expectedLength > 0 then expectedLength else 1).toNat

/-- `read_duration`, modbus_rtu.py:154-157 -/
def rtuDuration (cfg : RtuCfg) : PyM Port Nat := if cfg.useSwTimeout then portDuration else pure 0

/-- the loop of `RtuMaster._recv`, modbus_rtu.py:147-166.  `read_duration > None` raises TypeError.
    Every round but the last consumes at least one byte, so as many rounds as there are bytes, plus one, are enough
    (proved: `rtuRecv_sound`). -/
def rtuRecvLoop (cfg : RtuCfg) (expectedLength : Int) : (fuel : Nat) → (response : Bytes) → (readedLen : Int) → PyM Port Bytes
  | 0, _, _ => PyM.raise .nonTermination
  | fuel+1, response, readedLen => do
    let s ← PyM.get
    let readBytes ← portRead (rtuAsk s.timeout expectedLength readedLen)
    let readDuration ← rtuDuration cfg
    if readBytes = [] then return response
    else match s.timeout with
    | none => PyM.raise .typeError
    | some t =>
      if readDuration > t then return response
      else if expectedLength ≥ 0 ∧ ((response ++ readBytes).length : Int) ≥ expectedLength then return (response ++ readBytes)
      else rtuRecvLoop cfg expectedLength fuel (response ++ readBytes) (readedLen + readBytes.length)

/-- all the bytes a port has or will deliver -/
def Port.total (s : Port) : Nat :=
  s.buf.length + (s.future.map fun | .chunk bs => bs.length | _ => 0).sum

/-- `RtuMaster._recv`, modbus_rtu.py:142-170. -/
def rtuRecv (R : Registry) (cfg : RtuCfg) (expectedLength : Int) : PyM Port Bytes := do
  let s ← PyM.get
  let response ← rtuRecvLoop cfg expectedLength (s.total + 1) [] 0
  let retval ← PyM.lift (callHooks R "modbus_rtu.RtuMaster.after_recv" (.msg response))
  return (retval.getD response)

/-- an `RtuMaster` as a MAC layer -/
def rtuChan (R : Registry) (cfg : RtuCfg) : Chan Port :=
  { doOpen := rtuDoOpen R, doClose := rtuDoClose R, send := rtuSend R cfg, recv := rtuRecv R cfg }

/-! ## The server -/

/-- An `RtuServer` with its port and the memories of its slaves; modbus_rtu.py:177-202. -/
structure RtuSrv where
  heap : Heap
  port : Port
  /-- `self._timeout` -/
  timeout : Nat
  /-- `self._block_on_first_byte` -/
  block : Bool

def RtuSrv.onPort {α} (f : PyM Port α) : PyM RtuSrv α := fun s => let r := f s.port; (r.1, { s with port := r.2 })
def RtuSrv.onHeap {α} (f : PyM Heap α) : PyM RtuSrv α := fun s => let r := f s.heap; (r.1, { s with heap := r.2 })

/-- `self._serial.timeout = ...` -/
def portSetTimeout (t : Option Nat) : PyM Port Unit := PyM.modify fun s => { s with timeout := t }

/-- the first byte, modbus_rtu.py:265-273: the bytes read -/
def rtuFirst (timeout : Nat) : PyM Port Bytes := do
  portSetTimeout none
  let request ← PyM.tryExcept (portRead 1) (fun _ => do portClose; portOpen; return [])
  portSetTimeout (some timeout)
  return request

/-- the rest of the request, modbus_rtu.py:275-285.  Every round but the last consumes at least one byte. -/
def rtuRest : (fuel : Nat) → (request : Bytes) → PyM Port Bytes
  | 0, _ => PyM.raise .nonTermination
  | fuel+1, request => do
    let readBytes ← PyM.tryExcept (portRead 128) (fun _ => do portClose; portOpen; return [])
    if readBytes = [] then return request else rtuRest fuel (request ++ readBytes)

/-- handling a request and writing the response, modbus_rtu.py:287-310 (`time.sleep` left out) -/
def rtuAnswer (R : Registry) (db : Databank) (request : Bytes) : PyM RtuSrv Unit := do
  let retval ← PyM.lift (callHooks R "modbus_rtu.RtuServer.after_read" (.msg request))
  let response ← RtuSrv.onHeap (serverHandle R rtuMac db (retval.getD request))
  let retval ← PyM.lift (callHooks R "modbus_rtu.RtuServer.before_write" (msgArg response))
  let response := if retval.isSome then retval else response
  match response with
  | none => pure ()
  | some [] => pure ()
  | some r => do
    let waiting ← RtuSrv.onPort portInWaiting
    if waiting > 0 then pure ()
    else do
      RtuSrv.onPort (portWrite r)
      RtuSrv.onPort portCheck
  let _ ← PyM.lift (callHooks R "modbus_rtu.RtuServer.after_write" (msgArg response))
  return ()

/-- the beginning of a request, modbus_rtu.py:262-273 -/
def rtuStart : PyM RtuSrv Bytes := fun s =>
  if s.block then RtuSrv.onPort (rtuFirst s.timeout) s else (.ok [], s)

/-- the body of the `try` statement of `_do_run`, modbus_rtu.py:261-310 -/
def rtuBody (R : Registry) (db : Databank) : PyM RtuSrv Unit := do
  let request ← rtuStart
  let s ← PyM.get
  let request ← RtuSrv.onPort (rtuRest (s.port.total + 1) request)
  if request = [] then return () else rtuAnswer R db request

/-- `RtuServer._do_run`, modbus_rtu.py:259-314. -/
def rtuRun (R : Registry) (db : Databank) : PyM RtuSrv Unit :=
  PyM.tryExcept (rtuBody R db) (fun e => do
    let _ ← PyM.lift (callHooks R "modbus_rtu.RtuServer.on_error" (.exc e []))
    return ())

/-- repeated calls of `_do_run`, modbus.py:1066-1067, until one raises -/
def rtuRuns (R : Registry) (db : Databank) : Nat → PyM RtuSrv Unit
  | 0 => return ()
  | n+1 => do
    rtuRun R db
    rtuRuns R db n

/-- `RtuServer._do_init`, modbus_rtu.py:248-253. -/
def rtuInit (R : Registry) : PyM RtuSrv Unit := fun s =>
  if s.port.isOpen then (.ok (), s)
  else (do
    let _ ← PyM.lift (callHooks R "modbus_rtu.RtuServer.before_open" .obj)
    RtuSrv.onPort portOpen
    let _ ← PyM.lift (callHooks R "modbus_rtu.RtuServer.after_open" .obj)
    return ()) s

/-- `RtuServer.close` and `_do_exit`, modbus_rtu.py:204-209, 255-257. -/
def rtuExit (R : Registry) : PyM RtuSrv Unit := fun s =>
  if s.port.isOpen then (do
    let _ ← PyM.lift (callHooks R "modbus_rtu.RtuServer.before_close" .obj)
    RtuSrv.onPort portClose
    let _ ← PyM.lift (callHooks R "modbus_rtu.RtuServer.after_close" .obj)
    return ()) s
  else (.ok (), s)

end Modbus
