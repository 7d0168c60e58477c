import Verif.Model.Rtu
/-
# `RtuMaster` and `RtuServer` with a clock

The same lines as `Model/Rtu.lean` (modbus_rtu.py:85-314), with the time-outs of the serial port and the time that passes.  Time is counted in ticks of any
length.  Only waiting for bytes, transmitting (`flush` returns when the last byte is out) and `time.sleep` take time.  The device works: no operation on
an open port fails (for failures see `Model/Rtu.lean`).
-/
namespace Modbus

/-! ## Serial ports with a clock (pyserial and operating system, trusted) -/

/-- a `serial.Serial` object -/
structure CPort where
  isOpen : Bool := true
  now : Nat := 0
  /-- the bytes that arrive, in this order, with the time of arrival; those of which the time has come wait in the input buffer -/
  future : List (Nat × UInt8) := []
  /-- `timeout`; None: wait for ever -/
  timeout : Option Nat := some 1
  /-- `inter_byte_timeout`; None: not used -/
  interByte : Option Nat := none
  /-- the time a byte takes to be transmitted -/
  charTime : Nat := 1
  /-- results of the next calls of `open()`: true - success (also when exhausted) -/
  opens : List Bool := []
  /-- what was written, and when -/
  written : List (Nat × Bytes) := []
  deriving DecidableEq, Repr

/-- when waiting for a byte ends: the time-out (counted from the call of `read`), and once a byte was read the inter-byte time-out -/
def readLimit (dead gap : Option Nat) (got : Bool) (now : Nat) : Option Nat :=
  match dead, (if got then gap.map (now + ·) else none) with
  | none, none => none
  | some d, none => some d
  | none, some g => some g
  | some d, some g => some (min d g)

/-- Waiting for `n` more bytes: the bytes read, the time, what is still to come; none: for ever.  `dead`: the time-out, `gap`: the inter-byte time-out;
    `got`: a byte was read.  A byte that is there is always taken. -/
def collect (dead gap : Option Nat) : (n : Nat) → (got : Bool) → (now : Nat) → List (Nat × UInt8) → Option (Bytes × Nat × List (Nat × UInt8))
  | 0, _, now, ev => some ([], now, ev)
  | _+1, got, now, [] =>
    match readLimit dead gap got now with
    | none => none
    | some l => some ([], max now l, [])
  | n+1, got, now, (T, b) :: ev =>
    match readLimit dead gap got now with
    | none => (collect dead gap n true (max now T) ev).map fun r => (b :: r.1, r.2)
    | some l =>
      if T ≤ now ∨ T < l then (collect dead gap n true (max now T) ev).map fun r => (b :: r.1, r.2)
      else some ([], max now l, (T, b) :: ev)

/-- what `read(n)` gives; none: it waits for ever -/
def CPort.fetch (n : Nat) (s : CPort) : Option (Bytes × CPort) :=
  (collect (s.timeout.map (s.now + ·)) s.interByte n false s.now s.future).map fun r => (r.1, { s with now := r.2.1, future := r.2.2 })

/-- `serial.read(n)` -/
def cPortRead (n : Nat) : PyM CPort Bytes := fun s =>
  if ¬ s.isOpen then (.error .osError, s)
  else match s.fetch n with
  | none => (.error .nonTermination, s)
  | some r => (.ok r.1, r.2)

/-- the bytes that have not arrived yet -/
def toCome (now : Nat) (ev : List (Nat × UInt8)) : List (Nat × UInt8) := ev.dropWhile fun e => e.1 ≤ now

/-- `serial.reset_input_buffer()` -/
def cPortReset : PyM CPort Unit := fun s =>
  if ¬ s.isOpen then (.error .osError, s) else (.ok (), { s with future := toCome s.now s.future })

/-- `serial.in_waiting` -/
def cPortInWaiting : PyM CPort Nat := fun s =>
  if ¬ s.isOpen then (.error .osError, s) else (.ok (s.future.length - (toCome s.now s.future).length), s)

/-- `serial.reset_output_buffer()` -/
def cPortCheck : PyM CPort Unit := fun s => if ¬ s.isOpen then (.error .osError, s) else (.ok (), s)

/-- `serial.write(data)` then `serial.flush()` -/
def cPortWrite (data : Bytes) : PyM CPort Unit := fun s =>
  if ¬ s.isOpen then (.error .osError, s)
  else (.ok (), { s with written := s.written ++ [(s.now, data)], now := s.now + s.charTime * data.length })

/-- `serial.open()` on a closed port -/
def cPortOpen : PyM CPort Unit := fun s =>
  if s.isOpen then (.error .osError, s)
  else match s.opens with
  | false :: rest => (.error .osError, { s with opens := rest })
  | rest => (.ok (), { s with isOpen := true, opens := rest.tail })

/-- `serial.close()` -/
def cPortClose : PyM CPort Unit := fun s => (.ok (), { s with isOpen := false })

/-! ## The master -/

/-- an `RtuMaster`: `self._timeout`, `self.use_sw_timeout`, `self.handle_local_echo`, `self._serial` -/
structure CRtu where
  timeout : Option Int
  useSwTimeout : Bool := false
  handleLocalEcho : Bool := false
  port : CPort
  deriving DecidableEq, Repr

def CRtu.onPort {α} (f : PyM CPort α) : PyM CRtu α := fun s => let r := f s.port; (r.1, { s with port := r.2 })

/-- `RtuMaster.set_timeout`, modbus_rtu.py:119-124, with `Master.set_timeout`, modbus.py:419-421.  The setter of `serial.timeout` raises ValueError for a
    negative number. -/
def crSetTimeout (v : Option Int) (useSw : Bool) : PyM CRtu Unit := fun s0 =>
  let s := { s0 with timeout := v }
  match v with
  | none => (.ok (), { s with port := { s.port with timeout := none }, useSwTimeout := useSw })
  | some x =>
    if x < 0 then (.error .valueError, s)
    else (.ok (), { s with port := { s.port with timeout := some x.toNat }, useSwTimeout := useSw })

/-- `RtuMaster(serial, ...)`, modbus_rtu.py:88-104; `interChar`, `interFrame`: `interchar_multiplier * t0`, `interframe_multiplier * t0` -/
def crNew (port : CPort) (interChar interFrame : Nat) : CRtu :=
  (crSetTimeout (some interFrame) false
    { timeout := port.timeout.map Int.ofNat, useSwTimeout := false, port := { port with interByte := some interChar } }).2

/-- `RtuMaster._do_open`, modbus_rtu.py:106-110 -/
def crDoOpen (R : Registry) : PyM CRtu Unit := fun s =>
  if s.port.isOpen then (.ok (), s)
  else (do
    let _ ← PyM.lift (callHooks R "modbus_rtu.RtuMaster.before_open" .obj)
    CRtu.onPort cPortOpen) s

/-- `RtuMaster._do_close`, modbus_rtu.py:112-117 -/
def crDoClose (R : Registry) : PyM CRtu Bool := fun s =>
  if s.port.isOpen then (do
    CRtu.onPort cPortClose
    let _ ← PyM.lift (callHooks R "modbus_rtu.RtuMaster.after_close" .obj)
    return true) s
  else (.ok false, s)

/-- the local echo, modbus_rtu.py:138-140 -/
def crEcho (n : Nat) : PyM CRtu Unit := fun s =>
  if s.handleLocalEcho then (do
    let _ ← CRtu.onPort (cPortRead n)
    return ()) s
  else (.ok (), s)

/-- `RtuMaster._send`, modbus_rtu.py:126-140 -/
def crSend (R : Registry) (request : Bytes) : PyM CRtu Unit := do
  let retval ← PyM.lift (callHooks R "modbus_rtu.RtuMaster.before_send" (.msg request))
  CRtu.onPort cPortReset
  CRtu.onPort cPortCheck
  CRtu.onPort (cPortWrite (retval.getD request))
  crEcho (retval.getD request).length

/-- the loop of `RtuMaster._recv`, modbus_rtu.py:147-166; `start`: `start_time`, `sw`: `self.use_sw_timeout`.  Every round but the last consumes a byte. -/
def crRecvLoop (sw : Bool) (start : Nat) (expectedLength : Int) : (fuel : Nat) → (response : Bytes) → (readedLen : Int) → PyM CPort Bytes
  | 0, _, _ => PyM.raise .nonTermination
  | fuel+1, response, readedLen => do
    let s ← PyM.get
    let readBytes ← cPortRead (rtuAsk s.timeout expectedLength readedLen)
    let s' ← PyM.get
    if readBytes = [] then return response
    else match s.timeout with
    | none => PyM.raise .typeError
    | some t =>
      if (if sw then s'.now - start else 0) > t then return response
      else if expectedLength ≥ 0 ∧ ((response ++ readBytes).length : Int) ≥ expectedLength then return (response ++ readBytes)
      else crRecvLoop sw start expectedLength fuel (response ++ readBytes) (readedLen + readBytes.length)

/-- `RtuMaster._recv`, modbus_rtu.py:142-170 -/
def crRecv (R : Registry) (expectedLength : Int) : PyM CRtu Bytes := do
  let s ← PyM.get
  let response ← CRtu.onPort (crRecvLoop s.useSwTimeout s.port.now expectedLength (s.port.future.length + 1) [] 0)
  let retval ← PyM.lift (callHooks R "modbus_rtu.RtuMaster.after_recv" (.msg response))
  return (retval.getD response)

/-- an `RtuMaster` as a MAC layer -/
def clockedRtu (R : Registry) : Chan CRtu := { doOpen := crDoOpen R, doClose := crDoClose R, send := crSend R, recv := crRecv R }

/-- something done with a master; `wait`: the user does something else -/
inductive RtuOp where
  | open
  | close
  | exec (a : ExecArgs)
  | setTimeout (v : Option Int) (useSw : Bool)
  | localEcho (v : Bool)
  | wait (d : Nat)

/-- a history of a master; exceptions are caught by the user -/
def runRtuOps (R : Registry) : List RtuOp → MasterSt CRtu → MasterSt CRtu
  | [], s => s
  | .open :: ops, s => runRtuOps R ops (masterOpen (clockedRtu R) s).2
  | .close :: ops, s => runRtuOps R ops (masterClose (clockedRtu R) s).2
  | .exec a :: ops, s => runRtuOps R ops (execute R rtuMac (clockedRtu R) a s).2
  | .setTimeout v sw :: ops, s => runRtuOps R ops { s with link := (crSetTimeout v sw s.link).2 }
  | .localEcho v :: ops, s => runRtuOps R ops { s with link := { s.link with handleLocalEcho := v } }
  | .wait d :: ops, s => runRtuOps R ops { s with link := { s.link with port := { s.link.port with now := s.link.port.now + d } } }

/-! ## The server -/

/-- a running `RtuServer`; `log`: for observation only - the requests given to `Server._handle`, with the time -/
structure CRtuSrv where
  heap : Heap
  port : CPort
  /-- `self._timeout` -/
  timeout : Nat
  /-- `self._block_on_first_byte` -/
  block : Bool
  log : List (Nat × Bytes) := []

def CRtuSrv.onPort {α} (f : PyM CPort α) : PyM CRtuSrv α := fun s => let r := f s.port; (r.1, { s with port := r.2 })
def CRtuSrv.onHeap {α} (f : PyM Heap α) : PyM CRtuSrv α := fun s => let r := f s.heap; (r.1, { s with heap := r.2 })

/-- the first byte, modbus_rtu.py:265-273.  When nothing arrives any more the blocking read ends only by `cancel_read()`, and then returns nothing. -/
def crFirst (timeout : Nat) : PyM CPort Bytes := fun s =>
  let s0 := { s with timeout := none }
  if s0.isOpen then
    let r := (s0.fetch 1).getD ([], s0)
    (.ok r.1, { r.2 with timeout := some timeout })
  else (do cPortClose; cPortOpen; PyM.modify fun s => { s with timeout := some timeout }; return []) s0 -- `read` raises

/-- the rest of the request, modbus_rtu.py:275-285 -/
def crRest : (fuel : Nat) → (request : Bytes) → PyM CPort Bytes
  | 0, _ => PyM.raise .nonTermination
  | fuel+1, request => do
    let readBytes ← PyM.tryExcept (cPortRead 128) (fun _ => do cPortClose; cPortOpen; return [])
    if readBytes = [] then return request else crRest fuel (request ++ readBytes)

/-- writing the response, modbus_rtu.py:299-307; `time.sleep(self.get_timeout())` is line 307 -/
def crReply (response : Bytes) : PyM CRtuSrv Unit := do
  let waiting ← CRtuSrv.onPort cPortInWaiting
  if waiting > 0 then return ()
  else do
    CRtuSrv.onPort (cPortWrite response)
    PyM.modify fun s => { s with port := { s.port with now := s.port.now + s.timeout } }

/-- handling a request, modbus_rtu.py:287-310 -/
def crAnswer (R : Registry) (db : Databank) (request : Bytes) : PyM CRtuSrv Unit := do
  let retval ← PyM.lift (callHooks R "modbus_rtu.RtuServer.after_read" (.msg request))
  PyM.modify fun s => { s with log := s.log ++ [(s.port.now, retval.getD request)] }
  let response ← CRtuSrv.onHeap (serverHandle R rtuMac db (retval.getD request))
  let retval ← PyM.lift (callHooks R "modbus_rtu.RtuServer.before_write" (msgArg response))
  let response := if retval.isSome then retval else response
  match response with
  | none => pure ()
  | some [] => pure ()
  | some r => crReply r
  let _ ← PyM.lift (callHooks R "modbus_rtu.RtuServer.after_write" (msgArg response))
  return ()

/-- the beginning of a request, modbus_rtu.py:262-273 -/
def crStart : PyM CRtuSrv Bytes := fun s =>
  if s.block then CRtuSrv.onPort (crFirst s.timeout) s else (.ok [], s)

/-- the body of the `try` statement of `_do_run`, modbus_rtu.py:261-310 -/
def crBody (R : Registry) (db : Databank) : PyM CRtuSrv Unit := do
  let request ← crStart
  let s ← PyM.get
  let request ← CRtuSrv.onPort (crRest (s.port.future.length + 1) request)
  if request = [] then return () else crAnswer R db request

/-- `RtuServer._do_run`, modbus_rtu.py:259-314 -/
def crRun (R : Registry) (db : Databank) : PyM CRtuSrv Unit :=
  PyM.tryExcept (crBody R db) (fun e => do
    let _ ← PyM.lift (callHooks R "modbus_rtu.RtuServer.on_error" (.exc e []))
    return ())

/-- repeated calls of `_do_run`, modbus.py:1066-1067, until one raises -/
def crRuns (R : Registry) (db : Databank) : Nat → PyM CRtuSrv Unit
  | 0 => return ()
  | n+1 => do
    crRun R db
    crRuns R db n

end Modbus
