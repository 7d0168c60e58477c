import Verif.Model.Logged
import Verif.Model.Rtu
/-
# `RtuServer` and `Server._run_server` with their log lines (modbus_rtu.py:248-314, modbus.py:1062-1074)

As in `Model/Logged.lean` the handler of the log may raise into the code that logs.
-/
namespace Modbus

/-- the log of a server: its handler, `str(excpt)`, and `set_verbose` -/
structure RtuLog where
  lg : Logger
  txt : PyErr → Text
  verbose : Bool

/-- the line of modbus_rtu.py:304 -/
def pendingLine : Text := "Not sending response because there is new request pending".toList
/-- the line of modbus_rtu.py:313 -/
def RtuLog.failed (L : RtuLog) (e : PyErr) : Text := "Error while handling request, Exception occurred: ".toList ++ L.txt e
/-- the lines of `_run_server`, modbus.py:1068, 1071 -/
def rtuStopped : Text := "<class 'modbus_tk.modbus_rtu.RtuServer'> has stopped".toList
def RtuLog.ended (L : RtuLog) (e : PyErr) : Text := "server error: ".toList ++ L.txt e

/-- a step on the memory that logs -/
def rOnHeap {α} (f : PyM (Heap × List Text) α) : PyM (RtuSrv × List Text) α := fun s =>
  let r := f (s.1.heap, s.2)
  (r.1, ({ s.1 with heap := r.2.1 }, r.2.2))

/-- handling a request and writing the response, modbus_rtu.py:287-310; see `rtuAnswer` -/
def lRtuAnswer (L : RtuLog) (R : Registry) (db : Databank) (request : Bytes) : PyM (RtuSrv × List Text) Unit := do
  let retval ← PyM.lift (callHooks R "modbus_rtu.RtuServer.after_read" (.msg request))
  let response ← rOnHeap (lServerHandle L.verbose L.lg L.txt R rtuMac db (retval.getD request))
  let retval ← PyM.lift (callHooks R "modbus_rtu.RtuServer.before_write" (msgArg response))
  let response := if retval.isSome then retval else response
  match response with
  | none => pure ()
  | some [] => pure ()
  | some r => do
    let waiting ← unlogged (RtuSrv.onPort portInWaiting)
    if waiting > 0 then logLine L.lg pendingLine
    else do
      unlogged (RtuSrv.onPort (portWrite r))
      unlogged (RtuSrv.onPort portCheck)
  let _ ← PyM.lift (callHooks R "modbus_rtu.RtuServer.after_write" (msgArg response))
  return ()

/-- the body of the `try` statement of `_do_run`, modbus_rtu.py:261-310; see `rtuBody` -/
def lRtuBody (L : RtuLog) (R : Registry) (db : Databank) : PyM (RtuSrv × List Text) Unit := do
  let request ← unlogged rtuStart
  let s ← PyM.get
  let request ← unlogged (RtuSrv.onPort (rtuRest (s.1.port.total + 1) request))
  if request = [] then return () else lRtuAnswer L R db request

/-- `RtuServer._do_run`, modbus_rtu.py:259-314; see `rtuRun` -/
def lRtuRun (L : RtuLog) (R : Registry) (db : Databank) : PyM (RtuSrv × List Text) Unit :=
  PyM.tryExcept (lRtuBody L R db) (fun e => do
    logLine L.lg (L.failed e)
    let _ ← PyM.lift (callHooks R "modbus_rtu.RtuServer.on_error" (.exc e []))
    return ())

/-- repeated calls of `_do_run`, modbus.py:1066-1067; see `rtuRuns` -/
def lRtuRuns (L : RtuLog) (R : Registry) (db : Databank) : Nat → PyM (RtuSrv × List Text) Unit
  | 0 => return ()
  | n+1 => do
    lRtuRun L R db
    lRtuRuns L R db n

/-- `Server._run_server` of an `RtuServer` that is stopped after `n` rounds, modbus.py:1062-1074; the result is ok exactly if `_make_thread` is reached -/
def lRunRtu (L : RtuLog) (R : Registry) (db : Databank) (n : Nat) : PyM (RtuSrv × List Text) Unit :=
  PyM.tryExcept (do
      unlogged (rtuInit R)
      lRtuRuns L R db n
      logLine L.lg rtuStopped
      unlogged (rtuExit R))
    (fun e => do
      logLine L.lg (L.ended e)
      let _ ← PyM.lift (callHooks R "modbus.Server.on_exception" (.exc e []))
      return ())

/-- the same without a log -/
def runRtu (R : Registry) (db : Databank) (n : Nat) : PyM RtuSrv Unit :=
  PyM.tryExcept (do
      rtuInit R
      rtuRuns R db n
      rtuExit R)
    (fun e => do
      let _ ← PyM.lift (callHooks R "modbus.Server.on_exception" (.exc e []))
      return ())

end Modbus
