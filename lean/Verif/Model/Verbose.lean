import Verif.Model.Databank
import Verif.Model.Master
import Verif.Model.Utils
/-
# Model of the verbose mode: `set_verbose`, and the log lines of `Master.execute` and `Server._handle` (modbus.py:93-95, 354-355, 366-367, 1020-1022, 1079-1080, 1094-1095)

The handlers of the library (utils.py:72-112) do not catch what goes wrong while a line is written, so writing may raise into the code that logs.
The other log lines of the library (of `Slave`, `Databank`, the servers) are left out.
-/
namespace Modbus

/-- a log handler (`Handler.emit`): given the lines written before and the new line, the exception it raises, if any -/
abbrev Logger := List Text → Text → Option PyErr

/-- `LOGGER.debug(line)`: the line is written, or the handler raises -/
def logLine {τ : Type} (lg : Logger) (line : Text) : PyM (τ × List Text) Unit := fun s =>
  match lg s.2 line with
  | none => (.ok (), (s.1, s.2 ++ [line]))
  | some e => (.error e, s)

/-- a step that does not log -/
def unlogged {τ α : Type} (f : PyM τ α) : PyM (τ × List Text) α := fun s =>
  let r := f s.1
  (r.1, (r.2, s.2))

variable {σ : Type}

/-- `Master.execute` with the log, modbus.py:345-400; see `execute` -/
def executeV (verbose : Bool) (lg : Logger) (R : Registry) (mac : Mac) (ch : Chan σ) (a : ExecArgs) : PyM (MasterSt σ × List Text) ExecResult := do
  unlogged (masterOpen ch)
  let p ← PyM.lift (prepare a)
  match a.slave with
  | none => PyM.raise .typeError
  | some slave => do
    let (request, q) ← unlogged (buildRequest mac p.pdu slave)
    let retval ← PyM.lift (callHooks R "modbus.Master.before_send" (.msg request))
    if verbose then logLine lg (getLogBuffer "-> ".toList (retval.getD request)) else pure ()
    unlogged (onLink (ch.send (retval.getD request)))
    let _ ← PyM.lift (callHooks R "modbus.Master.after_send" .obj)
    let response ← unlogged (onLink (ch.recv p.expectedLength))
    let retval ← PyM.lift (callHooks R "modbus.Master.after_recv" (.msg response))
    if verbose then logLine lg (getLogBuffer "<- ".toList (retval.getD response)) else pure ()
    let responsePdu ← PyM.lift (mac.parseResponse (retval.getD response) q).1
    PyM.lift (analyse a p responsePdu)

/-- `Server._handle` with the log, modbus.py:1076-1096; see `serverHandle`.  `if response`: neither None nor empty. -/
def serverHandleV (verbose : Bool) (lg : Logger) (R : Registry) (mac : Mac) (db : Databank) (request : Bytes) : PyM (Heap × List Text) (Option Bytes) := do
  if verbose then logLine lg (getLogBuffer "-->".toList request) else pure ()
  let retval ← PyM.lift (callHooks R "modbus.Server.before_handle_request" (.msg request))
  let request := (replaceIfTruthy retval (some request)).getD []
  let response ← unlogged (dbHandle R mac db request)
  let retval ← PyM.lift (callHooks R "modbus.Server.after_handle_request" (msgArg response))
  let response := replaceIfTruthy retval response
  match response with
  | some (b :: bs) => if verbose then logLine lg (getLogBuffer "<--".toList (b :: bs)) else pure ()
  | _ => pure ()
  return response

end Modbus
