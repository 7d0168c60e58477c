import Verif.Model.LoggedServer
import Verif.Model.TcpMaster
/-
# The log lines of `TcpMaster._send` and `TcpServer._do_exit` (modbus_tcp.py:193-205, 272-283)

As in `Model/Verbose.lean` the handler of the log may raise into the code that logs.
-/
namespace Modbus

/-- the line of modbus_tcp.py:203; `txt` is `str(msg)` -/
def flushLine (txt : PyErr → Text) (e : PyErr) : Text := "Error while flushing the socket: ".toList ++ txt e

/-- `TcpMaster._send` with its log line, modbus_tcp.py:193-205; see `tcpSend` -/
def lTcpSend (lg : Logger) (txt : PyErr → Text) (R : Registry) (request : Bytes) : PyM (TcpLink × List Text) Unit := do
  let retval ← PyM.lift (callHooks R "modbus_tcp.TcpMaster.before_send" (.msg request))
  PyM.tryExcept (unlogged (onSock (flushSocket 3 4 0))) (fun e => do
    logLine lg (flushLine txt e)
    unlogged (tcpDoOpen R))
  unlogged (onSock (sockSend (retval.getD request)))

/-- a step on the link that logs -/
def lOnLink {σ α : Type} (f : PyM (σ × List Text) α) : PyM (MasterSt σ × List Text) α := fun s =>
  let r := f (s.1.link, s.2)
  (r.1, ({ s.1 with link := r.2.1 }, r.2.2))

/-- `Master.execute` of a `TcpMaster` or `RtuOverTcpMaster` (they differ in `recv`) with all log lines, modbus.py:345-400; see `executeV` -/
def lExecute (verbose : Bool) (lg : Logger) (txt : PyErr → Text) (R : Registry) (mac : Mac) (recv : Int → PyM TcpLink Bytes) (a : ExecArgs) :
    PyM (MasterSt TcpLink × List Text) ExecResult := do
  unlogged (masterOpen (tcpChan R))
  let p ← PyM.lift (prepare a)
  match a.slave with
  | none => PyM.raise .typeError
  | some slave => do
    let (request, q) ← unlogged (buildRequest mac p.pdu slave)
    let retval ← PyM.lift (callHooks R "modbus.Master.before_send" (.msg request))
    if verbose then logLine lg (getLogBuffer "-> ".toList (retval.getD request)) else pure ()
    lOnLink (lTcpSend lg txt R (retval.getD request))
    let _ ← PyM.lift (callHooks R "modbus.Master.after_send" .obj)
    let response ← unlogged (onLink (recv p.expectedLength))
    let retval ← PyM.lift (callHooks R "modbus.Master.after_recv" (.msg response))
    if verbose then logLine lg (getLogBuffer "<- ".toList (retval.getD response)) else pure ()
    let responsePdu ← PyM.lift (mac.parseResponse (retval.getD response) q).1
    PyM.lift (analyse a p responsePdu)

/-- the line of modbus_tcp.py:279 -/
def SrvLog.closing (L : SrvLog) (e : PyErr) : Text := "Error while closing socket, Exception occurred: ".toList ++ L.txt e

/-- `sock.close()` of socket `i`, modbus_tcp.py:277 -/
def srvClose (i : Nat) : PyM Srv Unit := fun s => (.ok (), s.put i (s.socks i).close)

/-- the closing loop of `_do_exit`, modbus_tcp.py:275-279; `fails i` is what `close` of socket `i` raises, if anything -/
def lSrvCloseAll (L : SrvLog) (fails : Nat → Option PyErr) : List Nat → PyM (Srv × List Text) Unit
  | [] => pure ()
  | i :: rest => do
    match fails i with
    | none => unlogged (srvClose i)
    | some e => logLine L.lg (L.closing e)
    lSrvCloseAll L fails rest

/-- the rest of `_do_exit`, modbus_tcp.py:280-282 -/
def srvFinish (fails : Nat → Option PyErr) : PyM Srv Unit := fun s =>
  let s1 := { s with sockets := [] }
  match s1.sock with
  | none => (.error .attributeError, s1)
  | some l =>
    match fails l with
    | some e => (.error e, s1)
    | none => (.ok (), { s1.put l (s1.socks l).close with sock := none })

/-- `TcpServer._do_exit`, modbus_tcp.py:272-282, with sockets whose `close` raises; see `srvExit` -/
def lSrvExit (L : SrvLog) (fails : Nat → Option PyErr) : PyM (Srv × List Text) Unit := fun s => (do
  lSrvCloseAll L fails s.1.sockets
  unlogged (srvFinish fails)) s

end Modbus
