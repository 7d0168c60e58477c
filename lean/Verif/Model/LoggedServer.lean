import Verif.Model.Logged
import Verif.Model.TcpServer
/-
# `TcpServer` and `Server._run_server` with their log lines (modbus_tcp.py:261-360, modbus.py:1062-1074)

As in `Model/Logged.lean` the handler of the log may raise into the code that logs.
Simplification: the number of a socket stands for its file descriptor in the lines.
-/
namespace Modbus

/-- the log of a server: its handler, `str(excpt)`, `str(address)` of the connections, and `set_verbose` -/
structure SrvLog where
  lg : Logger
  txt : PyErr → Text
  addr : Nat → Text
  verbose : Bool

/-- the line of modbus_tcp.py:296 -/
def SrvLog.connected (L : SrvLog) (i : Nat) : Text := L.addr i ++ " is connected with socket ".toList ++ intText i ++ "...".toList
/-- the line of modbus_tcp.py:302 -/
def SrvLog.disconnected (_ : SrvLog) (i : Nat) : Text := intText i ++ " is disconnected".toList
/-- the line of modbus_tcp.py:341 -/
def SrvLog.handling (L : SrvLog) (e : PyErr) : Text := "Error while handling a request, Exception occurred: ".toList ++ L.txt e
/-- the line of modbus_tcp.py:353-355 -/
def SrvLog.sending (L : SrvLog) (i : Nat) (e : PyErr) : Text := "Error while sending on socket ".toList ++ intText i ++ ", Exception occurred: ".toList ++ L.txt e
/-- the line of modbus_tcp.py:357 -/
def SrvLog.processing (L : SrvLog) (i : Nat) (e : PyErr) : Text := "Error while processing data on socket ".toList ++ intText i ++ ": ".toList ++ L.txt e

/-- a step on the memory that logs -/
def lOnHeap {α} (f : PyM (Heap × List Text) α) : PyM (Conn × List Text) α := fun s =>
  let r := f (s.1.heap, s.2)
  (r.1, ({ s.1 with heap := r.2.1 }, r.2.2))

/-- sending the response, modbus_tcp.py:344-355; see `srvSend` -/
def lSrvSend (L : SrvLog) (R : Registry) (i : Nat) (response : Bytes) : PyM (Conn × List Text) Unit :=
  PyM.tryExcept (unlogged do
      let retval ← PyM.lift (callHooks R "modbus_tcp.TcpServer.before_send" (.msg response))
      let response := retval.getD response
      Conn.onSock (sockSend response)
      let _ ← PyM.lift (callHooks R "modbus_tcp.TcpServer.after_send" (.msg response))
      return ())
    (fun e => logLine L.lg (L.sending i e))

/-- parsing the request and sending the response, modbus_tcp.py:335-355; see `srvAnswer` -/
def lSrvAnswer (L : SrvLog) (R : Registry) (db : Databank) (i : Nat) (request : Bytes) : PyM (Conn × List Text) Unit := do
  let response ← PyM.tryExcept (lOnHeap (lServerHandle L.verbose L.lg L.txt R tcpMac db request)) (fun e => do
    logLine L.lg (L.handling e)
    return some [])
  match response with
  | none => return ()
  | some [] => return ()
  | some r => lSrvSend L R i r

/-- a ready client socket, modbus_tcp.py:300-355; see `srvClient` -/
def lSrvClient (L : SrvLog) (R : Registry) (db : Databank) (i : Nat) (timed : Bool) : PyM (Conn × List Text) Bool := do
  let peeked ← unlogged (Conn.onSock (sockPeek timed))
  if peeked.length = 0 then
    logLine L.lg (L.disconnected i)
    let _ ← PyM.lift (callHooks R "modbus_tcp.TcpServer.on_disconnect" .obj)
    return true
  else
    let (request, isOk) ← unlogged (Conn.onSock (srvReadLoop 7 8 []))
    let retval ← PyM.lift (callHooks R "modbus_tcp.TcpServer.after_recv" (.msg request))
    let request := retval.getD request
    if isOk then
      let length ← PyM.lift (getRequestLength request)
      let (request, isOk) ← unlogged (Conn.onSock (srvReadLoop (length + 6) 65543 request))
      if isOk then
        lSrvAnswer L R db i request
        return false
      else return false
    else return false

/-- the listening socket is ready, modbus_tcp.py:292-298; see `srvAccept`.  If the line cannot be written the new socket is not registered
    (it is closed when Python collects it, which is not modelled). -/
def lSrvAccept (L : SrvLog) (R : Registry) (acc : Option (Except PyErr Unit)) : PyM (Srv × List Text) Unit := fun s =>
  match acc with
  | none => (.error .osError, s)
  | some (.error e) => (.error e, s)
  | some (.ok ()) =>
    match logLine L.lg (L.connected s.1.next) ({ s.1 with next := s.1.next + 1 }, s.2) with
    | (.error e, s1) => (.error e, s1)
    | (.ok _, s1) =>
      let s2 := ({ s1.1 with sockets := s1.1.sockets ++ [s.1.next] }, s1.2)
      match callHooks R "modbus_tcp.TcpServer.on_connect" .obj with
      | .error e => (.error e, s2)
      | .ok _ => (.ok (), s2)

/-- the body of the `try` statement for one ready socket, modbus_tcp.py:291-355; see `srvOne` -/
def lSrvOne (L : SrvLog) (R : Registry) (db : Databank) (acc : Option (Except PyErr Unit)) (i : Nat) : PyM (Srv × List Text) Bool := fun s =>
  if s.1.sock = some i then
    match lSrvAccept L R acc s with
    | (.ok _, s') => (.ok false, s')
    | (.error e, s') => (.error e, s')
  else
    match lSrvClient L R db i (s.1.timed.contains i) (⟨s.1.heap, s.1.socks i⟩, s.2) with
    | (.error e, c) => (.error e, ({ (s.1.put i c.1.sock) with heap := c.1.heap, timed := i :: s.1.timed }, c.2))
    | (.ok disconnected, c) =>
      let s1 := ({ (s.1.put i c.1.sock) with heap := c.1.heap, timed := i :: s.1.timed }, c.2)
      if disconnected then
        match unlogged (srvDrop i) s1 with
        | (.ok _, s2) => (.ok true, s2)
        | (.error e, s2) => (.error e, s2)
      else (.ok false, s1)

/-- the exception handler for a socket, modbus_tcp.py:356-360 -/
def lSrvExcept (L : SrvLog) (R : Registry) (i : Nat) (e : PyErr) : PyM (Srv × List Text) Unit := do
  logLine L.lg (L.processing i e)
  let _ ← PyM.lift (callHooks R "modbus_tcp.TcpServer.on_error" (.exc e []))
  unlogged (srvDrop i)

/-- the loop over the ready sockets, modbus_tcp.py:290-360; see `srvLoop` -/
def lSrvLoop (L : SrvLog) (R : Registry) (db : Databank) (acc : Option (Except PyErr Unit)) : List Nat → PyM (Srv × List Text) Unit
  | [] => fun s => (.ok (), s)
  | i :: rest => fun s =>
    match lSrvOne L R db acc i s with
    | (.ok true, s') => (.ok (), s')
    | (.ok false, s') => lSrvLoop L R db acc rest s'
    | (.error e, s') =>
      match lSrvExcept L R i e s' with
      | (.ok _, s'') => lSrvLoop L R db acc rest s''
      | (.error e', s'') => (.error e', s'')

/-- `TcpServer._do_run`, modbus_tcp.py:284-360; see `srvRun` -/
def lSrvRun (L : SrvLog) (R : Registry) (db : Databank) (rd : Round) : PyM (Srv × List Text) Unit := fun s =>
  let s1 := s.1.arrivals rd
  if s1.sockets.any (fun i => (s1.socks i).closed) then (.error .valueError, (s1, s.2))
  else lSrvLoop L R db rd.accept (s1.ready rd) (s1, s.2)

/-- the calls of `_do_run`, modbus.py:1066-1067; see `srvRounds` -/
def lSrvRounds (L : SrvLog) (R : Registry) (db : Databank) : List Round → PyM (Srv × List Text) Unit
  | [] => fun s => (.ok (), s)
  | rd :: rest => fun s =>
    match lSrvRun L R db rd s with
    | (.ok _, s') => lSrvRounds L R db rest s'
    | (.error e, s') => (.error e, s')

/-- `Server._run_server` of a `TcpServer` that is stopped after some rounds, modbus.py:1062-1074.  The result is ok exactly if `_make_thread` is reached, so
    that the server can be started again. -/
def lRunServer (L : SrvLog) (R : Registry) (db : Databank) (bound : Bool) (rounds : List Round) : PyM (Srv × List Text) Unit :=
  PyM.tryExcept (do
      unlogged (srvInit bound)
      lSrvRounds L R db rounds
      logLine L.lg "<class 'modbus_tk.modbus_tcp.TcpServer'> has stopped".toList
      unlogged srvExit)
    (fun e => do
      logLine L.lg ("server error: ".toList ++ L.txt e)
      let _ ← PyM.lift (callHooks R "modbus.Server.on_exception" (.exc e []))
      return ())

/-- the same without a log -/
def runServer (R : Registry) (db : Databank) (bound : Bool) (rounds : List Round) : PyM Srv Unit :=
  PyM.tryExcept (do
      srvInit bound
      srvRounds R db rounds
      srvExit)
    (fun e => do
      let _ ← PyM.lift (callHooks R "modbus.Server.on_exception" (.exc e []))
      return ())

end Modbus
