import Verif.Model.Socket
import Verif.Model.Databank
/-
# Model of `TcpServer`, modbus_tcp.py:234-360

Sockets are objects with an identity; the server keeps references to them.  A socket object is a number here, and
`socks` gives the connection behind each number.
-/
namespace Modbus

/-- The state of a running `TcpServer`, modbus_tcp.py:241-248, together with the memories of its slaves. -/
structure Srv where
  heap : Heap
  /-- `self._sock` -/
  sock : Option Nat
  /-- `self._sockets` -/
  sockets : List Nat
  /-- the socket objects; the connection accepted next will get the number `next`, so `socks` also describes the
      connections that clients have not established yet -/
  socks : Nat → Sock
  /-- the sockets on which `settimeout(1.0)` was called -/
  timed : List Nat
  next : Nat

/-- assign a socket object -/
def Srv.put (s : Srv) (i : Nat) (k : Sock) : Srv := { s with socks := fun j => if j = i then k else s.socks j }

/-- What the environment does before and during one call of `_do_run`: how many events arrive on every connection, and
    whether the listening socket is ready (`some`) and what `accept` then gives: a new connection or an exception. -/
structure Round where
  arrivals : Nat → Nat := fun _ => 0
  accept : Option (Except PyErr Unit) := none

/-- `sock.recv(1, MSG_PEEK)`: like `recv(1)`, but nothing is consumed; a non-blocking socket raises instead of waiting. -/
def sockPeek (blocking : Bool) : PyM Sock Bytes := fun s =>
  if s.closed then (.error .osError, s)
  else match s.buf with
  | b :: _ => (.ok [b], s)
  | [] => match s.ended with
    | some .eof => (.ok [], s)
    | some .reset => (.error .osError, s)
    | none =>
      if blocking then
        match Sock.recvWait 1 s s.future with
        | (.ok x, s') => (.ok x, { s' with buf := x ++ s'.buf })
        | (.error e, s') => (.error e, s')
      else (.error .osError, s)

/-- `_get_request_length`, modbus_tcp.py:254-259.  (`ModbusInvalidRequestError` is called with two arguments, which its
    constructor accepts.) -/
def getRequestLength (mbap : Bytes) : Except PyErr Int :=
  if mbap.length < 6 then .error .invalidRequest
  else do
    let vs ← structUnpack (be [Code.H, Code.H, Code.H]) (slice mbap 0 6)
    return vs.getD 2 0

/-- The two reading loops, modbus_tcp.py:314-319 (with target 7) and 328-333 (with target `length + 6`): the message and
    `is_ok`.  Every round adds a byte or ends the loop, so a bound above the target is never reached (proved:
    `srvReadLoop_spec`). -/
def srvReadLoop (target : Int) : (fuel : Nat) → (request : Bytes) → PyM Sock (Bytes × Bool)
  | 0, _ => PyM.raise .nonTermination
  | fuel+1, request =>
    if (request.length : Int) < target then do
      let newByte ← sockRecv 1
      if newByte.length = 0 then return (request, false) else srvReadLoop target fuel (request ++ newByte)
    else return (request, true)

/-- the state while one connection is served -/
structure Conn where
  heap : Heap
  sock : Sock

def Conn.onSock {α} (f : PyM Sock α) : PyM Conn α := fun c => let r := f c.sock; (r.1, { c with sock := r.2 })
def Conn.onHeap {α} (f : PyM Heap α) : PyM Conn α := fun c => let r := f c.heap; (r.1, { c with heap := r.2 })

/-- sending the response, modbus_tcp.py:344-355; every exception is caught and logged -/
def srvSend (R : Registry) (response : Bytes) : PyM Conn Unit :=
  PyM.tryExcept (do
      let retval ← PyM.lift (callHooks R "modbus_tcp.TcpServer.before_send" (.msg response))
      let response := retval.getD response
      Conn.onSock (sockSend response)
      let _ ← PyM.lift (callHooks R "modbus_tcp.TcpServer.after_send" (.msg response))
      return ())
    (fun _ => return ())

/-- parsing the request and sending the response, modbus_tcp.py:335-355; an exception inside `_handle` is caught and
    logged, and nothing is sent -/
def srvAnswer (R : Registry) (db : Databank) (request : Bytes) : PyM Conn Unit := do
  let response ← PyM.tryExcept (Conn.onHeap (serverHandle R tcpMac db request)) (fun _ => return some [])
  match response with
  | none => return ()
  | some [] => return ()
  | some r => srvSend R r

/-- a ready client socket, modbus_tcp.py:300-355; the result is true when the client has disconnected (lines 300-306,
    the closing itself is in `srvOne`) -/
def srvClient (R : Registry) (db : Databank) (timed : Bool) : PyM Conn Bool := do
  let peeked ← Conn.onSock (sockPeek timed)
  if peeked.length = 0 then
    let _ ← PyM.lift (callHooks R "modbus_tcp.TcpServer.on_disconnect" .obj)
    return true
  else
    let (request, isOk) ← Conn.onSock (srvReadLoop 7 8 [])
    let retval ← PyM.lift (callHooks R "modbus_tcp.TcpServer.after_recv" (.msg request))
    let request := retval.getD request
    if isOk then
      let length ← PyM.lift (getRequestLength request)
      let (request, isOk) ← Conn.onSock (srvReadLoop (length + 6) 65543 request)
      if isOk then
        srvAnswer R db request
        return false
      else return false
    else return false

/-- `sock.close()` and `self._sockets.remove(sock)`, modbus_tcp.py:304-305, 359-360; `remove` raises when the socket is not
    in the list -/
def srvDrop (i : Nat) : PyM Srv Unit := fun s =>
  let s1 := s.put i (s.socks i).close
  if i ∈ s1.sockets then (.ok (), { s1 with sockets := s1.sockets.erase i }) else (.error .valueError, s1)

/-- the listening socket is ready, modbus_tcp.py:292-298 -/
def srvAccept (R : Registry) (acc : Option (Except PyErr Unit)) : PyM Srv Unit := fun s =>
  match acc with
  | none => (.error .osError, s)
  | some (.error e) => (.error e, s)
  | some (.ok ()) =>
    let s1 := { s with sockets := s.sockets ++ [s.next], next := s.next + 1 }
    match callHooks R "modbus_tcp.TcpServer.on_connect" .obj with
    | .error e => (.error e, s1)
    | .ok _ => (.ok (), s1)

/-- the body of the `try` statement for one ready socket, modbus_tcp.py:291-355; true means `break` -/
def srvOne (R : Registry) (db : Databank) (acc : Option (Except PyErr Unit)) (i : Nat) : PyM Srv Bool := fun s =>
  if s.sock = some i then
    match srvAccept R acc s with
    | (.ok _, s') => (.ok false, s')
    | (.error e, s') => (.error e, s')
  else
    match srvClient R db (s.timed.contains i) ⟨s.heap, s.socks i⟩ with
    | (.error e, c) => (.error e, { (s.put i c.sock) with heap := c.heap, timed := i :: s.timed })
    | (.ok disconnected, c) =>
      let s1 := { (s.put i c.sock) with heap := c.heap, timed := i :: s.timed }
      if disconnected then
        match srvDrop i s1 with
        | (.ok _, s2) => (.ok true, s2)
        | (.error e, s2) => (.error e, s2)
      else (.ok false, s1)

/-- the loop over the ready sockets with its exception handler, modbus_tcp.py:290-360 -/
def srvLoop (R : Registry) (db : Databank) (acc : Option (Except PyErr Unit)) : List Nat → PyM Srv Unit
  | [] => fun s => (.ok (), s)
  | i :: rest => fun s =>
    match srvOne R db acc i s with
    | (.ok true, s') => (.ok (), s')
    | (.ok false, s') => srvLoop R db acc rest s'
    | (.error e, s') =>
      match callHooks R "modbus_tcp.TcpServer.on_error" (.exc e []) with
      | .error e' => (.error e', s')
      | .ok _ =>
        match srvDrop i s' with
        | (.ok _, s'') => srvLoop R db acc rest s''
        | (.error e', s'') => (.error e', s'')

/-- events arrive on every connection -/
def Srv.arrivals (rd : Round) (s : Srv) : Srv := { s with socks := fun j => Sock.arriveN (rd.arrivals j) (s.socks j) }

/-- the sockets that `select` reports, modbus_tcp.py:287 -/
def Srv.ready (rd : Round) (s : Srv) : List Nat :=
  s.sockets.filter (fun i => if s.sock = some i then rd.accept.isSome else (s.socks i).readable)

/-- `TcpServer._do_run`, modbus_tcp.py:284-360.  `select` raises on a closed socket. -/
def srvRun (R : Registry) (db : Databank) (rd : Round) : PyM Srv Unit := fun s =>
  let s1 := s.arrivals rd
  if s1.sockets.any (fun i => (s1.socks i).closed) then (.error .valueError, s1)
  else srvLoop R db rd.accept (s1.ready rd) s1

/-- the calls of `_do_run` made by `Server._run_server` (modbus.py:1066-1067), until one raises -/
def srvRounds (R : Registry) (db : Databank) : List Round → PyM Srv Unit
  | [] => fun s => (.ok (), s)
  | rd :: rest => fun s =>
    match srvRun R db rd s with
    | (.ok _, s') => srvRounds R db rest s'
    | (.error e, s') => (.error e, s')

/-- `TcpServer._do_init`, modbus_tcp.py:261-270; `bound` tells whether `bind` and `listen` succeed. -/
def srvInit (bound : Bool) : PyM Srv Unit := fun s =>
  let s1 := { s with sock := some s.next, next := s.next + 1 }
  if bound then (.ok (), { s1 with sockets := s1.sockets ++ [s.next] }) else (.error .osError, s1)

/-- the closing loop of `_do_exit` -/
def srvCloseAll : List Nat → Srv → Srv
  | [], s => s
  | i :: rest, s => srvCloseAll rest (s.put i (s.socks i).close)

/-- `TcpServer._do_exit`, modbus_tcp.py:272-282 (`close` does not raise). -/
def srvExit : PyM Srv Unit := fun s =>
  let s1 := { srvCloseAll s.sockets s with sockets := [] }
  match s1.sock with
  | none => (.error .attributeError, s1)
  | some l => (.ok (), { s1.put l (s1.socks l).close with sock := none })

end Modbus
