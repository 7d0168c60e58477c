import Verif.Model.Clocked
import Verif.Model.TcpServer
/-
# `TcpServer` with a clock

The same lines as `Model/TcpServer.lean` (modbus_tcp.py:284-360), with the time that passes.  `sec` is the number of ticks of a second.  Only waiting
takes time: `select` waits at most one second, a read on the connection being served at most one second.  Handling a request, hook functions and
sending take none.
-/
namespace Modbus

/-- a running `TcpServer`; `coming`: the connections that clients will establish, with the time and what arrives on them (`none`: `accept` fails);
    `log`: for observation only - when and on which connection the server has sent what -/
structure CSrv where
  heap : Heap
  sock : Option Nat
  sockets : List Nat
  socks : Nat → CSock
  next : Nat
  coming : List (Nat × Option (List (Nat × CEvent)))
  now : Nat
  log : List (Nat × Nat × Bytes)

/-- assign a socket object -/
def CSrv.put (s : CSrv) (i : Nat) (k : CSock) : CSrv := { s with socks := fun j => if j = i then k else s.socks j }

/-- `sock.recv(1, MSG_PEEK)`: like `recv(1)`, but nothing is consumed -/
def cPeek : PyM (Nat × CSock) Bytes := fun p =>
  match cRecv 1 p with
  | (.ok x, (now, s)) => (.ok x, (now, { s with buf := x ++ s.buf }))
  | r => r

/-- The two reading loops, modbus_tcp.py:314-319 and 328-333, see `srvReadLoop` -/
def cReadLoop (target : Int) : (fuel : Nat) → (request : Bytes) → PyM (Nat × CSock) (Bytes × Bool)
  | 0, _ => PyM.raise .nonTermination
  | fuel+1, request =>
    if (request.length : Int) < target then do
      let newByte ← cRecv 1
      if newByte.length = 0 then return (request, false) else cReadLoop target fuel (request ++ newByte)
    else return (request, true)

/-- the state while the connection `id` is served -/
structure CConn where
  heap : Heap
  id : Nat
  now : Nat
  sock : CSock
  log : List (Nat × Nat × Bytes)

def CConn.onSock {α} (f : PyM (Nat × CSock) α) : PyM CConn α := fun c =>
  let r := f (c.now, c.sock); (r.1, { c with now := r.2.1, sock := r.2.2 })
def CConn.onHeap {α} (f : PyM Heap α) : PyM CConn α := fun c => let r := f c.heap; (r.1, { c with heap := r.2 })

/-- sending the response, modbus_tcp.py:344-355 -/
def cSrvSend (R : Registry) (response : Bytes) : PyM CConn Unit :=
  PyM.tryExcept (do
      let retval ← PyM.lift (callHooks R "modbus_tcp.TcpServer.before_send" (.msg response))
      let response := retval.getD response
      CConn.onSock (cSend response)
      PyM.modify fun c => { c with log := c.log ++ [(c.now, c.id, response)] }
      let _ ← PyM.lift (callHooks R "modbus_tcp.TcpServer.after_send" (.msg response))
      return ())
    (fun _ => return ())

/-- parsing the request and sending the response, modbus_tcp.py:335-355 -/
def cSrvAnswer (R : Registry) (db : Databank) (request : Bytes) : PyM CConn Unit := do
  let response ← PyM.tryExcept (CConn.onHeap (serverHandle R tcpMac db request)) (fun _ => return some [])
  match response with
  | none => return ()
  | some [] => return ()
  | some r => cSrvSend R r

/-- a ready client socket, modbus_tcp.py:300-355, see `srvClient`; `sock.settimeout(1.0)` is line 309 -/
def cSrvClient (sec : Nat) (R : Registry) (db : Databank) : PyM CConn Bool := do
  let peeked ← CConn.onSock cPeek
  if peeked.length = 0 then
    let _ ← PyM.lift (callHooks R "modbus_tcp.TcpServer.on_disconnect" .obj)
    return true
  else
    PyM.modify fun c => { c with sock := { c.sock with timeout := some sec } }
    let (request, isOk) ← CConn.onSock (cReadLoop 7 8 [])
    let retval ← PyM.lift (callHooks R "modbus_tcp.TcpServer.after_recv" (.msg request))
    let request := retval.getD request
    if isOk then
      let length ← PyM.lift (getRequestLength request)
      let (request, isOk) ← CConn.onSock (cReadLoop (length + 6) 65543 request)
      if isOk then
        cSrvAnswer R db request
        return false
      else return false
    else return false

/-- `sock.close()` and `self._sockets.remove(sock)`, modbus_tcp.py:304-305, 359-360 -/
def cSrvDrop (i : Nat) : PyM CSrv Unit := fun s =>
  let s1 := s.put i { s.socks i with closed := true }
  if i ∈ s1.sockets then (.ok (), { s1 with sockets := s1.sockets.erase i }) else (.error .valueError, s1)

/-- the listening socket is ready, modbus_tcp.py:292-298; the listening socket is non-blocking (line 267), and so is the new one (line 295) -/
def cSrvAccept (R : Registry) : PyM CSrv Unit := fun s =>
  match s.coming with
  | [] => (.error .osError, s)
  | (T, c) :: rest =>
    if s.now < T then (.error .osError, s)
    else
      let s0 := { s with coming := rest }
      match c with
      | none => (.error .osError, s0)
      | some future =>
        let s1 := { (s0.put s0.next { connected := true, timeout := some 0, future := future }) with sockets := s0.sockets ++ [s0.next], next := s0.next + 1 }
        match callHooks R "modbus_tcp.TcpServer.on_connect" .obj with
        | .error e => (.error e, s1)
        | .ok _ => (.ok (), s1)

/-- the state after a connection was served -/
def CSrv.served (s : CSrv) (i : Nat) (c : CConn) : CSrv := { (s.put i c.sock) with heap := c.heap, now := c.now, log := c.log }

/-- the body of the `try` statement for one ready socket, modbus_tcp.py:291-355; true means `break` -/
def cSrvOne (sec : Nat) (R : Registry) (db : Databank) (i : Nat) : PyM CSrv Bool := fun s =>
  if s.sock = some i then
    match cSrvAccept R s with
    | (.ok _, s') => (.ok false, s')
    | (.error e, s') => (.error e, s')
  else
    match cSrvClient sec R db ⟨s.heap, i, s.now, s.socks i, s.log⟩ with
    | (.error e, c) => (.error e, s.served i c)
    | (.ok disconnected, c) =>
      if disconnected then
        match cSrvDrop i (s.served i c) with
        | (.ok _, s2) => (.ok true, s2)
        | (.error e, s2) => (.error e, s2)
      else (.ok false, s.served i c)

/-- the loop over the ready sockets with its exception handler, modbus_tcp.py:290-360 -/
def cSrvLoop (sec : Nat) (R : Registry) (db : Databank) : List Nat → PyM CSrv Unit
  | [] => fun s => (.ok (), s)
  | i :: rest => fun s =>
    match cSrvOne sec R db i s with
    | (.ok true, s') => (.ok (), s')
    | (.ok false, s') => cSrvLoop sec R db rest s'
    | (.error e, s') =>
      match callHooks R "modbus_tcp.TcpServer.on_error" (.exc e []) with
      | .error e' => (.error e', s')
      | .ok _ =>
        match cSrvDrop i s' with
        | (.ok _, s'') => cSrvLoop sec R db rest s''
        | (.error e', s'') => (.error e', s'')

/-- is there something to read, or a connection to accept, at this time? -/
def CSrv.readableAt (s : CSrv) (now : Nat) (i : Nat) : Bool :=
  if s.sock = some i then
    match s.coming with
    | [] => false
    | (T, _) :: _ => T ≤ now
  else (((s.socks i).at now).ready 1).isSome

/-- the times at which something will happen -/
def CSrv.events (s : CSrv) : List Nat := (s.coming.map Prod.fst).take 1 ++ s.sockets.flatMap fun i => ((s.socks i).future.map Prod.fst).take 1

/-- when `select(..., 1.0)` returns, modbus_tcp.py:287: now if a socket is ready, otherwise at the next event or after a second -/
def CSrv.wake (sec : Nat) (s : CSrv) : Nat :=
  if s.sockets.any (s.readableAt s.now) then s.now
  else s.events.foldl (fun a T => if s.now < T then min a T else a) (s.now + sec)

/-- `TcpServer._do_run`, modbus_tcp.py:284-360.  `select` raises on a closed socket. -/
def cSrvRun (sec : Nat) (R : Registry) (db : Databank) : PyM CSrv Unit := fun s =>
  if s.sockets.any (fun i => (s.socks i).closed) then (.error .valueError, s)
  else
    let s1 := { s with now := s.wake sec }
    cSrvLoop sec R db (s1.sockets.filter (s1.readableAt s1.now)) s1

/-- `n` calls of `_do_run` made by `Server._run_server` (modbus.py:1066-1067), until one raises -/
def cSrvRounds (sec : Nat) (R : Registry) (db : Databank) : Nat → PyM CSrv Unit
  | 0 => fun s => (.ok (), s)
  | n+1 => fun s =>
    match cSrvRun sec R db s with
    | (.ok _, s') => cSrvRounds sec R db n s'
    | (.error e, s') => (.error e, s')

/-- the server after `_do_init`, modbus_tcp.py:261-270 -/
def CSrv.started (heap : Heap) (coming : List (Nat × Option (List (Nat × CEvent)))) (now : Nat) : CSrv :=
  { heap := heap, sock := some 0, sockets := [0], socks := fun _ => { connected := true }, next := 1, coming := coming, now := now, log := [] }

end Modbus
