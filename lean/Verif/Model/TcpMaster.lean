import Verif.Model.Socket
import Verif.Model.Master
/-
# Model of `flush_socket` (utils.py:47-61), `TcpMaster` (modbus_tcp.py:155-231) and `RtuOverTcpMaster`
(modbus_rtu_over_tcp.py:18-38)
-/
namespace Modbus

/-- `flush_socket(sock, lim)`, utils.py:47-61, with a bound on the number of rounds; `.nonTermination` means that the
    bound was reached. -/
def flushSocket (lim : Nat) : (fuel : Nat) → (cnt : Nat) → PyM Sock Unit
  | 0, _ => PyM.raise .nonTermination
  | fuel+1, cnt => do
      let ready ← sockPoll
      if ready then do
        let _ ← sockRecv 1024
        if lim > 0 then
          if cnt + 1 ≥ lim then PyM.raise .generic else flushSocket lim fuel (cnt + 1)
        else flushSocket lim fuel cnt
      else return ()

/-- The loop of `TcpMaster._recv`, modbus_tcp.py:213-223.  `length` is at most 65541, so 65542 rounds are enough
    (proved: `tcpRecvLoop_sound`). -/
def tcpRecvLoop : (fuel : Nat) → (response : Bytes) → (length : Int) → PyM Sock Bytes
  | 0, _, _ => PyM.raise .nonTermination
  | fuel+1, response, length =>
    if (response.length : Int) < length then do
      let rcvByte ← sockRecv 1
      if rcvByte ≠ [] then
        if (response ++ rcvByte).length = 6 then do
          let vs ← PyM.lift (structUnpack (be [Code.H, Code.H, Code.H]) (response ++ rcvByte))
          tcpRecvLoop fuel (response ++ rcvByte) (vs.getD 2 0 + 6)
        else tcpRecvLoop fuel (response ++ rcvByte) length
      else return response
    else return response

/-- The loop of `RtuOverTcpMaster._recv`, modbus_rtu_over_tcp.py:23-30.  When the peer has closed the connection
    `recv` returns `b''` at once, for ever: the loop does not end. -/
def rtuOverTcpRecvLoop (expectedLength : Int) : (fuel : Nat) → (response : Bytes) → PyM Sock Bytes
  | 0, _ => PyM.raise .nonTermination
  | fuel+1, response =>
    if response.length < 255 then do
      let rcvByte ← sockRecv 1
      if expectedLength ≥ 0 ∧ ((response ++ rcvByte).length : Int) ≥ expectedLength then return (response ++ rcvByte)
      else rtuOverTcpRecvLoop expectedLength fuel (response ++ rcvByte)
    else return response

/-- The connection of a `TcpMaster`: `self._sock` and what the next calls of `connect` will meet: `none` - the
    connection is refused, `some s` - a connection that behaves like `s`. -/
structure TcpLink where
  sock : Option Sock := none
  peers : List (Option Sock) := []
  /-- the sockets this master has closed, for observation only -/
  closedSocks : List Sock := []
  deriving DecidableEq, Repr

/-- run a computation on the socket; `None` has no methods -/
def onSock {α} (f : PyM Sock α) : PyM TcpLink α := fun s =>
  match s.sock with
  | none => (.error .attributeError, s)
  | some k => let r := f k; (r.1, { s with sock := some r.2 })

/-- `TcpMaster._do_open`, modbus_tcp.py:165-174.  The new socket object is stored before `connect`; when `connect` fails
    the master keeps an unconnected socket, on which every operation raises (modelled as a closed one).
    `set_timeout` and `setsockopt` (lines 170-171) only set options: a positive time-out is assumed here.  Other values: `Model/Clocked.lean`. -/
def tcpDoOpen (R : Registry) : PyM TcpLink Unit := fun s =>
  let s1 : TcpLink := { s with closedSocks := s.closedSocks ++ s.sock.toList.map Sock.close, sock := some { closed := true } }
  match callHooks R "modbus_tcp.TcpMaster.before_connect" .obj with
  | .error e => (.error e, s1)
  | .ok _ =>
    match s1.peers with
    | some k :: rest =>
      let s2 := { s1 with sock := some k, peers := rest }
      match callHooks R "modbus_tcp.TcpMaster.after_connect" .obj with
      | .error e => (.error e, s2)
      | .ok _ => (.ok (), s2)
    | none :: rest => (.error .osError, { s1 with peers := rest })
    | [] => (.error .osError, s1)

/-- `TcpMaster._do_close`, modbus_tcp.py:176-183; `None` (no socket) is false. -/
def tcpDoClose (R : Registry) : PyM TcpLink Bool := fun s =>
  match s.sock with
  | none => (.ok false, s)
  | some k =>
    match callHooks R "modbus_tcp.TcpMaster.before_close" .obj with
    | .error e => (.error e, s)
    | .ok _ =>
      match callHooks R "modbus_tcp.TcpMaster.after_close" .obj with
      | .error e => (.error e, { s with sock := some k.close })
      | .ok _ => (.ok true, { s with sock := none, closedSocks := s.closedSocks ++ [k.close] })

/-- `TcpMaster._send`, modbus_tcp.py:193-205. -/
def tcpSend (R : Registry) (request : Bytes) : PyM TcpLink Unit := do
  let retval ← PyM.lift (callHooks R "modbus_tcp.TcpMaster.before_send" (.msg request))
  PyM.tryExcept (onSock (flushSocket 3 4 0)) (fun _ => tcpDoOpen R)
  onSock (sockSend (retval.getD request))

/-- `TcpMaster._recv`, modbus_tcp.py:207-227. -/
def tcpRecv (R : Registry) (_expectedLength : Int) : PyM TcpLink Bytes := do
  let response ← onSock (tcpRecvLoop 65542 [] 255)
  let retval ← PyM.lift (callHooks R "modbus_tcp.TcpMaster.after_recv" (.msg response))
  return (retval.getD response)

/-- `RtuOverTcpMaster._recv`, modbus_rtu_over_tcp.py:21-34.  Every round adds a byte or finds the stream ended by the peer,
    and then so does every later round: a loop that has not ended after 256 rounds never ends (proved:
    `C32_false_close`, `rtuLoop_ends`). -/
def rtuOverTcpRecv (R : Registry) (expectedLength : Int) : PyM TcpLink Bytes := do
  let response ← onSock (rtuOverTcpRecvLoop expectedLength 256 [])
  let retval ← PyM.lift (callHooks R "modbus_rtu_over_tcp.RtuOverTcpMaster.after_recv" (.msg response))
  return (retval.getD response)

/-- a `TcpMaster` as a MAC layer -/
def tcpChan (R : Registry) : Chan TcpLink :=
  { doOpen := tcpDoOpen R, doClose := tcpDoClose R, send := tcpSend R, recv := tcpRecv R }

/-- an `RtuOverTcpMaster` as a MAC layer -/
def rtuOverTcpChan (R : Registry) : Chan TcpLink :=
  { doOpen := tcpDoOpen R, doClose := tcpDoClose R, send := tcpSend R, recv := rtuOverTcpRecv R }

end Modbus
