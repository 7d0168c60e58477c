import Verif.Model.Master
import Verif.Model.Socket
/-
# `TcpMaster` and `RtuOverTcpMaster` with their time-outs

The same lines as `Model/TcpMaster.lean` (modbus_tcp.py:155-231, utils.py:47-61, modbus_rtu_over_tcp.py:18-38), now with the time-out of the
socket and the time that passes.  Time is counted in ticks of any length; a time-out is a number of ticks.  Only waiting takes time: computing,
hook functions and `send` (into the buffer of the operating system) take none.
-/
namespace Modbus

/-! ## Sockets with a clock (operating system, trusted) -/

/-- something arriving on a connection -/
inductive CEvent where
  /-- a segment; it is never empty -/
  | data (b : UInt8) (bs : Bytes)
  | eof
  | reset
  deriving DecidableEq, Repr

/-- a socket object -/
structure CSock where
  /-- arrived and not read -/
  buf : Bytes := []
  /-- the end of the stream has arrived (after `buf`) -/
  ended : Option Ending := none
  /-- what will arrive, with the time of arrival, in the order of arrival -/
  future : List (Nat × CEvent) := []
  sent : List Bytes := []
  connected : Bool := false
  closed : Bool := false
  /-- `gettimeout()`: None - blocking, 0 - non-blocking -/
  timeout : Option Nat := none
  deriving DecidableEq, Repr

/-- an event arrives -/
def CSock.take (s : CSock) : CEvent → CSock
  | .data b bs => { s with buf := s.buf ++ b :: bs }
  | .eof => { s with ended := some .eof }
  | .reset => { s with ended := some .reset }

/-- of the given events, those due arrive, the others are to come -/
def CSock.arrived (now : Nat) : List (Nat × CEvent) → CSock → CSock
  | [], s => { s with future := [] }
  | (T, e) :: ev, s => if T ≤ now ∧ s.ended = none then arrived now ev (s.take e) else { s with future := (T, e) :: ev }

/-- the socket at a time -/
def CSock.at (now : Nat) (s : CSock) : CSock := arrived now s.future s

/-- a result without waiting, if there is one -/
def CSock.ready (n : Nat) (s : CSock) : Option (Except PyErr Bytes × CSock) :=
  match s.buf, s.ended with
  | b :: bs, _ => some (.ok ((b :: bs).take n), { s with buf := (b :: bs).drop n })
  | [], some .eof => some (.ok [], s)
  | [], some .reset => some (.error .osError, s)
  | [], none => none

/-- `sock.recv(n)`: what has arrived, otherwise wait for the next event as long as the time-out allows.  A non-blocking socket raises
    BlockingIOError, an OSError.  `.nonTermination`: a blocking socket waits for ever. -/
def cRecv (n : Nat) : PyM (Nat × CSock) Bytes := fun (now, s0) =>
  if s0.closed ∨ ¬ s0.connected then (.error .osError, (now, s0))
  else
    let s := s0.at now
    match s.ready n with
    | some r => (r.1, (now, r.2))
    | none =>
      match s.timeout, s.future with
      | some 0, _ => (.error .osError, (now, s))
      | some (t+1), (T, _) :: _ =>
        if T < now + (t+1) then
          match (s.at T).ready n with
          | some r => (r.1, (T, r.2))
          | none => (.error .nonTermination, (T, s)) -- not possible: something has arrived (proved: `ready_arrived`)
        else (.error .timeout, (now + (t+1), s))
      | some (t+1), [] => (.error .timeout, (now + (t+1), s))
      | none, (T, _) :: _ =>
        match (s.at T).ready n with
        | some r => (r.1, (T, r.2))
        | none => (.error .nonTermination, (T, s))
      | none, [] => (.error .nonTermination, (now, s))

/-- `select([sock], ..., 0.0)` -/
def cPoll : PyM (Nat × CSock) Bool := fun (now, s) =>
  if s.closed ∨ ¬ s.connected then (.error .osError, (now, s))
  else (.ok (((s.at now).ready 1).isSome), (now, s.at now))

/-- `sock.send(data)` -/
def cSend (data : Bytes) : PyM (Nat × CSock) Unit := fun (now, s) =>
  if s.closed ∨ ¬ s.connected ∨ (s.at now).ended = some .reset then (.error .osError, (now, s))
  else (.ok (), (now, { s with sent := s.sent ++ [data] }))

/-! ## The library -/

/-- what a connection request meets -/
inductive CPeer where
  /-- accepted after some time; then this arrives -/
  | accept (delay : Nat) (future : List (Nat × CEvent))
  /-- refused after some time -/
  | refuse (delay : Nat)
  deriving DecidableEq, Repr

/-- a `TcpMaster`: `self._timeout`, `self._sock`; the connection requests to come (when there are no more, nobody answers); the time -/
structure CLink where
  timeout : Option Int
  sock : Option CSock := none
  peers : List CPeer := []
  now : Nat := 0
  deriving DecidableEq, Repr

/-- run a computation on the socket; `None` has no methods -/
def onCSock {α} (f : PyM (Nat × CSock) α) : PyM CLink α := fun s =>
  match s.sock with
  | none => (.error .attributeError, s)
  | some k => let r := f (s.now, k); (r.1, { s with now := r.2.1, sock := some r.2.2 })

/-- `TcpMaster.set_timeout`, modbus_tcp.py:185-191, with `Master.set_timeout`, modbus.py:419-421.  `sock.setblocking(timeout_in_sec > 0)`:
    `None > 0` is a TypeError in Python 3; on a closed socket `setblocking` raises OSError; `settimeout` of a negative number raises ValueError. -/
def cSetTimeout (v : Option Int) : PyM CLink Unit := fun s0 =>
  let s := { s0 with timeout := v }
  match s.sock with
  | none => (.ok (), s)
  | some k =>
    match v with
    | none => (.error .typeError, s)
    | some x =>
      if k.closed then (.error .osError, s)
      else
        let k1 := { k with timeout := if x > 0 then none else some 0 }
        if x ≠ 0 then
          if x < 0 then (.error .valueError, { s with sock := some k1 })
          else (.ok (), { s with sock := some { k1 with timeout := some x.toNat } })
        else (.ok (), { s with sock := some k1 })

/-- `Master.get_timeout`, modbus.py:423-425 -/
def cGetTimeout (s : CLink) : Option Int := s.timeout

/-- `sock.connect(address)` of a new socket (operating system).  On a non-blocking socket a TCP connection cannot be made at once:
    BlockingIOError (the attempt is used up). -/
def cConnect : PyM CLink Unit := fun s =>
  match s.sock with
  | none => (.error .attributeError, s)
  | some k =>
    match k.timeout, s.peers with
    | some 0, _ => (.error .osError, { s with peers := s.peers.tail })
    | some (t+1), .accept d ev :: rest =>
      if d < t+1 then (.ok (), { s with peers := rest, now := s.now + d, sock := some { k with connected := true, future := ev } })
      else (.error .timeout, { s with peers := rest, now := s.now + (t+1) })
    | some (t+1), .refuse d :: rest =>
      if d < t+1 then (.error .osError, { s with peers := rest, now := s.now + d })
      else (.error .timeout, { s with peers := rest, now := s.now + (t+1) })
    | some (t+1), [] => (.error .timeout, { s with now := s.now + (t+1) })
    | none, .accept d ev :: rest => (.ok (), { s with peers := rest, now := s.now + d, sock := some { k with connected := true, future := ev } })
    | none, .refuse d :: rest => (.error .osError, { s with peers := rest, now := s.now + d })
    | none, [] => (.error .nonTermination, s)

/-- `TcpMaster._do_open`, modbus_tcp.py:165-174.  (The old socket is closed; it is not seen any more.) -/
def cDoOpen (R : Registry) : PyM CLink Unit := do
  PyM.modify fun s => { s with sock := some {} }
  let s ← PyM.get
  cSetTimeout (cGetTimeout s)
  let _ ← PyM.lift (callHooks R "modbus_tcp.TcpMaster.before_connect" .obj)
  cConnect
  let _ ← PyM.lift (callHooks R "modbus_tcp.TcpMaster.after_connect" .obj)
  return ()

/-- `TcpMaster._do_close`, modbus_tcp.py:176-183 -/
def cDoClose (R : Registry) : PyM CLink Bool := do
  let s ← PyM.get
  match s.sock with
  | none => return false
  | some k => do
    let _ ← PyM.lift (callHooks R "modbus_tcp.TcpMaster.before_close" .obj)
    PyM.modify fun s => { s with sock := some { k with closed := true } }
    let _ ← PyM.lift (callHooks R "modbus_tcp.TcpMaster.after_close" .obj)
    PyM.modify fun s => { s with sock := none }
    return true

/-- `flush_socket(sock, lim)`, utils.py:47-61 -/
def cFlush (lim : Nat) : (fuel : Nat) → (cnt : Nat) → PyM (Nat × CSock) Unit
  | 0, _ => PyM.raise .nonTermination
  | fuel+1, cnt => do
      let ready ← cPoll
      if ready then do
        let _ ← cRecv 1024
        if lim > 0 then
          if cnt + 1 ≥ lim then PyM.raise .generic else cFlush lim fuel (cnt + 1)
        else cFlush lim fuel cnt
      else return ()

/-- `TcpMaster._send`, modbus_tcp.py:193-205 -/
def cTcpSend (R : Registry) (request : Bytes) : PyM CLink Unit := do
  let retval ← PyM.lift (callHooks R "modbus_tcp.TcpMaster.before_send" (.msg request))
  PyM.tryExcept (onCSock (cFlush 3 4 0)) (fun _ => cDoOpen R)
  onCSock (cSend (retval.getD request))

/-- the loop of `TcpMaster._recv`, modbus_tcp.py:213-223 -/
def cRecvLoop : (fuel : Nat) → (response : Bytes) → (length : Int) → PyM (Nat × CSock) Bytes
  | 0, _, _ => PyM.raise .nonTermination
  | fuel+1, response, length =>
    if (response.length : Int) < length then do
      let rcvByte ← cRecv 1
      if rcvByte ≠ [] then
        if (response ++ rcvByte).length = 6 then do
          let vs ← PyM.lift (structUnpack (be [Code.H, Code.H, Code.H]) (response ++ rcvByte))
          cRecvLoop fuel (response ++ rcvByte) (vs.getD 2 0 + 6)
        else cRecvLoop fuel (response ++ rcvByte) length
      else return response
    else return response

/-- `TcpMaster._recv`, modbus_tcp.py:207-227 -/
def cTcpRecv (R : Registry) (_expectedLength : Int) : PyM CLink Bytes := do
  let response ← onCSock (cRecvLoop 65542 [] 255)
  let retval ← PyM.lift (callHooks R "modbus_tcp.TcpMaster.after_recv" (.msg response))
  return (retval.getD response)

/-- the loop of `RtuOverTcpMaster._recv`, modbus_rtu_over_tcp.py:23-30 -/
def cRtuRecvLoop (expectedLength : Int) : (fuel : Nat) → (response : Bytes) → PyM (Nat × CSock) Bytes
  | 0, _ => PyM.raise .nonTermination
  | fuel+1, response =>
    if response.length < 255 then do
      let rcvByte ← cRecv 1
      if expectedLength ≥ 0 ∧ ((response ++ rcvByte).length : Int) ≥ expectedLength then return (response ++ rcvByte)
      else cRtuRecvLoop expectedLength fuel (response ++ rcvByte)
    else return response

/-- `RtuOverTcpMaster._recv`, modbus_rtu_over_tcp.py:21-34; see `rtuOverTcpRecv` for the 256 rounds -/
def cRtuOverTcpRecv (R : Registry) (expectedLength : Int) : PyM CLink Bytes := do
  let response ← onCSock (cRtuRecvLoop expectedLength 256 [])
  let retval ← PyM.lift (callHooks R "modbus_rtu_over_tcp.RtuOverTcpMaster.after_recv" (.msg response))
  return (retval.getD response)

/-- a `TcpMaster` as a MAC layer -/
def clockedTcp (R : Registry) : Chan CLink := { doOpen := cDoOpen R, doClose := cDoClose R, send := cTcpSend R, recv := cTcpRecv R }

/-- an `RtuOverTcpMaster` as a MAC layer -/
def clockedRtuOverTcp (R : Registry) : Chan CLink :=
  { doOpen := cDoOpen R, doClose := cDoClose R, send := cTcpSend R, recv := cRtuOverTcpRecv R }

/-- something done with a master; `wait`: the user does something else -/
inductive TimedOp where
  | open
  | close
  | exec (a : ExecArgs)
  | setTimeout (v : Option Int)
  | wait (d : Nat)

/-- a history of a master; exceptions are caught by the user -/
def runTimed (R : Registry) (mac : Mac) (ch : Chan CLink) : List TimedOp → MasterSt CLink → MasterSt CLink
  | [], s => s
  | .open :: ops, s => runTimed R mac ch ops (masterOpen ch s).2
  | .close :: ops, s => runTimed R mac ch ops (masterClose ch s).2
  | .exec a :: ops, s => runTimed R mac ch ops (execute R mac ch a s).2
  | .setTimeout v :: ops, s => runTimed R mac ch ops { s with link := (cSetTimeout v s.link).2 }
  | .wait d :: ops, s => runTimed R mac ch ops { s with link := { s.link with now := s.link.now + d } }

/-- `TcpMaster(host, port, timeout_in_sec)`, modbus_tcp.py:158-163, modbus.py:83-90 -/
def timedMaster (timeout : Option Int) (peers : List CPeer) (now : Nat) (tid : Int) : MasterSt CLink :=
  ⟨false, { timeout := timeout, peers := peers, now := now }, tid⟩

end Modbus
