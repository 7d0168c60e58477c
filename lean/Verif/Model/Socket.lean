import Verif.Py
/-
# TCP sockets

The run-time environment of the transports: what a connected TCP socket delivers to its reader.  Part of the trusted
base (operating system), not library code.

The bytes the peer sends arrive in segments of arbitrary sizes at arbitrary times; a silence longer than the time-out
of the socket, the end of the stream and a reset are further events.
-/
namespace Modbus

/-- something that happens on a connection -/
inductive NetEvent where
  /-- a segment arrives (possibly empty) -/
  | data (bs : Bytes)
  /-- nothing arrives for longer than the time-out -/
  | pause
  /-- the peer closes the connection -/
  | eof
  /-- the connection breaks -/
  | reset
  deriving DecidableEq, Repr

/-- how a connection ended -/
inductive Ending where
  | eof
  | reset
  deriving DecidableEq, Repr

/-- a connected socket -/
structure Sock where
  /-- arrived and not read -/
  buf : Bytes := []
  /-- the end of the stream has arrived (after `buf`) -/
  ended : Option Ending := none
  /-- what will arrive, in this order -/
  future : List NetEvent := []
  /-- how many events of `future` arrive before each of the next non-blocking polls (none when exhausted) -/
  sched : List Nat := []
  /-- what was sent on the socket -/
  sent : List Bytes := []
  /-- `close()` was called -/
  closed : Bool := false
  deriving DecidableEq, Repr

/-- the next event arrives -/
def Sock.arrive (s : Sock) : Sock :=
  match s.ended, s.future with
  | none, .data bs :: ev => { s with buf := s.buf ++ bs, future := ev }
  | none, .pause :: ev => { s with future := ev }
  | none, .eof :: ev => { s with ended := some .eof, future := ev }
  | none, .reset :: ev => { s with ended := some .reset, future := ev }
  | _, _ => s

/-- `n` events arrive -/
def Sock.arriveN : Nat → Sock → Sock
  | 0, s => s
  | n+1, s => arriveN n s.arrive

/-- reading at most `n` bytes of the arrived ones, waiting for the given events if there are none -/
def Sock.recvWait (n : Nat) (s : Sock) : List NetEvent → Except PyErr Bytes × Sock
  | [] => (.error .timeout, { s with future := [] })
  | .data [] :: ev => recvWait n s ev
  | .data (b :: bs) :: ev => (.ok ((b :: bs).take n), { s with buf := (b :: bs).drop n, future := ev })
  | .pause :: ev => (.error .timeout, { s with future := ev })
  | .eof :: ev => (.ok [], { s with ended := some .eof, future := ev })
  | .reset :: ev => (.error .osError, { s with ended := some .reset, future := ev })

/-- `sock.recv(n)` on a socket with a time-out: at least one byte unless the stream has ended (empty result) -/
def sockRecv (n : Nat) : PyM Sock Bytes := fun s =>
  if s.closed then (.error .osError, s)
  else match s.buf with
  | b :: bs => (.ok ((b :: bs).take n), { s with buf := (b :: bs).drop n })
  | [] => match s.ended with
    | some .eof => (.ok [], s)
    | some .reset => (.error .osError, s)
    | none => Sock.recvWait n s s.future

/-- there is something to read: bytes, the end of the stream, or an error -/
def Sock.readable (s : Sock) : Bool := s.buf ≠ [] ∨ s.ended ≠ none

/-- `select([sock], ..., 0.0)`: is the socket readable now? -/
def sockPoll : PyM Sock Bool := fun s =>
  if s.closed then (.error .osError, s)
  else
    let s' := { Sock.arriveN (s.sched.headD 0) s with sched := s.sched.tail }
    (.ok s'.readable, s')

/-- `sock.send(data)`; sending on a connection known to be broken raises.  Simplification: `send` accepts the whole
    message (the code ignores its result, so a partial send would truncate the message). -/
def sockSend (data : Bytes) : PyM Sock Unit := fun s =>
  if s.closed ∨ s.ended = some .reset then (.error .osError, s) else (.ok (), { s with sent := s.sent ++ [data] })

/-- `sock.close()` -/
def Sock.close (s : Sock) : Sock := { s with closed := true }

end Modbus
