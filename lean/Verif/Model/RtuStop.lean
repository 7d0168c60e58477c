/-
# Model of `RtuServer.stop` and of how it ends the thread that waits for a byte (modbus_rtu.py:226-314, modbus.py:1056-1074)

A transition system: the thread of the server (`_run_server` with `_do_init`, `_do_run` and `_do_exit` of `RtuServer`) and a controlling thread that calls
`stop` once.  Every access to a shared attribute or to the port is one action; the actions interleave arbitrarily.  What the line does is the
argument of the actions of the server thread.  Handling a request is one action (`answer`).
Left out: `start`, the renewal of thread and event (`Model/ServerThread.lean`) and raising hooks.

The port (pyserial): a `read` that has a time-out ends in any case; a `read` without time-out ends when bytes arrive, when the device fails, or
by `cancel_read()`.  On POSIX `cancel_read` writes to a pipe that the pending or else the *next* `read` finds (`sticky`); on Windows it
ends the pending `read` and has no effect when there is none.  Closing the port forgets the cancellation.
-/
namespace Modbus

/-- what the server thread is about to do -/
inductive RPc where
  /-- `_do_init`, modbus_rtu.py:248-253 -/
  | init
  /-- `while self._go.isSet()`, modbus.py:1066 -/
  | test
  /-- `if self._block_on_first_byte`, modbus_rtu.py:264 -/
  | loadBlock
  /-- `self._serial.timeout = None`, 266 -/
  | setNone
  /-- calling `self._serial.read(1)`, 268 -/
  | first
  /-- waiting in that call -/
  | firstWait
  /-- `self._serial.close()`, 271 -/
  | firstClose
  /-- `self._serial.open()`, 272 -/
  | firstOpen
  /-- `self._serial.timeout = self._timeout`, 273 -/
  | setTimed
  /-- calling `self._serial.read(128)`, 278 -/
  | rest
  | restWait
  /-- 282 -/
  | restClose
  /-- 283 -/
  | restOpen
  /-- handling the request, if there is one, 287-310 -/
  | answer
  /-- `_do_exit`, 255-257 -/
  | exit
  | dead
  deriving DecidableEq, Repr

/-- what the controlling thread is about to do in `RtuServer.stop`, modbus_rtu.py:231-246, and `Server.stop`, modbus.py:1056-1060 -/
inductive RCtl where
  /-- `stop` has not been called -/
  | idle
  /-- `self._block_on_first_byte = False` -/
  | block
  /-- `if self._serial.is_open` -/
  | checkOpen
  /-- `self._serial.cancel_read()` -/
  | cancel
  /-- `if self._thread.is_alive()` -/
  | alive
  /-- `self._go.clear()` -/
  | clear
  /-- `self._thread.join()` -/
  | join
  /-- `stop` has returned -/
  | returned
  deriving DecidableEq, Repr

/-- what the line and the device do during an action of the server thread -/
inductive RLine where
  /-- bytes arrive -/
  | data
  /-- nothing -/
  | quiet
  /-- the operation on the port raises -/
  | fail
  deriving DecidableEq, Repr

structure RtuLife where
  pc : RPc := .init
  ctl : RCtl := .idle
  /-- `self._go` (set by `start`) -/
  go : Bool := true
  /-- `self._block_on_first_byte` (set by `start`) -/
  block : Bool := true
  /-- `self._serial.timeout` is not None -/
  timed : Bool := true
  isOpen : Bool := false
  /-- a `cancel_read` not yet noticed -/
  cancelled : Bool := false
  /-- `self._serial.open()` has raised in `_do_run` (for observation only) -/
  reopenFailed : Bool := false
  deriving DecidableEq, Repr

/-- the next action of the server thread; `none`: it has to wait, or it has ended -/
def rtuThreadAct (s : RtuLife) (line : RLine) : Option RtuLife :=
  match s.pc with
  | .init =>
    if s.isOpen then some { s with pc := .test }
    else if line = .fail then some { s with pc := .dead }
    else some { s with isOpen := true, cancelled := false, pc := .test }
  | .test => some { s with pc := if s.go then .loadBlock else .exit }
  | .loadBlock => some { s with pc := if s.block then .setNone else .rest }
  | .setNone => some { s with timed := false, pc := .first }
  | .first => some { s with pc := if s.isOpen then .firstWait else .firstClose }
  | .firstWait => match line with
    | .data => some { s with pc := .setTimed }
    | .fail => some { s with pc := .firstClose }
    | .quiet => if s.timed ∨ s.cancelled then some { s with cancelled := false, pc := .setTimed } else none
  | .firstClose => some { s with isOpen := false, cancelled := false, pc := .firstOpen }
  | .firstOpen =>
    if line = .fail then some { s with reopenFailed := true, pc := .test } -- `except Exception` of 312
    else some { s with isOpen := true, pc := .setTimed }
  | .setTimed => some { s with timed := true, pc := .rest }
  | .rest => some { s with pc := if s.isOpen then .restWait else .restClose }
  | .restWait => match line with
    | .data => some { s with pc := .rest }
    | .fail => some { s with pc := .restClose }
    | .quiet => if s.timed ∨ s.cancelled then some { s with cancelled := false, pc := .answer } else none
  | .restClose => some { s with isOpen := false, cancelled := false, pc := .restOpen }
  | .restOpen =>
    if line = .fail then some { s with reopenFailed := true, pc := .test }
    else some { s with isOpen := true, pc := .answer }
  | .answer => some { s with pc := .test }
  | .exit => some { s with isOpen := false, cancelled := false, pc := .dead }
  | .dead => none

/-- is the thread waiting in a call of `read`? -/
def RPc.waiting (p : RPc) : Prop := p = .firstWait ∨ p = .restWait
instance (p : RPc) : Decidable p.waiting := inferInstanceAs (Decidable (_ ∨ _))

/-- the next action of `stop`; `cancel_read` does nothing on a closed port -/
def rtuStopAct (sticky : Bool) (s : RtuLife) : Option RtuLife :=
  match s.ctl with
  | .idle => none
  | .block => some { s with block := false, ctl := .checkOpen }
  | .checkOpen => some { s with ctl := if s.isOpen then .cancel else .alive }
  | .cancel => some { s with cancelled := s.cancelled || (s.isOpen && (sticky || decide s.pc.waiting)), ctl := .alive }
  | .alive => some { s with ctl := if s.pc = .dead then .returned else .clear }
  | .clear => some { s with go := false, ctl := .join }
  | .join => if s.pc = .dead then some { s with ctl := .returned } else none
  | .returned => none

inductive REv where
  | callStop
  | control
  | thread (line : RLine)
  deriving DecidableEq, Repr

def rtuLifeStep (sticky : Bool) (s : RtuLife) : REv → Option RtuLife
  | .callStop => if s.ctl = .idle then some { s with ctl := .block } else none
  | .control => rtuStopAct sticky s
  | .thread line => rtuThreadAct s line

def rtuLifeRun (sticky : Bool) : RtuLife → List REv → Option RtuLife
  | s, [] => some s
  | s, e :: es => match rtuLifeStep sticky s e with
    | none => none
    | some s' => rtuLifeRun sticky s' es

end Modbus
