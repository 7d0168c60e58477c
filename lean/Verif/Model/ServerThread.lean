import Mathlib.Logic.Function.Basic
/-
# Model of the life of a `Server`: `__init__`, `start`, `stop`, `_run_server`, `_make_thread` (modbus.py:994-1074)

A transition system: one controlling thread calling `start` and `stop`, and the threads of the server.  `_make_thread` creates a new
thread object and a new event and assigns them to `self._thread` and `self._go`, so both are numbered.  Every access to an attribute, an
event or a thread object is one action, and the actions of different threads interleave arbitrarily.
Exceptions that are not subclasses of `Exception` are left out.  `_do_init`, `_do_run`, `_do_exit` and the hook return or raise.
-/
namespace Modbus

/-- what a thread of the server is about to do, modbus.py:1062-1074 -/
inductive SPhase where
  /-- not started -/
  | fresh
  /-- `self._do_init()` -/
  | init
  /-- `while self._go.isSet()`: reading the attribute -/
  | test
  /-- `while self._go.isSet()`: calling the method of the event found -/
  | testGo (e : Nat)
  /-- `self._do_run()` -/
  | run
  /-- `self._do_exit()` -/
  | exit
  /-- `call_hooks("modbus.Server.on_exception", (self, excpt))` -/
  | hook
  /-- `self._thread = threading.Thread(...)`, modbus.py:1017 -/
  | mkThread
  /-- `self._go = threading.Event()`, modbus.py:1018 -/
  | mkGo
  /-- ended -/
  | dead
  deriving DecidableEq, Repr

/-- what the controlling thread is about to do, modbus.py:1051-1060 -/
inductive SCaller where
  | idle
  /-- `self._go.set()` -/
  | startLoadGo
  | startSet (e : Nat)
  /-- `self._thread.start()` -/
  | startLoadThread
  | startThread (t : Nat)
  /-- `if self._thread.is_alive()` -/
  | stopLoadThread
  | stopAlive (t : Nat)
  /-- `self._go.clear()` -/
  | stopLoadGo
  | stopClear (e : Nat)
  /-- `self._thread.join()` -/
  | stopLoadJoin
  | stopJoin (t : Nat)
  deriving DecidableEq, Repr

/-- the methods to be overridden, modbus.py:1003-1013 -/
inductive SFct where
  | init
  | run
  | exit
  deriving DecidableEq, Repr

/-- what can be seen from outside -/
inductive SObs where
  /-- thread `t` called a method, which returned or raised -/
  | call (t : Nat) (f : SFct) (ok : Bool)
  | startDone
  /-- `RuntimeError: threads can only be started once` -/
  | startRaised
  /-- `stop` returns; `found`: it had found the thread alive -/
  | stopDone (found : Bool)
  /-- `RuntimeError: cannot join thread before it is started` -/
  | stopRaised
  deriving DecidableEq, Repr

/-- `Server.__init__`, modbus.py:994-1001, has made the thread 0 and the event 0 -/
structure ServerObj where
  /-- the thread objects -/
  phase : Nat → SPhase := fun _ => .fresh
  /-- the events -/
  go : Nat → Bool := fun _ => false
  /-- `self._thread` -/
  thread : Nat := 0
  /-- `self._go` -/
  event : Nat := 0
  nextThread : Nat := 1
  nextEvent : Nat := 1
  caller : SCaller := .idle
  log : List SObs := []

def ServerObj.see (s : ServerObj) (o : SObs) : ServerObj := { s with log := s.log ++ [o] }

/-- thread `t` goes on with `p` -/
def ServerObj.to (s : ServerObj) (t : Nat) (p : SPhase) : ServerObj := { s with phase := Function.update s.phase t p }

/-- the controlling thread goes on with `p` -/
def ServerObj.ctl (s : ServerObj) (p : SCaller) : ServerObj := { s with caller := p }

/-- `Server._run_server`, modbus.py:1062-1074, and `_make_thread`, modbus.py:1015-1018: the next action of thread `t`; `ok`: the method or
    hook called returns -/
def serverAct (s : ServerObj) (t : Nat) (ok : Bool) : Option ServerObj :=
  match s.phase t with
  | .fresh => none
  | .init => some ((s.to t (if ok then .test else .hook)).see (.call t .init ok))
  | .test => some (s.to t (.testGo s.event))
  | .testGo e => some (s.to t (if s.go e then .run else .exit))
  | .run => some ((s.to t (if ok then .test else .hook)).see (.call t .run ok))
  | .exit => some ((s.to t (if ok then .mkThread else .hook)).see (.call t .exit ok))
  | .hook => some (s.to t (if ok then .mkThread else .dead))
  | .mkThread => some { s.to t .mkGo with thread := s.nextThread, nextThread := s.nextThread + 1 }
  | .mkGo => some { s.to t .dead with event := s.nextEvent, nextEvent := s.nextEvent + 1 }
  | .dead => none

/-- is a thread in this phase alive? -/
def SPhase.alive (p : SPhase) : Bool := p ≠ .fresh ∧ p ≠ .dead

/-- `Server.start` and `Server.stop`, modbus.py:1051-1060: the next action of the controlling thread -/
def controlAct (s : ServerObj) : Option ServerObj :=
  match s.caller with
  | .idle => none
  | .startLoadGo => some (s.ctl (.startSet s.event))
  | .startSet e => some ({ s with go := Function.update s.go e true }.ctl .startLoadThread)
  | .startLoadThread => some (s.ctl (.startThread s.thread))
  | .startThread t =>
    if s.phase t = .fresh then some (((s.to t .init).ctl .idle).see .startDone)
    else some ((s.ctl .idle).see .startRaised)
  | .stopLoadThread => some (s.ctl (.stopAlive s.thread))
  | .stopAlive t =>
    if (s.phase t).alive then some (s.ctl .stopLoadGo) else some ((s.ctl .idle).see (.stopDone false))
  | .stopLoadGo => some (s.ctl (.stopClear s.event))
  | .stopClear e => some ({ s with go := Function.update s.go e false }.ctl .stopLoadJoin)
  | .stopLoadJoin => some (s.ctl (.stopJoin s.thread))
  | .stopJoin t =>
    if s.phase t = .fresh then some ((s.ctl .idle).see .stopRaised)
    else if s.phase t = .dead then some ((s.ctl .idle).see (.stopDone true))
    else none

/-- one action -/
inductive SEv where
  | callStart
  | callStop
  /-- the controlling thread does its next action -/
  | control
  /-- thread `t` of the server does its next action -/
  | server (t : Nat) (ok : Bool)
  deriving DecidableEq, Repr

/-- one step; `none`: not possible now -/
def serverStep (s : ServerObj) : SEv → Option ServerObj
  | .callStart => if s.caller = .idle then some (s.ctl .startLoadGo) else none
  | .callStop => if s.caller = .idle then some (s.ctl .stopLoadThread) else none
  | .control => controlAct s
  | .server t ok => serverAct s t ok

/-- an execution -/
def serverRun : ServerObj → List SEv → Option ServerObj
  | s, [] => some s
  | s, e :: es => match serverStep s e with
    | none => none
    | some s' => serverRun s' es

/-- `Server()`, modbus.py:994-1001 -/
def ServerObj.new : ServerObj := {}

end Modbus
