import Mathlib.Logic.Function.Basic
/-
# Model of `WorkerThread`, utils.py:195-230

A transition system: the worker thread and any number of threads calling `start` and `stop`; every statement (every access to the
event or the thread object) is one action, and the actions of different threads interleave arbitrarily.
Exceptions that are not subclasses of `Exception` (SystemExit, KeyboardInterrupt) are left out.
-/
namespace Modbus

/-- what the worker thread is about to do, utils.py:216-230 -/
inductive WPhase where
  /-- the thread object has not been started -/
  | fresh
  /-- `if self._fcts[0]: self._fcts[0](*self._args)` -/
  | init
  /-- `while self._go.isSet()` -/
  | test
  /-- `self._fcts[1](*self._args)` -/
  | main
  /-- `finally: if self._fcts[2]: self._fcts[2](*self._args)` -/
  | exit
  /-- the thread has ended -/
  | dead
  deriving DecidableEq, Repr

/-- the three functions given to the constructor -/
inductive WFct where
  | init
  | main
  | exit
  deriving DecidableEq, Repr

/-- what a calling thread is about to do, utils.py:206-214 -/
inductive WCaller where
  | idle
  /-- `self._go.set()` -/
  | startSet
  /-- `self._thread.start()` -/
  | startThread
  /-- `if self._thread.is_alive()` -/
  | stopAlive
  /-- `self._go.clear()` -/
  | stopClear
  /-- `self._thread.join()` -/
  | stopJoin
  deriving DecidableEq, Repr

/-- what can be seen from outside -/
inductive WObs where
  /-- a function was called and returned (`true`) or raised (`false`) -/
  | call (f : WFct) (ok : Bool)
  | startDone (c : Nat)
  /-- `RuntimeError: threads can only be started once` -/
  | startRaised (c : Nat)
  /-- `stop` returns; `found`: it had found the thread alive -/
  | stopDone (c : Nat) (found : Bool)
  deriving DecidableEq, Repr

structure Worker where
  /-- `init_fct` / `exit_fct` were given -/
  hasInit : Bool
  hasExit : Bool
  /-- the event `_go` -/
  go : Bool := false
  phase : WPhase := .fresh
  callers : Nat → WCaller := fun _ => .idle
  /-- everything that was observed, the oldest first -/
  log : List WObs := []

/-- one action -/
inductive WEv where
  /-- an idle thread calls `start` or `stop` -/
  | callStart (c : Nat)
  | callStop (c : Nat)
  /-- a calling thread does its next action -/
  | caller (c : Nat)
  /-- the worker thread does its next action; a called function returns (`true`) or raises (`false`) -/
  | worker (ok : Bool)
  deriving DecidableEq, Repr

/-- the calling thread `c` goes on with `p` -/
def Worker.to (s : Worker) (c : Nat) (p : WCaller) : Worker := { s with callers := Function.update s.callers c p }

def Worker.see (s : Worker) (o : WObs) : Worker := { s with log := s.log ++ [o] }

/-- the worker thread, utils.py:216-230 -/
def workerAct (s : Worker) (ok : Bool) : Option Worker :=
  match s.phase with
  | .fresh => none
  | .init =>
    if s.hasInit then
      some ({ s with phase := if ok then .test else .exit }.see (.call .init ok))
    else some { s with phase := .test }
  | .test => some { s with phase := if s.go then .main else .exit }
  | .main => some ({ s with phase := if ok then .test else .exit }.see (.call .main ok))
  | .exit =>
    if s.hasExit then some ({ s with phase := .dead }.see (.call .exit ok))
    else some { s with phase := .dead }
  | .dead => none

/-- a calling thread, utils.py:206-214; `join` waits until the thread has ended.  (`join` on a thread that was not started raises,
    but `is_alive` was true before.) -/
def callerAct (s : Worker) (c : Nat) : Option Worker :=
  match s.callers c with
  | .idle => none
  | .startSet => some ({ s with go := true }.to c .startThread)
  | .startThread =>
    if s.phase = .fresh then some (({ s with phase := .init }.to c .idle).see (.startDone c))
    else some ((s.to c .idle).see (.startRaised c))
  | .stopAlive =>
    if s.phase = .fresh ∨ s.phase = .dead then some ((s.to c .idle).see (.stopDone c false))
    else some (s.to c .stopClear)
  | .stopClear => some ({ s with go := false }.to c .stopJoin)
  | .stopJoin => if s.phase = .dead then some ((s.to c .idle).see (.stopDone c true)) else none

/-- one step; `none`: not possible now -/
def workerStep (s : Worker) : WEv → Option Worker
  | .callStart c => if s.callers c = .idle then some (s.to c .startSet) else none
  | .callStop c => if s.callers c = .idle then some (s.to c .stopAlive) else none
  | .caller c => callerAct s c
  | .worker ok => workerAct s ok

/-- an execution -/
def workerRun : Worker → List WEv → Option Worker
  | s, [] => some s
  | s, e :: es => match workerStep s e with
    | none => none
    | some s' => workerRun s' es

/-- `WorkerThread(main_fct, args, init_fct, exit_fct)`, utils.py:200-205 -/
def Worker.new (hasInit hasExit : Bool) : Worker := { hasInit := hasInit, hasExit := hasExit }

end Modbus
