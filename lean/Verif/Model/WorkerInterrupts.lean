import Verif.Model.Worker
/-
# Model of `WorkerThread` (utils.py:195-230) whose `start` and `stop` are interrupted

Extends the transition system of Model/Worker by a `KeyboardInterrupt` (or another exception that is not a subclass of `Exception`) raised in a
thread that calls `start` or `stop`, before each of its actions.  A function of the worker that raises `SystemExit` is, as regards the calls, a
function that raises: `finally` at utils.py:228 is executed, only the line of the log is left out.
-/
namespace Modbus

/-- one action, interruptions included -/
inductive WIEv where
  /-- an action of Model/Worker -/
  | plain (e : WEv)
  /-- thread `c` leaves `start` or `stop` by an exception, before its next action, utils.py:206-214 -/
  | cut (c : Nat)
  /-- the same, while `Thread.start` waits for the thread it has just started, utils.py:209 -/
  | cutStarted (c : Nat)
  deriving DecidableEq, Repr

/-- one step, utils.py:206-230; `none`: not possible now -/
def workerIntStep (s : Worker) : WIEv → Option Worker
  | .plain e => workerStep s e
  | .cut c => if s.callers c = .idle then none else some (s.to c .idle)
  | .cutStarted c => if s.callers c = .startThread ∧ s.phase = .fresh then some ({ s with phase := .init }.to c .idle) else none

/-- an execution of the actions of utils.py:206-230, with interruptions -/
def workerIntRun : Worker → List WIEv → Option Worker
  | s, [] => some s
  | s, e :: es => match workerIntStep s e with
    | none => none
    | some s' => workerIntRun s' es

end Modbus
