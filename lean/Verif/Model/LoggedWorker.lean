import Verif.Model.Worker
import Verif.Model.Verbose
import Verif.Model.SharedLine
/-
# The remaining log lines: `WorkerThread._run` (utils.py:216-230), `RtuMaster.__init__` and `RtuServer.__init__` (modbus_rtu.py:92, 196)
-/
namespace Modbus

/-- the line of utils.py:227; `txt` is `str(excpt)` -/
def workerLine (txt : PyErr → Text) (e : PyErr) : Text := "error: ".toList ++ txt e

/-- a `WorkerThread` and the log -/
structure LWorker where
  w : Worker
  /-- the lines that were written -/
  lines : List Text := []
  /-- the exception the `except` clause caught (for observation only) -/
  caught : Option PyErr := none
  /-- the exception the handler of the log raised in the `except` clause; it goes on after `finally` -/
  pending : Option PyErr := none
  /-- the exception that ended the thread -/
  escaped : Option PyErr := none

/-- as `WEv`; a function called by the worker thread returns (`none`) or raises -/
inductive LWEv where
  | callStart (c : Nat)
  | callStop (c : Nat)
  | caller (c : Nat)
  | worker (r : Option PyErr)
  deriving DecidableEq, Repr

/-- the `except` clause, utils.py:226-227 -/
def LWorker.except (lg : Logger) (txt : PyErr → Text) (e : PyErr) (s : LWorker) : LWorker :=
  match lg s.lines (workerLine txt e) with
  | none => { s with caught := some e, lines := s.lines ++ [workerLine txt e] }
  | some x => { s with caught := some e, pending := some x }

/-- a function returned or raised, utils.py:219-227 -/
def LWorker.after (lg : Logger) (txt : PyErr → Text) (r : Option PyErr) (f : WFct) (s : LWorker) : LWorker :=
  match r with
  | none => { s with w := { s.w with phase := .test }.see (.call f true) }
  | some e => { s with w := { s.w with phase := .exit }.see (.call f false) }.except lg txt e

/-- the worker thread, utils.py:216-230; an exception of the exit function replaces the one that is on its way -/
def lWorkerAct (lg : Logger) (txt : PyErr → Text) (s : LWorker) (r : Option PyErr) : Option LWorker :=
  match s.w.phase with
  | .fresh => none
  | .init => if s.w.hasInit then some (s.after lg txt r .init) else some { s with w := { s.w with phase := .test } }
  | .test => some { s with w := { s.w with phase := if s.w.go then .main else .exit } }
  | .main => some (s.after lg txt r .main)
  | .exit =>
    if s.w.hasExit then
      match r with
      | none => some { s with w := { s.w with phase := .dead }.see (.call .exit true), escaped := s.pending }
      | some e => some { s with w := { s.w with phase := .dead }.see (.call .exit false), escaped := some e }
    else some { s with w := { s.w with phase := .dead }, escaped := s.pending }
  | .dead => none

/-- one step; `none`: not possible now -/
def lWorkerStep (lg : Logger) (txt : PyErr → Text) (s : LWorker) : LWEv → Option LWorker
  | .callStart c => (workerStep s.w (.callStart c)).map fun w => { s with w := w }
  | .callStop c => (workerStep s.w (.callStop c)).map fun w => { s with w := w }
  | .caller c => (workerStep s.w (.caller c)).map fun w => { s with w := w }
  | .worker r => lWorkerAct lg txt s r

/-- an execution -/
def lWorkerRun (lg : Logger) (txt : PyErr → Text) : LWorker → List LWEv → Option LWorker
  | s, [] => some s
  | s, e :: es => match lWorkerStep lg txt s e with
    | none => none
    | some s' => lWorkerRun lg txt s' es

/-- the lines of modbus_rtu.py:92 and 196; `name` is the name of the port -/
def portLine (kind name : Text) (p : Port) : Text := kind ++ name ++ (if p.isOpen then " is opened".toList else " is closed".toList)

/-- `RtuMaster.__init__`, modbus_rtu.py:88-104, with its log line; see `rtuMasterNew` -/
def lRtuMasterNew (lg : Logger) (name : Text) (i : Nat) (t : Nat) : PyM (SharedLine × List Text) Unit := fun s => (do
  logLine lg (portLine "RtuMaster ".toList name s.1.port)
  unlogged (rtuMasterNew i t)) s

/-- `RtuServer.__init__`, modbus_rtu.py:180-203, with its log line, on a port `p`; `t`: the time-out `interframe_multiplier * t0`.  The result is the port
    and, if the constructor ends, the server. -/
def lRtuServerNew (lg : Logger) (name : Text) (h : Heap) (t : Nat) : PyM (Port × List Text) RtuSrv := fun s => (do
  logLine lg (portLine "RtuServer ".toList name s.1)
  unlogged (portSetTimeout (some t))
  (fun s' => (.ok ⟨h, s'.1, t, false⟩, s') : PyM (Port × List Text) RtuSrv)) s

end Modbus
