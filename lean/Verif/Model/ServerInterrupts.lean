import Verif.Model.ServerThread
/-
# Model of `Server.start` and `Server.stop` interrupted by Ctrl-C, and of server threads ended by `SystemExit` (modbus.py:1051-1074)

Extends the transition system of Model/ServerThread by the exceptions that are not subclasses of `Exception`: a `KeyboardInterrupt` may be
raised in the controlling thread before each of its actions (and thus leaves `start` or `stop`), and a method or the hook called in a server
thread may raise `SystemExit`, which `except Exception` at modbus.py:1070 does not catch, so the thread ends without `_make_thread`.
-/
namespace Modbus

/-- one action, interruptions included -/
inductive SIEv where
  /-- an action of Model/ServerThread -/
  | plain (e : SEv)
  /-- the controlling thread leaves `start` or `stop` by an exception, before its next action -/
  | cut
  /-- the same, while `Thread.start` waits for the thread it has just started, modbus.py:1054 -/
  | cutStarted
  /-- the method (or the hook) thread `t` is about to call raises `SystemExit`, modbus.py:1064-1072 -/
  | exits (t : Nat)
  deriving DecidableEq, Repr

/-- `Server._run_server`, modbus.py:1062-1074, when what thread `t` calls raises `SystemExit`: neither the rest of the `try` block nor the
    handler nor `_make_thread` is executed -/
def serverExits (s : ServerObj) (t : Nat) : Option ServerObj :=
  match s.phase t with
  | .init => some ((s.to t .dead).see (.call t .init false))
  | .run => some ((s.to t .dead).see (.call t .run false))
  | .exit => some ((s.to t .dead).see (.call t .exit false))
  | .hook => some (s.to t .dead)
  | _ => none

/-- `Server.start`, modbus.py:1051-1054: `Thread.start` has started the thread but is interrupted while it waits for it -/
def startCut (s : ServerObj) : Option ServerObj :=
  match s.caller with
  | .startThread t => if s.phase t = .fresh then some ((s.to t .init).ctl .idle) else none
  | _ => none

/-- one step, modbus.py:1051-1074; `none`: not possible now -/
def serverIntStep (s : ServerObj) : SIEv → Option ServerObj
  | .plain e => serverStep s e
  | .cut => if s.caller = .idle then none else some (s.ctl .idle)
  | .cutStarted => startCut s
  | .exits t => serverExits s t

/-- an execution of the actions of modbus.py:1051-1074, with interruptions -/
def serverIntRun : ServerObj → List SIEv → Option ServerObj
  | s, [] => some s
  | s, e :: es => match serverIntStep s e with
    | none => none
    | some s' => serverIntRun s' es

end Modbus
