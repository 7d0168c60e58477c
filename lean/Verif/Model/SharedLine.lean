import Verif.Model.Rtu
/-
# Several objects on one serial port, and destructors

A `serial.Serial` object is given to the constructors of `RtuMaster` and `RtuServer`; nothing prevents a program from giving it to
several of them - typically when a master is made anew to change its settings.  Every master remembers by itself whether it has
opened the port.  The lock of `execute` is shared by all masters (`threadsafe_function`, utils.py:23-57), so calls do not interleave.
-/
namespace Modbus

/-- Any number of `RtuMaster` objects, numbered, on one port: what each of them remembers (`_is_opened`, modbus.py:87, and the
    attributes of `RtuCfg`), the port, and the class variable `TcpQuery._last_transaction_id`. -/
structure SharedLine where
  port : Port
  opened : Nat → Bool := fun _ => false
  cfg : Nat → RtuCfg := fun _ => {}
  lastTid : Int := 0

/-- a method of master `i`: it sees its own flag and the common port -/
def SharedLine.by {α} (i : Nat) (f : PyM (MasterSt Port) α) : PyM SharedLine α := fun s =>
  let r := f ⟨s.opened i, s.port, s.lastTid⟩
  (r.1, { s with port := r.2.link, lastTid := r.2.lastTid, opened := fun j => if j = i then r.2.isOpened else s.opened j })

/-- `RtuMaster.__init__`, modbus_rtu.py:88-104, with `t` the time-out `interframe_multiplier * t0` set at line 100: the new master is not
    opened, and the port - whether open or not - gets its time-out.  (Hardware options of the port other than the time-out are
    not modelled, as in `Port`; a zero or negative time-out: `Model/ClockedRtu`.) -/
def rtuMasterNew (i : Nat) (t : Nat) : PyM SharedLine Unit := fun s =>
  (.ok (), { s with port := { s.port with timeout := some t }, opened := fun j => if j = i then false else s.opened j,
                    cfg := fun j => if j = i then {} else s.cfg j })

/-- `Master.__del__`, modbus.py:89-91: called when the last reference to the master is dropped.  Python ignores (and prints) an exception
    raised by a destructor. -/
def masterDel {σ : Type} (ch : Chan σ) : PyM (MasterSt σ) Unit := fun s => (.ok (), (masterClose ch s).2)

/-- `RtuServer.__del__`, modbus_rtu.py:218-220: likewise.  (The thread of a server holds a reference to it: the
    destructor is called only when the thread has ended, or was never started.) -/
def rtuServerDel (R : Registry) : PyM RtuSrv Unit := fun s => (.ok (), (rtuExit R s).2)

/-- what a program may do with the masters -/
inductive LineOp where
  /-- `master_i = RtuMaster(port, ...)` with the time-out `t` (the object numbered `i` before has been dropped before) -/
  | new (i : Nat) (t : Nat)
  | open (i : Nat)
  | close (i : Nat)
  | exec (i : Nat) (a : ExecArgs)
  /-- the last reference to master `i` is dropped -/
  | drop (i : Nat)

/-- the master an operation is about -/
def LineOp.master : LineOp → Nat
  | .new i _ | .open i | .close i | .exec i _ | .drop i => i

/-- one operation: the value of an `execute` (none for the others), or the exception -/
def lineStep (R : Registry) : LineOp → PyM SharedLine (Option ExecResult)
  | .new i t => do rtuMasterNew i t; return none
  | .open i => fun s => (do SharedLine.by i (masterOpen (rtuChan R (s.cfg i))); return none : PyM SharedLine _) s
  | .close i => fun s => (do SharedLine.by i (masterClose (rtuChan R (s.cfg i))); return none : PyM SharedLine _) s
  | .exec i a => fun s => (do let r ← SharedLine.by i (execute R rtuMac (rtuChan R (s.cfg i)) a); return some r : PyM SharedLine _) s
  | .drop i => fun s => (do SharedLine.by i (masterDel (rtuChan R (s.cfg i))); return none : PyM SharedLine _) s

/-- a program: what every operation returned or raised (the program catches exceptions and goes on), and the state at the end -/
def lineRun (R : Registry) : List LineOp → SharedLine → List (Except PyErr (Option ExecResult)) × SharedLine
  | [], s => ([], s)
  | op :: ops, s =>
    let r := lineStep R op s
    let rest := lineRun R ops r.2
    (r.1 :: rest.1, rest.2)

end Modbus
