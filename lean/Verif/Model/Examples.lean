import Verif.Model.Simulator
/-
# Models of examples/mysimu.py (a simulator with commands of its own) and examples/modbus_system_monitor.py (a thread that writes into a simulator)
-/
namespace Modbus

/-! ## mysimu.py -/

/-- the rule of mysimu.py:53-57: `values[1] = 1`, or `append(1)` -/
def ruleValues (address : Int) (values : List Int) : Except PyErr (List Int) :=
  if address = 0 then
    match values with
    | [] => .error .indexError
    | v :: vs =>
      if v > 30 then
        match vs with
        | [] => .ok (v :: vs ++ [1])
        | _ :: vs' => .ok (v :: 1 :: vs')
      else .ok (v :: vs)
  else .ok values

/-- `MySimulator.change_value`, mysimu.py:43-62 -/
def changeValue : SimCmd := fun args => do
  let address ← intArg args 1
  let values ← toInts (args.drop 2)
  let values ← PyM.lift (ruleValues address values)
  let s ← PyM.get
  onSlave 1 (onHeap (setValues s.hooks "foo" address (.seq values)))
  return some (tupleToStr values)

/-- `MySimulator.set_pi`, mysimu.py:64-82; the four bytes are `struct.pack("f", 3.14)` in the byte order of the machine.  `get_slave` comes before the calculation, which cannot fail. -/
def setPi (b0 b1 b2 b3 : UInt8) : SimCmd := fun args => do
  let address ← intArg args 1
  let s ← PyM.get
  onSlave 1 (onHeap (setValues s.hooks "foo" address (.seq [b0.toNat * 256 + b1.toNat, b2.toNat * 256 + b3.toNat])))
  let values ← onSlave 1 (onHeap (getValues "foo" address 2))
  return some (tupleToStr values)

/-- the commands of a `MySimulator`, mysimu.py:36-37 -/
def mySimuCmds (b0 b1 b2 b3 : UInt8) : List (Text × SimCmd) := addCommand (addCommand simCmds "cv".toList changeValue) "set_pi".toList (setPi b0 b1 b2 b3)

/-- the databank of a new `MySimulator`, mysimu.py:40-41 (on a server without slaves; HOLDING_REGISTERS = 3) -/
def mySimuInit : PyM SimSt Unit := do
  let _ ← onDb (addSlave 1 true none)
  onSlave 1 (addBlock "foo" 3 0 100)

/-! ## modbus_system_monitor.py -/

/-- a `SystemDataCollector`, modbus_system_monitor.py:28-34 -/
structure Collector where
  count : Int
  max : Int
  deriving DecidableEq, Repr

/-- modbus_system_monitor.py:30-34 (`_count = _max_count - 1`) -/
def Collector.new (refreshRate : Int) : Collector := ⟨refreshRate * 10 - 1, refreshRate * 10⟩

/-- modbus_system_monitor.py:48 (`int(str(value)) if value else 0`) -/
def loadOf (value : Option Int) : Int :=
  match value with
  | some v => if v ≠ 0 then v else 0
  | none => 0

/-- the loop of modbus_system_monitor.py:46-51 over `zip(cpu, range(10))`; a processor gives its load (None counts as 0), or an exception of the system -/
def writeLoads {W : Type} (set : Int → Int → PyM W Unit) : List (Except PyErr (Option Int)) → Int → PyM W Unit
  | [], _ => pure ()
  | cpu :: cpus, i =>
    if i ≥ 10 then pure ()
    else do
      let value ← PyM.lift cpu
      set i (loadOf value)
      writeLoads set cpus (i + 1)

/-- `SystemDataCollector.collect`, modbus_system_monitor.py:36-54, without the sleep: what it wrote stays when an exception is logged -/
def collectData {W : Type} (cpus : PyM W (List (Except PyErr (Option Int)))) (set : Int → Int → PyM W Unit) (s : Collector × W) : Collector × W :=
  let count := s.1.count + 1
  if count ≥ s.1.max then
    let r := (do let l ← cpus; writeLoads set l 0 : PyM W Unit) s.2
    (⟨0, s.1.max⟩, r.2)
  else (⟨count, s.1.max⟩, s.2)

/-- the worker thread calls `collect` again and again -/
def collects {W : Type} (cpus : PyM W (List (Except PyErr (Option Int)))) (set : Int → Int → PyM W Unit) : Nat → Collector × W → Collector × W
  | 0, s => s
  | n + 1, s => collects cpus set n (collectData cpus set s)

/-- the call of the simulator's client, modbus_system_monitor.py:51 -/
def setCpu (errText : PyErr → Text) (i v : Int) : PyM SimSt Unit := do
  let _ ← rpcSetValues simCmds errText 1 "Cpu".toList i [v]

end Modbus
