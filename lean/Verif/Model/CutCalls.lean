import Verif.Model.Slave
/-
# Model of calls on a slave that are interrupted: `Slave.add_block`, `remove_block`, `remove_all_blocks`, `set_values` (modbus.py:776-871)

An exception that is not raised by the code itself (KeyboardInterrupt, the only one Python raises at arbitrary points; it ends the call in the main thread) leaves the data as the
actions made so far have left them; `with` releases the lock.  An action is one operation on a dictionary or a list (`d[k] = v`, `pop`, `clear`, `insert`, `remove`, one slice
assignment): CPython does not interrupt these for keys that are texts and numbers.  Making an object that nobody else has seen (the new block, the new list, the new slave) is part of
the action that stores it.
-/
namespace Modbus

/-- what a call does to `σ`: how it ends if it is not interrupted, and its actions in order -/
structure Plan (σ : Type) where
  result : Except PyErr Unit
  steps : List (σ → σ)

/-- the state if the call is interrupted after `k` actions -/
def Plan.cut {σ : Type} (p : Plan σ) (k : Nat) (s : σ) : σ := (p.steps.take k).foldl (fun s f => f s) s

/-- the state if it is not interrupted -/
def Plan.full {σ : Type} (p : Plan σ) (s : σ) : σ := p.steps.foldl (fun s f => f s) s

/-- `self._blocks[block_name] = (block_type, starting_address)`, modbus.py:807 -/
def registerName (name : String) (bt start : Int) (s : SlaveSt) : SlaveSt :=
  { s with sl := { s.sl with names := Dict.set s.sl.names name (bt, start) } }

/-- `self._memory[block_type].insert(index, ModbusBlock(...))`, modbus.py:809 -/
def insertBlock (r i : Nat) (start size : Int) (s : SlaveSt) : SlaveSt :=
  { s with heap := s.heap.setList r ((s.heap.lists r).insertIdx i (Block.new start size)) }

/-- `Slave.add_block`, modbus.py:776-809 -/
def addBlockPlan (name : String) (bt start size : Int) (s : SlaveSt) : Plan SlaveSt :=
  if size ≤ 0 then ⟨.error .invalidArgument, []⟩
  else if start < 0 then ⟨.error .invalidArgument, []⟩
  else if Dict.has s.sl.names name then ⟨.error .duplicatedKey, []⟩
  else
    match Dict.get? (s.heap.dicts s.sl.mem) bt with
    | none => ⟨.error .invalidModbusBlock, []⟩
    | some r =>
      match insertionIndex (s.heap.lists r) 0 start size with
      | none => ⟨.error .overlapBlock, []⟩
      | some i => ⟨.ok (), [registerName name bt start, insertBlock r i start size]⟩

/-- `self._blocks.pop(block_name)`, modbus.py:821 -/
def popName (name : String) (s : SlaveSt) : SlaveSt := { s with sl := { s.sl with names := Dict.erase s.sl.names name } }

/-- `self._memory[block_type].remove(block)`, modbus.py:822 -/
def dropBlock (b : BlockRef) (s : SlaveSt) : SlaveSt := { s with heap := s.heap.setList b.list ((s.heap.lists b.list).eraseIdx b.idx) }

/-- `Slave.remove_block`, modbus.py:811-822 -/
def removeBlockPlan (name : String) (s : SlaveSt) : Plan SlaveSt :=
  match getBlock s.sl name s.heap with
  | (.error e, _) => ⟨.error e, []⟩
  | (.ok b, _) => ⟨.ok (), [popName name, dropBlock b]⟩

/-- `self._blocks.clear()`, modbus.py:830 -/
def clearNames (s : SlaveSt) : SlaveSt := { s with sl := { s.sl with names := [] } }

/-- `self._memory[key] = []`, modbus.py:832 -/
def clearTable (key : Int) (s : SlaveSt) : SlaveSt :=
  { s with heap := { s.heap with
      lists := fun r => if r = s.heap.nextList then [] else s.heap.lists r
      dicts := fun d => if d = s.sl.mem then Dict.set (s.heap.dicts s.sl.mem) key s.heap.nextList else s.heap.dicts d
      nextList := s.heap.nextList + 1 } }

/-- `Slave.remove_all_blocks`, modbus.py:824-832 -/
def removeAllPlan (s : SlaveSt) : Plan SlaveSt := ⟨.ok (), clearNames :: (s.heap.dicts s.sl.mem).map fun p => clearTable p.1⟩

/-- `Slave.set_values`, modbus.py:844-871: the values are stored with one assignment (line 869 or 871) -/
def setValuesPlan (R : Registry) (name : String) (address : Int) (values : Values) (s : SlaveSt) : Plan SlaveSt :=
  match onHeap (setValues R name address values) s with
  | (.error e, _) => ⟨.error e, []⟩
  | (.ok _, s') => ⟨.ok (), [fun _ => s']⟩

/-- the calls that change a slave -/
inductive CutCall where
  | add (name : String) (bt start size : Int)
  | remove (name : String)
  | removeAll
  | set (name : String) (address : Int) (values : Values)

/-- the call, not interrupted -/
def CutCall.run (R : Registry) : CutCall → PyM SlaveSt Unit
  | .add name bt start size => addBlock name bt start size
  | .remove name => removeBlock name
  | .removeAll => removeAllBlocks
  | .set name a vs => onHeap (setValues R name a vs)

/-- its actions -/
def CutCall.plan (R : Registry) : CutCall → SlaveSt → Plan SlaveSt
  | .add name bt start size, s => addBlockPlan name bt start size s
  | .remove name, s => removeBlockPlan name s
  | .removeAll, s => removeAllPlan s
  | .set name a vs, s => setValuesPlan R name a vs s

/-- a program of calls; `some k`: the call is interrupted after `k` actions -/
def cutRun (R : Registry) : List (CutCall × Option Nat) → SlaveSt → SlaveSt
  | [], s => s
  | (c, none) :: rest, s => cutRun R rest (c.run R s).2
  | (c, some k) :: rest, s => cutRun R rest ((c.plan R s).cut k s)

end Modbus
