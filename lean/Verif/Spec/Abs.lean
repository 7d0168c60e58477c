import Verif.Spec.Modbus
import Verif.Model.Slave
/-
# The tables of a slave as seen from outside

The abstraction function from the model's heap of block lists to the specification's tables, and the
well-formedness of a slave's memory.
-/
namespace Modbus

/-- address `a` belongs to the block -/
def Block.contains (b : Block) (a : Int) : Prop := b.start ≤ a ∧ a < b.start + b.size

instance (b : Block) (a : Int) : Decidable (b.contains a) := by unfold Block.contains; infer_instance

/-- a block object as the constructor makes it: at least one cell, `size` is the number of cells -/
structure Block.WF (b : Block) : Prop where
  len : b.size = b.data.length
  pos : 0 < b.size

/-- no address belongs to two blocks -/
def DisjointBlocks (L : List Block) : Prop := L.Pairwise (fun b c => ∀ a, ¬ (b.contains a ∧ c.contains a))

/-- value of the cell at an address (0 where there is no cell) -/
def cellAt (L : List Block) (a : Int) : Int :=
  match L.find? (fun b => decide (b.contains a)) with
  | some b => b.data.getD (a - b.start).toNat 0
  | none => 0

/-- a block list as a table -/
def absTable (L : List Block) : Spec.Table :=
  { regions := L.map (fun b => (b.start, b.size)), val := cellAt L }

/-- the blocks a slave has for a block type -/
def blocksOf (h : Heap) (sl : Slave) (bt : Int) : List Block :=
  match Dict.get? (h.dicts sl.mem) bt with
  | some r => h.lists r
  | none => []

/-- the four tables of a slave -/
def absMem (h : Heap) (sl : Slave) : Spec.Mem :=
  { coils := absTable (blocksOf h sl defines.COILS)
    discrete := absTable (blocksOf h sl defines.DISCRETE_INPUTS)
    holding := absTable (blocksOf h sl defines.HOLDING_REGISTERS)
    input := absTable (blocksOf h sl defines.ANALOG_INPUTS) }

/-- the four list objects of a slave's memory -/
structure Refs where
  coils : Nat
  discrete : Nat
  holding : Nat
  input : Nat

/-- the memory dictionary of the slave maps the four block types to these list objects, which are distinct objects
    (as in the default memory, modbus.py:477-482) -/
structure HasRefs (h : Heap) (sl : Slave) (r : Refs) : Prop where
  coils : Dict.get? (h.dicts sl.mem) defines.COILS = some r.coils
  discrete : Dict.get? (h.dicts sl.mem) defines.DISCRETE_INPUTS = some r.discrete
  holding : Dict.get? (h.dicts sl.mem) defines.HOLDING_REGISTERS = some r.holding
  input : Dict.get? (h.dicts sl.mem) defines.ANALOG_INPUTS = some r.input
  distinct : [r.coils, r.discrete, r.holding, r.input].Nodup

/-- the blocks in a list are well formed and disjoint -/
structure ListWF (L : List Block) : Prop where
  blocks : ∀ b ∈ L, b.WF
  disjoint : DisjointBlocks L

/-- every cell of the list holds an integer a register of that signedness can represent -/
def ListFits (unsigned : Bool) (L : List Block) : Prop := ∀ b ∈ L, ∀ v ∈ b.data, Spec.fits unsigned v

/-- A slave in good order: its four tables are distinct lists of well-formed disjoint blocks and every register holds
    a value a register of the slave's signedness can represent. -/
structure Good (h : Heap) (sl : Slave) (r : Refs) : Prop where
  refs : HasRefs h sl r
  coils : ListWF (h.lists r.coils)
  discrete : ListWF (h.lists r.discrete)
  holding : ListWF (h.lists r.holding)
  input : ListWF (h.lists r.input)
  holdingFits : ListFits sl.unsigned (h.lists r.holding)
  inputFits : ListFits sl.unsigned (h.lists r.input)

end Modbus
