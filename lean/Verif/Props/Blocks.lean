import Verif.Lemmas.BlockApi
/-
# C01–C04: the block API of a slave
-/
namespace Modbus

/-! ## A concrete slave used by the non-vacuity examples -/

/-- a fresh slave with default memory -/
def freshSlave (unsigned : Bool) : SlaveSt :=
  let r := Slave.new 1 unsigned none Heap.empty
  ⟨r.1, r.2⟩

/-- the state after some calls, exceptions ignored -/
def after (s : SlaveSt) : List (PyM SlaveSt Unit) → SlaveSt
  | [] => s
  | m :: ms => after (m s).2 ms

/-- holding registers 10..14 and 20..22, coils 0..9 -/
def exSlave : SlaveSt :=
  after (freshSlave true) [addBlock "a" 3 10 5, addBlock "b" 3 20 3, addBlock "c" 1 0 10]

/-! ## C01 -/

/-- the cell at position `k` of the block number `i` of the list object `ref` -/
def cell (h : Heap) (ref i k : Nat) : Option Int := ((h.lists ref)[i]?).bind (fun b => b.data[k]?)

/-- C01 (read your write): after an accepted `set_values(name, a, vs)`, `get_values(name, a, len(vs))` is `vs`. -/
theorem C01_get_after_set {R : Registry} {name : String} {a : Int} {vs : Values} {sl : Slave} {h h' : Heap}
    (hwf : ∀ ref, ∀ b ∈ h.lists ref, b.WF)
    (he : setValues R name a vs sl h = (.ok (), h')) :
    getValues name a vs.toList.length sl h' = (.ok vs.toList, h') := by
  obtain ⟨b, blk, hg, hb, h0, hle, hh⟩ := setValues_ok he
  have hbw : blk.WF := hwf _ blk (List.mem_of_getElem? hb)
  have hlen := hbw.len
  rw [hh hbw]
  obtain ⟨_, bt, st, blk', hn, hr, hb', hst⟩ := getBlock_ok hg
  rw [hb] at hb'; cases hb'
  generalize hD : setMany blk.data (a - blk.start).toNat vs.toList = D
  have hg2 : getBlock sl name (h.setBlock b (blk.withData D)) = (.ok b, h.setBlock b (blk.withData D)) := by
    unfold getBlock at hg ⊢
    rw [hn] at hg ⊢
    simp only [setBlock_dicts, hr] at hg ⊢
    have e : ((h.setBlock b (blk.withData D)).lists b.list).findIdx? (fun x => decide (x.start = st))
        = (h.lists b.list).findIdx? (fun x => decide (x.start = st)) := by
      have h1 : ∀ L : List Block, L.findIdx? (fun x => decide (x.start = st))
          = (L.map (fun x => (x.start, x.size))).findIdx? (fun p => decide (p.1 = st)) := by
        intro L; rw [List.findIdx?_map]; rfl
      rw [h1, h1, setBlock_lists_same, regions_set hb]
    rw [e]
    cases hf : (h.lists b.list).findIdx? (fun x => decide (x.start = st)) with
    | none => rw [hf] at hg; simp at hg
    | some i =>
      rw [hf] at hg
      simp only [Prod.mk.injEq, Except.ok.injEq, and_true] at hg
      simp only [hg]
  have hb2 := block?_setBlock hb (blk.withData D)
  have hget : ∀ k, k < vs.toList.length →
      D.getD ((a - blk.start).toNat + k) 0 = vs.toList.getD k 0 := by
    intro k hk
    rw [← hD, setMany_getD _ _ _ (by omega), if_pos (by omega)]
    congr 1; omega
  simp only [getValues, PyM.bind_apply, hg2, PyM.get_apply, hb2]
  have hDl : D.length = blk.data.length := by rw [← hD]; simp
  rw [if_neg (show ¬ (a - (blk.withData D).start < 0 ∨
    a - (blk.withData D).start + (vs.toList.length : Int) > (blk.withData D).size) by
      simp only [withData_start, withData_size]; omega)]
  simp only [withData_start]
  split
  · rename_i h1
    have hone : vs.toList.length = 1 := by omega
    obtain ⟨v, hv⟩ := List.length_eq_one_iff.mp hone
    have hk := hget 0 (by omega)
    simp only [PyM.bind_apply, getItem, hb2]
    rw [if_neg (by omega), withData_data, List.getElem?_eq_getElem (show (a - blk.start).toNat < D.length by omega)]
    rw [List.getD_eq_getElem?_getD, Nat.add_zero,
      List.getElem?_eq_getElem (show (a - blk.start).toNat < D.length by omega), hv] at hk
    simp only [Option.getD_some] at hk
    simp only [PyM.pure_apply, hv, hk]
    simp
  · rw [getSlice_eq hb2, withData_data, pySlice_nonneg _ _ _ (by omega) (by omega) (by omega) (by omega)]
    refine Prod.ext ?_ rfl
    simp only
    congr 1
    apply List.ext_getElem
    · simp; omega
    · intro k h1 h2
      have hk := hget k h2
      rw [List.getD_eq_getElem?_getD, List.getElem?_eq_getElem (by simp at h1; omega),
        List.getD_eq_getElem?_getD, List.getElem?_eq_getElem h2] at hk
      simpa using hk

/-- C01 (frame): an accepted `set_values` writes the cells `a .. a+len(vs)-1` of the named block and no other cell of
    any block of any list; it also keeps the dictionaries and the shape of every list. -/
theorem C01_set_frame {R : Registry} {name : String} {a : Int} {vs : Values} {sl : Slave} {h h' : Heap}
    (hwf : ∀ ref, ∀ b ∈ h.lists ref, b.WF)
    (he : setValues R name a vs sl h = (.ok (), h')) :
    ∃ b blk, getBlock sl name h = (.ok b, h) ∧ h.block? b = some blk ∧
      blk.start ≤ a ∧ a + vs.toList.length ≤ blk.start + blk.size ∧
      (∀ k, k < vs.toList.length → cell h' b.list b.idx ((a - blk.start).toNat + k) = vs.toList[k]?) ∧
      (∀ ref i k : Nat, (ref, i) ≠ (b.list, b.idx) ∨ (k : Int) < a - blk.start ∨ a - blk.start + vs.toList.length ≤ k →
        cell h' ref i k = cell h ref i k) ∧
      (∀ ref, shape (h'.lists ref) = shape (h.lists ref)) ∧ h'.dicts = h.dicts := by
  obtain ⟨b, blk, hg, hb, h0, hle, hh⟩ := setValues_ok he
  have hbw : blk.WF := hwf _ blk (List.mem_of_getElem? hb)
  have hlen := hbw.len
  refine ⟨b, blk, hg, hb, by omega, by omega, ?_⟩
  rw [hh hbw]
  have hlt := block?_lt hb
  generalize hD : setMany blk.data (a - blk.start).toNat vs.toList = D
  have hDl : D.length = blk.data.length := by rw [← hD]; simp
  have hDk : ∀ k, k < D.length → D[k]? = some (D.getD k 0) := by
    intro k hk; rw [List.getD_eq_getElem?_getD, List.getElem?_eq_getElem hk]; rfl
  have hbb : (h.lists b.list)[b.idx]? = some blk := hb
  refine ⟨?_, ?_, ?_, rfl⟩
  · intro k hk
    unfold cell
    rw [setBlock_lists_same, List.getElem?_set_self hlt]
    simp only [Option.bind_some, withData_data]
    rw [hDk _ (by omega), ← hD, setMany_getD _ _ _ (by omega), if_pos (by omega),
      show (a - blk.start).toNat + k - (a - blk.start).toNat = k by omega,
      List.getD_eq_getElem?_getD, List.getElem?_eq_getElem hk]
    rfl
  · intro ref i k hcond
    unfold cell
    by_cases hr : ref = b.list
    · subst hr
      rw [setBlock_lists_same]
      by_cases hi : i = b.idx
      · subst hi
        have hcond' : (k : Int) < a - blk.start ∨ a - blk.start + vs.toList.length ≤ k := by simpa using hcond
        rw [List.getElem?_set_self hlt, hbb]
        simp only [Option.bind_some, withData_data]
        by_cases hk : k < D.length
        · rw [hDk k hk, ← hD, setMany_getD _ _ _ (by omega), if_neg (by omega), List.getD_eq_getElem?_getD,
            List.getElem?_eq_getElem (by omega)]; rfl
        · rw [List.getElem?_eq_none (by omega), List.getElem?_eq_none (by omega)]
      · rw [List.getElem?_set_ne (by omega)]
    · rw [setBlock_lists_other _ _ _ hr]
  · intro ref
    by_cases hr : ref = b.list
    · subst hr; rw [setBlock_lists_same]; exact shape_set hb hDl
    · rw [setBlock_lists_other _ _ _ hr]

/-- C01 (refusal): an access that is not entirely inside the named block raises OutOfModbusBlockError and changes
    nothing. -/
theorem C01_set_out_of_block (R : Registry) {name : String} (a : Int) (vs : Values) {sl : Slave} {h : Heap}
    {b : BlockRef} {blk : Block} (hg : getBlock sl name h = (.ok b, h)) (hb : h.block? b = some blk)
    (hout : ¬ (blk.start ≤ a ∧ a + vs.toList.length ≤ blk.start + blk.size)) :
    setValues R name a vs sl h = (.error .outOfBlock, h) := by
  simp only [setValues, PyM.bind_apply, hg, PyM.get_apply, hb]
  cases vs with
  | seq vs =>
    simp only [Values.toList] at hout
    simp only
    rw [if_pos (by omega)]; rfl
  | one v =>
    simp only [Values.toList, List.length_singleton] at hout
    simp only
    rw [if_pos (by omega)]; rfl

/-- C01 (refusal, reading). -/
theorem C01_get_out_of_block {name : String} (a n : Int) {sl : Slave} {h : Heap}
    {b : BlockRef} {blk : Block} (hg : getBlock sl name h = (.ok b, h)) (hb : h.block? b = some blk)
    (hout : ¬ (blk.start ≤ a ∧ a + n ≤ blk.start + blk.size)) :
    getValues name a n sl h = (.error .outOfBlock, h) := by
  simp only [getValues, PyM.bind_apply, hg, PyM.get_apply, hb]
  rw [if_pos (by omega)]; rfl

/-- C01 (reading): a `get_values` of `n ≥ 0` cells inside the block returns them in address order and changes
    nothing. -/
theorem C01_get_values {name : String} (a : Int) (n : Nat) {sl : Slave} {h : Heap}
    {b : BlockRef} {blk : Block} (hg : getBlock sl name h = (.ok b, h)) (hb : h.block? b = some blk) (hw : blk.WF)
    (hin : blk.start ≤ a ∧ a + n ≤ blk.start + blk.size) :
    ∃ vs, getValues name a n sl h = (.ok vs, h) ∧ vs.length = n ∧
      ∀ k, k < n → vs[k]? = cell h b.list b.idx ((a - blk.start).toNat + k) := by
  have hlen := hw.len
  have hbb : (h.lists b.list)[b.idx]? = some blk := hb
  simp only [getValues, PyM.bind_apply, hg, PyM.get_apply, hb]
  rw [if_neg (show ¬ (a - blk.start < 0 ∨ a - blk.start + (n : Int) > blk.size) by omega)]
  split
  · have hlt : (a - blk.start).toNat < blk.data.length := by omega
    refine ⟨[blk.data[(a - blk.start).toNat]], ?_, by simp; omega, ?_⟩
    · simp only [PyM.bind_apply, getItem, hb]
      rw [if_neg (by omega), List.getElem?_eq_getElem hlt]
      rfl
    · intro k hk
      have : k = 0 := by omega
      subst this
      simp [cell, hbb, List.getElem?_eq_getElem hlt]
  · refine ⟨_, getSlice_eq hb _ _, ?_, ?_⟩
    · rw [pySlice_nonneg _ _ _ (by omega) (by omega) (by omega) (by omega)]; simp; omega
    · intro k hk
      rw [pySlice_nonneg _ _ _ (by omega) (by omega) (by omega) (by omega)]
      simp only [cell, hbb, Option.bind_some]
      rw [List.getElem?_take_of_lt (by omega), List.getElem?_drop]

-- non-vacuity: a set_values that is accepted, and one that is refused
example : (setValues [] "a" 12 (.seq [7, -3]) exSlave.sl exSlave.heap).1 = .ok () := by decide
example : (getValues "a" 10 5 exSlave.sl (setValues [] "a" 12 (.seq [7, -3]) exSlave.sl exSlave.heap).2).1
    = .ok [0, 0, 7, -3, 0] := by decide
example : (setValues [] "a" 14 (.seq [7, -3]) exSlave.sl exSlave.heap).1 = .error .outOfBlock := by decide

/-! ## Histories of block operations -/

/-- a call of the block API -/
inductive BlockOp where
  | add (name : String) (bt start size : Int)
  | remove (name : String)
  | removeAll

/-- the call -/
def BlockOp.run : BlockOp → PyM SlaveSt Unit
  | .add name bt start size => addBlock name bt start size
  | .remove name => removeBlock name
  | .removeAll => removeAllBlocks

/-- the state after a history of calls; a refused call raises, the caller goes on -/
def history (s : SlaveSt) (ops : List BlockOp) : SlaveSt := after s (ops.map BlockOp.run)

theorem freshSlave_inv (u : Bool) : SlaveInv (freshSlave u) := by
  refine ⟨?_, ?_, ?_, ?_⟩
  · intro ref
    have : (freshSlave u).heap.lists ref = [] := by
      simp [freshSlave, Slave.new, Heap.allocMemory, Heap.empty]
    rw [this]; exact listWF_nil
  · intro bt bt' r h1 h2
    simp [freshSlave, Slave.new, Heap.allocMemory, Heap.empty, Dict.get?] at h1 h2
    grind
  · intro name bt st h
    simp [freshSlave, Slave.new, Dict.get?] at h
  · intro n1 n2 p h
    simp [freshSlave, Slave.new, Dict.get?] at h

theorem run_error {op : BlockOp} {s s' : SlaveSt} {e : PyErr} (h : op.run s = (.error e, s')) : s' = s := by
  cases op with
  | add name bt start size =>
    simp only [BlockOp.run, addBlock] at h
    split at h
    · simp at h; exact h.2.symm
    split at h
    · simp at h; exact h.2.symm
    split at h
    · simp at h; exact h.2.symm
    split at h
    · simp at h; exact h.2.symm
    split at h
    · simp at h; exact h.2.symm
    · simp at h
  | remove name =>
    simp only [BlockOp.run, removeBlock] at h
    split at h
    · simp at h; exact h.2.symm
    · simp at h
  | removeAll => simp [BlockOp.run, removeAllBlocks] at h

theorem blocksOf_add {name : String} {bt start size : Int} {s s' : SlaveSt} (hi : SlaveInv s)
    (h : addBlock name bt start size s = (.ok (), s')) :
    ∃ i, insertionIndex (blocksOf s.heap s.sl bt) 0 start size = some i ∧
      blocksOf s'.heap s'.sl bt = (blocksOf s.heap s.sl bt).insertIdx i (Block.new start size) ∧
      ∀ bt', bt' ≠ bt → blocksOf s'.heap s'.sl bt' = blocksOf s.heap s.sl bt' := by
  obtain ⟨hs, h0, hn, ref, i, hr, hidx, rfl⟩ := addBlock_ok h
  refine ⟨i, by simpa only [blocksOf, hr] using hidx, ?_, ?_⟩
  · simp only [blocksOf]
    have : (s.heap.setList ref ((s.heap.lists ref).insertIdx i (Block.new start size))).dicts s.sl.mem
      = s.heap.dicts s.sl.mem := rfl
    rw [this, hr]
    simp only [setList_lists, if_true]
  · intro bt' hne
    simp only [blocksOf]
    have : (s.heap.setList ref ((s.heap.lists ref).insertIdx i (Block.new start size))).dicts s.sl.mem
      = s.heap.dicts s.sl.mem := rfl
    rw [this]
    cases hg : Dict.get? (s.heap.dicts s.sl.mem) bt' with
    | none => rfl
    | some r' =>
      simp only [setList_lists]
      rw [if_neg]
      rintro rfl
      exact hne (hi.inj _ _ _ hg hr)

theorem blocksOf_remove {name : String} {s s' : SlaveSt} (h : removeBlock name s = (.ok (), s')) (bt : Int) :
    (blocksOf s'.heap s'.sl bt).Sublist (blocksOf s.heap s.sl bt) := by
  obtain ⟨b, hg, rfl⟩ := removeBlock_ok h
  simp only [blocksOf]
  have : (s.heap.setList b.list ((s.heap.lists b.list).eraseIdx b.idx)).dicts s.sl.mem = s.heap.dicts s.sl.mem := rfl
  rw [this]
  cases hg : Dict.get? (s.heap.dicts s.sl.mem) bt with
  | none => exact List.Sublist.refl _
  | some r' =>
    simp only [setList_lists]
    split
    · rename_i e; subst e; exact List.eraseIdx_sublist _ _
    · exact List.Sublist.refl _

theorem blocksOf_removeAll (s : SlaveSt) (bt : Int) :
    blocksOf (removeAllBlocks s).2.heap (removeAllBlocks s).2.sl bt = [] := by
  simp only [removeAllBlocks, blocksOf, if_true]
  split
  · rename_i r hr
    obtain ⟨h1, h2, _⟩ := get?_fresh _ _ 0 hr
    rw [if_pos ⟨by omega, by omega⟩]
  · rfl

/-! ## C02 -/

/-- the blocks of every type are pairwise disjoint -/
def BlocksDisjoint (s : SlaveSt) : Prop := ∀ bt, DisjointBlocks (blocksOf s.heap s.sl bt)

theorem SlaveInv.disjoint {s : SlaveSt} (hi : SlaveInv s) : BlocksDisjoint s := by
  intro bt
  unfold blocksOf
  split
  · exact (hi.wf _).disjoint
  · exact listWF_nil.disjoint

theorem SlaveInv.blocks {s : SlaveSt} (hi : SlaveInv s) (bt : Int) : ListWF (blocksOf s.heap s.sl bt) := by
  unfold blocksOf
  split
  · exact hi.wf _
  · exact listWF_nil

/-- C02 is false: three ordinary `add_block` calls leave two blocks of one type that share addresses.  The second call
    leaves the list unsorted (a block with the greatest address is inserted in front), and the third stops looking at
    the first block with a greater address. -/
theorem C02_false : ∃ ops : List BlockOp, ¬ BlocksDisjoint (history (freshSlave true) ops) := by
  refine ⟨[.add "A" 3 0 10, .add "B" 3 100 10, .add "C" 3 5 5], fun h => ?_⟩
  have h3 := h 3
  have e : blocksOf (history (freshSlave true) [.add "A" 3 0 10, .add "B" 3 100 10, .add "C" 3 5 5]).heap
      (history (freshSlave true) [.add "A" 3 0 10, .add "B" 3 100 10, .add "C" 3 5 5]).sl 3
      = [Block.new 5 5, Block.new 100 10, Block.new 0 10] := by decide
  rw [e] at h3
  unfold DisjointBlocks at h3
  rw [List.pairwise_cons] at h3
  exact h3.1 (Block.new 0 10) (by simp) 5 (by decide)

/-- the condition under which `add_block` looks at every block that matters: every block of the type starts at or
    below the new one, or the list of the type is sorted by address -/
def CarefulOp (s : SlaveSt) : BlockOp → Prop
  | .add _ bt start _ => (∀ b ∈ blocksOf s.heap s.sl bt, b.start ≤ start) ∨
      (blocksOf s.heap s.sl bt).Pairwise (fun b c => b.start < c.start)
  | _ => True

/-- every `add` of the history is careful in the state it is called in -/
def CarefulHistory (s : SlaveSt) : List BlockOp → Prop
  | [] => True
  | op :: ops => CarefulOp s op ∧ CarefulHistory (op.run s).2 ops

theorem noOverlap_of_careful {name : String} {bt start size : Int} {s s' : SlaveSt} (hi : SlaveInv s)
    (h : addBlock name bt start size s = (.ok (), s')) (hc : CarefulOp s (.add name bt start size)) :
    NoOverlap s bt start size := by
  obtain ⟨i, hidx, _⟩ := blocksOf_add hi h
  have hs := (addBlock_ok h).1
  intro b hb
  rw [← isIn_iff ((hi.blocks bt).blocks b hb).pos hs]
  rcases hc with hc | hc
  · have := insertionIndex_all hidx hc b hb; simp [this]
  · have := insertionIndex_sorted hidx hc b hb; simp [this]

theorem run_inv {s : SlaveSt} {op : BlockOp} (hi : SlaveInv s) (hc : CarefulOp s op) : SlaveInv (op.run s).2 := by
  cases hrun : op.run s with
  | mk r s' =>
    cases r with
    | error e => rw [run_error hrun]; exact hi
    | ok u =>
      cases op with
      | add name bt start size => exact addBlock_inv hi hrun (noOverlap_of_careful hi hrun hc)
      | remove name => exact removeBlock_inv hi hrun
      | removeAll =>
        have := removeAll_inv hi
        have e : (removeAllBlocks s).2 = s' := by
          have : removeAllBlocks s = (.ok u, s') := hrun
          rw [this]
        rw [← e]; exact this

theorem careful_inv {ops : List BlockOp} {s : SlaveSt} (hi : SlaveInv s) (hc : CarefulHistory s ops) :
    SlaveInv (history s ops) := by
  induction ops generalizing s with
  | nil => exact hi
  | cons op ops ih => exact ih (run_inv hi hc.1) hc.2

/-- C02, partial: the blocks of each type stay disjoint in every history of `add_block`/`remove_block`/
    `remove_all_blocks` calls whose additions are careful.  (Full property: every history; it is false.) -/
theorem C02_careful_partial (u : Bool) {ops : List BlockOp} (hc : CarefulHistory (freshSlave u) ops) :
    BlocksDisjoint (history (freshSlave u) ops) := (careful_inv (freshSlave_inv u) hc).disjoint

/-- the additions of each type come in ascending order of address -/
def Ascending (ops : List BlockOp) : Prop :=
  ops.Pairwise (fun x y => ∀ n bt st sz n' st' sz', x = .add n bt st sz → y = .add n' bt st' sz' → st ≤ st')

/-- the additions of each type come in descending order of address -/
def Descending (ops : List BlockOp) : Prop :=
  ops.Pairwise (fun x y => ∀ n bt st sz n' st' sz', x = .add n bt st sz → y = .add n' bt st' sz' → st' ≤ st)

theorem mem_run {op : BlockOp} {s : SlaveSt} (hi : SlaveInv s) {bt : Int} {b : Block}
    (hb : b ∈ blocksOf (op.run s).2.heap (op.run s).2.sl bt) :
    b ∈ blocksOf s.heap s.sl bt ∨ ∃ n sz, op = .add n bt b.start sz := by
  cases hrun : op.run s with
  | mk r s' =>
    rw [hrun] at hb
    cases r with
    | error e => rw [run_error hrun] at hb; exact .inl hb
    | ok u =>
      cases op with
      | add name bt' start size =>
        obtain ⟨i, h1, h2, h3⟩ := blocksOf_add hi hrun
        by_cases e : bt = bt'
        · subst e
          simp only [h2] at hb
          have := insertionIndex_le h1
          rcases (mem_insertIdx' (by omega)).mp hb with rfl | hb
          · exact .inr ⟨name, size, rfl⟩
          · exact .inl hb
        · simp only [h3 bt e] at hb; exact .inl hb
      | remove name => exact .inl ((blocksOf_remove hrun bt).subset hb)
      | removeAll =>
        have e : (removeAllBlocks s).2 = s' := by
          have : removeAllBlocks s = (.ok u, s') := hrun
          rw [this]
        simp only [← e, blocksOf_removeAll] at hb
        simp at hb

theorem ascending_careful {ops : List BlockOp} {s : SlaveSt} (hi : SlaveInv s) (ha : Ascending ops)
    (hs : ∀ bt, ∀ b ∈ blocksOf s.heap s.sl bt, ∀ n st sz, BlockOp.add n bt st sz ∈ ops → b.start ≤ st) :
    CarefulHistory s ops := by
  induction ops generalizing s with
  | nil => trivial
  | cons op ops ih =>
    unfold Ascending at ha
    rw [List.pairwise_cons] at ha
    have hc : CarefulOp s op := by
      cases op with
      | add n bt st sz => exact .inl (fun b hb => hs bt b hb n st sz (by simp))
      | remove _ => trivial
      | removeAll => trivial
    refine ⟨hc, ih (run_inv hi hc) ha.2 ?_⟩
    intro bt b hb n st sz hmem
    rcases mem_run hi hb with hb | ⟨n', sz', rfl⟩
    · exact hs bt b hb n st sz (by simp [hmem])
    · exact ha.1 _ hmem n' bt b.start sz' n st sz rfl rfl

/-- C02, partial: registering the blocks of each type in ascending address order is safe (removals may be
    interleaved anywhere). -/
theorem C02_ascending_partial (u : Bool) {ops : List BlockOp} (h : Ascending ops) :
    BlocksDisjoint (history (freshSlave u) ops) := by
  refine C02_careful_partial u (ascending_careful (freshSlave_inv u) h ?_)
  intro bt b hb
  have e : blocksOf (freshSlave u).heap (freshSlave u).sl bt = [] := by
    unfold blocksOf; split
    · simp [freshSlave, Slave.new, Heap.allocMemory, Heap.empty]
    · rfl
  rw [e] at hb; simp at hb

theorem descending_sorted {op : BlockOp} {s : SlaveSt} (hi : SlaveInv s) {bt : Int}
    (hsort : (blocksOf s.heap s.sl bt).Pairwise (fun b c => b.start < c.start))
    (hle : ∀ b ∈ blocksOf s.heap s.sl bt, ∀ n st sz, op = .add n bt st sz → st ≤ b.start) :
    (blocksOf (op.run s).2.heap (op.run s).2.sl bt).Pairwise (fun b c => b.start < c.start) := by
  cases hrun : op.run s with
  | mk r s' =>
    cases r with
    | error e => rw [run_error hrun]; exact hsort
    | ok u =>
      cases op with
      | add name bt' start size =>
        obtain ⟨i, h1, h2, h3⟩ := blocksOf_add hi hrun
        by_cases e : bt = bt'
        · subst e
          simp only [h2]
          cases hL : blocksOf s.heap s.sl bt with
          | nil =>
            rw [hL] at h1
            simp only [insertionIndex, Option.some.injEq] at h1
            subst h1; simp
          | cons b L =>
            rw [hL] at h1 hsort hle
            have hb := hle b (by simp) name start size rfl
            rw [insertionIndex] at h1
            split at h1
            · simp at h1
            · rename_i hin
              have hlt : start < b.start := by
                by_contra hcon
                apply hin
                unfold Block.isIn
                rw [if_neg (by omega), if_neg (by omega)]
              rw [if_pos hlt] at h1
              simp only [Option.some.injEq] at h1
              subst h1
              rw [List.insertIdx_zero, List.pairwise_cons]
              refine ⟨?_, hsort⟩
              intro c hc
              rw [List.pairwise_cons] at hsort
              rcases List.mem_cons.mp hc with rfl | hc
              · exact hlt
              · exact Int.lt_trans hlt (hsort.1 c hc)
        · simp only [h3 bt e]; exact hsort
      | remove name => exact hsort.sublist (blocksOf_remove hrun bt)
      | removeAll =>
        have e : (removeAllBlocks s).2 = s' := by
          have : removeAllBlocks s = (.ok u, s') := hrun
          rw [this]
        simp only [← e, blocksOf_removeAll]; exact List.Pairwise.nil

theorem descending_careful {ops : List BlockOp} {s : SlaveSt} (hi : SlaveInv s) (ha : Descending ops)
    (hsort : ∀ bt, (blocksOf s.heap s.sl bt).Pairwise (fun b c => b.start < c.start))
    (hs : ∀ bt, ∀ b ∈ blocksOf s.heap s.sl bt, ∀ n st sz, BlockOp.add n bt st sz ∈ ops → st ≤ b.start) :
    CarefulHistory s ops := by
  induction ops generalizing s with
  | nil => trivial
  | cons op ops ih =>
    unfold Descending at ha
    rw [List.pairwise_cons] at ha
    have hc : CarefulOp s op := by
      cases op with
      | add n bt st sz => exact .inr (hsort bt)
      | remove _ => trivial
      | removeAll => trivial
    refine ⟨hc, ih (run_inv hi hc) ha.2 ?_ ?_⟩
    · intro bt
      apply descending_sorted hi (hsort bt)
      rintro b hb n st sz rfl
      exact hs bt b hb n st sz (by simp)
    · intro bt b hb n st sz hmem
      rcases mem_run hi hb with hb | ⟨n', sz', rfl⟩
      · exact hs bt b hb n st sz (by simp [hmem])
      · exact ha.1 _ hmem n' bt b.start sz' n st sz rfl rfl

/-- C02, partial: registering the blocks of each type in descending address order is safe. -/
theorem C02_descending_partial (u : Bool) {ops : List BlockOp} (h : Descending ops) :
    BlocksDisjoint (history (freshSlave u) ops) := by
  have e : ∀ bt, blocksOf (freshSlave u).heap (freshSlave u).sl bt = [] := by
    intro bt
    unfold blocksOf; split
    · simp [freshSlave, Slave.new, Heap.allocMemory, Heap.empty]
    · rfl
  refine C02_careful_partial u (descending_careful (freshSlave_inv u) h ?_ ?_)
  · intro bt; rw [e]; exact List.Pairwise.nil
  · intro bt b hb; rw [e] at hb; simp at hb

-- non-vacuity: an ascending history with an accepted, a refused and a removed block
example : Ascending [.add "a" 3 0 10, .add "b" 3 5 2, .remove "a", .add "c" 3 5 2, .add "d" 1 0 4] := by
  simp [Ascending]; grind
example : blocksOf (history (freshSlave true)
      [.add "a" 3 0 10, .add "b" 3 5 2, .remove "a", .add "c" 3 5 2, .add "d" 1 0 4]).heap
    (history (freshSlave true) [.add "a" 3 0 10, .add "b" 3 5 2, .remove "a", .add "c" 3 5 2, .add "d" 1 0 4]).sl 3
    = [Block.new 5 2] := by decide
example : Descending [.add "a" 3 50 10, .add "b" 3 45 6, .add "c" 3 40 10, .add "d" 3 0 40] := by
  simp [Descending]; grind

/-- C02, what one call guarantees whatever the list looks like: the new block overlaps none of the blocks up to and
    including the first one with a greater address. -/
theorem C02_checked_prefix {name : String} {bt start size : Int} {s s' : SlaveSt}
    (hpos : ∀ b ∈ blocksOf s.heap s.sl bt, 0 < b.size)
    (h : addBlock name bt start size s = (.ok (), s')) (pre post : List Block)
    (hL : blocksOf s.heap s.sl bt = pre ++ post) (hpre : ∀ b ∈ pre, b.start ≤ start) :
    (∀ b ∈ pre, ¬ Overlaps b start size) ∧ ∀ b, post.head? = some b → ¬ Overlaps b start size := by
  obtain ⟨hs, h0, hn, ref, i, hr, hidx, rfl⟩ := addBlock_ok h
  have hidx' : insertionIndex (blocksOf s.heap s.sl bt) 0 start size = some i := by
    simpa only [blocksOf, hr] using hidx
  rw [hL] at hidx' hpos
  clear hL hidx hr h
  generalize (0 : Nat) = k at hidx'
  induction pre generalizing k with
  | nil =>
    refine ⟨by simp, ?_⟩
    intro b hb
    cases post with
    | nil => simp at hb
    | cons c post =>
      simp only [List.head?_cons, Option.some.injEq] at hb
      subst hb
      rw [← isIn_iff (hpos c (by simp)) hs]
      rw [List.nil_append, insertionIndex] at hidx'
      split at hidx'
      · simp at hidx'
      · assumption
  | cons c pre ih =>
    rw [List.cons_append, insertionIndex] at hidx'
    split at hidx'
    · simp at hidx'
    · rename_i hc
      have h1 := hpre c (by simp)
      rw [if_neg (by omega)] at hidx'
      have := ih (fun b hb => hpos b (by
        rw [List.cons_append]; exact List.mem_cons_of_mem _ hb)) (fun b hb => hpre b (by simp [hb])) (k+1) hidx'
      refine ⟨?_, this.2⟩
      intro b hb
      rcases List.mem_cons.mp hb with rfl | hb
      · rw [← isIn_iff (hpos b (by simp)) hs]; exact hc
      · exact this.1 b hb

/-! ## C03 -/

/-- the arguments are acceptable -/
def ArgsOk (start size : Int) : Prop := 0 < size ∧ 0 ≤ start

/-- the name is in use -/
def KnownName (s : SlaveSt) (name : String) : Prop := (Dict.get? s.sl.names name).isSome
/-- the block type exists in the memory -/
def KnownType (s : SlaveSt) (bt : Int) : Prop := (Dict.get? (s.heap.dicts s.sl.mem) bt).isSome

/-- C03: InvalidArgumentError exactly for a size <= 0 or a negative address. -/
theorem C03_invalid_argument (name : String) (bt start size : Int) (s : SlaveSt) :
    (addBlock name bt start size s).1 = .error .invalidArgument ↔ size ≤ 0 ∨ start < 0 := by
  unfold addBlock
  split
  · simp_all
  split
  · simp_all
  rename_i h1 h2
  simp only [h1, h2, or_self, iff_false]
  split
  · simp
  split
  · simp
  split <;> simp

/-- C03: DuplicatedKeyError exactly for a known name (after the argument checks). -/
theorem C03_duplicated_key (name : String) (bt start size : Int) (s : SlaveSt) :
    (addBlock name bt start size s).1 = .error .duplicatedKey ↔ ArgsOk start size ∧ KnownName s name := by
  unfold addBlock ArgsOk KnownName
  split
  · simp only [Except.error.injEq, reduceCtorEq, false_iff]; omega
  split
  · simp only [Except.error.injEq, reduceCtorEq, false_iff]; omega
  rename_i h1 h2
  have e : (0 < size ∧ 0 ≤ start) := by omega
  simp only [e, and_self, true_and]
  unfold Dict.has
  split
  · simp_all
  split
  · simp_all
  split <;> simp_all

/-- C03: InvalidModbusBlockError exactly for an unknown block type (after the other checks). -/
theorem C03_invalid_block (name : String) (bt start size : Int) (s : SlaveSt) :
    (addBlock name bt start size s).1 = .error .invalidModbusBlock ↔
      ArgsOk start size ∧ ¬ KnownName s name ∧ ¬ KnownType s bt := by
  unfold addBlock ArgsOk KnownName KnownType
  split
  · simp only [Except.error.injEq, reduceCtorEq, false_iff]; omega
  split
  · simp only [Except.error.injEq, reduceCtorEq, false_iff]; omega
  rename_i h1 h2
  have e : (0 < size ∧ 0 ≤ start) := by omega
  simp only [e, and_self, true_and]
  unfold Dict.has
  split
  · simp_all
  split
  · simp_all
  split <;> simp_all

/-- C03: OverlapModbusBlockError only if the new range shares an address with an existing block of that type, and
    after all the other checks passed. -/
theorem C03_overlap (name : String) (bt start size : Int) (s : SlaveSt)
    (hpos : ∀ b ∈ blocksOf s.heap s.sl bt, 0 < b.size)
    (h : (addBlock name bt start size s).1 = .error .overlapBlock) :
    ArgsOk start size ∧ ¬ KnownName s name ∧ KnownType s bt ∧
      ∃ b ∈ blocksOf s.heap s.sl bt, Overlaps b start size := by
  unfold addBlock at h
  split at h
  · simp at h
  split at h
  · simp at h
  split at h
  · simp at h
  rename_i h1 h2 h3
  split at h
  · simp at h
  rename_i r hr
  split at h
  · rename_i hidx
    obtain ⟨b, hb, hin⟩ := insertionIndex_none hidx
    have e : blocksOf s.heap s.sl bt = s.heap.lists r := by simp [blocksOf, hr]
    refine ⟨⟨by omega, by omega⟩, ?_, by simp [KnownType, hr], b, by rw [e]; exact hb, ?_⟩
    · simpa [KnownName, Dict.has] using h3
    · exact (isIn_iff (hpos b (by rw [e]; exact hb)) (by omega)).mp hin
  · simp at h

/-- C03: nothing else is refused — with good arguments, a new name, a known type and no overlap the block is added. -/
theorem C03_accepted (name : String) (bt start size : Int) (s : SlaveSt)
    (hpos : ∀ b ∈ blocksOf s.heap s.sl bt, 0 < b.size)
    (ha : ArgsOk start size) (hn : ¬ KnownName s name) (ht : KnownType s bt) (hno : NoOverlap s bt start size) :
    (addBlock name bt start size s).1 = .ok () := by
  unfold addBlock
  unfold ArgsOk at ha
  rw [if_neg (by omega), if_neg (by omega), if_neg (by simpa [KnownName, Dict.has] using hn)]
  unfold KnownType at ht
  cases hr : Dict.get? (s.heap.dicts s.sl.mem) bt with
  | none => simp [hr] at ht
  | some r =>
    have e : blocksOf s.heap s.sl bt = s.heap.lists r := by simp [blocksOf, hr]
    simp only
    split
    · rename_i hidx
      obtain ⟨b, hb, hin⟩ := insertionIndex_none hidx
      rw [← e] at hb
      exact absurd ((isIn_iff (hpos b hb) ha.1).mp hin) (hno b hb)
    · rfl

/-- C03: a refused call changes nothing. -/
theorem C03_refused_unchanged {name : String} {bt start size : Int} {s s' : SlaveSt} {e : PyErr}
    (h : addBlock name bt start size s = (.error e, s')) : s' = s :=
  run_error (op := .add name bt start size) h

-- non-vacuity: each of the outcomes occurs
example : (addBlock "z" 3 12 0 exSlave).1 = .error .invalidArgument := by decide
example : (addBlock "a" 3 40 1 exSlave).1 = .error .duplicatedKey := by decide
example : (addBlock "z" 9 40 1 exSlave).1 = .error .invalidModbusBlock := by decide
example : (addBlock "z" 3 18 4 exSlave).1 = .error .overlapBlock := by decide
example : (addBlock "z" 3 15 5 exSlave).1 = .ok () := by decide

/-! ## C04 -/

theorem lookup_none {s : SlaveSt} {name : String} (h : Dict.get? s.sl.names name = none) :
    lookup s name = .error .missingKey := by
  simp only [lookup, getBlock, h]

/-- in a slave in order, a registered name stands for a block of its type and address -/
theorem lookup_some {s : SlaveSt} (hi : SlaveInv s) {name : String} {bt st : Int}
    (h : Dict.get? s.sl.names name = some (bt, st)) :
    ∃ ref b, Dict.get? (s.heap.dicts s.sl.mem) bt = some ref ∧ b ∈ s.heap.lists ref ∧ b.start = st ∧
      lookup s name = .ok b := by
  obtain ⟨ref, b, hr, hb, hst⟩ := hi.named name bt st h
  refine ⟨ref, b, hr, hb, hst, ?_⟩
  subst hst
  exact lookup_of_mem h hr (hi.wf ref) hb

/-- C04 (add): the block just added is found under its name, with `size` cells all zero; every other name stands for
    what it stood for. -/
theorem C04_add_lookup_partial {name : String} {bt start size : Int} {s s' : SlaveSt} (hi : SlaveInv s)
    (h : addBlock name bt start size s = (.ok (), s')) (hno : NoOverlap s bt start size) :
    lookup s' name = .ok ⟨start, List.replicate size.toNat 0, size⟩ ∧
      ∀ n, n ≠ name → lookup s' n = lookup s n := by
  have hi' := addBlock_inv hi h hno
  obtain ⟨hs, h0, hn, ref, i, hr, hidx, rfl⟩ := addBlock_ok h
  have hile : i ≤ (s.heap.lists ref).length := by have := insertionIndex_le hidx; omega
  constructor
  · have hb : Block.new start size = ⟨start, List.replicate size.toNat 0, size⟩ := by
      simp [Block.new]; omega
    rw [← hb]
    refine lookup_of_mem (bt := bt) (ref := ref) ?_ hr (hi'.wf ref) ?_
    · simp [Dict.get?_set, Block.new]
    · rw [setList_lists, if_pos rfl]
      exact (mem_insertIdx' hile).mpr (.inl rfl)
  · intro n hne
    cases hg : Dict.get? s.sl.names n with
    | none =>
      rw [lookup_none hg]
      refine lookup_none ?_
      simp only [Dict.get?_set]
      rw [if_neg hne]
      exact hg
    | some p =>
      obtain ⟨bt2, st2⟩ := p
      obtain ⟨ref2, b, h1, h2, h3, h4⟩ := lookup_some hi hg
      rw [h4]
      subst h3
      refine lookup_of_mem (bt := bt2) (ref := ref2) ?_ h1 (hi'.wf ref2) ?_
      · simp only [Dict.get?_set]
        rw [if_neg hne]
        exact hg
      · rw [setList_lists]
        split
        · rename_i e; subst e; exact (mem_insertIdx' hile).mpr (.inr h2)
        · exact h2

/-- C04 (remove): a removed name is unknown; every other name stands for what it stood for. -/
theorem C04_remove_lookup_partial {name : String} {s s' : SlaveSt} (hi : SlaveInv s)
    (h : removeBlock name s = (.ok (), s')) :
    lookup s' name = .error .missingKey ∧ ¬ KnownName s' name ∧ ∀ n, n ≠ name → lookup s' n = lookup s n := by
  have hi' := removeBlock_inv hi h
  obtain ⟨b, hg, rfl⟩ := removeBlock_ok h
  obtain ⟨_, bt, st, blk, hn, hr, hb, hst⟩ := getBlock_ok hg
  have hfree : Dict.get? (Dict.erase s.sl.names name) name = none := by simp [Dict.get?_erase]
  refine ⟨lookup_none hfree, by simp [KnownName, hfree], ?_⟩
  intro n hne
  cases hg2 : Dict.get? s.sl.names n with
  | none =>
    rw [lookup_none hg2]
    refine lookup_none ?_
    simp only [Dict.get?_erase]
    split
    · rfl
    · exact hg2
  | some p =>
    obtain ⟨bt2, st2⟩ := p
    obtain ⟨ref2, c, h1, h2, h3, h4⟩ := lookup_some hi hg2
    rw [h4]
    subst h3
    refine lookup_of_mem (bt := bt2) (ref := ref2) ?_ h1 (hi'.wf ref2) ?_
    · simp only [Dict.get?_erase]
      rw [if_neg hne]
      exact hg2
    · rw [setList_lists]
      split
      · rename_i e; subst e
        refine mem_eraseIdx_of_ne hb h2 ?_
        rintro rfl
        have := hi.inj bt bt2 _ hr h1
        subst this
        exact hne (hi.uniq n name (bt, c.start) hg2 (by rw [hn, ← hst]))
      · exact h2

/-- C04 (remove): removing succeeds exactly for a known name; an unknown name raises MissingKeyError and changes
    nothing. -/
theorem C04_remove_known_partial {s : SlaveSt} (hi : SlaveInv s) (name : String) :
    (KnownName s name → (removeBlock name s).1 = .ok ()) ∧
    (¬ KnownName s name → removeBlock name s = (.error .missingKey, s)) := by
  constructor
  · intro hk
    unfold KnownName at hk
    cases hg : Dict.get? s.sl.names name with
    | none => simp [hg] at hk
    | some p =>
      obtain ⟨bt, st⟩ := p
      obtain ⟨ref, b, h1, h2, h3, h4⟩ := lookup_some hi hg
      subst h3
      obtain ⟨i, e1, e2⟩ := findIdx?_of_mem (hi.wf ref) h2
      simp only [removeBlock, getBlock, hg, h1, e1]
  · intro hk
    have : Dict.get? s.sl.names name = none := by simpa [KnownName] using hk
    simp only [removeBlock, getBlock, this]

/-- C04 (remove all): every name is unknown afterwards. -/
theorem C04_remove_all (s : SlaveSt) (name : String) :
    lookup (removeAllBlocks s).2 name = .error .missingKey ∧ (removeAllBlocks s).1 = .ok () :=
  ⟨lookup_none (by simp [removeAllBlocks, Dict.get?]), rfl⟩

/-- C04 (restore): adding a block and removing it again restores the slave. -/
theorem C04_add_remove_partial {name : String} {bt start size : Int} {s s' : SlaveSt} (hi : SlaveInv s)
    (h : addBlock name bt start size s = (.ok (), s')) (hno : NoOverlap s bt start size) :
    removeBlock name s' = (.ok (), s) := by
  have hi' := addBlock_inv hi h hno
  obtain ⟨hs, h0, hn, ref, i, hr, hidx, rfl⟩ := addBlock_ok h
  have hile : i ≤ (s.heap.lists ref).length := by have := insertionIndex_le hidx; omega
  have hw := hi'.wf ref
  simp only [setList_lists, if_true] at hw
  obtain ⟨j, e1, e2⟩ := findIdx?_of_mem hw ((mem_insertIdx' hile).mpr (.inl rfl))
  have hnew : ((s.heap.lists ref).insertIdx i (Block.new start size))[i]? = some (Block.new start size) := by
    simp [List.getElem?_insertIdx, hile]
  have hij : j = i := by
    rw [List.findIdx?_eq_some_iff_getElem] at e1
    obtain ⟨hj, _, hmin⟩ := e1
    have hilt : i < ((s.heap.lists ref).insertIdx i (Block.new start size)).length := by
      rw [List.length_insertIdx]; split <;> omega
    rcases Nat.lt_trichotomy j i with hlt | he | hgt
    · exfalso
      have hd := hw.disjoint
      unfold DisjointBlocks at hd
      rw [List.pairwise_iff_getElem] at hd
      refine hd j i hj hilt hlt start ⟨?_, ?_⟩
      · rw [List.getElem?_eq_getElem hj] at e2
        rw [Option.some.inj e2, block_new_contains hs]; omega
      · rw [List.getElem?_eq_getElem hilt] at hnew
        rw [Option.some.inj hnew, block_new_contains hs]; omega
    · exact he
    · have := hmin i hgt
      rw [List.getElem?_eq_getElem hilt] at hnew
      rw [Option.some.inj hnew] at this
      simp at this
  subst hij
  have hst : (Block.new start size).start = start := rfl
  rw [hst] at e1
  simp only [removeBlock, getBlock, Dict.get?_set, if_true]
  have hd : (s.heap.setList ref ((s.heap.lists ref).insertIdx j (Block.new start size))).dicts s.sl.mem
      = s.heap.dicts s.sl.mem := rfl
  simp only [hd, hr, setList_lists, if_true, e1]
  refine Prod.ext rfl ?_
  cases s with
  | mk sl heap =>
  cases sl with
  | mk id unsigned names mem =>
    simp only [SlaveSt.mk.injEq, Slave.mk.injEq, true_and, and_true]
    refine ⟨?_, ?_⟩
    · simp only at hn
      clear h hi hi' hno e1 e2 hnew hd hidx hile hw hr
      induction names with
      | nil => simp [Dict.set, Dict.erase]
      | cons p ns ih =>
        obtain ⟨k, v⟩ := p
        simp only [Dict.get?] at hn
        split at hn
        · simp at hn
        · rename_i hk
          simp only [Dict.set, if_neg hk, Dict.erase, ih hn]
    · apply Heap.ext'
      · funext r
        simp only [setList_lists]
        split
        · rename_i e; subst e
          rw [List.eraseIdx_insertIdx_self]
        · rfl
      · rfl
      · rfl
      · rfl

/-- C04 is false without the hypothesis that the new block overlaps no other: a second block with the *same* address
    can be registered, and then the first name stands for the second block — removing "A" removes "C". -/
theorem C04_false :
    let s := history (freshSlave true) [.add "A" 3 0 10, .add "B" 3 100 10, .add "C" 3 0 5]
    lookup s "A" = .ok (Block.new 0 5) ∧ lookup s "C" = .ok (Block.new 0 5) ∧
    (removeBlock "A" s).1 = .ok () ∧ lookup (removeBlock "A" s).2 "C" = .ok (Block.new 0 10) := by decide

-- non-vacuity: an add that meets the hypotheses, and its effect
example : NoOverlap exSlave 3 15 5 := by
  intro b hb
  have e : blocksOf exSlave.heap exSlave.sl 3 = [Block.new 20 3, Block.new 10 5] := by decide
  rw [e] at hb
  rintro ⟨a, h1, h2⟩
  simp only [List.mem_cons, List.not_mem_nil, or_false] at hb
  rcases hb with rfl | rfl <;> simp [Block.contains, Block.new] at h1 <;> omega
example : lookup (addBlock "z" 3 15 5 exSlave).2 "z" = .ok ⟨15, [0, 0, 0, 0, 0], 5⟩ := by decide
example : SlaveInv exSlave := by
  have : exSlave = history (freshSlave true) [.add "a" 3 10 5, .add "b" 3 20 3, .add "c" 1 0 10] := rfl
  rw [this]
  refine careful_inv (freshSlave_inv true) (ascending_careful (freshSlave_inv true) ?_ ?_)
  · simp [Ascending]; grind
  · intro bt b hb
    have e : blocksOf (freshSlave true).heap (freshSlave true).sl bt = [] := by
      unfold blocksOf; split
      · simp [freshSlave, Slave.new, Heap.allocMemory, Heap.empty]
      · rfl
    rw [e] at hb; simp at hb

end Modbus
