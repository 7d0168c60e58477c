import Verif.Lemmas.Handlers
import Verif.Props.AnyLayout
/-
# C85: whatever objects the cells hold

`set_values` stores any Python objects in the cells, the handlers read them.  `Model/Slave.lean` has integer cells only; here are the same handlers (proved the same over
integers: `generic_handle`) over cells that hold integers or other objects.
-/
namespace Modbus
open Spec (word toWord ofWord fits wordAt bitAt packBits bytesFor)

/-! ## Specification -/

/-- the blocks of a table -/
def oBlocksOf (h : OHeap) (sl : Slave) (t : Int) : List OBlock :=
  match Dict.get? (h.dicts sl.mem) t with
  | some r => h.lists r
  | none => []

/-- the block has as many cells as it says -/
def OBlock.Whole (b : OBlock) : Prop := b.size = b.data.length

/-- position of the first block of the table that contains the range -/
def oAddressed (L : List OBlock) (a n : Int) : Option Nat := L.findIdx? fun b => decide (b.start ≤ a ∧ a + n ≤ b.start + b.size)

/-- the `n` cells of the block from address `a` on -/
def OBlock.cells (b : OBlock) (a : Int) (n : Nat) : List PyObj := (b.data.drop (a - b.start).toNat).take n

/-- the block with other objects from address `a` on -/
def OBlock.overwritten (b : OBlock) (a : Int) (vs : List PyObj) : OBlock :=
  { b with data := b.data.take (a - b.start).toNat ++ vs ++ b.data.drop ((a - b.start).toNat + vs.length) }

/-- the table after a store in its block number `i`; every other list of the heap is as before -/
def OHeap.stored (h : OHeap) (sl : Slave) (t : Int) (i : Nat) (a : Int) (vs : List PyObj) : OHeap :=
  match Dict.get? (h.dicts sl.mem) t with
  | some r => { h with lists := fun r' => if r' = r then (h.lists r).modify i (fun b => b.overwritten a vs) else h.lists r' }
  | none => h

/-- the object is an integer a register can represent -/
def PyObj.Packs (u : Bool) : PyObj → Prop
  | .int n => fits u n
  | .other _ _ => False

/-- its 16-bit word -/
def PyObj.toWord : PyObj → UInt16
  | .int n => Spec.toWord n
  | .other _ _ => 0

/-- some cell of the heap holds an object that is not an integer -/
def OHeap.HoldsOther (h : OHeap) : Prop := ∃ r, ∃ b ∈ h.lists r, ∃ v ∈ b.data, ∃ t k, v = .other t k

/-- the heap seen through a numbering of the objects -/
def OBlock.seen (ι : PyObj → Int) (b : OBlock) : Block := ⟨b.start, b.data.map ι, b.size⟩
def OHeap.seen (ι : PyObj → Int) (h : OHeap) : Heap := ⟨fun r => (h.lists r).map (OBlock.seen ι), h.dicts, 0, 0⟩

/-- a numbering: integers are themselves -/
def Numbering (ι : PyObj → Int) : Prop := ∀ n, ι (.int n) = n
/-- it respects `bool(v)` -/
def Truthful (ι : PyObj → Int) : Prop := ∀ v : PyObj, v.truth = decide (ι v ≠ 0)

/-! ## Lemmas -/

section
variable {R : Registry} {sl : Slave} {ι : PyObj → Int}

theorem oFind_seen (L : List OBlock) (a n : Int) : findBlock (L.map (OBlock.seen ι)) a n = oFindBlock L a n := by
  induction L with
  | nil => rfl
  | cons b L ih => rw [List.map_cons, findBlock, oFindBlock, ih]; rfl

theorem seen_block (h : OHeap) (b : BlockRef) : (h.seen ι).block? b = (h.block? b).map (OBlock.seen ι) := by
  simp [OHeap.seen, Heap.block?, OHeap.block?]

theorem seen_setBlock (h : OHeap) (b : BlockRef) (blk : OBlock) : (h.setBlock b blk).seen ι = (h.seen ι).setBlock b (blk.seen ι) := by
  simp only [OHeap.seen, OHeap.setBlock, Heap.setBlock, Heap.setList, Heap.mk.injEq, and_true]
  funext r
  by_cases hr : r = b.list
  · rw [if_pos hr, if_pos hr, List.map_set]
  · rw [if_neg hr, if_neg hr]

theorem pySlice_map {α β : Type} (f : α → β) (l : List α) (i j : Int) : pySlice (l.map f) i j = (pySlice l i j).map f := by
  simp [pySlice, slice, List.map_take, List.map_drop]

theorem pySlice_mem {α : Type} {l : List α} {i j : Int} {v : α} (h : v ∈ pySlice l i j) : v ∈ l :=
  List.mem_of_mem_take (List.mem_of_mem_drop h)

theorem pack_same (hι : Numbering ι) (n : Int) (c : Code) : structPack (be [c]) [ι (.int n)] = PyObj.pack c (.int n) := by rw [hι]; rfl

theorem objSim (R : Registry) (sl : Slave) (hι : Numbering ι) : EnvSim (objEnv R sl) (intEnv R sl) (OHeap.seen ι) ι OHeap.HoldsOther (Truthful ι) where
  unsigned := rfl
  hook := fun _ _ _ => HSim.lift _
  hookKeeps := fun _ _ _ => rfl
  locate := by
    intro t a n s
    left
    show getBlockAndOffset sl t a n (s.seen ι) = (((oLocate sl t a n s).1).map id, (oLocate sl t a n s).2.seen ι)
    have e : (s.seen ι).dicts = s.dicts := rfl
    unfold getBlockAndOffset oLocate
    simp only [PyM.bind_apply, memRef, oMemRef, e, PyM.get_apply]
    cases Dict.get? (s.dicts sl.mem) t with
    | none => rfl
    | some r =>
      dsimp only
      have e2 : findBlock ((s.seen ι).lists r) a n = oFindBlock (s.lists r) a n := oFind_seen _ _ _
      rw [e2]
      cases oFindBlock (s.lists r) a n <;> rfl
  locateKeeps := by
    intro t a n s
    show (oLocate sl t a n s).2 = s
    unfold oLocate
    simp only [PyM.bind_apply, oMemRef, PyM.get_apply]
    cases Dict.get? (s.dicts sl.mem) t with
    | none => rfl
    | some r => dsimp only; cases oFindBlock (s.lists r) a n <;> rfl
  slice := by
    intro b i j s
    left
    show getSlice b i j (s.seen ι) = ((oSlice b i j s).1.map _, (oSlice b i j s).2.seen ι)
    unfold getSlice oSlice
    rw [seen_block]
    cases s.block? b with
    | none => rfl
    | some blk => simp only [Option.map_some, OBlock.seen, pySlice_map]; rfl
  sliceKeeps := by
    intro b i j s
    show (oSlice b i j s).2 = s
    unfold oSlice
    cases s.block? b <;> rfl
  item := by
    intro b i s
    left
    show getItem b i (s.seen ι) = ((oItem b i s).1.map _, (oItem b i s).2.seen ι)
    unfold getItem oItem
    rw [seen_block]
    cases s.block? b with
    | none => rfl
    | some blk =>
      simp only [Option.map_some, OBlock.seen, List.getElem?_map]
      by_cases hi : i < 0
      · simp only [if_pos hi]; rfl
      · simp only [if_neg hi]
        cases blk.data[i.toNat]? <;> rfl
  itemKeeps := by
    intro b i s
    show (oItem b i s).2 = s
    unfold oItem
    cases s.block? b with
    | none => rfl
    | some blk =>
      dsimp only
      cases (if i < 0 then none else blk.data[i.toNat]?) <;> rfl
  assign := by
    intro b i n s
    left
    show setItem R b i n (s.seen ι) = ((oAssign R b i (.int n) s).1.map id, (oAssign R b i (.int n) s).2.seen ι)
    unfold setItem oAssign
    rw [seen_block]
    cases s.block? b with
    | none => rfl
    | some blk =>
      simp only [Option.map_some, OBlock.seen, oHookArg, List.reverse_cons, List.reverse_nil, List.nil_append]
      cases callHooks R "modbus.ModbusBlock.setitem" (.setitem blk.start i [n]) with
      | error e => rfl
      | ok v =>
        simp only [List.length_map]
        by_cases hi : 0 ≤ i ∧ i < blk.data.length
        · rw [if_pos hi, if_pos hi]
          simp only [seen_setBlock, OBlock.seen, List.map_set, hι n]
          rfl
        · rw [if_neg hi, if_neg hi]; rfl
  truth := fun hT v => (hT v).symm
  pack := by
    intro s b i j vs hs v hv
    cases v with
    | int n => left; intro c; exact pack_same hι n c
    | other t k =>
      right
      refine ⟨?_, fun c => rfl⟩
      replace hs : oSlice b i j s = (.ok vs, s) := hs
      unfold oSlice at hs
      cases hb : s.block? b with
      | none => rw [hb] at hs; simp at hs
      | some blk =>
        rw [hb] at hs
        simp only [Prod.mk.injEq, Except.ok.injEq, and_true] at hs
        rw [← hs] at hv
        exact ⟨b.list, blk, List.mem_of_getElem? hb, _, pySlice_mem hv, t, k, rfl⟩
  mask := by
    intro s b i v hs x y
    cases v with
    | int n => left; show Except.ok _ = Except.ok _; rw [hι]
    | other t k =>
      right
      refine ⟨?_, rfl⟩
      replace hs : oItem b i s = (.ok _, s) := hs
      unfold oItem at hs
      cases hb : s.block? b with
      | none => rw [hb] at hs; simp at hs
      | some blk =>
        rw [hb] at hs
        dsimp only at hs
        by_cases hi : i < 0
        · rw [if_pos hi] at hs; simp at hs
        · rw [if_neg hi] at hs
          cases hd : blk.data[i.toNat]? with
          | none => rw [hd] at hs; simp at hs
          | some w =>
            rw [hd] at hs
            simp only [Prod.mk.injEq, Except.ok.injEq, and_true] at hs
            subst hs
            exact ⟨b.list, blk, List.mem_of_getElem? hb, _, List.mem_of_getElem? hd, t, k, rfl⟩

/-! ### The pictures determine the objects -/

/-- two objects that differ get different numbers from some numbering -/
theorem separated {v w : PyObj} (h : v ≠ w) : ∃ ι, Numbering ι ∧ ι v ≠ ι w := by
  cases v with
  | int n =>
    cases w with
    | int k => exact ⟨fun o => match o with | .int n => n | .other _ _ => 0, fun _ => rfl, fun e => h (by simpa using e)⟩
    | other t k => exact ⟨fun o => match o with | .int n => n | .other _ _ => n + 1, fun _ => rfl, by simp⟩
  | other t k =>
    cases w with
    | int n => exact ⟨fun o => match o with | .int n => n | .other _ _ => n + 1, fun _ => rfl, by simp⟩
    | other t' k' =>
      refine ⟨fun o => match o with | .int n => n | .other a b => if a = t ∧ b = k then 0 else 1, fun _ => rfl, ?_⟩
      have : ¬ (t' = t ∧ k' = k) := by rintro ⟨rfl, rfl⟩; exact h rfl
      simp [this]

theorem numbers_inj {v w : PyObj} (h : ∀ ι, Numbering ι → ι v = ι w) : v = w := by
  apply Classical.byContradiction
  intro hne
  obtain ⟨ι, h1, h2⟩ := separated hne
  exact h2 (h ι h1)

theorem pictures_data {l l' : List PyObj} (h : ∀ ι, Numbering ι → l.map ι = l'.map ι) : l = l' := by
  induction l generalizing l' with
  | nil =>
    have := h (fun o => match o with | .int n => n | .other _ _ => 0) (fun _ => rfl)
    cases l' with
    | nil => rfl
    | cons _ _ => simp at this
  | cons v l ih =>
    cases l' with
    | nil =>
      have := h (fun o => match o with | .int n => n | .other _ _ => 0) (fun _ => rfl)
      simp at this
    | cons w l' =>
      have h1 : v = w := numbers_inj fun ι hι => by have := h ι hι; simp at this; exact this.1
      have h2 : l = l' := ih fun ι hι => by have := h ι hι; simp only [List.map_cons, List.cons.injEq] at this; exact this.2
      rw [h1, h2]

theorem pictures_block {b b' : OBlock} (h : ∀ ι, Numbering ι → b.seen ι = b'.seen ι) : b = b' := by
  have h0 := h (fun o => match o with | .int n => n | .other _ _ => 0) (fun _ => rfl)
  have h1 : b.data = b'.data := pictures_data fun ι hι => by have := h ι hι; simp only [OBlock.seen, Block.mk.injEq] at this; exact this.2.1
  simp only [OBlock.seen, Block.mk.injEq] at h0
  cases b; cases b'
  simp only at h0 h1
  simp only [OBlock.mk.injEq]
  exact ⟨h0.1, h1, h0.2.2⟩

theorem pictures_blocks {L L' : List OBlock} (h : ∀ ι, Numbering ι → L.map (OBlock.seen ι) = L'.map (OBlock.seen ι)) : L = L' := by
  have h0 := h (fun o => match o with | .int n => n | .other _ _ => 0) (fun _ => rfl)
  induction L generalizing L' with
  | nil =>
    cases L' with
    | nil => rfl
    | cons _ _ => simp at h0
  | cons v l ih =>
    cases L' with
    | nil => simp at h0
    | cons w l' =>
      have h1 : v = w := pictures_block fun ι hι => by have := h ι hι; simp only [List.map_cons, List.cons.injEq] at this; exact this.1
      have h2 : l = l' := by
        refine ih (fun ι hι => ?_) ?_
        · have := h ι hι; simp only [List.map_cons, List.cons.injEq] at this; exact this.2
        · simp only [List.map_cons, List.cons.injEq] at h0; exact h0.2
      rw [h1, h2]

theorem pictures {h h' : OHeap} (e : ∀ ι, Numbering ι → h.seen ι = h'.seen ι) : h = h' := by
  have h0 := e (fun o => match o with | .int n => n | .other _ _ => 0) (fun _ => rfl)
  have h1 : h.lists = h'.lists := by
    funext r
    refine pictures_blocks fun ι hι => ?_
    have := e ι hι
    simp only [OHeap.seen, Heap.mk.injEq] at this
    exact congrFun this.1 r
  simp only [OHeap.seen, Heap.mk.injEq] at h0
  cases h; cases h'
  simp only at h0 h1
  simp only [OHeap.mk.injEq]
  exact ⟨h1, h0.2.1⟩

/-- what happens in every picture happens -/
theorem exact_of_pictures {α : Type} {h : OHeap} {f : PyM OHeap α} {g : PyM Heap α} (hs : ∀ ι, Numbering ι → HSim (OHeap.seen ι) id False h f g) {r : Except PyErr α} {H' : OHeap}
    (hg : ∀ ι, Numbering ι → g (h.seen ι) = (r, H'.seen ι)) : f h = (r, H') := by
  have key : ∀ ι, Numbering ι → (f h).1 = r ∧ (f h).2.seen ι = H'.seen ι := by
    intro ι hι
    rcases hs ι hι with e | ⟨b, _⟩
    · rw [hg ι hι, Prod.mk.injEq] at e
      refine ⟨?_, e.2.symm⟩
      rw [e.1]
      cases (f h).1 <;> rfl
    · exact b.elim
  have h0 := key (fun o => match o with | .int n => n | .other _ _ => 0) (fun _ => rfl)
  have h1 : (f h).2 = H' := pictures fun ι hι => (key ι hι).2
  exact Prod.ext h0.1 h1

/-! ### Evaluation -/

theorem objHook_quiet (hR : Quiet R) (name : String) (a : HookArg) (h : OHeap) : (objEnv R sl).hook_ name a h = (.ok (), h) := by
  unfold Env.hook_
  have e : (objEnv R sl).hook name a h = (callHooks R name a, h) := rfl
  rw [PyM.bind_apply, e, hR]
  rfl

theorem oHandle_ok (hR : Quiet R) {fc : UInt8} {rest : Bytes} {f : Bytes → PyM OHeap Bytes} (hf : gFnCodeMap (objEnv R sl) fc.toNat = some f) {d : Bytes} {h h' : OHeap}
    (hd : d ≠ []) (he : f (fc :: rest) h = (.ok d, h')) : oHandleRequest R sl (fc :: rest) false h = (.ok (fc :: d), h') := by
  have hs : Modbus.slice (fc :: rest) 0 1 = [fc] := by simp [Modbus.slice]
  have hu : unpackSingle Code.B [fc] = .ok (fc.toNat : Int) := by rw [unpackSingle_ok rfl, unpackOne_B]
  unfold oHandleRequest gHandleRequest
  have e0 : (objEnv R sl).hook "modbus.Slave.handle_request" (.msg (fc :: rest)) h = (.ok none, h) := by
    show (callHooks R _ _, h) = _
    rw [hR]
  rw [e0]
  simp only [hs, hu, PyM.bind_apply, PyM.lift_apply, PyM.tryExcept_apply, gDispatch, hf, Bool.false_eq_true, false_and, if_false, he, hd, ne_eq,
    not_false_eq_true, if_true, packB_u8, PyM.pure_apply]
  rfl

theorem oHandle_fails (hR : Quiet R) {fc : UInt8} {rest : Bytes} {f : Bytes → PyM OHeap Bytes} (hf : gFnCodeMap (objEnv R sl) fc.toNat = some f) {h : OHeap} {x : PyErr}
    (hx : x = .structError ∨ x = .typeError) (he : f (fc :: rest) h = (.error x, h)) : oHandleRequest R sl (fc :: rest) false h = (.error x, h) := by
  have hs : Modbus.slice (fc :: rest) 0 1 = [fc] := by simp [Modbus.slice]
  have hu : unpackSingle Code.B [fc] = .ok (fc.toNat : Int) := by rw [unpackSingle_ok rfl, unpackOne_B]
  unfold oHandleRequest gHandleRequest
  have e0 : (objEnv R sl).hook "modbus.Slave.handle_request" (.msg (fc :: rest)) h = (.ok none, h) := by
    show (callHooks R _ _, h) = _
    rw [hR]
  rw [e0]
  simp only [hs, hu, PyM.bind_apply, PyM.lift_apply, PyM.tryExcept_apply, gDispatch, hf, Bool.false_eq_true, false_and, if_false, he]
  rcases hx with rfl | rfl <;> rfl

theorem oFind_addressed {L : List OBlock} {a n : Int} {i : Nat} {b : OBlock} (h : oAddressed L a n = some i) (hb : L[i]? = some b) :
    oFindBlock L a n = some (i, a - b.start) ∧ b.start ≤ a ∧ a + n ≤ b.start + b.size := by
  have h' : addressed (L.map (OBlock.seen fun _ => 0)) a n = some i := by
    unfold addressed oAddressed at *
    rw [List.findIdx?_map]
    exact h
  obtain ⟨c, h1, -, h3, h4, h5⟩ := findBlock_addressed h'
  rw [oFind_seen] at h3
  rw [List.getElem?_map, hb] at h1
  cases h1
  exact ⟨h3, h4, h5⟩

/-- what is known of an addressed block -/
structure OFound (h : OHeap) (sl : Slave) (t : Int) (i : Nat) (a n : Int) (b : OBlock) where
  ref : Nat
  dict : Dict.get? (h.dicts sl.mem) t = some ref
  isBlk : h.block? ⟨ref, i⟩ = some b
  locate : oLocate sl t a n h = (.ok (⟨ref, i⟩, a - b.start), h)
  lo : b.start ≤ a
  hi : a + n ≤ b.start + b.size

theorem oFound {h : OHeap} {t : Int} {i : Nat} {a n : Int} {b : OBlock} (hi : oAddressed (oBlocksOf h sl t) a n = some i) (hb : (oBlocksOf h sl t)[i]? = some b) :
    Nonempty (OFound h sl t i a n b) := by
  unfold oBlocksOf at hi hb
  cases hd : Dict.get? (h.dicts sl.mem) t with
  | none => rw [hd] at hb; simp at hb
  | some r =>
    rw [hd] at hi hb
    obtain ⟨h1, h2, h3⟩ := oFind_addressed hi hb
    exact ⟨⟨r, hd, hb, by simp [oLocate, oMemRef, hd, h1], h2, h3⟩⟩

theorem OFound.sliced {h : OHeap} {t : Int} {i : Nat} {a : Int} {n : Nat} {b : OBlock} (f : OFound h sl t i a n b) (hw : b.Whole) :
    oSlice ⟨f.ref, i⟩ (a - b.start) (a - b.start + n) h = (.ok (b.cells a n), h) := by
  have h1 := f.lo
  have h2 := f.hi
  unfold OBlock.Whole at hw
  unfold oSlice
  rw [f.isBlk]
  dsimp only
  rw [pySlice_nonneg _ _ _ (by omega) (by omega) (by omega) (by omega)]
  unfold OBlock.cells
  rw [show (a - b.start + (n : Int)).toNat - (a - b.start).toNat = n by omega]

theorem OFound.stored {h : OHeap} {t : Int} {i : Nat} {a n : Int} {b : OBlock} (f : OFound h sl t i a n b) (vs : List PyObj) :
    h.setBlock ⟨f.ref, i⟩ (b.overwritten a vs) = h.stored sl t i a vs := by
  unfold OHeap.stored OHeap.setBlock
  rw [f.dict]
  dsimp only
  have hb : (h.lists f.ref)[i]? = some b := f.isBlk
  have : (h.lists f.ref).set i (b.overwritten a vs) = (h.lists f.ref).modify i (fun b => b.overwritten a vs) := by
    apply List.ext_getElem?
    intro k
    rw [List.getElem?_modify, List.getElem?_set]
    by_cases hk : i = k
    · subst hk
      rw [if_pos rfl, hb]
      have : i < (h.lists f.ref).length := by
        rw [List.getElem?_eq_some_iff] at hb; exact hb.1
      simp [this]
    · rw [if_neg hk]
      cases (h.lists f.ref)[k]? <;> simp [hk]
  rw [this]

/-- a single assignment -/
theorem OFound.assign {h : OHeap} {t : Int} {i : Nat} {a : Int} {b : OBlock} (hR : Quiet R) (f : OFound h sl t i a 1 b) (hw : b.Whole) (v : PyObj) :
    oAssign R ⟨f.ref, i⟩ (a - b.start) v h = (.ok (), h.stored sl t i a [v]) := by
  have h1 := f.lo
  have h2 := f.hi
  unfold OBlock.Whole at hw
  unfold oAssign
  rw [f.isBlk]
  dsimp only
  rw [hR]
  dsimp only
  rw [if_pos (by omega), ← f.stored]
  unfold OBlock.overwritten
  have : b.data.set (a - b.start).toNat v = b.data.take (a - b.start).toNat ++ [v] ++ b.data.drop ((a - b.start).toNat + [v].length) := by
    rw [List.set_eq_take_append_cons_drop, if_pos (by omega)]
    simp
  rw [this]

theorem overwritten_seen {b : OBlock} {a : Int} {vs : List Int} (hι : Numbering ι) (h0 : b.start ≤ a) (h1 : a + vs.length ≤ b.start + b.data.length) :
    (b.overwritten a (vs.map .int)).seen ι = (b.seen ι).withData (setMany (b.seen ι).data (a - b.start).toNat vs) := by
  rw [setMany_eq _ _ _ (by simp only [OBlock.seen, List.length_map]; omega)]
  have e : (vs.map PyObj.int).map ι = vs := by rw [List.map_map]; exact (List.map_congr_left fun x _ => hι x).trans (List.map_id _)
  simp only [OBlock.seen, OBlock.overwritten, Block.withData, List.map_append, List.map_take, List.map_drop, List.length_map, e]

/-- the loop over the words of a request -/
theorem OFound.words {h : OHeap} {t : Int} {i : Nat} {a : Int} {n : Nat} {b : OBlock} (hR : Quiet R) (f : OFound h sl t i a n b) (hw : b.Whole) (pre p : Bytes) (hp : p.length = 2 * n) :
    gWriteRegsLoop (objEnv R sl) (regCode sl) ⟨f.ref, i⟩ (a - b.start) (pre ++ p) pre.length n 0 0 h =
      (.ok (n : Int), h.stored sl t i a ((Spec.payloadValues sl.unsigned p n).map .int)) := by
  have h1 := f.lo
  have h2 := f.hi
  unfold OBlock.Whole at hw
  rw [← f.stored]
  refine exact_of_pictures (fun ι hι => gWriteRegsLoop_sim (objSim R sl hι) _ _ _ _ _ _ _ _ h) (fun ι hι => ?_)
  have hb : (h.seen ι).block? ⟨f.ref, i⟩ = some (b.seen ι) := by rw [seen_block, f.isBlk]; rfl
  have hlen : (b.seen ι).data.length = b.data.length := by simp [OBlock.seen]
  have hav : regsAvail (pre ++ p) pre.length 0 n = n := by
    unfold regsAvail; rw [List.length_append]; omega
  have hvs : (List.range n).map (fun k => regAt (regCode sl) (pre ++ p) pre.length (0 + k)) = Spec.payloadValues sl.unsigned p n := by
    unfold Spec.payloadValues
    apply List.map_congr_left
    intro k hk
    have := List.mem_range.mp hk
    rw [Nat.zero_add]
    exact regAt_payload sl (by omega)
  rw [generic_regsLoop, writeRegsLoop_eq hR (regCode_size sl) (by omega) n 0 0 hb (by omega), hav, hvs, if_pos rfl, seen_setBlock,
    overwritten_seen hι h1 (by simp only [Spec.payloadValues, List.length_map, List.length_range]; omega)]
  simp

/-- the loops over the bits of a request -/
theorem OFound.bits {h : OHeap} {t : Int} {i : Nat} {a : Int} {n : Nat} {b : OBlock} (hR : Quiet R) (f : OFound h sl t i a n b) (hw : b.Whole) (pre p : Bytes) (hpre : pre.length = 6)
    (hp : p.length = bytesFor n) :
    gWriteCoilsOuter (objEnv R sl) (if sl.unsigned then Code.B else Code.b) ⟨f.ref, i⟩ (a - b.start) n (pre ++ p) (List.range (bytesFor n)) 0 h =
      (.ok (n : Int), h.stored sl t i a ((Spec.payloadBits p n).map .int)) := by
  have h1 := f.lo
  have h2 := f.hi
  unfold OBlock.Whole at hw
  rw [← f.stored]
  refine exact_of_pictures (fun ι hι => gWriteCoilsOuter_sim (objSim R sl hι) _ _ _ _ _ _ _ h) (fun ι hι => ?_)
  have hb : (h.seen ι).block? ⟨f.ref, i⟩ = some (b.seen ι) := by rw [seen_block, f.isBlk]; rfl
  have hlen : (b.seen ι).data.length = b.data.length := by simp [OBlock.seen]
  have hcs : (if sl.unsigned then Code.B else Code.b).size = 1 := by split <;> rfl
  have hpf : p.length = (n + 7) / 8 := hp
  have hbf : bytesFor n = (n + 7) / 8 := rfl
  have hloop := writeCoilsOuter_eq hR hcs (off := a - b.start) (by omega) n (pdu := pre ++ p) (bytesFor n) 0 hb (by omega)
  rw [← List.range_eq_range', show ((min (8*0) n : Nat) : Int) = 0 by simp] at hloop
  have hend : coilEnd (pre ++ p) 0 (bytesFor n) = bytesFor n := by
    unfold coilEnd; rw [List.length_append]; omega
  have hmin : min (8 * bytesFor n) n = n := by omega
  have hvs : (List.range n).map (fun k => coilAt (if sl.unsigned then Code.B else Code.b) (pre ++ p) (8*0 + k)) = Spec.payloadBits p n := by
    unfold Spec.payloadBits
    apply List.map_congr_left
    intro k hk
    have := List.mem_range.mp hk
    rw [Nat.mul_zero, Nat.zero_add]
    exact coilAt_payload sl.unsigned hpre (by omega)
  rw [hend, hmin, show min (8*0) n = 0 by simp, Nat.sub_zero, hvs, Nat.add_zero, if_neg (show ¬ (bytesFor n < 0 + bytesFor n ∧ 8 * bytesFor n < n) by omega), show min (8 * (0 + bytesFor n)) n = n by omega] at hloop
  rw [generic_outer, hloop, seen_setBlock, overwritten_seen hι h1 (by simp only [Spec.payloadBits, List.length_map, List.length_range]; omega)]

/-- packing the registers -/
theorem oPackRegs_ok {vs : List PyObj} (h : ∀ v ∈ vs, v.Packs sl.unsigned) (acc : Bytes) :
    gPackRegs PyObj.pack (regCode sl) vs acc = .ok (acc ++ vs.flatMap fun v => word v.toWord) := by
  induction vs generalizing acc with
  | nil => simp [gPackRegs]
  | cons v vs ih =>
    have hv := h v (by simp)
    cases v with
    | other t k => exact hv.elim
    | int n =>
      rw [gPackRegs, PyObj.pack, packReg_eq hv, except_bind_ok, ih (fun x hx => h x (by simp [hx]))]
      simp [PyObj.toWord]

theorem packReg_bad {n : Int} (h : ¬ fits sl.unsigned n) : structPack (be [regCode sl]) [n] = .error .structError := by
  rw [structPack_single]
  unfold regCode
  unfold fits at h
  cases hu : sl.unsigned with
  | true => rw [hu] at h; simp only [if_true] at h ⊢; unfold packOne; rw [if_neg (by simp [Code.H, Code.lo, Code.hi, Code.modulus]; omega)]
  | false => rw [hu] at h; simp only [Bool.false_eq_true, if_false] at h ⊢; unfold packOne; rw [if_neg (by simp [Code.h, Code.lo, Code.hi, Code.modulus]; omega)]

theorem oPackRegs_bad {vs : List PyObj} (h : ¬ ∀ v ∈ vs, v.Packs sl.unsigned) (acc : Bytes) : gPackRegs PyObj.pack (regCode sl) vs acc = .error .structError := by
  induction vs generalizing acc with
  | nil => exact absurd (by simp) h
  | cons v vs ih =>
    rw [gPackRegs]
    by_cases hv : v.Packs sl.unsigned
    · cases v with
      | other t k => exact hv.elim
      | int n =>
        rw [PyObj.pack, packReg_eq hv, except_bind_ok]
        refine ih (fun hall => h fun w hw => ?_) _
        rcases List.mem_cons.mp hw with rfl | hw
        · exact hv
        · exact hall w hw
    · cases v with
      | other t k => rfl
      | int n => rw [PyObj.pack, packReg_bad hv]; rfl

/-- a numbering that respects truth -/
def PyObj.number : PyObj → Int
  | .int n => n
  | .other t _ => if t then 1 else 0

/-! ## C85 -/

variable {h : OHeap}

/-- **C85 (any request).** Whatever the request and whatever the cells hold: number the objects in any way (integers keep their value; for bit reads the number is zero exactly for
    objects that are false).  Then either the slave answers and stores what a slave with integer cells would answer and store; or the request reads registers (functions 3, 4, 22, 23),
    some cell holds an object that is not an integer, struct.error or TypeError leaves `handle_request` and nothing was stored. -/
theorem C85_refines (R : Registry) (sl : Slave) (pdu : Bytes) (b : Bool) (h : OHeap) (hι : Numbering ι) (ht : (∃ fc, pdu[0]? = some fc ∧ (fc = 1 ∨ fc = 2)) → Truthful ι) :
    handleRequest R sl pdu b (h.seen ι) = ((oHandleRequest R sl pdu b h).1, (oHandleRequest R sl pdu b h).2.seen ι) ∨
    (∃ fc, pdu[0]? = some fc ∧ (fc = 3 ∨ fc = 4 ∨ fc = 22 ∨ fc = 23)) ∧ h.HoldsOther ∧
      ∃ e, oHandleRequest R sl pdu b h = (.error e, h) ∧ (e = .structError ∨ e = .typeError) := by
  have := gHandle_sim (objSim R sl hι) pdu (fun fc h1 h2 => ht ⟨fc, h1, h2⟩) b h
  rcases this with e | ⟨⟨⟨fc, h1, h2⟩, h3⟩, h4⟩
  · left
    rw [generic_handle] at e
    refine e.trans ?_
    refine Prod.ext ?_ rfl
    dsimp only
    unfold oHandleRequest
    cases (gHandleRequest (objEnv R sl) pdu b h).1 <;> rfl
  · right
    refine ⟨⟨fc, h1, ?_⟩, h3, h4⟩
    rcases h2 with h | h | h | h
    · exact Or.inl (UInt8.toNat_inj.mp (by have : (3 : UInt8).toNat = 3 := rfl; omega))
    · exact Or.inr (Or.inl (UInt8.toNat_inj.mp (by have : (4 : UInt8).toNat = 4 := rfl; omega)))
    · exact Or.inr (Or.inr (Or.inl (UInt8.toNat_inj.mp (by have : (22 : UInt8).toNat = 22 := rfl; omega))))
    · exact Or.inr (Or.inr (Or.inr (UInt8.toNat_inj.mp (by have : (23 : UInt8).toNat = 23 := rfl; omega))))

/-- **C85 (the pictures say everything).** Two heaps that look the same under every numbering hold the same objects. -/
theorem C85_determined {h h' : OHeap} (e : ∀ ι, Numbering ι → h.seen ι = h'.seen ι) : h = h' := pictures e

/-- **C85 (bit reads).** A bit is 1 exactly if Python takes the object in the cell for true: None, "", 0.0 and [] read as 0, "0" and 0.5 as 1. -/
theorem C85_bits (hR : Quiet R) (fc : UInt8) (hfc : fc = 1 ∨ fc = 2) (a q : UInt16) (hq : 1 ≤ q.toNat ∧ q.toNat ≤ 2000) {i : Nat} {b : OBlock}
    (hi : oAddressed (oBlocksOf h sl fc.toNat) a.toNat q.toNat = some i) (hb : (oBlocksOf h sl fc.toNat)[i]? = some b) (hw : b.Whole) :
    oHandleRequest R sl (fc :: (word a ++ word q)) false h =
      (.ok (fc :: UInt8.ofNat (bytesFor q.toNat) :: packBits ((b.cells a.toNat q.toNat).map PyObj.truth)), h) := by
  have hq' := q.toNat_lt
  obtain ⟨f⟩ := oFound hi hb
  have e : Modbus.slice (fc :: (word a ++ word q)) 1 5 = word a ++ word q := by simp [Modbus.slice, word]
  have hι : Numbering PyObj.number := fun _ => rfl
  have ht : Truthful PyObj.number := by
    intro v
    cases v with
    | int n => rfl
    | other t k => cases t <;> rfl
  have key : gReadDigital (objEnv R sl) fc.toNat (fc :: (word a ++ word q)) h =
      (.ok (UInt8.ofNat (bytesFor q.toNat) :: packBits ((b.cells a.toNat q.toNat).map PyObj.truth)), h) := by
    have hloc : (objEnv R sl).locate fc.toNat a.toNat q.toNat h = _ := f.locate
    have hsl : (objEnv R sl).slice ⟨f.ref, i⟩ ((a.toNat : Int) - b.start) ((a.toNat : Int) - b.start + q.toNat) h = _ := f.sliced hw
    simp only [gReadDigital, e, structUnpack_HH, PyM.bind_apply, PyM.lift_apply]
    rw [if_neg (by omega)]
    simp only [PyM.bind_apply, hloc, hsl, byteCount_eq, structPack_single]
    have hbf : bytesFor q.toNat ≤ 250 := by unfold bytesFor; omega
    rw [packOne_B (by omega) (by omega)]
    simp only [PyM.lift_apply]
    have h1 := gPackBits_sim (objSim R sl hι) ht sl.unsigned (b.cells a.toNat q.toNat) 0 0 [UInt8.ofNat (bytesFor q.toNat)]
    have h2 := packBitsLoop_eq sl.unsigned ((b.cells a.toNat q.toNat).map PyObj.number) [] (by simp)
      [UInt8.ofNat (bytesFor q.toNat)]
    simp only [List.length_nil, show bitsSum 8 [] = 0 from rfl, List.nil_append, List.map_map] at h2
    have h3 : (intEnv R sl).truth = fun n : Int => decide (n ≠ 0) := rfl
    rw [h3, gPackBits_int, h2] at h1
    have h4 : (b.cells a.toNat q.toNat).map ((fun v : Int => v != 0) ∘ PyObj.number) =
        (b.cells a.toNat q.toNat).map PyObj.truth := by
      apply List.map_congr_left
      intro v _
      rw [ht v]
      simp only [Function.comp]
      generalize v.number = x
      by_cases hx : x = 0 <;> simp [hx]
    rw [h4] at h1
    have h5 : (objEnv R sl).unsigned = sl.unsigned := rfl
    rw [Int.toNat_natCast, h5, ← h1]
    rfl
  rcases hfc with rfl | rfl
  · refine oHandle_ok hR (f := gReadCoils (objEnv R sl)) rfl (by simp) ?_
    simp only [gReadCoils, PyM.bind_apply, objHook_quiet hR]
    exact key
  · refine oHandle_ok hR (f := gReadDiscreteInputs (objEnv R sl)) rfl (by simp) ?_
    simp only [gReadDiscreteInputs, PyM.bind_apply, objHook_quiet hR]
    exact key

/-- **C85 (register reads).** The words of the cells, if every cell of the range holds an integer that fits; otherwise struct.error leaves `handle_request`: no answer, not even an
    exception response. -/
theorem C85_registers (hR : Quiet R) (fc : UInt8) (hfc : fc = 3 ∨ fc = 4) (a q : UInt16) (hq : 1 ≤ q.toNat ∧ q.toNat ≤ 125) {i : Nat} {b : OBlock}
    (hi : oAddressed (oBlocksOf h sl fc.toNat) a.toNat q.toNat = some i) (hb : (oBlocksOf h sl fc.toNat)[i]? = some b) (hw : b.Whole) :
    ((∀ v ∈ b.cells a.toNat q.toNat, v.Packs sl.unsigned) → oHandleRequest R sl (fc :: (word a ++ word q)) false h =
      (.ok (fc :: UInt8.ofNat (2 * q.toNat) :: (b.cells a.toNat q.toNat).flatMap fun v => word v.toWord), h)) ∧
    ((¬ ∀ v ∈ b.cells a.toNat q.toNat, v.Packs sl.unsigned) → oHandleRequest R sl (fc :: (word a ++ word q)) false h = (.error .structError, h)) := by
  have hq' := q.toNat_lt
  obtain ⟨f⟩ := oFound hi hb
  have e : Modbus.slice (fc :: (word a ++ word q)) 1 5 = word a ++ word q := by simp [Modbus.slice, word]
  have key : gReadRegisters (objEnv R sl) fc.toNat (fc :: (word a ++ word q)) h =
      (gPackRegs PyObj.pack (regCode sl) (b.cells a.toNat q.toNat) [UInt8.ofNat (2 * q.toNat)], h) := by
    have hloc : (objEnv R sl).locate fc.toNat a.toNat q.toNat h = _ := f.locate
    have hsl : (objEnv R sl).slice ⟨f.ref, i⟩ ((a.toNat : Int) - b.start) ((a.toNat : Int) - b.start + q.toNat) h = _ := f.sliced hw
    simp only [gReadRegisters, e, structUnpack_HH, PyM.bind_apply, PyM.lift_apply]
    rw [if_neg (by omega)]
    simp only [PyM.bind_apply, hloc, hsl, structPack_single]
    rw [packOne_B (by omega) (by omega)]
    simp only [PyM.lift_apply]
    rw [show (2 * (q.toNat : Int)).toNat = 2 * q.toNat by omega]
    rfl
  constructor
  · intro hall
    rw [oPackRegs_ok hall] at key
    rcases hfc with rfl | rfl
    · refine oHandle_ok hR (f := gReadHoldingRegisters (objEnv R sl)) rfl (by simp) ?_
      simp only [gReadHoldingRegisters, PyM.bind_apply, objHook_quiet hR]
      exact key
    · refine oHandle_ok hR (f := gReadInputRegisters (objEnv R sl)) rfl (by simp) ?_
      simp only [gReadInputRegisters, PyM.bind_apply, objHook_quiet hR]
      exact key
  · intro hall
    rw [oPackRegs_bad hall] at key
    rcases hfc with rfl | rfl
    · refine oHandle_fails hR (f := gReadHoldingRegisters (objEnv R sl)) rfl (Or.inl rfl) ?_
      simp only [gReadHoldingRegisters, PyM.bind_apply, objHook_quiet hR]
      exact key
    · refine oHandle_fails hR (f := gReadInputRegisters (objEnv R sl)) rfl (Or.inl rfl) ?_
      simp only [gReadInputRegisters, PyM.bind_apply, objHook_quiet hR]
      exact key

/-- **C85 (function 16).** The words of the request replace the objects of the range, whatever they were; every other cell keeps its object. -/
theorem C85_write_registers (hR : Quiet R) (a q : UInt16) (bc : UInt8) (p : Bytes) (hq : 1 ≤ q.toNat ∧ q.toNat ≤ 123) (hbc : bc.toNat = 2 * q.toNat)
    (hp : p.length = 2 * q.toNat) {i : Nat} {b : OBlock} (hi : oAddressed (oBlocksOf h sl 3) a.toNat q.toNat = some i) (hb : (oBlocksOf h sl 3)[i]? = some b) (hw : b.Whole) :
    oHandleRequest R sl (16 :: (word a ++ word q ++ [bc] ++ p)) false h =
      (.ok (16 :: (word a ++ word q)), h.stored sl 3 i a.toNat ((Spec.payloadValues sl.unsigned p q.toNat).map .int)) := by
  obtain ⟨f⟩ := oFound hi hb
  have e : Modbus.slice (16 :: (word a ++ word q ++ [bc] ++ p)) 1 6 = word a ++ word q ++ [bc] := by simp [Modbus.slice, word]
  have hloc : (objEnv R sl).locate 3 a.toNat q.toNat h = _ := f.locate
  have hl := f.words hR hw (16 :: (word a ++ word q ++ [bc])) p hp
  have hpre : (16 :: (word a ++ word q ++ [bc])).length = 6 := by simp [word]
  rw [hpre] at hl
  refine oHandle_ok hR (f := gWriteMultipleRegisters (objEnv R sl)) rfl (by simp [word]) ?_
  simp only [gWriteMultipleRegisters, e, structUnpack_HHB, PyM.bind_apply, PyM.lift_apply, objHook_quiet hR]
  rw [if_neg (by omega)]
  simp only [PyM.bind_apply, hloc, Int.toNat_natCast]
  have hrc : (objEnv R sl).regCode = regCode sl := rfl
  rw [hrc]
  simp only [List.cons_append] at hl ⊢
  rw [hl]
  simp only [PyM.lift_apply, structPack_HH]

/-- **C85 (function 15).** The bits of the request replace the objects of the range by 0 and 1. -/
theorem C85_write_coils (hR : Quiet R) (a q : UInt16) (bc : UInt8) (p : Bytes) (hq : 1 ≤ q.toNat ∧ q.toNat ≤ 1968) (hbc : bc.toNat = bytesFor q.toNat)
    (hp : p.length = bytesFor q.toNat) {i : Nat} {b : OBlock} (hi : oAddressed (oBlocksOf h sl 1) a.toNat q.toNat = some i) (hb : (oBlocksOf h sl 1)[i]? = some b) (hw : b.Whole) :
    oHandleRequest R sl (15 :: (word a ++ word q ++ [bc] ++ p)) false h =
      (.ok (15 :: (word a ++ word q)), h.stored sl 1 i a.toNat ((Spec.payloadBits p q.toNat).map .int)) := by
  obtain ⟨f⟩ := oFound hi hb
  have e : Modbus.slice (15 :: (word a ++ word q ++ [bc] ++ p)) 1 6 = word a ++ word q ++ [bc] := by simp [Modbus.slice, word]
  have hloc : (objEnv R sl).locate 1 a.toNat q.toNat h = _ := f.locate
  have hbf : bc.toNat = (q.toNat + 7) / 8 := hbc
  have hl := f.bits hR hw (15 :: (word a ++ word q ++ [bc])) p (by simp [word]) hp
  refine oHandle_ok hR (f := gWriteMultipleCoils (objEnv R sl)) rfl (by simp [word]) ?_
  simp only [gWriteMultipleCoils, e, structUnpack_HHB, PyM.bind_apply, PyM.lift_apply, objHook_quiet hR, byteCount_eq]
  rw [if_neg (by unfold bytesFor; omega)]
  simp only [PyM.bind_apply, hloc, Int.toNat_natCast, hbc]
  have hrc : (objEnv R sl).unsigned = sl.unsigned := rfl
  rw [hrc]
  simp only [List.cons_append] at hl ⊢
  rw [hl]
  simp only [PyM.lift_apply, structPack_HH]

/-- **C85 (functions 5 and 6).** -/
theorem C85_write_register (hR : Quiet R) (a v : UInt16) {i : Nat} {b : OBlock} (hi : oAddressed (oBlocksOf h sl 3) a.toNat 1 = some i) (hb : (oBlocksOf h sl 3)[i]? = some b)
    (hw : b.Whole) : oHandleRequest R sl (6 :: (word a ++ word v)) false h = (.ok (6 :: (word a ++ word v)), h.stored sl 3 i a.toNat [.int (ofWord sl.unsigned v)]) := by
  obtain ⟨f⟩ := oFound hi hb
  have e : Modbus.slice (6 :: (word a ++ word v)) 1 5 = word a ++ word v := by simp [Modbus.slice, word]
  have hloc : (objEnv R sl).locate 3 a.toNat 1 h = _ := f.locate
  have has : (objEnv R sl).assign ⟨f.ref, i⟩ ((a.toNat : Int) - b.start) ((objEnv R sl).cell (ofWord sl.unsigned v)) h = _ := f.assign hR hw _
  refine oHandle_ok hR (f := gWriteSingleRegister (objEnv R sl)) rfl (by simp [word]) ?_
  have hrc : (objEnv R sl).regCode = regCode sl := rfl
  simp only [gWriteSingleRegister, e, hrc, structUnpack_HReg, PyM.bind_apply, PyM.lift_apply, objHook_quiet hR, hloc, has, PyM.pure_apply]
  rfl

theorem C85_write_coil (hR : Quiet R) (a v : UInt16) (hv : v = 0 ∨ v = 0xff00) {i : Nat} {b : OBlock} (hi : oAddressed (oBlocksOf h sl 1) a.toNat 1 = some i)
    (hb : (oBlocksOf h sl 1)[i]? = some b) (hw : b.Whole) :
    oHandleRequest R sl (5 :: (word a ++ word v)) false h = (.ok (5 :: (word a ++ word v)), h.stored sl 1 i a.toNat [.int (if v = 0 then 0 else 1)]) := by
  obtain ⟨f⟩ := oFound hi hb
  have e : Modbus.slice (5 :: (word a ++ word v)) 1 5 = word a ++ word v := by simp [Modbus.slice, word]
  have hloc : (objEnv R sl).locate 1 a.toNat 1 h = _ := f.locate
  have has : ∀ n, (objEnv R sl).assign ⟨f.ref, i⟩ ((a.toNat : Int) - b.start) ((objEnv R sl).cell n) h = (.ok (), h.stored sl 1 i a.toNat [.int n]) := fun n => f.assign hR hw _
  refine oHandle_ok hR (f := gWriteSingleCoil (objEnv R sl)) rfl (by simp [word]) ?_
  simp only [gWriteSingleCoil, e, structUnpack_HH, PyM.bind_apply, PyM.lift_apply, objHook_quiet hR, hloc]
  rcases hv with rfl | rfl
  · rw [if_pos (by decide), if_pos rfl]
    simp only [PyM.bind_apply, has, PyM.pure_apply]
    rfl
  · rw [if_neg (by decide), if_pos (by decide), if_neg (by decide)]
    simp only [PyM.bind_apply, has, PyM.pure_apply]
    rfl

/-- **C85 (function 22).** An integer is masked; any other object makes TypeError leave `handle_request`, and the cell keeps its object. -/
theorem C85_mask (hR : Quiet R) (a am om : UInt16) {i : Nat} {b : OBlock} {v : PyObj} (hi : oAddressed (oBlocksOf h sl 3) a.toNat 1 = some i) (hb : (oBlocksOf h sl 3)[i]? = some b)
    (hw : b.Whole) (hv : b.cells a.toNat 1 = [v]) :
    (∀ n, v = .int n → -32768 ≤ n → n ≤ 65535 → oHandleRequest R sl (22 :: (word a ++ word am ++ word om)) false h =
      (.ok (22 :: (word a ++ word am ++ word om)), h.stored sl 3 i a.toNat [.int (Spec.maskWord (toWord n) am om).toNat])) ∧
    (∀ t k, v = .other t k → oHandleRequest R sl (22 :: (word a ++ word am ++ word om)) false h = (.error .typeError, h)) := by
  obtain ⟨f⟩ := oFound hi hb
  have h1 := f.lo
  have h2 := f.hi
  have hw' := hw
  unfold OBlock.Whole at hw'
  have hlt : ((a.toNat : Int) - b.start).toNat < b.data.length := by omega
  have hcur : b.data[((a.toNat : Int) - b.start).toNat]? = some v := by
    unfold OBlock.cells at hv
    rw [List.drop_eq_getElem_cons hlt] at hv
    simp only [List.take_succ_cons, List.take_zero, List.cons.injEq, and_true] at hv
    rw [List.getElem?_eq_getElem hlt, hv]
  have hloc : (objEnv R sl).locate 3 a.toNat 1 h = _ := f.locate
  have hit : (objEnv R sl).item ⟨f.ref, i⟩ ((a.toNat : Int) - b.start) h = (.ok v, h) := by
    show oItem _ _ _ = _
    unfold oItem
    rw [f.isBlk]
    simp only [show ¬ (a.toNat : Int) - b.start < 0 by omega, if_false, hcur]
  have e : Modbus.slice (22 :: (word a ++ word am ++ word om)) 1 7 = word a ++ word am ++ word om := by simp [Modbus.slice, word]
  constructor
  · rintro n rfl hn1 hn2
    have has : ∀ n, (objEnv R sl).assign ⟨f.ref, i⟩ ((a.toNat : Int) - b.start) ((objEnv R sl).cell n) h = (.ok (), h.stored sl 3 i a.toNat [.int n]) := fun n => f.assign hR hw _
    have hm : (objEnv R sl).mask (.int n) am.toNat om.toNat = .ok ((Spec.maskWord (toWord n) am om).toNat : Int) := by
      show Except.ok _ = _
      rw [maskVal_all (by omega) (by omega)]
    refine oHandle_ok hR (f := gMaskWriteRegister (objEnv R sl)) rfl (by simp [word]) ?_
    simp only [gMaskWriteRegister, e, structUnpack_HHH, PyM.bind_apply, PyM.lift_apply, objHook_quiet hR, hloc, hit, hm, has, PyM.pure_apply]
    rfl
  · rintro t k rfl
    have hm : (objEnv R sl).mask (.other t k) am.toNat om.toNat = .error .typeError := rfl
    refine oHandle_fails hR (f := gMaskWriteRegister (objEnv R sl)) rfl (Or.inr rfl) ?_
    simp only [gMaskWriteRegister, e, structUnpack_HHH, PyM.bind_apply, PyM.lift_apply, objHook_quiet hR, hloc, hit, hm]

/-- **C85 (function 23).** An object in the range read that is not an integer that fits: no answer, and the words of the request are not stored either. -/
theorem C85_read_write (hR : Quiet R) (ra rq wa wq : UInt16) (bc : UInt8) (p : Bytes) (hrq : 1 ≤ rq.toNat ∧ rq.toNat ≤ 125)
    (hwq : 1 ≤ wq.toNat ∧ wq.toNat ≤ 123) (hbc : bc.toNat = 2 * wq.toNat) (hp : p.length = 2 * wq.toNat) {i j : Nat} {b c : OBlock}
    (hi : oAddressed (oBlocksOf h sl 3) ra.toNat rq.toNat = some i) (hb : (oBlocksOf h sl 3)[i]? = some b) (hw : b.Whole)
    (hj : oAddressed (oBlocksOf h sl 3) wa.toNat wq.toNat = some j) (hc : (oBlocksOf h sl 3)[j]? = some c) (hwc : c.Whole) :
    ((∀ v ∈ b.cells ra.toNat rq.toNat, v.Packs sl.unsigned) → oHandleRequest R sl (23 :: (word ra ++ word rq ++ word wa ++ word wq ++ [bc] ++ p)) false h =
      (.ok (23 :: UInt8.ofNat (2 * rq.toNat) :: (b.cells ra.toNat rq.toNat).flatMap fun v => word v.toWord),
        h.stored sl 3 j wa.toNat ((Spec.payloadValues sl.unsigned p wq.toNat).map .int))) ∧
    ((¬ ∀ v ∈ b.cells ra.toNat rq.toNat, v.Packs sl.unsigned) →
      oHandleRequest R sl (23 :: (word ra ++ word rq ++ word wa ++ word wq ++ [bc] ++ p)) false h = (.error .structError, h)) := by
  obtain ⟨f⟩ := oFound hi hb
  obtain ⟨f2⟩ := oFound hj hc
  have e : Modbus.slice (23 :: (word ra ++ word rq ++ word wa ++ word wq ++ [bc] ++ p)) 1 10 = word ra ++ word rq ++ word wa ++ word wq ++ [bc] := by simp [Modbus.slice, word]
  have hloc : (objEnv R sl).locate 3 ra.toNat rq.toNat h = _ := f.locate
  have hloc2 : (objEnv R sl).locate 3 wa.toNat wq.toNat h = _ := f2.locate
  have hsl : (objEnv R sl).slice ⟨f.ref, i⟩ ((ra.toNat : Int) - b.start) ((ra.toNat : Int) - b.start + rq.toNat) h = _ := f.sliced hw
  have hl := f2.words hR hwc (23 :: (word ra ++ word rq ++ word wa ++ word wq ++ [bc])) p hp
  have hpre : (23 :: (word ra ++ word rq ++ word wa ++ word wq ++ [bc])).length = 10 := by simp [word]
  have hrc : (objEnv R sl).regCode = regCode sl := rfl
  have hpk : (objEnv R sl).pack = PyObj.pack := rfl
  rw [hpre] at hl
  constructor
  · intro hall
    refine oHandle_ok hR (f := gReadWriteMultipleRegisters (objEnv R sl)) rfl (by simp) ?_
    simp only [gReadWriteMultipleRegisters, e, structUnpack_HHHHB, PyM.bind_apply, PyM.lift_apply, objHook_quiet hR]
    rw [if_neg (by omega)]
    simp only [PyM.bind_apply, hloc, hsl, structPack_single, hrc, hpk]
    rw [packOne_B (by omega) (by omega)]
    simp only [PyM.lift_apply, oPackRegs_ok hall]
    rw [if_neg (by omega)]
    simp only [PyM.bind_apply, hloc2, Int.toNat_natCast]
    simp only [List.cons_append] at hl ⊢
    rw [hl]
    rw [show (2 * (rq.toNat : Int)).toNat = 2 * rq.toNat by omega]
    rfl
  · intro hall
    refine oHandle_fails hR (f := gReadWriteMultipleRegisters (objEnv R sl)) rfl (Or.inl rfl) ?_
    simp only [gReadWriteMultipleRegisters, e, structUnpack_HHHHB, PyM.bind_apply, PyM.lift_apply, objHook_quiet hR]
    rw [if_neg (by omega)]
    simp only [PyM.bind_apply, hloc, hsl, structPack_single, hrc, hpk]
    rw [packOne_B (by omega) (by omega)]
    simp only [PyM.lift_apply, oPackRegs_bad hall]

/-- what a request may do to the objects: blocks stay where they are, with their addresses and their sizes; a cell keeps its object or gets an integer -/
structure OnlyIntegers (h h' : OHeap) : Prop where
  dicts : h'.dicts = h.dicts
  count : ∀ r, (h'.lists r).length = (h.lists r).length
  cells : ∀ (r i : Nat) (b b' : OBlock), (h.lists r)[i]? = some b → (h'.lists r)[i]? = some b' → b'.start = b.start ∧ b'.size = b.size ∧ b'.data.length = b.data.length ∧
    ∀ (j : Nat) (v : PyObj), b'.data[j]? = some v → b.data[j]? = some v ∨ ∃ n, v = .int n

theorem onlyIntegers_refl (h : OHeap) : OnlyIntegers h h := by
  refine ⟨rfl, fun _ => rfl, ?_⟩
  intro r i b b' h1 h2
  rw [h1] at h2
  cases h2
  exact ⟨rfl, rfl, rfl, fun j v hv => Or.inl hv⟩

theorem onlyIntegers_assign {h0 : OHeap} (b : BlockRef) (i n : Int) : Pres (OnlyIntegers h0) (oAssign R b i (.int n)) := by
  intro s hs
  unfold oAssign
  cases hb : s.block? b with
  | none => exact hs
  | some blk =>
    dsimp only
    cases callHooks R "modbus.ModbusBlock.setitem" (oHookArg blk.start i [.int n] []) with
    | error e => exact hs
    | ok x =>
      dsimp only
      by_cases hi : 0 ≤ i ∧ i < blk.data.length
      · rw [if_pos hi]
        dsimp only
        refine ⟨hs.dicts, ?_, ?_⟩
        · intro r
          simp only [OHeap.setBlock]
          split
          · rename_i hr
            rw [List.length_set, hr]; exact hs.count _
          · exact hs.count r
        · intro r k c c' h1 h2
          simp only [OHeap.setBlock] at h2
          by_cases hr : r = b.list
          · rw [if_pos hr] at h2
            subst hr
            by_cases hk : b.idx = k
            · subst hk
              rw [List.getElem?_set] at h2
              simp only [if_true] at h2
              split at h2
              · cases h2
                obtain ⟨e1, e2, e3, e4⟩ := hs.cells b.list b.idx c blk h1 hb
                refine ⟨e1, e2, by simpa using e3, ?_⟩
                intro j v hv
                simp only at hv
                rw [List.getElem?_set] at hv
                split at hv
                · split at hv
                  · right; cases hv; exact ⟨n, rfl⟩
                  · cases hv
                · exact e4 j v hv
              · cases h2
            · rw [List.getElem?_set, if_neg hk] at h2
              exact hs.cells _ k c c' h1 h2
          · rw [if_neg hr] at h2
            exact hs.cells r k c c' h1 h2
      · rw [if_neg hi]; exact hs

/-- **C85 (only integers are stored).** Whatever the request, with whatever hooks, answered or not: afterwards every cell holds the object it held, or an integer. -/
theorem C85_only_integers (R : Registry) (sl : Slave) (pdu : Bytes) (b : Bool) (h : OHeap) : OnlyIntegers h (oHandleRequest R sl pdu b h).2 := by
  refine gHandle_preserves (E := objEnv R sl) (P := OnlyIntegers h) ?_ pdu b h (onlyIntegers_refl h)
  refine ⟨fun _ _ => Pres.lift _, ?_, ?_, ?_, fun b i n => onlyIntegers_assign b i n⟩
  · intro t a n s hs
    have := (objSim R sl (ι := PyObj.number) (fun _ => rfl)).locateKeeps t a n s
    rw [this]; exact hs
  · intro b i j s hs
    have := (objSim R sl (ι := PyObj.number) (fun _ => rfl)).sliceKeeps b i j s
    rw [this]; exact hs
  · intro b i s hs
    have := (objSim R sl (ι := PyObj.number) (fun _ => rfl)).itemKeeps b i s
    rw [this]; exact hs

/-- **C85 (integers).** While no cell holds anything but integers, the slave with object cells is the slave with integer cells, and stays so. -/
theorem C85_integers (R : Registry) (sl : Slave) (pdu : Bytes) (b : Bool) (h : OHeap) (hh : ¬ h.HoldsOther) :
    handleRequest R sl pdu b (h.seen PyObj.number) = ((oHandleRequest R sl pdu b h).1, (oHandleRequest R sl pdu b h).2.seen PyObj.number) ∧
    ¬ (oHandleRequest R sl pdu b h).2.HoldsOther := by
  constructor
  · rcases C85_refines R sl pdu b h (ι := PyObj.number) (fun _ => rfl) (fun _ v => by cases v with | int n => rfl | other t k => cases t <;> rfl) with e | ⟨_, h2, _⟩
    · exact e
    · exact absurd h2 hh
  · rintro ⟨r, c, hc, v, hv, t, k, rfl⟩
    have ho := C85_only_integers R sl pdu b h
    obtain ⟨i, hi, hic⟩ := List.getElem_of_mem hc
    have hi' : i < (h.lists r).length := by rw [← ho.count]; exact hi
    obtain ⟨j, hj, hjv⟩ := List.getElem_of_mem hv
    have := (ho.cells r i (h.lists r)[i] c (List.getElem?_eq_getElem hi') (by rw [List.getElem?_eq_getElem hi, hic])).2.2.2 j (.other t k)
      (by rw [List.getElem?_eq_getElem hj, hjv])
    rcases this with h1 | ⟨n, h1⟩
    · exact hh ⟨r, _, List.getElem_mem hi', _, List.mem_of_getElem? h1, t, k, rfl⟩
    · cases h1

/-- a name finds the same block after cells were changed -/
theorem oGetBlock_setBlock {name : String} {b : BlockRef} {blk blk' : OBlock} (hn : oGetBlock sl name h = (.ok b, h)) (hb : h.block? b = some blk) (hst : blk'.start = blk.start) :
    oGetBlock sl name (h.setBlock b blk') = (.ok b, h.setBlock b blk') := by
  obtain ⟨bl, bi⟩ := b
  have hbi : bi < (h.lists bl).length := by
    have : (h.lists bl)[bi]? = some blk := hb
    rw [List.getElem?_eq_some_iff] at this; exact this.1
  unfold oGetBlock at hn ⊢
  have hd : (h.setBlock ⟨bl, bi⟩ blk').dicts = h.dicts := rfl
  rw [hd]
  cases h1 : Dict.get? sl.names name with
  | none => rw [h1] at hn; simp at hn
  | some p =>
    obtain ⟨bt, start⟩ := p
    rw [h1] at hn
    dsimp only at hn ⊢
    cases h2 : Dict.get? (h.dicts sl.mem) bt with
    | none => rw [h2] at hn; simp at hn
    | some r =>
      rw [h2] at hn
      dsimp only at hn ⊢
      have h3 : ((h.setBlock ⟨bl, bi⟩ blk').lists r).findIdx? (fun b => decide (b.start = start)) = (h.lists r).findIdx? (fun b => decide (b.start = start)) := by
        simp only [OHeap.setBlock]
        by_cases hr2 : r = bl
        · rw [if_pos hr2, hr2]
          have hm : ∀ L : List OBlock, L.findIdx? (fun b => decide (b.start = start)) = (L.map OBlock.start).findIdx? (fun x => decide (x = start)) := by
            intro L; rw [List.findIdx?_map]; rfl
          rw [hm, hm, List.map_set]
          congr 1
          apply List.ext_getElem?
          intro k
          rw [List.getElem?_set]
          split
          · rename_i hk2
            subst hk2
            have : (h.lists bl)[bi]? = some blk := hb
            rw [List.getElem?_eq_some_iff] at this
            simp [hbi, this.2, hst]
          · rfl
        · rw [if_neg hr2]
      rw [h3]
      cases h4 : (h.lists r).findIdx? (fun b => decide (b.start = start)) with
      | none => rw [h4] at hn; simp at hn
      | some i =>
        rw [h4] at hn
        simp only [Prod.mk.injEq, Except.ok.injEq, and_true] at hn
        rw [← hn]

/-- **C85 (set_values, get_values).** The objects stored by `set_values` are the objects `get_values` returns. -/
theorem C85_set_get {name : String} {a : Int} {vs : List PyObj} {h' : OHeap} {b : BlockRef} {blk : OBlock} (hn : oGetBlock sl name h = (.ok b, h)) (hb : h.block? b = some blk)
    (hw : blk.Whole) (hs : oSetValues R name a (.seq vs) sl h = (.ok (), h')) : oGetValues name a vs.length sl h' = (.ok vs, h') := by
  unfold OBlock.Whole at hw
  unfold oSetValues at hs
  simp only [PyM.bind_apply, hn, PyM.get_apply, hb] at hs
  by_cases hr : a - blk.start < 0 ∨ a - blk.start + (vs.length : Int) > blk.size
  · rw [if_pos hr] at hs; exact absurd hs (by simp [PyM.raise])
  · rw [if_neg hr] at hs
    unfold oAssignSlice at hs
    rw [hb] at hs
    dsimp only at hs
    cases hk : callHooks R "modbus.ModbusBlock.setitem" (oHookArg blk.start (a - blk.start) vs []) with
    | error e => rw [hk] at hs; simp at hs
    | ok x =>
      rw [hk] at hs
      simp only [Prod.mk.injEq, true_and] at hs
      have e1 : sliceBound blk.data.length (a - blk.start) = (a - blk.start).toNat := by
        simp only [sliceBound]; rw [if_neg (by omega)]; omega
      have e2 : sliceBound blk.data.length (a - blk.start + vs.length) = (a - blk.start).toNat + vs.length := by
        simp only [sliceBound]; rw [if_neg (by omega)]; omega
      rw [e1, e2, Nat.max_eq_right (by omega)] at hs
      obtain ⟨bl, bi⟩ := b
      have hbi : bi < (h.lists bl).length := by
        have : (h.lists bl)[bi]? = some blk := hb
        rw [List.getElem?_eq_some_iff] at this; exact this.1
      have hb' : h'.block? ⟨bl, bi⟩ = some { blk with data := blk.data.take (a - blk.start).toNat ++ vs ++ blk.data.drop ((a - blk.start).toNat + vs.length) } := by
        rw [← hs]
        simp [OHeap.block?, OHeap.setBlock, hbi]
      have hn' : oGetBlock sl name h' = (.ok ⟨bl, bi⟩, h') := by rw [← hs]; exact oGetBlock_setBlock hn hb rfl
      unfold oGetValues
      simp only [PyM.bind_apply, hn', PyM.get_apply, hb']
      rw [if_neg hr]
      have hlen : (blk.data.take (a - blk.start).toNat).length = (a - blk.start).toNat := by rw [List.length_take]; omega
      by_cases h1 : (vs.length : Int) = 1
      · rw [if_pos h1]
        match vs, h1 with
        | [v], _ =>
          simp only [PyM.bind_apply, oItem, hb', show ¬ a - blk.start < 0 by omega, if_false]
          rw [List.append_assoc, List.getElem?_append_right (by omega), hlen]
          simp
      · rw [if_neg h1]
        unfold oSlice
        rw [hb']
        dsimp only
        rw [pySlice_nonneg _ _ _ (by omega) (by omega) (by first | omega | (simp only [List.length_append, List.length_take, List.length_drop]; omega))
          (by first | omega | (simp only [List.length_append, List.length_take, List.length_drop]; omega))]
        rw [show (a - blk.start + (vs.length : Int)).toNat - (a - blk.start).toNat = vs.length by omega, List.append_assoc, List.drop_append_of_le_length (by omega)]
        rw [List.drop_eq_nil_of_le (by omega), List.nil_append, List.take_left']
        rfl

/-- **C85 (one value).** A value that is neither a list nor a tuple is stored in one cell. -/
theorem C85_set_one {name : String} {a : Int} {v : PyObj} {h' : OHeap} {b : BlockRef} {blk : OBlock} (hn : oGetBlock sl name h = (.ok b, h)) (hb : h.block? b = some blk)
    (hw : blk.Whole) (hs : oSetValues R name a (.one v) sl h = (.ok (), h')) : oGetValues name a 1 sl h' = (.ok [v], h') := by
  unfold OBlock.Whole at hw
  unfold oSetValues at hs
  simp only [PyM.bind_apply, hn, PyM.get_apply, hb] at hs
  by_cases hr : a - blk.start < 0 ∨ a - blk.start + 1 > blk.size
  · rw [if_pos hr] at hs; exact absurd hs (by simp [PyM.raise])
  · rw [if_neg hr] at hs
    unfold oAssign at hs
    rw [hb] at hs
    dsimp only at hs
    cases hk : callHooks R "modbus.ModbusBlock.setitem" (oHookArg blk.start (a - blk.start) [v] []) with
    | error e => rw [hk] at hs; simp at hs
    | ok x =>
      rw [hk] at hs
      dsimp only at hs
      rw [if_pos (by omega)] at hs
      simp only [Prod.mk.injEq, true_and] at hs
      have hbi : b.idx < (h.lists b.list).length := by
        have : (h.lists b.list)[b.idx]? = some blk := hb
        rw [List.getElem?_eq_some_iff] at this; exact this.1
      have hb' : h'.block? b = some { blk with data := blk.data.set (a - blk.start).toNat v } := by
        rw [← hs]
        simp [OHeap.block?, OHeap.setBlock, hbi]
      have hn' : oGetBlock sl name h' = (.ok b, h') := by rw [← hs]; exact oGetBlock_setBlock hn hb rfl
      unfold oGetValues
      simp only [PyM.bind_apply, hn', PyM.get_apply, hb']
      rw [if_neg hr, if_pos trivial]
      simp only [PyM.bind_apply, oItem, hb', show ¬ a - blk.start < 0 by omega, if_false]
      rw [List.getElem?_set_self (by omega)]
      rfl

/-- what the functions of `modbus.ModbusBlock.setitem` are shown of the values: the integers in their order; or, when one of the values is no integer, "an object" -/
inductive Shown (start i : Int) : List PyObj → HookArg → Prop
  | ints (ns : List Int) : Shown start i (ns.map .int) (.setitem start i ns)
  | obj (vs : List PyObj) (v : PyObj) (hv : v ∈ vs) (t : Bool) (k : Nat) (e : v = .other t k) : Shown start i vs .obj

theorem oHookArg_ints (start i : Int) (ns acc : List Int) : oHookArg start i (ns.map .int) acc = .setitem start i (acc.reverse ++ ns) := by
  induction ns generalizing acc with
  | nil => simp [oHookArg]
  | cons n ns ih => simp [oHookArg, ih]

theorem oHookArg_obj (start i : Int) (vs : List PyObj) (acc : List Int) (t : Bool) (k : Nat) (h : PyObj.other t k ∈ vs) : oHookArg start i vs acc = .obj := by
  induction vs generalizing acc with
  | nil => simp at h
  | cons v vs ih =>
    cases v with
    | other b m => rfl
    | int n =>
      rw [oHookArg]
      apply ih
      simpa using h

theorem shown_eq {start i : Int} {vs : List PyObj} {arg : HookArg} (h : Shown start i vs arg) : oHookArg start i vs [] = arg := by
  cases h with
  | ints ns => simp [oHookArg_ints]
  | obj _ v hv t k e => subst e; exact oHookArg_obj _ _ _ _ _ _ hv

/-- every list of values is shown in exactly one way -/
theorem shown_unique (start i : Int) (vs : List PyObj) : ∃ arg, Shown start i vs arg ∧ ∀ arg', Shown start i vs arg' → arg' = arg := by
  by_cases h : ∃ t k, PyObj.other t k ∈ vs
  · obtain ⟨t, k, h⟩ := h
    exact ⟨.obj, .obj vs _ h t k rfl, fun a' h' => by rw [← shown_eq h', shown_eq (.obj vs _ h t k rfl)]⟩
  · have hn : ∃ ns : List Int, vs = ns.map .int := by
      induction vs with
      | nil => exact ⟨[], rfl⟩
      | cons v vs ih =>
        cases v with
        | other t k => exact absurd ⟨t, k, List.mem_cons_self⟩ h
        | int n =>
          obtain ⟨ns, e⟩ := ih (fun ⟨t, k, h'⟩ => h ⟨t, k, List.mem_cons_of_mem _ h'⟩)
          exact ⟨n :: ns, by rw [e]; rfl⟩
    obtain ⟨ns, rfl⟩ := hn
    exact ⟨_, .ints ns, fun a' h' => by rw [← shown_eq h', shown_eq (.ints ns)]⟩

/-- `name` is the name of the block `blk`, number `i` of the list `r` of its table -/
def Owns (h : OHeap) (sl : Slave) (name : String) (r i : Nat) (blk : OBlock) : Prop :=
  ∃ bt start, Dict.get? sl.names name = some (bt, start) ∧ Dict.get? (h.dicts sl.mem) bt = some r ∧ (h.lists r)[i]? = some blk ∧ blk.start = start ∧
    ∀ j, j < i → ∀ b, (h.lists r)[j]? = some b → b.start ≠ start

theorem oGetBlock_owns {name : String} {r i : Nat} {blk : OBlock} (ho : Owns h sl name r i blk) : oGetBlock sl name h = (.ok ⟨r, i⟩, h) := by
  obtain ⟨bt, start, h1, h2, h3, h4, h5⟩ := ho
  unfold oGetBlock
  rw [h1]; dsimp only; rw [h2]; dsimp only
  have hi : (h.lists r).findIdx? (fun b => decide (b.start = start)) = some i := by
    rw [List.findIdx?_eq_some_iff_getElem]
    rw [List.getElem?_eq_some_iff] at h3
    obtain ⟨hl, he⟩ := h3
    refine ⟨hl, by simp [he, h4], fun j hj => ?_⟩
    have := h5 j hj _ (List.getElem?_eq_getElem (by omega))
    simpa using this
  rw [hi]

/-- **C85 (set_values, every outcome).** An unknown name raises MissingKeyError; a range that does not lie in the block raises OutOfModbusBlockError; otherwise the functions of
    `modbus.ModbusBlock.setitem` are called with the block, the offset and the values; if one raises, `set_values` raises the same; and only when none does the objects are stored:
    the cells of the range, nothing else. -/
theorem C85_set_values (name : String) (a : Int) (vs : List PyObj) :
    (Dict.get? sl.names name = none → oSetValues R name a (.seq vs) sl h = (.error .missingKey, h) ∧ ∀ n, oGetValues name a n sl h = (.error .missingKey, h)) ∧
    (∀ r i blk, Owns h sl name r i blk → (a < blk.start ∨ blk.start + blk.size < a + vs.length) → oSetValues R name a (.seq vs) sl h = (.error .outOfBlock, h)) ∧
    (∀ r i blk arg, Owns h sl name r i blk → blk.start ≤ a → a + vs.length ≤ blk.start + blk.size → blk.Whole → Shown blk.start (a - blk.start) vs arg →
      (∀ e, callHooks R "modbus.ModbusBlock.setitem" arg = .error e → oSetValues R name a (.seq vs) sl h = (.error e, h)) ∧
      (∀ x, callHooks R "modbus.ModbusBlock.setitem" arg = .ok x → oSetValues R name a (.seq vs) sl h = (.ok (), h.setBlock ⟨r, i⟩
        { blk with data := blk.data.take (a - blk.start).toNat ++ vs ++ blk.data.drop ((a - blk.start).toNat + vs.length) }))) := by
  refine ⟨fun hn => ?_, fun r i blk ho hr => ?_, fun r i blk arg ho h1 h2 hw hs => ?_⟩
  · have : oGetBlock sl name h = (.error .missingKey, h) := by unfold oGetBlock; rw [hn]
    constructor
    · unfold oSetValues; simp only [PyM.bind_apply, this]
    · intro n; unfold oGetValues; simp only [PyM.bind_apply, this]
  · have hg := oGetBlock_owns ho
    obtain ⟨_, _, _, _, h3, _, _⟩ := ho
    have hb : h.block? ⟨r, i⟩ = some blk := h3
    unfold oSetValues
    simp only [PyM.bind_apply, hg, PyM.get_apply, hb]
    rw [if_pos (by omega)]; rfl
  · have hg := oGetBlock_owns ho
    obtain ⟨_, _, _, _, h3, _, _⟩ := ho
    have hb : h.block? ⟨r, i⟩ = some blk := h3
    unfold OBlock.Whole at hw
    have hset : oSetValues R name a (.seq vs) sl h = oAssignSlice R ⟨r, i⟩ (a - blk.start) vs h := by
      unfold oSetValues
      simp only [PyM.bind_apply, hg, PyM.get_apply, hb]
      rw [if_neg (by omega)]
    rw [hset]
    unfold oAssignSlice
    rw [hb]
    dsimp only
    rw [shown_eq hs]
    refine ⟨fun e he => by rw [he], fun x hx => ?_⟩
    rw [hx]
    dsimp only
    have e1 : sliceBound blk.data.length (a - blk.start) = (a - blk.start).toNat := by
      simp only [sliceBound]; rw [if_neg (by omega)]; omega
    have e2 : sliceBound blk.data.length (a - blk.start + vs.length) = (a - blk.start).toNat + vs.length := by
      simp only [sliceBound]; rw [if_neg (by omega)]; omega
    rw [e1, e2, Nat.max_eq_right (by omega)]

/-- **C85 (get_values, every outcome).** The objects of the range in their order if the range lies in the block; OutOfModbusBlockError otherwise. -/
theorem C85_get_values (name : String) (a : Int) (n : Nat) {r i : Nat} {blk : OBlock} (ho : Owns h sl name r i blk) :
    ((a < blk.start ∨ blk.start + blk.size < a + n) → oGetValues name a n sl h = (.error .outOfBlock, h)) ∧
    (blk.start ≤ a → a + n ≤ blk.start + blk.size → blk.Whole → oGetValues name a n sl h = (.ok ((blk.data.drop (a - blk.start).toNat).take n), h)) := by
  have hg := oGetBlock_owns ho
  obtain ⟨_, _, _, _, h3, _, _⟩ := ho
  have hb : h.block? ⟨r, i⟩ = some blk := h3
  constructor
  · intro hr
    unfold oGetValues
    simp only [PyM.bind_apply, hg, PyM.get_apply, hb]
    rw [if_pos (by omega)]; rfl
  · intro h1 h2 hw
    unfold OBlock.Whole at hw
    unfold oGetValues
    simp only [PyM.bind_apply, hg, PyM.get_apply, hb]
    rw [if_neg (by omega)]
    by_cases hn : (n : Int) = 1
    · rw [if_pos hn]
      have hn' : n = 1 := by omega
      subst hn'
      simp only [PyM.bind_apply, oItem, hb, show ¬ a - blk.start < 0 by omega, if_false]
      rw [List.getElem?_eq_getElem (by omega), List.drop_eq_getElem_cons (by omega : (a - blk.start).toNat < blk.data.length)]
      rfl
    · rw [if_neg hn]
      unfold oSlice
      rw [hb]
      dsimp only
      rw [pySlice_nonneg _ _ _ (by omega) (by omega) (by omega) (by omega)]
      rw [show (a - blk.start + (n : Int)).toNat - (a - blk.start).toNat = n by omega]


end

/-! ## A concrete case -/

section Example

/-- a slave with two coils that hold None and the string "0", and three registers that hold 7, 1.5 and -1 -/
def exObjects : OHeap where
  lists := fun r => if r = 0 then [⟨0, [.other false 0, .other true 1], 2⟩] else if r = 1 then [⟨10, [.int 7, .other true 2, .int (-1)], 3⟩] else []
  dicts := fun _ => [(1, 0), (2, 2), (3, 1), (4, 3)]

def exObjSlave : Slave := ⟨1, false, [("regs", (3, 10))], 0⟩

example : oHandleRequest [] exObjSlave (1 :: (word 0 ++ word 2)) false exObjects = (.ok [1, 1, 2], exObjects) :=
  C85_bits quiet_nil 1 (Or.inl rfl) 0 2 (by decide) (i := 0) (b := ⟨0, [.other false 0, .other true 1], 2⟩) (by decide) (by decide) rfl
example : oHandleRequest [] exObjSlave (3 :: (word 10 ++ word 2)) false exObjects = (.error .structError, exObjects) :=
  (C85_registers quiet_nil 3 (Or.inl rfl) 10 2 (by decide) (i := 0) (b := ⟨10, [.int 7, .other true 2, .int (-1)], 3⟩) (by decide) (by decide) rfl).2
    (fun h => h (.other true 2) (by decide))
example : oHandleRequest [] exObjSlave (3 :: (word 12 ++ word 1)) false exObjects = (.ok [3, 2, 255, 255], exObjects) :=
  (C85_registers quiet_nil 3 (Or.inl rfl) 12 1 (by decide) (i := 0) (b := ⟨10, [.int 7, .other true 2, .int (-1)], 3⟩) (by decide) (by decide) rfl).1
    (fun v hv => by
      have hc : OBlock.cells ⟨10, [.int 7, .other true 2, .int (-1)], 3⟩ (12 : UInt16).toNat (1 : UInt16).toNat = [.int (-1)] := by decide
      rw [hc, List.mem_singleton] at hv; subst hv; show fits false (-1); unfold fits; decide)
example : oHandleRequest [] exObjSlave (22 :: (word 11 ++ word 0 ++ word 0)) false exObjects = (.error .typeError, exObjects) :=
  (C85_mask quiet_nil 11 0 0 (i := 0) (b := ⟨10, [.int 7, .other true 2, .int (-1)], 3⟩) (v := .other true 2) (by decide) (by decide) rfl (by decide)).2 true 2 rfl
example : (oHandleRequest [] exObjSlave (6 :: (word 11 ++ word 5)) false exObjects).2.lists 1 = [⟨10, [.int 7, .int 5, .int (-1)], 3⟩] := by
  rw [C85_write_register quiet_nil 11 5 (i := 0) (b := ⟨10, [.int 7, .other true 2, .int (-1)], 3⟩) (by decide) (by decide) rfl]
  decide
example : exObjects.HoldsOther := ⟨0, _, List.mem_singleton.mpr rfl, _, List.mem_cons_self, false, 0, rfl⟩
example : (oSetValues [] "regs" 10 (.seq [.other true 9, .int 3]) exObjSlave exObjects).1 = .ok () := by decide
example : ∃ ι, Numbering ι ∧ Truthful ι := ⟨PyObj.number, fun _ => rfl, fun v => by cases v with | int n => rfl | other t k => cases t <;> rfl⟩
example : Owns exObjects exObjSlave "regs" 1 0 ⟨10, [.int 7, .other true 2, .int (-1)], 3⟩ := ⟨3, 10, by decide, by decide, by decide, rfl, fun j hj => absurd hj (by omega)⟩
example : Shown 10 1 [.int 4, .int 5] (.setitem 10 1 [4, 5]) := .ints [4, 5]
example : Shown 10 1 [.int 4, .other true 9] .obj := .obj _ _ (List.mem_cons_of_mem _ List.mem_cons_self) true 9 rfl

end Example

end Modbus
