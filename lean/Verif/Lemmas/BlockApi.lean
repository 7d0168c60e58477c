import Verif.Lemmas.Frame
/- Lemmas about add_block / remove_block / set_values / get_values. -/
namespace Modbus

theorem findIdx?_spec {L : List Block} {st : Int} {i : Nat}
    (h : L.findIdx? (fun b => decide (b.start = st)) = some i) : ∃ b, L[i]? = some b ∧ b.start = st := by
  rw [List.findIdx?_eq_some_iff_getElem] at h
  obtain ⟨hlt, hp, _⟩ := h
  exact ⟨L[i], List.getElem?_eq_getElem hlt, by simpa using hp⟩

theorem getBlock_snd (sl : Slave) (name : String) (h : Heap) : (getBlock sl name h).2 = h := by
  unfold getBlock
  split
  · rfl
  · split
    · rfl
    · split <;> rfl

theorem getBlock_ok {sl : Slave} {name : String} {h h' : Heap} {b : BlockRef}
    (he : getBlock sl name h = (.ok b, h')) :
    h' = h ∧ ∃ bt st blk, Dict.get? sl.names name = some (bt, st) ∧ Dict.get? (h.dicts sl.mem) bt = some b.list ∧
      h.block? b = some blk ∧ blk.start = st := by
  have h1 := getBlock_snd sl name h
  rw [he] at h1
  refine ⟨h1, ?_⟩
  unfold getBlock at he
  split at he
  · simp at he
  · rename_i bt st hn
    split at he
    · simp at he
    · rename_i r hr
      split at he
      · rename_i i hi
        simp only [Prod.mk.injEq, Except.ok.injEq] at he
        obtain ⟨rfl, _⟩ := he
        obtain ⟨blk, hb, hs⟩ := findIdx?_spec hi
        exact ⟨bt, st, blk, hn, hr, hb, hs⟩
      · simp at he

/-- a block is stored at position `i` of list `ref` -/
theorem take_set_drop (data vs : List Int) (off : Nat) (h : off + vs.length ≤ data.length) :
    data.take off ++ vs ++ data.drop (off + vs.length) = setMany data off vs := by
  apply List.ext_getElem
  · simp; omega
  · intro k h1 h2
    have e : (setMany data off vs)[k] = (setMany data off vs).getD k 0 := by
      rw [List.getD_eq_getElem?_getD, List.getElem?_eq_getElem h2]; rfl
    rw [e, setMany_getD _ _ _ h]
    have hk : k < data.length := by simpa using h2
    split
    · rename_i hr
      rw [List.getD_eq_getElem?_getD, List.getElem?_eq_getElem (by omega)]
      rw [List.getElem_append_left (by simp; omega), List.getElem_append_right (by simp; omega)]
      simp only [List.length_take, Option.getD_some]
      congr 1; omega
    · rename_i hr
      rw [List.getD_eq_getElem?_getD, List.getElem?_eq_getElem hk]
      by_cases hlt : k < off
      · rw [List.getElem_append_left (by simp; omega), List.getElem_append_left (by simp; omega)]
        simp
      · rw [List.getElem_append_right (by simp; omega)]
        simp only [List.getElem_drop, List.length_append, List.length_take, Option.getD_some]
        congr 1; omega

/-- the values of `set_values` as a list -/
def Values.toList : Values → List Int
  | .seq vs => vs
  | .one v => [v]

theorem setSlice_ok {R : Registry} {b : BlockRef} {blk : Block} {h h' : Heap} (hb : h.block? b = some blk)
    {i : Int} {vs : List Int} (h0 : 0 ≤ i) (hle : i + vs.length ≤ blk.data.length)
    (he : setSlice R b i vs h = (.ok (), h')) :
    h' = h.setBlock b (blk.withData (setMany blk.data i.toNat vs)) := by
  unfold setSlice at he
  rw [hb] at he
  simp only at he
  split at he
  · simp at he
  · simp only [Prod.mk.injEq, true_and] at he
    rw [← he]
    have e1 : sliceBound blk.data.length i = i.toNat := by
      simp only [sliceBound]; rw [if_neg (by omega)]; omega
    have e2 : sliceBound blk.data.length (i + vs.length) = i.toNat + vs.length := by
      simp only [sliceBound]; rw [if_neg (by omega)]; omega
    rw [e1, e2, show max i.toNat (i.toNat + vs.length) = i.toNat + vs.length by omega,
      take_set_drop _ _ _ (by omega)]
    rfl

theorem setItem_ok {R : Registry} {b : BlockRef} {blk : Block} {h h' : Heap} (hb : h.block? b = some blk)
    {i v : Int} (he : setItem R b i v h = (.ok (), h')) :
    h' = h.setBlock b (blk.withData (setMany blk.data i.toNat [v])) := by
  unfold setItem at he
  rw [hb] at he
  simp only at he
  split at he
  · simp at he
  · split at he
    · simp only [Prod.mk.injEq, true_and] at he
      rw [← he]; rfl
    · simp at he

theorem setValues_ok {R : Registry} {name : String} {a : Int} {vs : Values} {sl : Slave} {h h' : Heap}
    (he : setValues R name a vs sl h = (.ok (), h')) :
    ∃ b blk, getBlock sl name h = (.ok b, h) ∧ h.block? b = some blk ∧ 0 ≤ a - blk.start ∧
      a - blk.start + vs.toList.length ≤ blk.size ∧
      (blk.WF → h' = h.setBlock b (blk.withData (setMany blk.data (a - blk.start).toNat vs.toList))) := by
  simp only [setValues, PyM.bind_apply] at he
  cases hg : getBlock sl name h with
  | mk x h1 =>
    have h2 := getBlock_snd sl name h
    rw [hg] at h2; simp only at h2; subst h2
    cases x with
    | error e => rw [hg] at he; simp at he
    | ok b =>
      rw [hg] at he
      simp only [PyM.get_apply] at he
      cases hb : h1.block? b with
      | none => rw [hb] at he; simp at he
      | some blk =>
        rw [hb] at he
        simp only at he
        cases vs with
        | seq vs =>
          simp only at he
          split at he
          · simp at he
          · rename_i hcond
            refine ⟨b, blk, rfl, hb, by omega, by simp only [Values.toList]; omega, fun hw => ?_⟩
            have := hw.len
            exact setSlice_ok hb (by omega) (by simp only [Values.toList]; omega) he
        | one v =>
          simp only at he
          split at he
          · simp at he
          · rename_i hcond
            refine ⟨b, blk, rfl, hb, by omega, by simp only [Values.toList, List.length_singleton]; omega, fun hw => ?_⟩
            exact setItem_ok hb he

/-! ### Insertion -/

/-- the new range shares an address with the block -/
def Overlaps (b : Block) (start size : Int) : Prop := ∃ a, b.contains a ∧ start ≤ a ∧ a < start + size

theorem isIn_iff {b : Block} (hb : 0 < b.size) {start size : Int} (hs : 0 < size) :
    b.isIn start size = true ↔ Overlaps b start size := by
  unfold Block.isIn Overlaps Block.contains
  split
  · simp only [decide_eq_true_eq]
    constructor
    · intro h; exact ⟨start, by omega⟩
    · rintro ⟨a, h⟩; omega
  · split
    · simp only [decide_eq_true_eq]
      constructor
      · intro h; exact ⟨b.start, by omega⟩
      · rintro ⟨a, h⟩; omega
    · simp only [true_iff]
      exact ⟨start, by omega⟩

theorem insertionIndex_none {L : List Block} {i : Nat} {start size : Int}
    (h : insertionIndex L i start size = none) : ∃ b ∈ L, b.isIn start size = true := by
  induction L generalizing i with
  | nil => simp [insertionIndex] at h
  | cons b L ih =>
    rw [insertionIndex] at h
    split at h
    · exact ⟨b, by simp, by assumption⟩
    · split at h
      · simp at h
      · obtain ⟨c, hc, hcc⟩ := ih h
        exact ⟨c, by simp [hc], hcc⟩

theorem insertionIndex_le {L : List Block} {i k : Nat} {start size : Int}
    (h : insertionIndex L i start size = some k) : k ≤ i + L.length := by
  induction L generalizing i with
  | nil => simp [insertionIndex] at h; omega
  | cons b L ih =>
    rw [insertionIndex] at h
    split at h
    · simp at h
    · split at h
      · simp at h; simp; omega
      · have := ih h; simp; omega

/-- with no larger start everything is checked -/
theorem insertionIndex_all {L : List Block} {i k : Nat} {start size : Int}
    (h : insertionIndex L i start size = some k) (hle : ∀ b ∈ L, b.start ≤ start) :
    ∀ b ∈ L, b.isIn start size = false := by
  induction L generalizing i with
  | nil => simp
  | cons b L ih =>
    rw [insertionIndex] at h
    split at h
    · simp at h
    · rename_i hb
      split at h
      · have := hle b (by simp); omega
      · intro c hc
        rcases List.mem_cons.mp hc with rfl | hc
        · simpa using hb
        · exact ih h (fun x hx => hle x (by simp [hx])) c hc

/-- in a list sorted by address everything that matters is checked -/
theorem insertionIndex_sorted {L : List Block} {i k : Nat} {start size : Int}
    (h : insertionIndex L i start size = some k) (hsorted : L.Pairwise (fun b c => b.start < c.start)) :
    ∀ b ∈ L, b.isIn start size = false := by
  induction L generalizing i with
  | nil => simp
  | cons b L ih =>
    rw [insertionIndex] at h
    rw [List.pairwise_cons] at hsorted
    split at h
    · simp at h
    · rename_i hb
      split at h
      · rename_i hgt
        intro c hc
        rcases List.mem_cons.mp hc with rfl | hc
        · simpa using hb
        · have h1 := hsorted.1 c hc
          unfold Block.isIn at hb ⊢
          rw [if_neg (by omega), if_pos (by omega)] at hb ⊢
          simp only [decide_eq_true_eq, decide_eq_false_iff_not] at hb ⊢
          omega
      · intro c hc
        rcases List.mem_cons.mp hc with rfl | hc
        · simpa using hb
        · exact ih h hsorted.2 c hc

theorem block_new_wf {start size : Int} (hs : 0 < size) : (Block.new start size).WF :=
  ⟨by simp [Block.new], by simp [Block.new]; omega⟩

theorem block_new_contains {start size : Int} (hs : 0 < size) (a : Int) :
    (Block.new start size).contains a ↔ start ≤ a ∧ a < start + size := by
  unfold Block.contains Block.new
  simp only
  omega

theorem perm_insertIdx {α : Type} (L : List α) (i : Nat) (x : α) (h : i ≤ L.length) : (L.insertIdx i x).Perm (x :: L) :=
  List.perm_insertIdx x L h

theorem mem_insertIdx' {L : List Block} {i : Nat} {x b : Block} (h : i ≤ L.length) :
    b ∈ L.insertIdx i x ↔ b = x ∨ b ∈ L := by
  rw [(perm_insertIdx L i x h).mem_iff]; simp

theorem listWF_insert {L : List Block} (hw : ListWF L) {i : Nat} (hi : i ≤ L.length) {start size : Int} (hs : 0 < size)
    (hno : ∀ b ∈ L, ¬ Overlaps b start size) : ListWF (L.insertIdx i (Block.new start size)) := by
  refine ⟨?_, ?_⟩
  · intro b hb
    rcases (mem_insertIdx' hi).mp hb with rfl | hb
    · exact block_new_wf hs
    · exact hw.blocks b hb
  · unfold DisjointBlocks
    rw [(perm_insertIdx L i _ hi).pairwise_iff (fun {x y} hxy a hh => hxy a ⟨hh.2, hh.1⟩), List.pairwise_cons]
    refine ⟨?_, hw.disjoint⟩
    intro b hb a ⟨h1, h2⟩
    exact hno b hb ⟨a, h2, (block_new_contains hs a).mp h1⟩

theorem listWF_erase {L : List Block} (hw : ListWF L) (i : Nat) : ListWF (L.eraseIdx i) :=
  ⟨fun b hb => hw.blocks b (List.mem_of_mem_eraseIdx hb), List.Pairwise.sublist (List.eraseIdx_sublist L i) hw.disjoint⟩

/-- blocks of a well-formed list have different starts -/
theorem starts_inj {L : List Block} (hw : ListWF L) {b c : Block} (hb : b ∈ L) (hc : c ∈ L) (h : b.start = c.start) :
    b = c := by
  by_contra hne
  have hbp := (hw.blocks b hb).pos
  have hcp := (hw.blocks c hc).pos
  have hd := hw.disjoint
  unfold DisjointBlocks at hd
  obtain ⟨i, hi, rfl⟩ := List.mem_iff_getElem.mp hb
  obtain ⟨j, hj, rfl⟩ := List.mem_iff_getElem.mp hc
  rw [List.pairwise_iff_getElem] at hd
  rcases Nat.lt_trichotomy i j with hij | hij | hij
  · exact hd i j hi hj hij (L[i].start) ⟨by unfold Block.contains; omega, by unfold Block.contains; omega⟩
  · subst hij; exact hne rfl
  · exact hd j i hj hi hij (L[i].start) ⟨by unfold Block.contains; omega, by unfold Block.contains; omega⟩

theorem findIdx?_of_mem {L : List Block} (hw : ListWF L) {b : Block} (hb : b ∈ L) :
    ∃ i, L.findIdx? (fun x => decide (x.start = b.start)) = some i ∧ L[i]? = some b := by
  cases hf : L.findIdx? (fun x => decide (x.start = b.start)) with
  | none =>
    rw [List.findIdx?_eq_none_iff] at hf
    simpa using hf b hb
  | some i =>
    obtain ⟨c, hc, hcs⟩ := findIdx?_spec hf
    have : c = b := starts_inj hw (List.mem_of_getElem? hc) hb hcs
    subst this
    exact ⟨i, rfl, hc⟩

/-- the block a name stands for -/
def lookup (s : SlaveSt) (name : String) : Except PyErr Block :=
  match getBlock s.sl name s.heap with
  | (.ok b, _) =>
    match s.heap.block? b with
    | some blk => .ok blk
    | none => .error .indexError
  | (.error e, _) => .error e

theorem lookup_of_mem {s : SlaveSt} {name : String} {bt : Int} {ref : Nat} {b : Block}
    (hn : Dict.get? s.sl.names name = some (bt, b.start)) (hr : Dict.get? (s.heap.dicts s.sl.mem) bt = some ref)
    (hw : ListWF (s.heap.lists ref)) (hb : b ∈ s.heap.lists ref) : lookup s name = .ok b := by
  obtain ⟨i, h1, h2⟩ := findIdx?_of_mem hw hb
  simp only [lookup, getBlock, hn, hr, h1, Heap.block?, h2]

/-- different block types have different list objects -/
def DictInj (d : List (Int × Nat)) : Prop :=
  ∀ bt bt' r, Dict.get? d bt = some r → Dict.get? d bt' = some r → bt = bt'

theorem get?_fresh (keys : List Int) (n k : Nat) {bt : Int} {r : Nat}
    (h : Dict.get? ((keys.zipIdx k).map (fun p => (p.1, n + p.2))) bt = some r) :
    n + k ≤ r ∧ r < n + k + keys.length ∧ keys[r - (n + k)]? = some bt := by
  induction keys generalizing k with
  | nil => simp [Dict.get?] at h
  | cons x keys ih =>
    simp only [List.zipIdx_cons, List.map_cons, Dict.get?] at h
    split at h
    · rename_i hx
      simp only [Option.some.injEq] at h
      subst hx
      refine ⟨by omega, by simp; omega, ?_⟩
      rw [← h]; simp
    · obtain ⟨h1, h2, h3⟩ := ih (k+1) h
      refine ⟨by omega, by simp; omega, ?_⟩
      rw [show r - (n + k) = (r - (n + (k+1))) + 1 by omega]
      simpa using h3

theorem dictInj_fresh (keys : List Int) (n : Nat) :
    DictInj (keys.zipIdx.map (fun p => (p.1, n + p.2))) := by
  intro bt bt' r h1 h2
  obtain ⟨_, _, h3⟩ := get?_fresh keys n 0 h1
  obtain ⟨_, _, h4⟩ := get?_fresh keys n 0 h2
  rw [h3] at h4
  simpa using h4

/-- A slave whose names and blocks fit together. -/
structure SlaveInv (s : SlaveSt) : Prop where
  wf : ∀ ref, ListWF (s.heap.lists ref)
  inj : DictInj (s.heap.dicts s.sl.mem)
  named : ∀ name bt st, Dict.get? s.sl.names name = some (bt, st) →
    ∃ ref b, Dict.get? (s.heap.dicts s.sl.mem) bt = some ref ∧ b ∈ s.heap.lists ref ∧ b.start = st
  uniq : ∀ n1 n2 p, Dict.get? s.sl.names n1 = some p → Dict.get? s.sl.names n2 = some p → n1 = n2

/-- the new block overlaps no block of its type -/
def NoOverlap (s : SlaveSt) (bt start size : Int) : Prop :=
  ∀ b ∈ blocksOf s.heap s.sl bt, ¬ Overlaps b start size

/-- what an accepted add_block does -/
theorem addBlock_ok {name : String} {bt start size : Int} {s s' : SlaveSt}
    (h : addBlock name bt start size s = (.ok (), s')) :
    0 < size ∧ 0 ≤ start ∧ Dict.get? s.sl.names name = none ∧ ∃ ref i,
      Dict.get? (s.heap.dicts s.sl.mem) bt = some ref ∧ insertionIndex (s.heap.lists ref) 0 start size = some i ∧
      s' = { sl := { s.sl with names := Dict.set s.sl.names name (bt, start) },
             heap := s.heap.setList ref ((s.heap.lists ref).insertIdx i (Block.new start size)) } := by
  unfold addBlock at h
  split at h
  · simp at h
  split at h
  · simp at h
  split at h
  · simp at h
  rename_i h1 h2 h3
  split at h
  · simp at h
  rename_i ref hr
  split at h
  · simp at h
  rename_i i hi
  simp only [Prod.mk.injEq, true_and] at h
  refine ⟨by omega, by omega, ?_, ref, i, hr, hi, h.symm⟩
  rw [← Dict.has_eq_false_iff]; simpa using h3

theorem setList_lists (h : Heap) (r : Nat) (l : List Block) (r' : Nat) :
    (h.setList r l).lists r' = if r' = r then l else h.lists r' := rfl

theorem addBlock_inv {name : String} {bt start size : Int} {s s' : SlaveSt} (hi : SlaveInv s)
    (h : addBlock name bt start size s = (.ok (), s')) (hno : NoOverlap s bt start size) : SlaveInv s' := by
  obtain ⟨hs, h0, hn, ref, i, hr, hidx, rfl⟩ := addBlock_ok h
  have hile : i ≤ (s.heap.lists ref).length := by have := insertionIndex_le hidx; omega
  have hno' : ∀ b ∈ s.heap.lists ref, ¬ Overlaps b start size := by
    intro b hb; apply hno; simp only [blocksOf, hr]; exact hb
  have hnew : Block.new start size ∈ (s.heap.lists ref).insertIdx i (Block.new start size) :=
    (mem_insertIdx' hile).mpr (.inl rfl)
  refine ⟨?_, hi.inj, ?_, ?_⟩
  · intro ref'
    rw [setList_lists]
    split
    · exact listWF_insert (hi.wf ref) hile hs hno'
    · exact hi.wf ref'
  · intro n2 bt2 st2 hg
    simp only [Dict.get?_set] at hg
    split at hg
    · simp only [Option.some.injEq, Prod.mk.injEq] at hg
      obtain ⟨rfl, rfl⟩ := hg
      exact ⟨ref, _, hr, by rw [setList_lists, if_pos rfl]; exact hnew, rfl⟩
    · obtain ⟨ref2, b, h1, h2, h3⟩ := hi.named n2 bt2 st2 hg
      refine ⟨ref2, b, h1, ?_, h3⟩
      rw [setList_lists]
      split
      · rename_i e; subst e; exact (mem_insertIdx' hile).mpr (.inr h2)
      · exact h2
  · intro n1 n2 p h1 h2
    simp only [Dict.get?_set] at h1 h2
    have key : ∀ n, Dict.get? s.sl.names n = some (bt, start) → False := by
      intro n hg
      obtain ⟨ref2, b, e1, e2, e3⟩ := hi.named n bt start hg
      rw [hr] at e1; cases e1
      exact hno' b e2 ⟨start, ⟨by omega, by have := (hi.wf ref).blocks b e2 |>.pos; omega⟩, by omega, by omega⟩
    split at h1
    · split at h2
      · simp_all
      · simp only [Option.some.injEq] at h1; subst h1; exact (key n2 h2).elim
    · split at h2
      · simp only [Option.some.injEq] at h2; subst h2; exact (key n1 h1).elim
      · exact hi.uniq n1 n2 p h1 h2

theorem removeBlock_ok {name : String} {s s' : SlaveSt} (h : removeBlock name s = (.ok (), s')) :
    ∃ b, getBlock s.sl name s.heap = (.ok b, s.heap) ∧
      s' = { sl := { s.sl with names := Dict.erase s.sl.names name },
             heap := s.heap.setList b.list ((s.heap.lists b.list).eraseIdx b.idx) } := by
  unfold removeBlock at h
  split at h
  · simp at h
  · rename_i b h' hb
    have := getBlock_ok hb
    rw [this.1] at hb
    simp only [Prod.mk.injEq, true_and] at h
    exact ⟨b, hb, h.symm⟩

theorem mem_eraseIdx_of_ne {L : List Block} {i : Nat} {b c : Block} (hi : L[i]? = some c) (hb : b ∈ L) (hne : b ≠ c) :
    b ∈ L.eraseIdx i := by
  rw [List.mem_eraseIdx_iff_getElem?]
  obtain ⟨j, hj⟩ := List.mem_iff_getElem?.mp hb
  refine ⟨j, ?_, hj⟩
  rintro rfl
  rw [hi] at hj
  exact hne (Option.some.inj hj).symm

theorem removeBlock_inv {name : String} {s s' : SlaveSt} (hi : SlaveInv s)
    (h : removeBlock name s = (.ok (), s')) : SlaveInv s' := by
  obtain ⟨b, hg, rfl⟩ := removeBlock_ok h
  obtain ⟨_, bt, st, blk, hn, hr, hb, hst⟩ := getBlock_ok hg
  refine ⟨?_, hi.inj, ?_, ?_⟩
  · intro ref'
    rw [setList_lists]
    split
    · exact listWF_erase (hi.wf _) _
    · exact hi.wf ref'
  · intro n2 bt2 st2 hg2
    simp only [Dict.get?_erase] at hg2
    split at hg2
    · simp at hg2
    · rename_i hne
      obtain ⟨ref2, c, h1, h2, h3⟩ := hi.named n2 bt2 st2 hg2
      refine ⟨ref2, c, h1, ?_, h3⟩
      rw [setList_lists]
      split
      · rename_i e; subst e
        refine mem_eraseIdx_of_ne hb h2 ?_
        rintro rfl
        apply hne
        have := hi.inj bt bt2 _ hr h1
        subst this
        exact hi.uniq n2 name (bt, st2) hg2 (by rw [hn, ← hst, h3])
      · exact h2
  · intro n1 n2 p h1 h2
    simp only [Dict.get?_erase] at h1 h2
    split at h1
    · simp at h1
    · split at h2
      · simp at h2
      · exact hi.uniq n1 n2 p h1 h2

theorem listWF_nil : ListWF [] := ⟨by simp, by simp [DisjointBlocks]⟩

theorem removeAll_inv {s : SlaveSt} (hi : SlaveInv s) : SlaveInv (removeAllBlocks s).2 := by
  refine ⟨?_, ?_, ?_, ?_⟩
  · intro ref
    show ListWF (if _ then _ else _)
    split
    · exact listWF_nil
    · exact hi.wf ref
  · have : (removeAllBlocks s).2.heap.dicts (removeAllBlocks s).2.sl.mem =
        ((s.heap.dicts s.sl.mem).map Prod.fst).zipIdx.map (fun p => (p.1, s.heap.nextList + p.2)) := by
      simp [removeAllBlocks]
    rw [this]
    exact dictInj_fresh _ _
  · intro name bt st h; simp [removeAllBlocks, Dict.get?] at h
  · intro n1 n2 p h1; simp [removeAllBlocks, Dict.get?] at h1

end Modbus
