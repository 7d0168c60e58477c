import Verif.Spec.Abs
import Verif.Lemmas.Py
/- Lemmas about block lists and their abstraction. -/
namespace Modbus

theorem findBlock_some {L : List Block} {a n : Int} {i : Nat} {off : Int}
    (h : findBlock L a n = some (i, off)) :
    ∃ b, L[i]? = some b ∧ off = a - b.start ∧ 0 ≤ off ∧ off + n ≤ b.size ∧ b ∈ L := by
  induction L generalizing i with
  | nil => simp [findBlock] at h
  | cons b bs ih =>
    rw [findBlock] at h
    split at h
    · rename_i hc
      simp only [Option.some.injEq, Prod.mk.injEq] at h
      obtain ⟨rfl, rfl⟩ := h
      exact ⟨b, by simp, rfl, by omega, by omega, by simp⟩
    · cases hf : findBlock bs a n with
      | none => rw [hf] at h; simp at h
      | some p =>
        rw [hf] at h
        obtain ⟨j, o⟩ := p
        simp only [Option.map_some, Option.some.injEq, Prod.mk.injEq] at h
        obtain ⟨rfl, rfl⟩ := h
        obtain ⟨c, h1, h2, h3, h4, h5⟩ := ih hf
        exact ⟨c, by simpa using h1, h2, h3, h4, by simp [h5]⟩

theorem findBlock_isSome {L : List Block} {a n : Int} :
    (findBlock L a n).isSome = (absTable L).covers a n := by
  induction L with
  | nil => rfl
  | cons b bs ih =>
    rw [findBlock]
    simp only [absTable, Spec.Table.covers, List.map_cons, List.any_cons] at *
    split
    · rename_i hc
      have : (b.start ≤ a ∧ a + n ≤ b.start + b.size) := by omega
      simp [this]
    · rename_i hc
      have : ¬ (b.start ≤ a ∧ a + n ≤ b.start + b.size) := by omega
      simp [this] at ih ⊢
      simpa using ih

theorem findBlock_none {L : List Block} {a n : Int} (h : (absTable L).covers a n = false) :
    findBlock L a n = none := by
  rw [← findBlock_isSome] at h
  cases hf : findBlock L a n <;> simp_all

theorem findBlock_covers {L : List Block} {a n : Int} (h : (absTable L).covers a n = true) :
    ∃ p, findBlock L a n = some p := by
  rw [← findBlock_isSome, Option.isSome_iff_exists] at h
  exact h

theorem cellAt_of_mem {L : List Block} (hd : DisjointBlocks L) {b : Block} (hb : b ∈ L) {x : Int}
    (hx : b.contains x) : cellAt L x = b.data.getD (x - b.start).toNat 0 := by
  induction L with
  | nil => cases hb
  | cons c L ih =>
    unfold DisjointBlocks at hd
    rw [List.pairwise_cons] at hd
    unfold cellAt
    rcases List.mem_cons.mp hb with rfl | hb'
    · simp [hx]
    · have hc : ¬ c.contains x := fun hc => hd.1 b hb' x ⟨hc, hx⟩
      have := ih hd.2 hb'
      unfold cellAt at this
      simpa [List.find?_cons, hc] using this

theorem cellAt_not_contained {L : List Block} {x : Int} (h : ∀ b ∈ L, ¬ b.contains x) : cellAt L x = 0 := by
  have : L.find? (fun b => decide (b.contains x)) = none := by
    rw [List.find?_eq_none]; intro b hb; simpa using h b hb
  unfold cellAt; rw [this]

/-- the block with other cell values -/
def Block.withData (b : Block) (d : List Int) : Block := { b with data := d }

@[simp] theorem withData_contains (b : Block) (d : List Int) (x : Int) :
    (b.withData d).contains x ↔ b.contains x := Iff.rfl
@[simp] theorem withData_start (b : Block) (d : List Int) : (b.withData d).start = b.start := rfl
@[simp] theorem withData_size (b : Block) (d : List Int) : (b.withData d).size = b.size := rfl
@[simp] theorem withData_data (b : Block) (d : List Int) : (b.withData d).data = d := rfl

theorem regions_set {L : List Block} {i : Nat} {b : Block} (hb : L[i]? = some b) (d : List Int) :
    (L.set i (b.withData d)).map (fun b => (b.start, b.size)) = L.map (fun b => (b.start, b.size)) := by
  apply List.ext_getElem?
  intro k
  simp only [List.getElem?_map, List.getElem?_set]
  split
  · rename_i h; subst h
    obtain ⟨hlt, hget⟩ := List.getElem?_eq_some_iff.mp hb
    subst hget
    simp [hlt]
  · rfl

theorem contains_set {L : List Block} {i : Nat} {b : Block} (hb : L[i]? = some b) (d : List Int) :
    DisjointBlocks L → DisjointBlocks (L.set i (b.withData d)) := by
  intro hd
  unfold DisjointBlocks at *
  rw [List.pairwise_iff_getElem] at *
  have hi := (List.getElem?_eq_some_iff.mp hb)
  obtain ⟨hlt, hget⟩ := hi
  have key : ∀ k (hk : k < (L.set i (b.withData d)).length) a,
      (L.set i (b.withData d))[k].contains a ↔ (L[k]'(by simpa using hk)).contains a := by
    intro k hk a
    rw [List.getElem_set]
    split
    · rename_i h; subst h; rw [hget]; rfl
    · rfl
  intro p q hp hq hpq a
  rw [key, key]
  exact hd p q (by simpa using hp) (by simpa using hq) hpq a

theorem listWF_set {L : List Block} {i : Nat} {b : Block} (hb : L[i]? = some b) {d : List Int}
    (hl : d.length = b.data.length) (h : ListWF L) : ListWF (L.set i (b.withData d)) := by
  refine ⟨?_, contains_set hb d h.disjoint⟩
  intro c hc
  rcases List.mem_or_eq_of_mem_set hc with h1 | rfl
  · exact h.blocks c h1
  · have := h.blocks b (List.mem_of_getElem? hb)
    exact ⟨by rw [withData_data, withData_size, hl]; exact this.len, this.pos⟩

theorem cellAt_set {L : List Block} {i : Nat} {b : Block} (hb : L[i]? = some b) (d : List Int)
    (hd : DisjointBlocks L) (x : Int) :
    cellAt (L.set i (b.withData d)) x = if b.contains x then d.getD (x - b.start).toNat 0 else cellAt L x := by
  have hlt : i < L.length := (List.getElem?_eq_some_iff.mp hb).1
  split
  · rename_i hx
    have hm : b.withData d ∈ L.set i (b.withData d) := List.mem_set hlt _
    rw [cellAt_of_mem (contains_set hb d hd) hm (x := x) hx]
    rfl
  · rename_i hx
    by_cases he : ∃ c ∈ L, c.contains x
    · obtain ⟨c, hc, hcx⟩ := he
      have hc' : c ∈ L.set i (b.withData d) := by
        obtain ⟨k, hk, rfl⟩ := List.mem_iff_getElem.mp hc
        have hki : k ≠ i := by
          rintro rfl
          have := (List.getElem?_eq_some_iff.mp hb).2
          rw [this] at hcx; exact hx hcx
        apply List.mem_iff_getElem.mpr
        refine ⟨k, by simpa using hk, ?_⟩
        rw [List.getElem_set_ne (by omega)]
      rw [cellAt_of_mem (contains_set hb d hd) hc' hcx, cellAt_of_mem hd hc hcx]
    · rw [cellAt_not_contained (L := L) (fun c hc hcx => he ⟨c, hc, hcx⟩)]
      apply cellAt_not_contained
      intro c hc hcx
      rcases List.mem_or_eq_of_mem_set hc with h1 | rfl
      · exact he ⟨c, h1, hcx⟩
      · exact hx hcx

/-- store values one after the other -/
def setMany : List Int → Nat → List Int → List Int
  | data, _, [] => data
  | data, off, v :: vs => setMany (data.set off v) (off + 1) vs

@[simp] theorem setMany_length (data : List Int) (off : Nat) (vs : List Int) :
    (setMany data off vs).length = data.length := by
  induction vs generalizing data off with
  | nil => rfl
  | cons v vs ih => simp [setMany, ih]

theorem setMany_getD (data : List Int) (off : Nat) (vs : List Int) (h : off + vs.length ≤ data.length) (k : Nat) :
    (setMany data off vs).getD k 0 = if off ≤ k ∧ k < off + vs.length then vs.getD (k - off) 0 else data.getD k 0 := by
  induction vs generalizing data off with
  | nil => simp [setMany]; omega
  | cons v vs ih =>
    simp only [List.length_cons] at h
    rw [setMany, ih _ _ (by simp; omega)]
    simp only [List.length_cons]
    by_cases h1 : off + 1 ≤ k ∧ k < off + 1 + vs.length
    · rw [if_pos h1, if_pos (by omega)]
      have : k - off = (k - (off + 1)) + 1 := by omega
      rw [this]; simp
    · rw [if_neg h1]
      by_cases h2 : k = off
      · subst h2
        rw [if_pos (by omega)]
        simp [List.getD_eq_getElem?_getD, show k < data.length by omega]
      · rw [if_neg (by omega)]
        simp [List.getD_eq_getElem?_getD, Ne.symm h2]

theorem setMany_append (data : List Int) (off : Nat) (vs ws : List Int) :
    setMany data off (vs ++ ws) = setMany (setMany data off vs) (off + vs.length) ws := by
  induction vs generalizing data off with
  | nil => simp [setMany]
  | cons v vs ih => simp only [List.cons_append, setMany, ih, List.length_cons]; congr 1; omega

theorem mem_setMany {data : List Int} {off : Nat} {vs : List Int} {x : Int} (h : x ∈ setMany data off vs) :
    x ∈ data ∨ x ∈ vs := by
  induction vs generalizing data off with
  | nil => exact .inl h
  | cons v vs ih =>
    rcases ih h with h1 | h1
    · rcases List.mem_or_eq_of_mem_set h1 with h2 | rfl
      · exact .inl h2
      · exact .inr (by simp)
    · exact .inr (by simp [h1])

theorem absTable_write {L : List Block} {i : Nat} {b : Block} (hb : L[i]? = some b) (h : ListWF L)
    {a : Int} {off : Int} (hoff : off = a - b.start) (h0 : 0 ≤ off) {vs : List Int}
    (hle : off + vs.length ≤ b.size) :
    absTable (L.set i (b.withData (setMany b.data off.toNat vs))) = (absTable L).write a vs := by
  have hwf := h.blocks b (List.mem_of_getElem? hb)
  unfold absTable Spec.Table.write
  simp only
  congr 1
  · exact regions_set hb _
  · funext x
    rw [cellAt_set hb _ h.disjoint]
    by_cases hx : b.contains x
    · rw [if_pos hx, setMany_getD _ _ _ (by rw [hwf.len] at hle; omega)]
      have hx' := hx
      unfold Block.contains at hx'
      by_cases hr : a ≤ x ∧ x < a + vs.length
      · rw [if_pos hr, if_pos (by omega)]
        congr 1; omega
      · rw [if_neg hr, if_neg (by omega)]
        rw [cellAt_of_mem h.disjoint (List.mem_of_getElem? hb) hx]
    · rw [if_neg hx, if_neg]
      unfold Block.contains at hx; omega

theorem absTable_read {L : List Block} {i : Nat} {b : Block} (hb : L[i]? = some b) (h : ListWF L)
    {a : Int} {off : Int} (hoff : off = a - b.start) (h0 : 0 ≤ off) {n : Nat} (hle : off + n ≤ b.size) :
    pySlice b.data off (off + n) = (absTable L).read a n := by
  have hmem := List.mem_of_getElem? hb
  have hwf := h.blocks b hmem
  have hlen := hwf.len
  rw [pySlice_nonneg _ _ _ h0 (by omega) (by omega) (by omega)]
  apply List.ext_getElem
  · simp [Spec.Table.read]; omega
  · intro k h1 h2
    simp only [Spec.Table.read, List.getElem_map, List.getElem_range, absTable]
    have hk : k < n := by simpa [Spec.Table.read] using h2
    rw [cellAt_of_mem h.disjoint hmem (by unfold Block.contains; omega)]
    simp only [List.getElem_take, List.getElem_drop]
    have e : (a + ↑k - b.start).toNat = off.toNat + k := by omega
    rw [e, List.getD_eq_getElem?_getD, List.getElem?_eq_getElem (by omega)]
    rfl

theorem listFits_set {u : Bool} {L : List Block} (hf : ListFits u L) {i : Nat} {b : Block} (hb : L[i]? = some b)
    {off : Nat} {vs : List Int} (hv : ∀ v ∈ vs, Spec.fits u v) :
    ListFits u (L.set i (b.withData (setMany b.data off vs))) := by
  intro c hc v hvc
  rcases List.mem_or_eq_of_mem_set hc with h1 | rfl
  · exact hf c h1 v hvc
  · rcases mem_setMany hvc with h1 | h1
    · exact hf b (List.mem_of_getElem? hb) v h1
    · exact hv v h1

end Modbus
