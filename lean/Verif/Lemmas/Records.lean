import Verif.Lemmas.Analyse
/- Lemmas about splitting the data of a Read File Record response. -/
namespace Modbus

/-- the next position of the loop, `none` when it ends -/
def recNext (result : List Int) (ptr : Int) : Option Int :=
  if ptr < result.length then
    match pyIndex result ptr with
    | .error _ => none
    | .ok v => some (ptr + (v / 2 + 2))
  else none

/-- the loop runs out of fuel exactly if it makes that many steps -/
theorem recordsLoop_none (result : List Int) (fuel : Nat) (ptr : Int) (acc : List (Int × Int)) :
    recordsLoop result (fuel+1) ptr acc = none ↔
      ∃ p, recNext result ptr = some p ∧ recordsLoop result fuel p [] = none := by
  have hacc : ∀ (fuel : Nat) (ptr : Int) (acc acc' : List (Int × Int)),
      recordsLoop result fuel ptr acc = none → recordsLoop result fuel ptr acc' = none := by
    intro fuel
    induction fuel with
    | zero => intros; rfl
    | succ n ih =>
      intro ptr acc acc' h
      rw [recordsLoop] at h ⊢
      split at h
      · rename_i h1
        rw [if_pos h1]
        cases e : pyIndex result ptr with
        | error x => rw [e] at h; cases h
        | ok v => rw [e] at h; exact ih _ _ _ h
      · cases h
  rw [recordsLoop, recNext]
  by_cases h1 : ptr < result.length
  · rw [if_pos h1, if_pos h1]
    cases e : pyIndex result ptr with
    | error x => simp
    | ok v =>
      dsimp only
      constructor
      · intro h; exact ⟨_, rfl, hacc _ _ _ _ h⟩
      · rintro ⟨p, hp, h⟩; cases hp; exact hacc _ _ _ _ h
  · rw [if_neg h1, if_neg h1]; simp

/-- position after `n` steps -/
def recIter (result : List Int) : Nat → Option Int
  | 0 => some 0
  | n+1 => (recIter result n).bind (recNext result)

theorem recordsLoop_iter (result : List Int) (fuel n : Nat) (p : Int) (h : recIter result n = some p) :
    recordsLoop result fuel p [] = none ↔ (recIter result (n + fuel)).isSome := by
  induction fuel generalizing n p with
  | zero => simp [recordsLoop, h]
  | succ f ih =>
    rw [recordsLoop_none]
    have e : recIter result (n+1) = recNext result p := by rw [recIter, h]; rfl
    cases hp : recNext result p with
    | none =>
      have hn : ∀ k, recIter result (n + 1 + k) = none := by
        intro k
        induction k with
        | zero => rw [Nat.add_zero, e, hp]
        | succ k ihk => rw [show n + 1 + (k+1) = (n+1+k)+1 by omega, recIter, ihk]; rfl
      rw [show n + (f+1) = n + 1 + f by omega, hn f]
      simp
    | some p' =>
      rw [hp] at e
      rw [show n + (f+1) = n + 1 + f by omega, ← ih (n+1) p' e]
      constructor
      · rintro ⟨q, hq, h'⟩; cases hq; exact h'
      · intro h'; exact ⟨p', rfl, h'⟩

theorem recNext_range {result : List Int} {p q : Int} (h : recNext result p = some q) :
    -(result.length : Int) ≤ p ∧ p < result.length := by
  unfold recNext at h
  split at h
  · rename_i h1
    refine ⟨?_, h1⟩
    unfold pyIndex at h
    dsimp only at h
    by_cases h2 : p < 0
    · rw [if_pos h2] at h
      by_cases h3 : p + result.length < 0
      · rw [if_pos h3] at h; cases h
      · omega
    · omega
  · cases h

/-- A loop that has not ended after `2*len+2` rounds never ends: its variable takes at most `2*len` values. -/
theorem recordsLoop_diverges (result : List Int) (h : recordsLoop result (2 * result.length + 2) 0 [] = none)
    (fuel : Nat) : recordsLoop result fuel 0 [] = none := by
  rw [recordsLoop_iter result _ 0 0 rfl, Nat.zero_add] at h
  rw [recordsLoop_iter result _ 0 0 rfl, Nat.zero_add]
  have hdown : ∀ n m, n ≤ m → (recIter result m).isSome → (recIter result n).isSome := by
    intro n m hnm
    induction hnm with
    | refl => exact id
    | step _ ih =>
      intro hm
      apply ih
      rw [recIter] at hm
      cases e : recIter result _ with
      | none => rw [e] at hm; cases hm
      | some _ => rfl
  let N := 2 * result.length + 2
  -- the positions of the first N rounds lie in an interval of 2*len integers
  let f : Nat → Int := fun n => (recIter result n).getD 0
  have hf : ∀ n, n < N → recIter result n = some (f n) ∧ -(result.length : Int) ≤ f n ∧ f n < result.length := by
    intro n hn
    have h1 := hdown n N (by omega) h
    have h2 := hdown (n+1) N (by omega) h
    obtain ⟨p, hp⟩ := Option.isSome_iff_exists.mp h1
    have hfp : f n = p := by simp [f, hp]
    rw [hfp]
    refine ⟨hp, ?_⟩
    rw [recIter, hp] at h2
    obtain ⟨q, hq⟩ := Option.isSome_iff_exists.mp h2
    exact recNext_range hq
  obtain ⟨x, hx, y, hy, hxy, hfxy⟩ := Finset.exists_ne_map_eq_of_card_lt_of_maps_to
    (s := Finset.range N) (t := Finset.Ico (-(result.length : Int)) result.length) (f := f)
    (by simp [N]; omega) (by
      intro n hn
      have := hf n (by simpa using hn)
      simp only [Finset.coe_Ico, Set.mem_Ico]
      exact this.2)
  have hcycle : ∀ x y, x < y → y < N → f x = f y → ∀ m, (recIter result m).isSome := by
    intro x y hlt hy' hfe
    have hstep : ∀ k, recIter result (x + k) = recIter result (y + k) := by
      intro k
      induction k with
      | zero => rw [Nat.add_zero, Nat.add_zero, (hf x (by omega)).1, (hf y hy').1, hfe]
      | succ k ih => rw [← Nat.add_assoc, ← Nat.add_assoc, recIter, recIter, ih]
    intro m
    induction m using Nat.strong_induction_on with
    | _ m ih =>
      by_cases hm : m < y
      · rw [(hf m (by omega)).1]; rfl
      · have := hstep (m - y)
        rw [show y + (m - y) = m by omega] at this
        rw [← this]
        exact ih _ (by omega)
  rcases Nat.lt_or_gt_of_ne hxy with hl | hl
  · exact hcycle x y hl (by simpa using hy) hfxy fuel
  · exact hcycle y x hl (by simpa using hx) hfxy.symm fuel

/-- with non-negative values the loop ends -/
theorem recordsLoop_terminates (result : List Int) (hpos : ∀ v ∈ result, 0 ≤ v) (fuel : Nat) (ptr : Int)
    (h0 : 0 ≤ ptr) (hfuel : (result.length : Int) - ptr < fuel) (hf : 0 < fuel) (acc : List (Int × Int)) :
    ∃ bounds, recordsLoop result fuel ptr acc = some (.ok bounds) := by
  induction fuel generalizing ptr acc with
  | zero => omega
  | succ n ih =>
    rw [recordsLoop]
    by_cases h1 : ptr < result.length
    · rw [if_pos h1]
      have e : pyIndex result ptr = .ok (result[ptr.toNat]'(by omega)) := by
        unfold pyIndex
        dsimp only
        rw [if_neg (show ¬ ptr < 0 by omega), if_neg (show ¬ ptr < 0 by omega), List.getElem?_eq_getElem (by omega)]
      rw [e]
      dsimp only
      have hv := hpos _ (List.getElem_mem (show ptr.toNat < result.length by omega))
      exact ih _ (by omega) (by omega) (by omega) _
    · rw [if_neg h1]; exact ⟨_, rfl⟩

theorem splitRecords_terminates (result : List Int) (hpos : ∀ v ∈ result, 0 ≤ v) : ∃ rs, splitRecords result = .ok rs := by
  obtain ⟨b, hb⟩ := recordsLoop_terminates result hpos (2 * result.length + 2) 0 (by omega) (by omega) (by omega) []
  exact ⟨_, by rw [splitRecords, hb]⟩

theorem slice_mid {α} (pre mid post : List α) :
    slice (pre ++ mid ++ post) pre.length (pre.length + mid.length) = mid := by
  unfold slice
  rw [List.take_append_of_le_length (by simp), List.take_of_length_le (by simp), List.drop_left]

/-- the unpacked data of a conforming response: every record preceded by `2*length+1` and the reference type -/
def recordValues (r : List Int) : List Int := (2 * (r.length : Int) + 1) :: 6 :: r

theorem recordsLoop_conforming (recs : List (List Int)) (pre : List Int) (acc : List (Int × Int)) (fuel : Nat)
    (hfuel : recs.length < fuel) :
    ∃ bounds, recordsLoop (pre ++ recs.flatMap recordValues) fuel pre.length acc = some (.ok (acc ++ bounds)) ∧
      bounds.map (fun b => pySlice (pre ++ recs.flatMap recordValues) b.1 b.2) = recs := by
  induction recs generalizing pre acc fuel with
  | nil =>
    refine ⟨[], ?_, rfl⟩
    cases fuel with
    | zero => omega
    | succ n => rw [recordsLoop, if_neg (by simp)]; simp
  | cons r recs ih =>
    cases fuel with
    | zero => omega
    | succ n =>
      have eL : pre ++ (r :: recs).flatMap recordValues = (pre ++ recordValues r) ++ recs.flatMap recordValues := by simp
      obtain ⟨bounds, hb, hs⟩ := ih (pre ++ recordValues r)
        (acc ++ [((pre.length : Int) + 2, (pre.length : Int) + 2 + r.length)]) n
        (by simp only [List.length_cons] at hfuel; omega)
      rw [← eL] at hb hs
      refine ⟨((pre.length : Int) + 2, (pre.length : Int) + 2 + r.length) :: bounds, ?_, ?_⟩
      · rw [recordsLoop, if_pos (by simp [recordValues]; omega)]
        have e : pyIndex (pre ++ (r :: recs).flatMap recordValues) (pre.length : Int) = .ok (2 * (r.length : Int) + 1) := by
          unfold pyIndex
          dsimp only
          rw [if_neg (show ¬ (pre.length : Int) < 0 by omega), if_neg (show ¬ (pre.length : Int) < 0 by omega),
            Int.toNat_natCast, List.getElem?_append_right (by omega)]
          simp [recordValues]
        rw [e]
        dsimp only
        rw [show (2 * (r.length : Int) + 1) / 2 = r.length by omega]
        rw [show (pre.length : Int) + ((r.length : Int) + 2) = ((pre ++ recordValues r).length : Int) by
          simp [recordValues]; omega, hb]
        simp
      · rw [List.map_cons, hs]
        congr 1
        unfold pySlice sliceBound
        rw [if_neg (by omega), if_neg (by omega)]
        have e2 : pre ++ (r :: recs).flatMap recordValues
            = (pre ++ [2 * (r.length : Int) + 1, 6]) ++ r ++ recs.flatMap recordValues := by simp [recordValues]
        have := slice_mid (pre ++ [2 * (r.length : Int) + 1, 6]) r (recs.flatMap recordValues)
        rw [← e2] at this
        have hlen : pre.length + 2 + r.length ≤ (pre ++ (r :: recs).flatMap recordValues).length := by
          simp [recordValues]
          omega
        rw [show min ((pre.length : Int) + 2).toNat (pre ++ (r :: recs).flatMap recordValues).length
            = (pre ++ [2 * (r.length : Int) + 1, 6]).length by
              simp only [List.length_append, List.length_cons, List.length_nil] at hlen ⊢; omega,
          show min ((pre.length : Int) + 2 + r.length).toNat (pre ++ (r :: recs).flatMap recordValues).length
            = (pre ++ [2 * (r.length : Int) + 1, 6]).length + r.length by
              simp only [List.length_append, List.length_cons, List.length_nil] at hlen ⊢; omega]
        exact this

theorem splitRecords_conforming (recs : List (List Int)) : splitRecords (recs.flatMap recordValues) = .ok recs := by
  have hlen : recs.length ≤ (recs.flatMap recordValues).length := by
    induction recs with
    | nil => simp
    | cons r recs ih => rw [List.flatMap_cons, List.length_append]; simp only [List.length_cons, recordValues]; omega
  obtain ⟨b, hb, hs⟩ := recordsLoop_conforming recs [] [] (2 * (recs.flatMap recordValues).length + 2) (by omega)
  simp only [List.nil_append, List.length_nil, Int.natCast_zero] at hb hs
  rw [splitRecords]
  rw [hb]
  simp only [hs]

end Modbus
