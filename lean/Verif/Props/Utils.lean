import Mathlib.Algebra.Order.Field.Basic
import Mathlib.Data.Rat.Cast.Order
import Mathlib.Tactic.NormNum
import Mathlib.Tactic.Positivity
import Mathlib.Tactic.Linarith
import Verif.Model.Utils
import Verif.Lemmas.Text
/-
# Properties C55, C56: helper functions
-/
namespace Modbus

/-! ## C55: log text -/

theorem logFold (buff : Bytes) (pre : Text) :
    buff.foldl (fun log i => log ++ (natText i.toNat ++ "-".toList)) pre = pre ++ buff.flatMap fun i => natText i.toNat ++ ['-'] := by
  induction buff generalizing pre with
  | nil => simp
  | cons b buff ih => rw [List.foldl_cons, ih, List.flatMap_cons]; simp [List.append_assoc]

/-- decimal numbers separated by `-` -/
def dashed : List Nat → Text
  | [] => []
  | [n] => natText n
  | n :: ns => natText n ++ '-' :: dashed ns

theorem flat_dashed (buff : Bytes) (b : UInt8) :
    ((b :: buff).flatMap fun i => natText i.toNat ++ ['-']) = dashed ((b :: buff).map (·.toNat)) ++ ['-'] := by
  induction buff generalizing b with
  | nil => simp [dashed]
  | cons c buff ih =>
    rw [List.flatMap_cons, ih c]
    simp [dashed]

/-- **C55.** The log text of a non-empty buffer is the prefix and the bytes in decimal, separated by `-`. -/
theorem C55_text (pre : Text) (b : UInt8) (buff : Bytes) :
    getLogBuffer pre (b :: buff) = pre ++ dashed ((b :: buff).map (·.toNat)) := by
  unfold getLogBuffer
  rw [logFold, flat_dashed, ← List.append_assoc, List.dropLast_concat]

theorem dash_not_mem (n : Nat) : '-' ∉ natText n := fun h => isDigit_ne (natText_digits n '-' h) '-' (by decide) rfl

theorem flat_inj (a b : Bytes) (h : (a.flatMap fun i => natText i.toNat ++ ['-']) = b.flatMap fun i => natText i.toNat ++ ['-']) :
    a = b := by
  have key : ∀ (x y s t : Text), '-' ∉ x → '-' ∉ y → x ++ '-' :: s = y ++ '-' :: t → x = y ∧ s = t := by
    intro x
    induction x with
    | nil =>
      intro y s t _ hy he
      cases y with
      | nil => simpa using he
      | cons c y => simp only [List.nil_append, List.cons_append, List.cons.injEq] at he
                    exact absurd (he.1 ▸ List.mem_cons_self ..) hy
    | cons c x ih =>
      intro y s t hx hy he
      cases y with
      | nil => simp only [List.nil_append, List.cons_append, List.cons.injEq] at he
               exact absurd (he.1 ▸ List.mem_cons_self ..) hx
      | cons d y =>
        simp only [List.cons_append, List.cons.injEq] at he
        obtain ⟨h1, h2⟩ := ih y s t (fun hm => hx (List.mem_cons_of_mem _ hm)) (fun hm => hy (List.mem_cons_of_mem _ hm)) he.2
        exact ⟨by rw [he.1, h1], h2⟩
  induction a generalizing b with
  | nil =>
    cases b with
    | nil => rfl
    | cons y b => have := congrArg List.length h; simp at this
  | cons x a ih =>
    cases b with
    | nil => have := congrArg List.length h; simp at this
    | cons y b =>
      simp only [List.flatMap_cons, List.append_assoc, List.singleton_append] at h
      obtain ⟨h1, h2⟩ := key _ _ _ _ (dash_not_mem _) (dash_not_mem _) h
      rw [ih b h2, UInt8.toNat_inj.mp (natText_inj h1)]

/-- **C55.** Two different buffers, empty or not, never give the same log text (with the same prefix). -/
theorem C55_injective (pre : Text) (a b : Bytes) (h : getLogBuffer pre a = getLogBuffer pre b) : a = b := by
  unfold getLogBuffer at h
  rw [logFold, logFold] at h
  have hlen : ∀ (x : UInt8) (l : Bytes), pre.length < (pre ++ (x :: l).flatMap fun i => natText i.toNat ++ ['-']).dropLast.length := by
    intro x l
    have : 0 < (natText x.toNat).length := List.length_pos_iff.mpr (natText_ne_nil _)
    simp only [List.length_dropLast, List.length_append, List.flatMap_cons, List.length_cons]
    omega
  have hend : ∀ (x : UInt8) (l : Bytes), ∃ t, (pre ++ (x :: l).flatMap fun i => natText i.toNat ++ ['-']) = t ++ ['-'] := by
    intro x l
    exact ⟨pre ++ dashed ((x :: l).map (·.toNat)), by rw [flat_dashed, List.append_assoc]⟩
  cases a with
  | nil =>
    cases b with
    | nil => rfl
    | cons y b =>
      have h1 := hlen y b
      rw [← h] at h1
      simp only [List.flatMap_nil, List.append_nil, List.length_dropLast] at h1; omega
  | cons x a =>
    cases b with
    | nil =>
      have h1 := hlen x a
      rw [h] at h1
      simp only [List.flatMap_nil, List.append_nil, List.length_dropLast] at h1; omega
    | cons y b =>
      obtain ⟨t, ht⟩ := hend x a
      obtain ⟨u, hu⟩ := hend y b
      rw [ht, hu, List.dropLast_concat, List.dropLast_concat] at h
      rw [h, ← hu] at ht
      exact flat_inj _ _ (List.append_cancel_left ht)

/-- The empty buffer is the exception to the format: the last character of the prefix is lost. -/
theorem C55_false_empty : getLogBuffer "-> ".toList [] = "->".toList := by decide

example : getLogBuffer "-> ".toList [1, 20, 255] = "-> 1-20-255".toList := by
  rw [C55_text]; simp [dashed, natText, digitChar]

/-! ## C56: words and character times -/

/-- **C56.** Swapping the bytes of a 16-bit word twice gives the word; swapping exchanges high and low byte. -/
theorem C56_swap (w : Nat) (h : w < 65536) :
    swapBytes (swapBytes w) = w ∧ swapBytes w = 256 * (w % 256) + w / 256 := by
  have e : ∀ v, swapBytes v = 256 * (v % 256) + v / 256 % 256 := by
    intro v
    unfold swapBytes
    have h1 : ∀ x, x &&& 0xFF = x % 256 := fun x => Nat.and_two_pow_sub_one_eq_mod x 8
    simp only [h1, Nat.shiftRight_eq_div_pow, Nat.shiftLeft_eq]
    omega
  have hs : swapBytes w = 256 * (w % 256) + w / 256 := by rw [e, Nat.mod_eq_of_lt (by omega : w / 256 < 256)]
  refine ⟨?_, hs⟩
  rw [hs, e]
  have h3 : (256 * (w % 256) + w / 256) % 256 = w / 256 := by omega
  have h4 : (256 * (w % 256) + w / 256) / 256 = w % 256 := by omega
  rw [h3, h4]; omega

/-- **C56.** For positive baud rates the character time is positive, `11/baud` up to 19200, half a millisecond above, and never
    longer for a higher baud rate. -/
theorem C56_inter_char (b c : Int) (hb : 0 < b) (hc : b ≤ c) :
    ∃ x y : Rat, calculateRtuInterChar b = .ok x ∧ calculateRtuInterChar c = .ok y ∧ 0 < y ∧ y ≤ x ∧
      (b ≤ 19200 → x = 11 / b) ∧ (19200 < b → x = 1 / 2000) := by
  have hbq : (0 : Rat) < (b : Rat) := by exact_mod_cast hb
  have hcq : (b : Rat) ≤ (c : Rat) := by exact_mod_cast hc
  unfold calculateRtuInterChar
  by_cases h1 : b ≤ 19200
  · rw [if_pos h1, if_neg (by omega)]
    have h1q : (b : Rat) ≤ 19200 := by exact_mod_cast h1
    by_cases h2 : c ≤ 19200
    · rw [if_pos h2, if_neg (by omega)]
      exact ⟨_, _, rfl, rfl, by have := lt_of_lt_of_le hbq hcq; positivity, div_le_div_of_nonneg_left (by norm_num) hbq hcq,
        fun _ => rfl, fun h => by omega⟩
    · rw [if_neg h2]
      refine ⟨_, _, rfl, rfl, by norm_num, ?_, fun _ => rfl, fun h => by omega⟩
      rw [le_div_iff₀ hbq]
      linarith
  · rw [if_neg h1, if_neg (by omega)]
    exact ⟨_, _, rfl, rfl, by norm_num, le_refl _, fun h => absurd h h1, fun _ => by norm_num⟩

example : calculateRtuInterChar 9600 = .ok (11 / 9600) := by simp [calculateRtuInterChar]
example : swapBytes 0x1234 = 0x3412 := by decide

end Modbus
