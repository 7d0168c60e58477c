import Verif.Py
import Mathlib.Data.List.Induction
/- Helper lemmas about the Python fragment. -/
namespace Modbus

theorem u8_ofNat_toNat {n : Nat} (h : n < 256) : (UInt8.ofNat n).toNat = n := by
  simp [Nat.mod_eq_of_lt h]

theorem u8_lt (b : UInt8) : b.toNat < 256 := b.toNat_lt

theorem u8_ext {a b : UInt8} (h : a.toNat = b.toNat) : a = b := UInt8.toNat_inj.mp h

@[simp] theorem beNat_nil : beNat [] = 0 := rfl

theorem beNat_append_singleton (bs : Bytes) (b : UInt8) : beNat (bs ++ [b]) = beNat bs * 256 + b.toNat := by
  simp [beNat, List.foldl_append]

@[simp] theorem beNat_one (a : UInt8) : beNat [a] = a.toNat := by simp [beNat]
@[simp] theorem beNat_two (a b : UInt8) : beNat [a, b] = a.toNat * 256 + b.toNat := by simp [beNat]

@[simp] theorem natBE_length (n v : Nat) : (natBE n v).length = n := by
  induction n generalizing v with
  | zero => rfl
  | succ n ih => simp [natBE, ih]

theorem beNat_natBE (n v : Nat) : beNat (natBE n v) = v % 256 ^ n := by
  induction n generalizing v with
  | zero => simp [natBE, Nat.mod_one]
  | succ n ih =>
    rw [natBE, beNat_append_singleton, ih, u8_ofNat_toNat (Nat.mod_lt _ (by decide)), Nat.pow_succ,
      Nat.mul_comm (256 ^ n) 256, Nat.mod_mul]
    omega

theorem beNat_lt (bs : Bytes) : beNat bs < 256 ^ bs.length := by
  induction bs using List.reverseRecOn with
  | nil => simp
  | append_singleton bs b ih =>
    rw [beNat_append_singleton, List.length_append, Nat.pow_add]
    have := u8_lt b
    simp only [List.length_singleton, Nat.pow_one]
    omega

theorem natBE_beNat (bs : Bytes) : natBE bs.length (beNat bs) = bs := by
  induction bs using List.reverseRecOn with
  | nil => rfl
  | append_singleton bs b ih =>
    rw [beNat_append_singleton, List.length_append]
    have hb := u8_lt b
    simp only [List.length_singleton, natBE]
    have h1 : (beNat bs * 256 + b.toNat) / 256 = beNat bs := by omega
    have h2 : (beNat bs * 256 + b.toNat) % 256 = b.toNat := by omega
    rw [h1, h2, ih]
    simp

/-! ### pack / unpack of one value -/

theorem packOne_ok {big : Bool} {c : Code} {v : Int} (h : c.lo ≤ v ∧ v < c.hi) :
    packOne big c v = .ok (if big then natBE c.size (v % (c.modulus : Int)).toNat
      else (natBE c.size (v % (c.modulus : Int)).toNat).reverse) := by
  simp [packOne, h]

theorem packOne_error {big : Bool} {c : Code} {v : Int} (h : ¬ (c.lo ≤ v ∧ v < c.hi)) :
    packOne big c v = .error .structError := by
  simp only [packOne, if_neg h]

theorem packOne_length {big : Bool} {c : Code} {v : Int} {bs : Bytes} (h : packOne big c v = .ok bs) :
    bs.length = c.size := by
  unfold packOne at h
  split at h
  · cases h; split <;> simp
  · cases h

theorem Code.modulus_pos (c : Code) : 0 < c.modulus := Nat.pow_pos (by decide)

theorem unpackOne_packOne {big : Bool} {c : Code} {v : Int} {bs : Bytes} (hs : 0 < c.size)
    (h : packOne big c v = .ok bs) : unpackOne big c bs = v := by
  unfold packOne at h
  split at h
  case isFalse => cases h
  case isTrue hr =>
    have hbs : (if big then bs else bs.reverse) = natBE c.size (v % (c.modulus : Int)).toNat := by
      cases h; cases big <;> simp
    have hm : 2 * (c.modulus / 2) = c.modulus := by
      unfold Code.modulus
      obtain ⟨n, hn⟩ : ∃ n, c.size = n + 1 := ⟨c.size - 1, by omega⟩
      rw [hn, Nat.pow_succ]; omega
    have hpos := c.modulus_pos
    unfold unpackOne
    rw [hbs, beNat_natBE]
    simp only
    have e : ((v % (c.modulus : Int)).toNat % 256 ^ c.size : Nat) = (v % (c.modulus : Int)).toNat := by
      apply Nat.mod_eq_of_lt
      have : v % (c.modulus : Int) < c.modulus := Int.emod_lt_of_pos _ (by omega)
      have h0 : 0 ≤ v % (c.modulus : Int) := Int.emod_nonneg _ (by omega)
      show _ < c.modulus
      omega
    rw [e]
    obtain ⟨h1, h2⟩ := hr
    unfold Code.lo at h1; unfold Code.hi at h2
    cases hsg : c.signed
    · simp only [hsg] at h1 h2
      simp only [Bool.false_eq_true, false_and, if_false] at *
      rw [Int.emod_eq_of_lt h1 h2]; omega
    · simp only [hsg, if_true] at h1 h2
      simp only [true_and]
      by_cases hv : 0 ≤ v
      · rw [Int.emod_eq_of_lt hv (by omega)]
        rw [if_neg (by omega)]; omega
      · have e2 : v % (c.modulus : Int) = v + c.modulus := by
          rw [← Int.add_emod_right]; exact Int.emod_eq_of_lt (by omega) (by omega)
        rw [e2, if_pos (by omega)]; omega

/-- an unsigned value below 2^16 packs to its two bytes -/
theorem packOne_H {v : Int} (h0 : 0 ≤ v) (h1 : v < 65536) :
    packOne true Code.H v = .ok [UInt8.ofNat (v.toNat / 256), UInt8.ofNat (v.toNat % 256)] := by
  rw [packOne_ok (by simp [Code.H, Code.lo, Code.hi, Code.modulus]; omega)]
  have : (v % (Code.H.modulus : Int)).toNat = v.toNat := by
    simp only [Code.H, Code.modulus]; omega
  rw [this]
  simp [Code.H, natBE, Nat.mod_eq_of_lt (show v.toNat / 256 < 256 by omega)]

theorem packOne_B {v : Int} (h0 : 0 ≤ v) (h1 : v < 256) :
    packOne true Code.B v = .ok [UInt8.ofNat v.toNat] := by
  rw [packOne_ok (by simp [Code.B, Code.lo, Code.hi, Code.modulus]; omega)]
  have : (v % (Code.B.modulus : Int)).toNat = v.toNat := by
    simp only [Code.B, Code.modulus]; omega
  rw [this]
  simp [Code.B, natBE, Nat.mod_eq_of_lt (show v.toNat < 256 by omega)]

theorem packOne_h {v : Int} (h0 : -32768 ≤ v) (h1 : v < 32768) :
    packOne true Code.h v =
      .ok [UInt8.ofNat ((v % 65536).toNat / 256), UInt8.ofNat ((v % 65536).toNat % 256)] := by
  rw [packOne_ok (by simp [Code.h, Code.lo, Code.hi, Code.modulus]; omega)]
  simp [Code.h, natBE, Code.modulus, Nat.mod_eq_of_lt (show (v % 65536).toNat / 256 < 256 by omega)]

@[simp] theorem unpackOne_B (a : UInt8) : unpackOne true Code.B [a] = a.toNat := by
  simp [unpackOne, Code.B]

@[simp] theorem unpackOne_H (a b : UInt8) : unpackOne true Code.H [a, b] = (a.toNat : Int) * 256 + b.toNat := by
  simp [unpackOne, Code.H]

theorem unpackOne_h (a b : UInt8) : unpackOne true Code.h [a, b] =
    if 32768 ≤ a.toNat * 256 + b.toNat then (a.toNat : Int) * 256 + b.toNat - 65536
    else (a.toNat : Int) * 256 + b.toNat := by
  simp [unpackOne, Code.h, Code.modulus]

theorem unpackOne_b (a : UInt8) : unpackOne true Code.b [a] =
    if 128 ≤ a.toNat then (a.toNat : Int) - 256 else (a.toNat : Int) := by
  simp [unpackOne, Code.b, Code.modulus]

@[simp] theorem Code.B_size : Code.B.size = 1 := rfl
@[simp] theorem Code.b_size : Code.b.size = 1 := rfl
@[simp] theorem Code.H_size : Code.H.size = 2 := rfl
@[simp] theorem Code.h_size : Code.h.size = 2 := rfl

theorem except_bind_ok {α β : Type} (a : α) (f : α → Except PyErr β) : (Except.ok a >>= f) = f a := rfl
theorem except_bind_error {α β : Type} (e : PyErr) (f : α → Except PyErr β) :
    ((Except.error e : Except PyErr α) >>= f) = .error e := rfl

/-- packing one value with a one-code format -/
theorem structPack_single (c : Code) (v : Int) : structPack (be [c]) [v] = packOne true c v := by
  simp only [structPack, be, packCodes]
  cases packOne true c v <;> simp [bind, Except.bind, pure, Except.pure]

theorem packCodes_nil {big : Bool} : packCodes big [] [] = .ok [] := rfl

theorem packCodes_cons {big : Bool} {c : Code} {cs : List Code} {v : Int} {vs : List Int} {x y : Bytes}
    (h1 : packOne big c v = .ok x) (h2 : packCodes big cs vs = .ok y) :
    packCodes big (c :: cs) (v :: vs) = .ok (x ++ y) := by
  rw [packCodes, h1, h2]; rfl

/-! ### Slices -/

theorem slice_length {α} (l : List α) (i j : Nat) : (slice l i j).length = min j l.length - i := by
  simp [slice]

theorem slice_eq_drop_take {α} (l : List α) (i n : Nat) : slice l i (i + n) = (l.drop i).take n := by
  simp [slice, List.drop_take]

theorem pySlice_nonneg {α} (l : List α) (i j : Int) (hi : 0 ≤ i) (hj : 0 ≤ j) (hl : j ≤ l.length) (hij : i ≤ j) :
    pySlice l i j = (l.drop i.toNat).take (j.toNat - i.toNat) := by
  have e1 : sliceBound l.length i = i.toNat := by simp only [sliceBound]; rw [if_neg (by omega)]; omega
  have e2 : sliceBound l.length j = j.toNat := by simp only [sliceBound]; rw [if_neg (by omega)]; omega
  rw [pySlice, e1, e2, slice, List.drop_take]

/-! ### Dictionaries -/

namespace Dict
variable {κ ν : Type} [DecidableEq κ]

theorem get?_set_same (d : List (κ × ν)) (k : κ) (v : ν) : get? (set d k v) k = some v := by
  induction d with
  | nil => simp [set, get?]
  | cons p d ih =>
    obtain ⟨k', v'⟩ := p
    by_cases h : k' = k <;> simp [set, get?, h, ih]

theorem get?_set_other (d : List (κ × ν)) (k k' : κ) (v : ν) (hk : k' ≠ k) : get? (set d k v) k' = get? d k' := by
  induction d with
  | nil => simp [set, get?, Ne.symm hk]
  | cons p d ih =>
    obtain ⟨k2, v2⟩ := p
    by_cases h : k2 = k
    · simp [set, get?, h, Ne.symm hk]
    · by_cases h2 : k2 = k' <;> simp [set, get?, h, h2, ih, hk]

theorem get?_set (d : List (κ × ν)) (k k' : κ) (v : ν) :
    get? (set d k v) k' = if k' = k then some v else get? d k' := by
  by_cases h : k' = k
  · subst h; simp [get?_set_same]
  · simp [h, get?_set_other d k k' v h]

theorem get?_erase_same (d : List (κ × ν)) (k : κ) : get? (erase d k) k = none := by
  induction d with
  | nil => rfl
  | cons p d ih =>
    obtain ⟨k', v'⟩ := p
    by_cases h : k' = k <;> simp [erase, get?, h, ih]

theorem get?_erase_other (d : List (κ × ν)) (k k' : κ) (hk : k' ≠ k) : get? (erase d k) k' = get? d k' := by
  induction d with
  | nil => rfl
  | cons p d ih =>
    obtain ⟨k2, v2⟩ := p
    by_cases h : k2 = k
    · simp [erase, get?, h, ih, Ne.symm hk]
    · by_cases h2 : k2 = k' <;> simp [erase, get?, h, h2, ih, hk]

theorem get?_erase (d : List (κ × ν)) (k k' : κ) :
    get? (erase d k) k' = if k' = k then none else get? d k' := by
  by_cases h : k' = k
  · subst h; simp [get?_erase_same]
  · simp [h, get?_erase_other d k k' h]

theorem has_eq_true_iff (d : List (κ × ν)) (k : κ) : has d k = true ↔ ∃ v, get? d k = some v := by
  rw [has, Option.isSome_iff_exists]

theorem has_eq_false_iff (d : List (κ × ν)) (k : κ) : has d k = false ↔ get? d k = none := by
  rw [has]; cases get? d k <;> simp

end Dict

end Modbus
