import Verif.Model.Utils
import Verif.Spec.Crc
/- The table-driven CRC computes the bitwise one; linearity. -/
namespace Modbus
open Spec (crcShift crcShifts crcByte crc16 frameBit)

theorem xor_half (a b : Nat) : (a ^^^ b) / 2 = a / 2 ^^^ b / 2 := by
  have h : ∀ n : Nat, n / 2 = n >>> 1 := fun n => by rw [Nat.shiftRight_eq_div_pow]
  rw [h, h, h, Nat.shiftRight_xor_distrib]

theorem crcShift_xor (a b : Nat) : crcShift (a ^^^ b) = crcShift a ^^^ crcShift b := by
  have hm : (a ^^^ b) % 2 = 1 ↔ ¬ (a % 2 = 1 ↔ b % 2 = 1) := by
    rw [Nat.xor_mod_two_eq_one]
  unfold crcShift
  rw [xor_half]
  by_cases ha : a % 2 = 1 <;> by_cases hb : b % 2 = 1
  · rw [if_neg (by rw [hm]; simp [ha, hb]), if_pos ha, if_pos hb]
    apply Nat.eq_of_testBit_eq; intro i
    simp only [Nat.testBit_xor]
    cases (a/2).testBit i <;> cases (b/2).testBit i <;> cases Nat.testBit 0xA001 i <;> rfl
  · rw [if_pos (by rw [hm]; simp [ha, hb]), if_pos ha, if_neg hb]
    apply Nat.eq_of_testBit_eq; intro i
    simp only [Nat.testBit_xor]
    cases (a/2).testBit i <;> cases (b/2).testBit i <;> cases Nat.testBit 0xA001 i <;> rfl
  · rw [if_pos (by rw [hm]; simp [ha, hb]), if_neg ha, if_pos hb]
    apply Nat.eq_of_testBit_eq; intro i
    simp only [Nat.testBit_xor]
    cases (a/2).testBit i <;> cases (b/2).testBit i <;> cases Nat.testBit 0xA001 i <;> rfl
  · rw [if_neg (by rw [hm]; simp [ha, hb]), if_neg ha, if_neg hb]

theorem crcShifts_xor (n a b : Nat) : crcShifts n (a ^^^ b) = crcShifts n a ^^^ crcShifts n b := by
  induction n generalizing a b with
  | zero => rfl
  | succ n ih => rw [crcShifts, crcShift_xor, ih]; rfl

theorem crcShifts_zero (n : Nat) : crcShifts n 0 = 0 := by
  induction n with
  | zero => rfl
  | succ n ih => exact ih

theorem crcShifts_add (m n a : Nat) : crcShifts (m + n) a = crcShifts n (crcShifts m a) := by
  induction m generalizing a with
  | zero => simp [crcShifts]
  | succ m ih => rw [show m + 1 + n = (m + n) + 1 by omega, crcShifts, ih]; rfl

theorem crcShift_double (x : Nat) : crcShift (2 * x) = x := by
  unfold crcShift; rw [if_neg (by omega)]; omega

theorem crcShifts_mul (n x : Nat) : crcShifts n (2^n * x) = x := by
  induction n generalizing x with
  | zero => simp [crcShifts]
  | succ n ih => rw [crcShifts, show 2^(n+1) * x = 2 * (2^n * x) by rw [Nat.pow_succ]; ac_rfl, crcShift_double, ih]

/-- splitting a number in low byte and rest -/
theorem split_byte (z : Nat) : z = (2^8 * (z >>> 8)) ^^^ (z &&& 0xFF) := by
  apply Nat.eq_of_testBit_eq; intro i
  rw [Nat.testBit_xor, Nat.testBit_two_pow_mul, Nat.testBit_and, Nat.testBit_shiftRight]
  have h255 : Nat.testBit 0xFF i = decide (i < 8) := by
    rw [show (0xFF : Nat) = 2^8 - 1 from rfl, Nat.testBit_two_pow_sub_one]
  rw [h255]
  by_cases h : 8 ≤ i
  · have : ¬ i < 8 := by omega
    simp [h, this]
  · have : i < 8 := by omega
    simp [h, this]

/-- the 256 table entries are the CRCs of the single bytes (kernel evaluation) -/
theorem crcTable_eq : ∀ i, i < 256 → crcTable.getD i 0 = crcShifts 8 i := by
  decide +kernel

theorem crcUpdate_eq (crc : Nat) (c : UInt8) : crcUpdate crc c = crcByte crc c := by
  have hb := c.toNat_lt
  unfold crcUpdate crcByte
  have hlt : (c.toNat ^^^ crc) &&& 0xFF < 256 := Nat.lt_of_le_of_lt Nat.and_le_right (by decide)
  have hs := split_byte (crc ^^^ c.toNat)
  have hsh : (crc ^^^ c.toNat) >>> 8 = crc >>> 8 := by
    rw [Nat.shiftRight_xor_distrib]
    have : c.toNat >>> 8 = 0 := by rw [Nat.shiftRight_eq_div_pow]; omega
    rw [this, Nat.xor_zero]
  rw [crcTable_eq _ hlt, hs, crcShifts_xor, crcShifts_mul, hsh, Nat.xor_comm c.toNat crc]

theorem crc_foldl (data : Bytes) (s : Nat) : data.foldl crcUpdate s = data.foldl crcByte s := by
  induction data generalizing s with
  | nil => rfl
  | cons c data ih => rw [List.foldl_cons, List.foldl_cons, crcUpdate_eq, ih]

theorem crcShift_lt {c : Nat} (h : c < 65536) : crcShift c < 65536 := by
  unfold crcShift
  split
  · exact Nat.xor_lt_two_pow (n := 16) (by omega) (by decide)
  · omega

theorem crcShifts_lt (n : Nat) {c : Nat} (h : c < 65536) : crcShifts n c < 65536 := by
  induction n generalizing c with
  | zero => exact h
  | succ n ih => exact ih (crcShift_lt h)

theorem crcByte_lt {c : Nat} (h : c < 65536) (b : UInt8) : crcByte c b < 65536 := by
  have hb := b.toNat_lt
  exact crcShifts_lt 8 (Nat.xor_lt_two_pow (n := 16) h (by omega))

theorem crc_foldl_lt (data : Bytes) {s : Nat} (h : s < 65536) : data.foldl crcByte s < 65536 := by
  induction data generalizing s with
  | nil => exact h
  | cons c data ih => exact ih (crcByte_lt h c)

theorem crc16_lt (data : Bytes) : crc16 data < 65536 := crc_foldl_lt data (by decide)

theorem swapBytes_eq {w : Nat} (h : w < 65536) : swapBytes w = (w % 256) * 256 + w / 256 := by
  unfold swapBytes
  simp only
  have h1 : w &&& 0xFF = w % 256 := Nat.and_two_pow_sub_one_eq_mod w 8
  have h2 : (w >>> 8) &&& 0xFF = w / 256 := by
    rw [show (0xFF : Nat) = 2^8 - 1 from rfl, Nat.and_two_pow_sub_one_eq_mod, Nat.shiftRight_eq_div_pow]; omega
  rw [h1, h2, Nat.shiftLeft_eq]

end Modbus
