import Verif.Lemmas.Crc
import Mathlib.Dynamics.PeriodicPts.Defs
import Mathlib.Data.Nat.Prime.Basic
/- Error detection by the CRC: linear algebra over bits. -/
namespace Modbus
open Spec (crcShift crcShifts crcByte crc16 frameBit)

/-! ### Feeding bits -/

/-- feed one bit -/
def feed (s : Nat) (b : Bool) : Nat := crcShift (s ^^^ b.toNat)

/-- the `n` low bits, least significant first -/
def bitsLE : Nat → Nat → List Bool
  | 0, _ => []
  | n+1, w => (w % 2 == 1) :: bitsLE n (w / 2)

@[simp] theorem bitsLE_length (n w : Nat) : (bitsLE n w).length = n := by
  induction n generalizing w with
  | zero => rfl
  | succ n ih => simp [bitsLE, ih]

theorem bitsLE_getElem? (n w k : Nat) (h : k < n) : (bitsLE n w)[k]? = some (w.testBit k) := by
  induction n generalizing w k with
  | zero => omega
  | succ n ih =>
    cases k with
    | zero => simp [bitsLE, Nat.testBit_zero, beq_eq_decide]
    | succ k => rw [bitsLE, List.getElem?_cons_succ, ih _ _ (by omega), Nat.testBit_succ]

theorem split_bit (w : Nat) : w = (w % 2 == 1).toNat ^^^ (2 * (w / 2)) := by
  apply Nat.eq_of_testBit_eq; intro i
  rw [Nat.testBit_xor]
  cases i with
  | zero =>
    rw [Nat.testBit_zero, Nat.testBit_zero, Nat.testBit_zero]
    rcases Nat.mod_two_eq_zero_or_one w with h | h <;> simp [h]
  | succ i =>
    rw [Nat.testBit_succ, Nat.testBit_succ, Nat.testBit_succ]
    have : (w % 2 == 1).toNat / 2 = 0 := by cases (w % 2 == 1) <;> rfl
    rw [this, show 2 * (w/2) / 2 = w / 2 by omega]; simp

theorem feed_bits (n : Nat) (s w : Nat) (hw : w < 2^n) : crcShifts n (s ^^^ w) = (bitsLE n w).foldl feed s := by
  induction n generalizing s w with
  | zero =>
    have : w = 0 := by simpa using hw
    subst this; simp [crcShifts, bitsLE]
  | succ n ih =>
    rw [crcShifts, bitsLE, List.foldl_cons, ← ih _ _ (by rw [Nat.pow_succ] at hw; omega)]
    conv_lhs => rw [split_bit w]
    rw [← Nat.xor_assoc, crcShift_xor, crcShift_double]; rfl

/-- bits of a frame in transmission order -/
def frameBits : Bytes → List Bool
  | [] => []
  | b :: f => bitsLE 8 b.toNat ++ frameBits f

@[simp] theorem frameBits_length (f : Bytes) : (frameBits f).length = 8 * f.length := by
  induction f with
  | nil => rfl
  | cons b f ih => simp [frameBits, ih]; omega

theorem frameBits_getElem? (f : Bytes) (p : Nat) (hp : p < 8 * f.length) : (frameBits f)[p]? = some (frameBit f p) := by
  induction f generalizing p with
  | nil => simp at hp
  | cons b f ih =>
    rw [frameBits]
    by_cases h : p < 8
    · rw [List.getElem?_append_left (by simpa using h), bitsLE_getElem? _ _ _ h]
      unfold frameBit
      rw [show p / 8 = 0 by omega, show p % 8 = p by omega]; rfl
    · rw [List.getElem?_append_right (by simp; omega), bitsLE_length, ih _ (by simp at hp; omega)]
      unfold frameBit
      rw [show p / 8 = (p - 8)/8 + 1 by omega, show p % 8 = (p-8) % 8 by omega]; rfl

theorem crc_bits (f : Bytes) (s : Nat) : f.foldl crcByte s = (frameBits f).foldl feed s := by
  induction f generalizing s with
  | nil => rfl
  | cons b f ih =>
    rw [List.foldl_cons, frameBits, List.foldl_append, ih]
    congr 1
    exact feed_bits 8 s b.toNat b.toNat_lt

theorem feed_xor (s t : Nat) (a b : Bool) : feed (s ^^^ t) (a ^^ b) = feed s a ^^^ feed t b := by
  unfold feed
  rw [← crcShift_xor]
  congr 1
  have : (a ^^ b).toNat = a.toNat ^^^ b.toNat := by cases a <;> cases b <;> rfl
  rw [this]
  ac_rfl

theorem feed_zip (L1 L2 : List Bool) (hl : L1.length = L2.length) (s t : Nat) :
    (List.zipWith xor L1 L2).foldl feed (s ^^^ t) = L1.foldl feed s ^^^ L2.foldl feed t := by
  induction L1 generalizing L2 s t with
  | nil => cases L2 with
    | nil => rfl
    | cons _ _ => simp at hl
  | cons a L1 ih =>
    cases L2 with
    | nil => simp at hl
    | cons b L2 =>
      rw [List.zipWith_cons_cons, List.foldl_cons, List.foldl_cons, List.foldl_cons, feed_xor]
      exact ih L2 (by simpa using hl) _ _

/-! ### Injectivity -/

theorem crcShift_eq_zero {c : Nat} (h : c < 65536) (h0 : crcShift c = 0) : c = 0 := by
  unfold crcShift at h0
  split at h0
  · have : c / 2 = 0xA001 := by
      have := congrArg (· ^^^ 0xA001) h0
      simpa [Nat.xor_assoc] using this
    omega
  · omega

theorem crcShifts_eq_zero (n : Nat) {c : Nat} (h : c < 65536) (h0 : crcShifts n c = 0) : c = 0 := by
  induction n generalizing c with
  | zero => exact h0
  | succ n ih => exact crcShift_eq_zero h (ih (crcShift_lt h) h0)

theorem xor_eq_zero {a b : Nat} (h : a ^^^ b = 0) : a = b := by
  have := congrArg (· ^^^ b) h
  simpa [Nat.xor_assoc] using this

theorem crcShifts_inj (n : Nat) {a b : Nat} (ha : a < 65536) (hb : b < 65536) (h : crcShifts n a = crcShifts n b) :
    a = b := by
  have h1 : crcShifts n (a ^^^ b) = 0 := by rw [crcShifts_xor, h, Nat.xor_self]
  exact xor_eq_zero (crcShifts_eq_zero n (Nat.xor_lt_two_pow (n := 16) ha hb) h1)

/-- the register is 0 after a message followed by two bytes iff these are its CRC, low byte first -/
theorem residue_iff (data : Bytes) (a b : UInt8) :
    (data ++ [a, b]).foldl crcByte 0xFFFF = 0 ↔ crc16 data = a.toNat + 256 * b.toNat := by
  have ha := a.toNat_lt
  have hb := b.toNat_lt
  have hc := crc16_lt data
  rw [List.foldl_append]
  show crcByte (crcByte (crc16 data) a) b = 0 ↔ _
  have e : crcByte (crcByte (crc16 data) a) b = crcShifts 16 (crc16 data ^^^ (a.toNat + 256 * b.toNat)) := by
    unfold crcByte
    have hsum : a.toNat + 256 * b.toNat = a.toNat ^^^ (2^8 * b.toNat) := by
      apply Nat.eq_of_testBit_eq; intro i
      rw [Nat.testBit_xor, Nat.add_comm, show 256 = 2^8 from rfl, Nat.testBit_two_pow_mul_add _ (by omega),
        Nat.testBit_two_pow_mul]
      by_cases h : i < 8
      · have h2 : ¬ 8 ≤ i := by omega
        simp [h, h2]
      · have h2 : a.toNat.testBit i = false :=
          Nat.testBit_lt_two_pow (Nat.lt_of_lt_of_le (show a.toNat < 2^8 by omega)
            (Nat.pow_le_pow_right (by decide) (by omega)))
        simp [h, h2]; omega
    rw [hsum, ← Nat.xor_assoc, crcShifts_add 8 8, crcShifts_xor 8 (crc16 data ^^^ a.toNat), crcShifts_mul]
  rw [e]
  constructor
  · intro h
    exact xor_eq_zero (crcShifts_eq_zero 16 (Nat.xor_lt_two_pow (n := 16) hc (by omega)) h)
  · intro h; rw [h, Nat.xor_self, crcShifts_zero]

/-! ### Parity -/

/-- parity of the `n` low bits -/
def par : Nat → Nat → Bool
  | 0, _ => false
  | n+1, s => (s % 2 == 1) ^^ par n (s / 2)

theorem par_xor (n a b : Nat) : par n (a ^^^ b) = (par n a ^^ par n b) := by
  induction n generalizing a b with
  | zero => rfl
  | succ n ih =>
    rw [par, par, par, xor_half, ih]
    have : ((a ^^^ b) % 2 == 1) = ((a % 2 == 1) ^^ (b % 2 == 1)) := by
      have h1 := @Nat.xor_mod_two_eq_one a b
      rcases Nat.mod_two_eq_zero_or_one a with h | h <;> rcases Nat.mod_two_eq_zero_or_one b with h' | h' <;>
        rcases Nat.mod_two_eq_zero_or_one (a ^^^ b) with h'' | h'' <;> simp_all
    rw [this]
    cases (a % 2 == 1) <;> cases (b % 2 == 1) <;> cases par n (a/2) <;> cases par n (b/2) <;> rfl

theorem par_succ_lt (n s : Nat) (h : s < 2^n) : par (n+1) s = par n s := by
  induction n generalizing s with
  | zero =>
    have : s = 0 := by simpa using h
    subst this; rfl
  | succ n ih =>
    rw [par, ih (s/2) (by rw [Nat.pow_succ] at h; omega)]; rfl

theorem par_shift {s : Nat} (h : s < 65536) : par 16 (crcShift s) = par 16 s := by
  have h1 : par 16 s = ((s % 2 == 1) ^^ par 15 (s / 2)) := rfl
  have h2 : par 16 (s/2) = par 15 (s/2) := par_succ_lt 15 (s/2) (by omega)
  have h3 : par 16 0xA001 = true := by decide
  unfold crcShift
  split
  · rename_i ho
    rw [par_xor, h3, h2, h1]; simp [ho]
  · rename_i ho
    have hb : (s % 2 == 1) = false := beq_eq_false_iff_ne.mpr ho
    rw [h2, h1, hb, Bool.false_xor]

/-- parity of the number of set bits -/
def odd : List Bool → Bool
  | [] => false
  | b :: L => b ^^ odd L

theorem feed_lt {s : Nat} (h : s < 65536) (b : Bool) : feed s b < 65536 :=
  crcShift_lt (Nat.xor_lt_two_pow (n := 16) h (by cases b <;> decide))

theorem par_feed (L : List Bool) {s : Nat} (h : s < 65536) : par 16 (L.foldl feed s) = (par 16 s ^^ odd L) := by
  induction L generalizing s with
  | nil => simp [odd]
  | cons b L ih =>
    rw [List.foldl_cons, ih (feed_lt h b), odd]
    unfold feed
    rw [par_shift (Nat.xor_lt_two_pow (n := 16) h (by cases b <;> decide)), par_xor]
    have : par 16 b.toNat = b := by cases b <;> rfl
    rw [this, Bool.xor_assoc]

theorem odd_eq (L : List Bool) : odd L = decide (L.count true % 2 = 1) := by
  induction L with
  | nil => rfl
  | cons b L ih =>
    rw [odd, ih, List.count_cons]
    cases b
    · simp
    · simp only [beq_self_eq_true, if_true]
      rcases Nat.mod_two_eq_zero_or_one (L.count true) with h | h
      · simp [h]; omega
      · simp [h]; omega

/-! ### Bursts -/

theorem feed_false (L : List Bool) (hL : ∀ b ∈ L, b = false) (s : Nat) : L.foldl feed s = crcShifts L.length s := by
  induction L generalizing s with
  | nil => rfl
  | cons b L ih =>
    have hb := hL b (by simp)
    subst hb
    rw [List.foldl_cons, ih (fun b hb => hL b (by simp [hb]))]
    simp [feed, crcShifts]

/-- value of a bit list -/
def valLE : List Bool → Nat
  | [] => 0
  | b :: L => b.toNat + 2 * valLE L

theorem valLE_lt (L : List Bool) : valLE L < 2^L.length := by
  induction L with
  | nil => simp [valLE]
  | cons b L ih =>
    rw [valLE, List.length_cons, Nat.pow_succ]
    have : b.toNat ≤ 1 := by cases b <;> simp
    omega

theorem bitsLE_val (L : List Bool) : bitsLE L.length (valLE L) = L := by
  induction L with
  | nil => rfl
  | cons b L ih =>
    have h1 : (b.toNat + 2 * valLE L) % 2 = b.toNat := by cases b <;> simp
    have h2 : (b.toNat + 2 * valLE L) / 2 = valLE L := by cases b <;> simp; omega
    rw [valLE, List.length_cons, bitsLE, h1, h2, ih]
    cases b <;> rfl

theorem valLE_zero {L : List Bool} (h : valLE L = 0) : ∀ b ∈ L, b = false := by
  induction L with
  | nil => simp
  | cons b L ih =>
    rw [valLE] at h
    intro c hc
    rcases List.mem_cons.mp hc with rfl | hc
    · cases c
      · rfl
      · simp at h
    · exact ih (by omega) c hc

theorem feed_list (L : List Bool) (s : Nat) : L.foldl feed s = crcShifts L.length (s ^^^ valLE L) := by
  rw [feed_bits _ _ _ (valLE_lt L), bitsLE_val]

/-- a burst of at most 16 bits is not a multiple of the generator -/
theorem burst_ne (A B C : List Bool) (hA : ∀ b ∈ A, b = false) (hC : ∀ b ∈ C, b = false) (hB : B.length ≤ 16)
    (hne : ∃ b ∈ B, b = true) : (A ++ B ++ C).foldl feed 0 ≠ 0 := by
  intro h
  rw [List.foldl_append, List.foldl_append, feed_false A hA, crcShifts_zero, feed_false C hC, feed_list,
    Nat.zero_xor] at h
  have hlt : valLE B < 65536 := Nat.lt_of_lt_of_le (valLE_lt B) (Nat.pow_le_pow_right (n := 2) (by decide) hB)
  have := crcShifts_eq_zero _ hlt (crcShifts_eq_zero _ (crcShifts_lt _ hlt) h)
  obtain ⟨b, hb, rfl⟩ := hne
  exact absurd (valLE_zero this _ hb) (by simp)

/-! ### Two bits: the order of x is 32767 -/

/-- `crcShifts`, written so that the kernel evaluates the register at every step -/
def shiftsForced : Nat → Nat → Nat
  | 0, c => c
  | n+1, c => Nat.casesOn (crcShift c) (shiftsForced n 0) (fun m => shiftsForced n (m+1))

theorem shiftsForced_eq (n c : Nat) : shiftsForced n c = crcShifts n c := by
  induction n generalizing c with
  | zero => rfl
  | succ n ih =>
    rw [shiftsForced, crcShifts]
    cases crcShift c with
    | zero => exact ih 0
    | succ m => exact ih (m+1)

theorem iterate_shift (n c : Nat) : crcShift^[n] c = crcShifts n c := by
  induction n generalizing c with
  | zero => rfl
  | succ n ih => rw [Function.iterate_succ_apply, ih]; rfl

theorem period_217 : crcShifts 217 1 ≠ 1 := by rw [← shiftsForced_eq]; decide +kernel
theorem period_1057 : crcShifts 1057 1 ≠ 1 := by rw [← shiftsForced_eq]; decide +kernel
theorem period_4681 : crcShifts 4681 1 ≠ 1 := by rw [← shiftsForced_eq]; decide +kernel
theorem period_32767 : crcShifts 32767 1 = 1 := by rw [← shiftsForced_eq]; decide +kernel

/-- x has order exactly 32767 = 7·31·151 modulo the generator -/
theorem order_x {k : Nat} (h0 : 0 < k) (h1 : k < 32767) : crcShifts k 1 ≠ 1 := by
  intro hk
  have p1 : Function.IsPeriodicPt crcShift k 1 := by
    show crcShift^[k] 1 = 1; rw [iterate_shift, hk]
  have p2 : Function.IsPeriodicPt crcShift 32767 1 := by
    show crcShift^[32767] 1 = 1; rw [iterate_shift, period_32767]
  have pg := p1.gcd p2
  generalize hg : k.gcd 32767 = g at pg
  have hgk : g ∣ k := hg ▸ Nat.gcd_dvd_left k 32767
  have hgm : g ∣ 32767 := hg ▸ Nat.gcd_dvd_right k 32767
  have hgle : g ≤ k := Nat.le_of_dvd h0 hgk
  obtain ⟨m, hm⟩ := hgm
  have hm1 : 1 < m := by
    rcases Nat.lt_or_ge 1 m with h | h
    · exact h
    · have : m = 0 ∨ m = 1 := by omega
      rcases this with rfl | rfl <;> omega
  have fin : ∀ n, g ∣ n → crcShifts n 1 = 1 := by
    intro n hn
    have := pg.trans_dvd hn
    have h2 : crcShift^[n] 1 = 1 := this
    rwa [iterate_shift] at h2
  -- a prime factor of m
  have hp : 7 ∣ m ∨ 31 ∣ m ∨ 151 ∣ m := by
    have hpr := Nat.minFac_prime (n := m) (by omega)
    have hd : m.minFac ∣ 7 * (31 * 151) := (Nat.minFac_dvd m).trans ⟨g, by rw [show 7 * (31*151) = 32767 from rfl, hm, Nat.mul_comm]⟩
    have p7 : Nat.Prime 7 := by decide
    have p31 : Nat.Prime 31 := by decide
    have p151 : Nat.Prime 151 := by decide +kernel
    rcases (hpr.dvd_mul).mp hd with h | h
    · rw [(Nat.prime_dvd_prime_iff_eq hpr p7).mp h |>.symm]; exact .inl (Nat.minFac_dvd m)
    · rcases (hpr.dvd_mul).mp h with h | h
      · rw [(Nat.prime_dvd_prime_iff_eq hpr p31).mp h |>.symm]; exact .inr (.inl (Nat.minFac_dvd m))
      · rw [(Nat.prime_dvd_prime_iff_eq hpr p151).mp h |>.symm]; exact .inr (.inr (Nat.minFac_dvd m))
  rcases hp with ⟨c, rfl⟩ | ⟨c, rfl⟩ | ⟨c, rfl⟩
  · exact period_4681 (fin 4681 ⟨c, by
      have : 7 * 4681 = 7 * (g * c) := by rw [show 7 * 4681 = 32767 from rfl, hm]; ac_rfl
      omega⟩)
  · exact period_1057 (fin 1057 ⟨c, by
      have : 31 * 1057 = 31 * (g * c) := by rw [show 31 * 1057 = 32767 from rfl, hm]; ac_rfl
      omega⟩)
  · exact period_217 (fin 217 ⟨c, by
      have : 151 * 217 = 151 * (g * c) := by rw [show 151 * 217 = 32767 from rfl, hm]; ac_rfl
      omega⟩)

theorem two_bits_ne (A B C : List Bool) (hA : ∀ b ∈ A, b = false) (hB : ∀ b ∈ B, b = false) (hC : ∀ b ∈ C, b = false)
    (hlen : B.length + 1 < 32767) : (A ++ [true] ++ B ++ [true] ++ C).foldl feed 0 ≠ 0 := by
  intro h
  simp only [List.foldl_append, feed_false A hA, crcShifts_zero, feed_false B hB, feed_false C hC, List.foldl_cons,
    List.foldl_nil] at h
  have e : crcShifts B.length (feed 0 true) = crcShifts (B.length + 1) 1 := by
    rw [crcShifts]; simp [feed]
  rw [e] at h
  have hlt := crcShifts_lt (B.length + 1) (c := 1) (by decide)
  have h1 := crcShifts_eq_zero _ (feed_lt hlt true) h
  have h2 : crcShifts (B.length + 1) 1 ^^^ 1 = 0 :=
    crcShift_eq_zero (Nat.xor_lt_two_pow (n := 16) hlt (by decide)) h1
  exact order_x (by omega) hlen (xor_eq_zero h2)

end Modbus
