import Verif.Lemmas.CrcDetect
import Verif.Lemmas.Query
/-
# C26, C27: the CRC of RTU frames
-/
namespace Modbus
open Spec

/-! ## C26 -/

/-- **C26.** `calculate_crc` is the bitwise CRC-16/MODBUS with its two bytes swapped: packed with `">H"` the low byte
    of the CRC is sent first. -/
theorem C26_crc (data : Bytes) :
    calculateCrc data = (crc16 data % 256) * 256 + crc16 data / 256 ∧ crc16 data < 65536 ∧
    structPack (be [Code.H]) [(calculateCrc data : Int)] =
      .ok [UInt8.ofNat (crc16 data % 256), UInt8.ofNat (crc16 data / 256)] := by
  refine ⟨?_, crc16_lt data, crc_word data⟩
  unfold calculateCrc
  rw [crc_foldl, show data.foldl crcByte 0xFFFF = crc16 data from rfl, swapBytes_eq (crc16_lt data)]

/-- the check value of CRC-16/MODBUS for the ASCII digits "123456789" is 0x4B37 -/
example : crc16 [0x31, 0x32, 0x33, 0x34, 0x35, 0x36, 0x37, 0x38, 0x39] = 0x4B37 := by decide +kernel
example : calculateCrc [0x31, 0x32, 0x33, 0x34, 0x35, 0x36, 0x37, 0x38, 0x39] = 0x374B := by decide +kernel

/-! ## C27 -/

/-- the two frames differ at bit position `p` (transmission order) -/
def differ (f f' : Bytes) (p : Nat) : Bool := frameBit f p != frameBit f' p

/-- an odd number of bits were flipped (in particular a single one) -/
def OddFlips (f f' : Bytes) : Prop := ((List.range (8 * f.length)).filter (differ f f')).length % 2 = 1

/-- some bits were flipped, all of them within 16 consecutive positions -/
def BurstFlips (f f' : Bytes) : Prop :=
  (∃ p, p < 8 * f.length ∧ differ f f' p = true) ∧
  ∃ a, ∀ p, p < 8 * f.length → differ f f' p = true → a ≤ p ∧ p < a + 16

/-- exactly two bits were flipped, less than 32767 positions apart -/
def TwoFlips (f f' : Bytes) : Prop :=
  ∃ p q, p < q ∧ q < 8 * f.length ∧ q - p < 32767 ∧
    ∀ r, r < 8 * f.length → (differ f f' r = true ↔ r = p ∨ r = q)

theorem valid_residue {f : Bytes} {a : UInt8} {pdu : Bytes} (h : f = rtuAdu a pdu) :
    f.foldl crcByte 0xFFFF = 0 := by
  rw [h, rtuAdu, residue_iff]
  have hc := crc16_lt (a :: pdu)
  rw [u8_ofNat_toNat (by omega), u8_ofNat_toNat (by omega)]
  omega

/-- the list of differences -/
def diffs (f f' : Bytes) : List Bool := List.zipWith xor (frameBits f) (frameBits f')

theorem diffs_length {f f' : Bytes} (hl : f'.length = f.length) : (diffs f f').length = 8 * f.length := by
  simp [diffs, hl]

theorem diffs_getElem? {f f' : Bytes} (hl : f'.length = f.length) {p : Nat} (hp : p < 8 * f.length) :
    (diffs f f')[p]? = some (differ f f' p) := by
  rw [diffs, List.getElem?_zipWith, frameBits_getElem? f p hp, frameBits_getElem? f' p (by omega)]
  rfl

theorem diffs_eq_map {f f' : Bytes} (hl : f'.length = f.length) :
    diffs f f' = (List.range (8 * f.length)).map (differ f f') := by
  apply List.ext_getElem?
  intro p
  by_cases hp : p < 8 * f.length
  · rw [diffs_getElem? hl hp]; simp [hp]
  · rw [List.getElem?_eq_none (by rw [diffs_length hl]; omega), List.getElem?_eq_none (by simp; omega)]

/-- two byte strings of the same length that both have residue 0 have a difference that is a multiple of the generator -/
theorem diffs_residue {f f' : Bytes} (hl : f'.length = f.length) (h : f.foldl crcByte 0xFFFF = 0)
    (h' : f'.foldl crcByte 0xFFFF = 0) : (diffs f f').foldl feed 0 = 0 := by
  have := feed_zip (frameBits f) (frameBits f') (by simp [hl]) 0xFFFF 0xFFFF
  rw [← crc_bits, ← crc_bits, h, h', Nat.xor_self] at this
  rw [diffs, this]; rfl

theorem count_map (g : Nat → Bool) (L : List Nat) : (L.map g).count true = (L.filter g).length := by
  induction L with
  | nil => rfl
  | cons x L ih => cases h : g x <;> simp [h, ih]

theorem odd_detect {f f' : Bytes} (hl : f'.length = f.length) (ho : OddFlips f f') :
    (diffs f f').foldl feed 0 ≠ 0 := by
  intro h
  have := par_feed (diffs f f') (s := 0) (by decide)
  rw [h, odd_eq, diffs_eq_map hl, count_map] at this
  have ho' : ((List.range (8 * f.length)).filter (differ f f')).length % 2 = 1 := ho
  rw [ho'] at this
  exact absurd this (by decide)

theorem diffs_take_false {f f' : Bytes} (hl : f'.length = f.length) (i j : Nat)
    (h : ∀ p, i ≤ p → p < j → p < 8 * f.length → differ f f' p = false) :
    ∀ b ∈ (((diffs f f').take j).drop i), b = false := by
  intro b hb
  obtain ⟨k, hk⟩ := List.mem_iff_getElem?.mp hb
  rw [List.getElem?_drop] at hk
  have hlt : i + k < j ∧ i + k < 8 * f.length := by
    have := (List.getElem?_eq_some_iff.mp hk).1
    rw [List.length_take, diffs_length hl] at this
    omega
  rw [List.getElem?_take_of_lt hlt.1, diffs_getElem? hl hlt.2, Option.some.injEq] at hk
  rw [← hk]
  exact h _ (by omega) hlt.1 hlt.2

theorem burst_detect {f f' : Bytes} (hl : f'.length = f.length) (hb : BurstFlips f f') :
    (diffs f f').foldl feed 0 ≠ 0 := by
  obtain ⟨⟨p, hp, hd⟩, a, ha⟩ := hb
  have hpa := ha p hp hd
  have key := burst_ne ((diffs f f').take a) (((diffs f f').drop a).take 16) (((diffs f f').drop a).drop 16)
    (by
      have := diffs_take_false hl 0 a (fun q _ hq hq' => by
        by_contra hc
        have := ha q hq' (by simpa using hc)
        omega)
      simpa using this)
    (by
      have := diffs_take_false hl (a + 16) (8 * f.length) (fun q hq _ hq' => by
        by_contra hc
        have := ha q hq' (by simpa using hc)
        omega)
      rw [List.take_of_length_le (by rw [diffs_length hl])] at this
      rw [List.drop_drop]
      exact this)
    (by simp)
    ⟨true, by
      apply List.mem_iff_getElem?.mpr
      refine ⟨p - a, ?_⟩
      rw [List.getElem?_take_of_lt (by omega), List.getElem?_drop, show a + (p - a) = p by omega,
        diffs_getElem? hl hp, hd], rfl⟩
  rwa [List.append_assoc, List.take_append_drop, List.take_append_drop] at key

theorem split_at (D : List Bool) (p : Nat) (x : Bool) (h : D[p]? = some x) :
    D = D.take p ++ [x] ++ D.drop (p + 1) := by
  have h2 := List.getElem?_eq_some_iff.mp h
  obtain ⟨hlt, e⟩ := h2
  rw [List.append_assoc, List.singleton_append, ← e, ← List.drop_eq_getElem_cons hlt, List.take_append_drop]

theorem two_detect {f f' : Bytes} (hl : f'.length = f.length) (hb : TwoFlips f f') :
    (diffs f f').foldl feed 0 ≠ 0 := by
  obtain ⟨p, q, hpq, hq, hdist, hr⟩ := hb
  have hneg : ∀ r, r < 8 * f.length → r ≠ p → r ≠ q → differ f f' r = false := by
    intro r hlt h1 h2
    by_contra hc
    rcases (hr r hlt).mp (by simpa using hc) with h | h
    · exact h1 h
    · exact h2 h
  have hp' : (diffs f f')[p]? = some true := by
    rw [diffs_getElem? hl (by omega), (hr p (by omega)).mpr (.inl rfl)]
  have hq' : (diffs f f')[q]? = some true := by
    rw [diffs_getElem? hl hq, (hr q hq).mpr (.inr rfl)]
  have key := two_bits_ne ((diffs f f').take p) (((diffs f f').take q).drop (p+1)) ((diffs f f').drop (q+1))
    (by simpa using diffs_take_false hl 0 p (fun r _ h h' => hneg r h' (by omega) (by omega)))
    (diffs_take_false hl (p+1) q (fun r h0 h h' => hneg r h' (by omega) (by omega)))
    (by
      have := diffs_take_false hl (q+1) (8 * f.length) (fun r h0 h h' => hneg r h' (by omega) (by omega))
      rwa [List.take_of_length_le (by rw [diffs_length hl])] at this)
    (by simp [diffs_length hl]; omega)
  have e1 := split_at _ q true hq'
  have e2 : (diffs f f').take q = (diffs f f').take p ++ [true] ++ ((diffs f f').take q).drop (p+1) := by
    have := split_at ((diffs f f').take q) p true (by rw [List.getElem?_take_of_lt hpq, hp'])
    rwa [List.take_take, Nat.min_eq_left (by omega)] at this
  rw [e2] at e1
  rw [← e1] at key
  exact key

/-- the three classes of corruptions -/
def Corrupted (f f' : Bytes) : Prop := OddFlips f f' ∨ BurstFlips f f' ∨ TwoFlips f f'

theorem corrupted_ne {f f' : Bytes} (hl : f'.length = f.length) (hc : Corrupted f f') :
    (diffs f f').foldl feed 0 ≠ 0 := by
  rcases hc with h | h | h
  · exact odd_detect hl h
  · exact burst_detect hl h
  · exact two_detect hl h

/-- **C27.** If the server accepts the frame `f`, it refuses every corruption of `f` in the three classes: nothing is
    executed and (Databank) nothing is answered. -/
theorem C27_request (f f' : Bytes) (s s' : RtuQuery) (ok : (Int × Bytes)) (hok : (rtuParseRequest f s).1 = .ok ok)
    (hl : f'.length = f.length) (hc : Corrupted f f') :
    (rtuParseRequest f' s').1 = .error .invalidRequest := by
  have hlen : ¬ f.length < 3 := by
    intro h; unfold rtuParseRequest at hok; rw [if_pos h] at hok; cases hok
  obtain ⟨a, pdu, lo, hi, rfl⟩ := rtu_shape hlen
  obtain ⟨a', pdu', lo', hi', rfl⟩ := rtu_shape (f := f') (by omega)
  rw [rtuParseRequest_shape] at hok ⊢
  dsimp only at hok ⊢
  have hv : a :: (pdu ++ [lo, hi]) = rtuAdu a pdu := by
    by_contra h; rw [if_neg h] at hok; cases hok
  rw [if_neg]
  intro hv'
  exact corrupted_ne hl hc (diffs_residue hl (valid_residue hv) (valid_residue hv'))

/-- **C27.** If a master accepts the response `f`, no master (whatever address it asked) accepts a corruption of `f`. -/
theorem C27_response (f f' : Bytes) (s s' : RtuQuery) (ok : Bytes) (hok : (rtuParseResponse f s).1 = .ok ok)
    (hl : f'.length = f.length) (hc : Corrupted f f') :
    (rtuParseResponse f' s').1 = .error .invalidResponse := by
  have hlen : ¬ f.length < 3 := by
    intro h; unfold rtuParseResponse at hok; rw [if_pos h] at hok; cases hok
  obtain ⟨a, pdu, lo, hi, rfl⟩ := rtu_shape hlen
  obtain ⟨a', pdu', lo', hi', rfl⟩ := rtu_shape (f := f') (by omega)
  rw [rtuParseResponse_shape] at hok ⊢
  dsimp only at hok ⊢
  have hv : a :: (pdu ++ [lo, hi]) = rtuAdu a pdu := by
    by_contra h; rw [if_neg (fun h' => h h'.2)] at hok; cases hok
  rw [if_neg]
  intro hv'
  exact corrupted_ne hl hc (diffs_residue hl (valid_residue hv) (valid_residue hv'.2))

/-! Non-vacuity: a real request (read one register of slave 1), and corruptions of it in the three classes. -/

def goodFrame : Bytes := [0x01, 0x03, 0x00, 0x00, 0x00, 0x01, 0x84, 0x0A]
/-- one bit of the quantity flipped -/
def oneFlip : Bytes := [0x01, 0x03, 0x00, 0x00, 0x00, 0x03, 0x84, 0x0A]
/-- a burst over two bytes -/
def burstFlip : Bytes := [0x01, 0x03, 0x0F, 0xF0, 0x00, 0x01, 0x84, 0x0A]
/-- the first and the last bit flipped -/
def twoFlip : Bytes := [0x00, 0x03, 0x00, 0x00, 0x00, 0x01, 0x84, 0x8A]

example : (rtuParseRequest goodFrame ⟨0, 0⟩).1 = .ok (1, [0x03, 0x00, 0x00, 0x00, 0x01]) := by decide +kernel
example : (rtuParseResponse goodFrame ⟨1, 0⟩).1 = .ok [0x03, 0x00, 0x00, 0x00, 0x01] := by decide +kernel
example : OddFlips goodFrame oneFlip := by unfold OddFlips; decide +kernel
example : BurstFlips goodFrame burstFlip := by
  refine ⟨⟨16, by decide, by decide⟩, 16, ?_⟩
  have : ∀ p, p < 64 → differ goodFrame burstFlip p = true → 16 ≤ p ∧ p < 32 := by decide +kernel
  exact this
example : TwoFlips goodFrame twoFlip := by
  refine ⟨0, 63, by decide, by decide, by decide, ?_⟩
  have : ∀ r, r < 64 → (differ goodFrame twoFlip r = true ↔ r = 0 ∨ r = 63) := by decide +kernel
  exact this

/-- The bound on the distance is sharp: feeding a flipped bit 32767 positions later gives the register back. -/
theorem two_flips_bound_sharp : crcShifts 32767 1 = 1 := by
  rw [← shiftsForced_eq]; decide +kernel

end Modbus
