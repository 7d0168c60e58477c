import Verif.Model.Master
import Verif.Spec.Master
import Verif.Lemmas.Codec
import Verif.Lemmas.Query
/- Lemmas about the master: packing of arguments, unpacking of responses. -/
namespace Modbus
open Spec (word toWord toByte Fits16 Fits8 FitsReg wordAt bitAt bytesFor packBits bitByte Call)

/-! ## Packing -/

theorem packOne_H_iff (v : Int) : packOne true Code.H v = if Fits16 v then .ok (word (toWord v)) else .error .structError := by
  by_cases h : Fits16 v
  · rw [if_pos h]
    have := packH_word (toWord v)
    have e : ((toWord v).toNat : Int) = v := by
      unfold toWord
      rw [UInt16.toNat_ofNat']
      unfold Fits16 at h
      omega
    rw [e] at this
    exact this
  · rw [if_neg h]
    unfold Fits16 at h
    apply packOne_error
    simp only [Code.lo, Code.hi, Code.H, Code.modulus]
    simp; omega

theorem packOne_B_iff (v : Int) : packOne true Code.B v = if Fits8 v then .ok [toByte v] else .error .structError := by
  by_cases h : Fits8 v
  · rw [if_pos h, packOne_B h.1 h.2]
    unfold toByte
    rw [Int.emod_eq_of_lt h.1 h.2]
  · rw [if_neg h]
    unfold Fits8 at h
    apply packOne_error
    simp only [Code.lo, Code.hi, Code.B, Code.modulus]
    simp; omega

theorem packWordSigned_iff (v : Int) :
    packOne true (if v ≥ 0 then Code.H else Code.h) v = if FitsReg v then .ok (word (toWord v)) else .error .structError := by
  by_cases h : v ≥ 0
  · rw [if_pos h, packOne_H_iff]
    have : Fits16 v ↔ FitsReg v := by unfold Fits16 FitsReg; omega
    simp only [this]
  · rw [if_neg h]
    by_cases hh : FitsReg v
    · rw [if_pos hh]
      unfold FitsReg at hh
      rw [packOne_h hh.1 (by omega)]
      unfold word toWord
      rw [UInt16.toNat_ofNat', show (v % 65536).toNat % 2 ^ 16 = (v % 65536).toNat from Nat.mod_eq_of_lt (by omega)]
    · rw [if_neg hh]
      unfold FitsReg at hh
      apply packOne_error
      simp only [Code.lo, Code.hi, Code.h, Code.modulus]
      simp; omega

/-- `struct.pack` with several codes -/
theorem packCodes_ok_iff {big : Bool} {c : Code} {cs : List Code} {v : Int} {vs : List Int} :
    packCodes big (c :: cs) (v :: vs) =
      match packOne big c v with
      | .error e => .error e
      | .ok x => match packCodes big cs vs with
        | .error e => .error e
        | .ok y => .ok (x ++ y) := by
  rw [packCodes]
  cases packOne big c v with
  | error e => rfl
  | ok x =>
    rw [except_bind_ok]
    cases packCodes big cs vs <;> rfl


theorem structPack_BHH (f a q : Int) : structPack (be [Code.B, Code.H, Code.H]) [f, a, q] =
    if Fits8 f ∧ Fits16 a ∧ Fits16 q then .ok (toByte f :: (word (toWord a) ++ word (toWord q))) else .error .structError := by
  simp only [structPack, be, packCodes_ok_iff, packOne_H_iff, packOne_B_iff, packCodes_nil]
  by_cases h1 : Fits8 f <;> by_cases h2 : Fits16 a <;> by_cases h3 : Fits16 q <;> simp [h1, h2, h3]

theorem structPack_BHHH (f a q r : Int) : structPack (be [Code.B, Code.H, Code.H, Code.H]) [f, a, q, r] =
    if Fits8 f ∧ Fits16 a ∧ Fits16 q ∧ Fits16 r then
      .ok (toByte f :: (word (toWord a) ++ word (toWord q) ++ word (toWord r))) else .error .structError := by
  simp only [structPack, be, packCodes_ok_iff, packOne_H_iff, packOne_B_iff, packCodes_nil]
  by_cases h1 : Fits8 f <;> by_cases h2 : Fits16 a <;> by_cases h3 : Fits16 q <;> by_cases h4 : Fits16 r <;>
    simp [h1, h2, h3, h4]

theorem structPack_BHHB (f a q r : Int) : structPack (be [Code.B, Code.H, Code.H, Code.B]) [f, a, q, r] =
    if Fits8 f ∧ Fits16 a ∧ Fits16 q ∧ Fits8 r then
      .ok (toByte f :: (word (toWord a) ++ word (toWord q) ++ [toByte r])) else .error .structError := by
  simp only [structPack, be, packCodes_ok_iff, packOne_H_iff, packOne_B_iff, packCodes_nil]
  by_cases h1 : Fits8 f <;> by_cases h2 : Fits16 a <;> by_cases h3 : Fits16 q <;> by_cases h4 : Fits8 r <;>
    simp [h1, h2, h3, h4]

theorem structPack_BHHHHB (f a q b r c : Int) :
    structPack (be [Code.B, Code.H, Code.H, Code.H, Code.H, Code.B]) [f, a, q, b, r, c] =
    if Fits8 f ∧ Fits16 a ∧ Fits16 q ∧ Fits16 b ∧ Fits16 r ∧ Fits8 c then
      .ok (toByte f :: (word (toWord a) ++ word (toWord q) ++ word (toWord b) ++ word (toWord r) ++ [toByte c]))
    else .error .structError := by
  simp only [structPack, be, packCodes_ok_iff, packOne_H_iff, packOne_B_iff, packCodes_nil]
  by_cases h1 : Fits8 f <;> by_cases h2 : Fits16 a <;> by_cases h3 : Fits16 q <;> by_cases h4 : Fits16 b <;>
    by_cases h5 : Fits16 r <;> by_cases h6 : Fits8 c <;> simp [h1, h2, h3, h4, h5, h6]

theorem structPack_BH (f a : Int) : structPack (be [Code.B, Code.H]) [f, a] =
    if Fits8 f ∧ Fits16 a then .ok (toByte f :: word (toWord a)) else .error .structError := by
  simp only [structPack, be, packCodes_ok_iff, packOne_H_iff, packOne_B_iff, packCodes_nil]
  by_cases h1 : Fits8 f <;> by_cases h2 : Fits16 a <;> simp [h1, h2]

theorem structPack_BB (f a : Int) : structPack (be [Code.B, Code.B]) [f, a] =
    if Fits8 f ∧ Fits8 a then .ok [toByte f, toByte a] else .error .structError := by
  simp only [structPack, be, packCodes_ok_iff, packOne_B_iff, packCodes_nil]
  by_cases h1 : Fits8 f <;> by_cases h2 : Fits8 a <;> simp [h1, h2]

theorem structPack_BBBB (f a b c : Int) : structPack (be [Code.B, Code.B, Code.B, Code.B]) [f, a, b, c] =
    if Fits8 f ∧ Fits8 a ∧ Fits8 b ∧ Fits8 c then .ok [toByte f, toByte a, toByte b, toByte c]
    else .error .structError := by
  simp only [structPack, be, packCodes_ok_iff, packOne_B_iff, packCodes_nil]
  by_cases h1 : Fits8 f <;> by_cases h2 : Fits8 a <;> by_cases h3 : Fits8 b <;> by_cases h4 : Fits8 c <;>
    simp [h1, h2, h3, h4]

theorem structPack_BHs (f a v : Int) :
    structPack (be [Code.B, Code.H, if v ≥ 0 then Code.H else Code.h]) [f, a, v] =
    if Fits8 f ∧ Fits16 a ∧ FitsReg v then .ok (toByte f :: (word (toWord a) ++ word (toWord v)))
    else .error .structError := by
  simp only [structPack, be, packCodes_ok_iff, packOne_H_iff, packOne_B_iff, packWordSigned_iff, packCodes_nil]
  by_cases h1 : Fits8 f <;> by_cases h2 : Fits16 a <;> by_cases h3 : FitsReg v <;> simp [h1, h2, h3]

/-- appending a packed value for every item -/
theorem packAll_iff {f : Int → Except PyErr Bytes} {P : Int → Prop} [DecidablePred P] {g : Int → Bytes}
    (hf : ∀ v, f v = if P v then .ok (g v) else .error .structError) (vs : List Int) (acc : Bytes) :
    packAll f vs acc = if ∀ v ∈ vs, P v then .ok (acc ++ vs.flatMap g) else .error .structError := by
  induction vs generalizing acc with
  | nil => simp [packAll]
  | cons v vs ih =>
    rw [packAll, hf]
    by_cases h : P v
    · rw [if_pos h]
      dsimp only
      rw [ih]
      by_cases h2 : ∀ w ∈ vs, P w
      · rw [if_pos h2, if_pos (by simpa [h] using h2)]
        simp
      · rw [if_neg h2, if_neg (by simpa [h] using h2)]
    · rw [if_neg h, if_neg (by simp [h])]

theorem packRegs_iff (vs : List Int) (acc : Bytes) :
    packAll packWordSigned vs acc =
      if ∀ v ∈ vs, FitsReg v then .ok (acc ++ vs.flatMap (fun v => word (toWord v))) else .error .structError :=
  packAll_iff (fun v => by rw [packWordSigned, structPack_single, packWordSigned_iff]) vs acc

theorem packBytes_iff (vs : List Int) (acc : Bytes) :
    packAll (fun j => structPack (be [Code.B]) [j]) vs acc =
      if ∀ v ∈ vs, Fits8 v then .ok (acc ++ vs.map toByte) else .error .structError := by
  rw [packAll_iff (P := Fits8) (g := fun v => [toByte v]) (fun v => by rw [structPack_single, packOne_B_iff])]
  rw [show vs.flatMap (fun v => [toByte v]) = vs.map toByte from by
    induction vs with
    | nil => rfl
    | cons v vs ih => rw [List.flatMap_cons, ih]; rfl]

theorem packRecords_iff (rs : List Spec.FileReq) :
    packRecords (rs.map (·.file)) (rs.map (·.record)) (rs.map (·.len)) =
      if ∀ r ∈ rs, Fits16 r.file ∧ Fits16 r.record ∧ Fits16 r.len then
        .ok (rs.flatMap (fun r => 6 :: (word (toWord r.file) ++ word (toWord r.record) ++ word (toWord r.len))))
      else .error .structError := by
  induction rs with
  | nil => simp [packRecords]
  | cons r rs ih =>
    simp only [List.map_cons, packRecords, ih, structPack_BHHH]
    by_cases h : Fits16 r.file ∧ Fits16 r.record ∧ Fits16 r.len
    · rw [if_pos ⟨by decide, h⟩, except_bind_ok]
      by_cases h2 : ∀ r ∈ rs, Fits16 r.file ∧ Fits16 r.record ∧ Fits16 r.len
      · rw [if_pos h2, if_pos (by simpa [h] using h2)]
        rfl
      · rw [if_neg h2, if_neg (by simpa [h] using h2)]
        rfl
    · rw [if_neg (show ¬ (Fits8 6 ∧ Fits16 r.file ∧ Fits16 r.record ∧ Fits16 r.len) from fun hh => h hh.2),
        except_bind_error, if_neg (show ¬ ∀ r' ∈ r :: rs, Fits16 r'.file ∧ Fits16 r'.record ∧ Fits16 r'.len from
          fun hh => h (hh r List.mem_cons_self))]

/-- the coil packing loop -/
theorem packCoilsLoop_eq (vs : List Int) (p : List Bool) (hp : p.length < 8) (acc : Bytes) :
    packCoilsLoop vs p.length (bitsSum 8 p) acc = .ok (acc ++ packBits (p ++ vs.map (fun v => decide (0 < v)))) := by
  induction vs generalizing p acc with
  | nil =>
    rw [packCoilsLoop]
    by_cases h0 : 0 < p.length
    · rw [if_pos h0, structPack_single]
      have hlt := bitsSum_lt 8 p
      rw [packOne_B (by omega) (by omega)]
      simp only [List.map_nil, List.append_nil, packBits_short h0 (show p.length ≤ 8 by omega), bitByte_zero, Except.map,
        Int.toNat_natCast]
    · have : p = [] := List.eq_nil_of_length_eq_zero (by omega)
      subst this
      simp [packBits, bytesFor]
  | cons v vs ih =>
    rw [packCoilsLoop]
    have hbv : (if v > 0 then bitsSum 8 p + 2 ^ p.length else bitsSum 8 p) = bitsSum 8 (p ++ [decide (0 < v)]) := by
      rw [bitsSum_snoc]
      by_cases hv : 0 < v <;> simp [hv, hp]
    simp only [hbv]
    by_cases h7 : p.length = 7
    · rw [if_pos h7, structPack_single]
      have hlt := bitsSum_lt 8 (p ++ [decide (0 < v)])
      rw [packOne_B (by omega) (by omega), except_bind_ok]
      have := ih [] (by simp) (acc ++ [UInt8.ofNat (bitsSum 8 (p ++ [decide (0 < v)]))])
      simp only [List.length_nil, List.nil_append, Int.toNat_natCast] at this ⊢
      rw [show bitsSum 8 [] = 0 from rfl] at this
      rw [this, List.map_cons, show p ++ decide (0 < v) :: vs.map (fun v => decide (0 < v))
        = (p ++ [decide (0 < v)]) ++ vs.map (fun v => decide (0 < v)) by simp,
        packBits_append (by simp; omega), bitByte_zero]
      simp
    · rw [if_neg h7]
      have := ih (p ++ [decide (0 < v)]) (by simp; omega) acc
      simp only [List.length_append, List.length_singleton] at this
      rw [this]; simp

end Modbus
