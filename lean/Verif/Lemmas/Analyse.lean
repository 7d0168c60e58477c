import Verif.Lemmas.Master
import Mathlib.Data.Finset.Card
import Mathlib.Data.Int.Interval
/- Lemmas about decoding response data: formats of equal codes, bit lists, file records. -/
namespace Modbus
open Spec (word toWord wordAt bitAt packBits bitByte bytesFor)

/-! ### Formats made of one code -/

theorem unpackCodes_B (data : Bytes) :
    unpackCodes true (List.replicate data.length Code.B) data = data.map (fun b => (b.toNat : Int)) := by
  induction data with
  | nil => rfl
  | cons b data ih =>
    rw [List.length_cons, List.replicate_succ, unpackCodes]
    rw [show (b :: data).take Code.B.size = [b] from rfl, unpackOne_B, show (b :: data).drop Code.B.size = data from rfl, ih]
    rfl

theorem calcsize_replicate (n : Nat) (c : Code) : calcsize (be (List.replicate n c)) = n * c.size := by
  simp [calcsize, be]

/-- `struct.unpack(">BB...B", data)` -/
theorem unpack_bytes (n : Nat) (data : Bytes) :
    structUnpack (be (List.replicate n Code.B)) data =
      if data.length = n then .ok (data.map (fun b => (b.toNat : Int))) else .error .structError := by
  rw [structUnpack, calcsize_replicate]
  by_cases h : data.length = n
  · subst h
    rw [if_pos (show data.length = data.length * Code.B.size by simp [Code.B]), if_pos rfl]
    exact congrArg _ (unpackCodes_B data)
  · rw [if_neg (show ¬ data.length = n * Code.B.size by simpa [Code.B] using h), if_neg h]

theorem wordAt_drop (a b : UInt8) (data : Bytes) (i : Nat) : wordAt (a :: b :: data) (i+1) = wordAt data i := by
  simp only [wordAt, show 2 * (i+1) = 2 * i + 1 + 1 by omega, List.getD_cons_succ]

theorem wordAt_zero (a b : UInt8) (data : Bytes) :
    wordAt (a :: b :: data) 0 = UInt16.ofNat (a.toNat * 256 + b.toNat) := rfl

theorem wordAt_zero_toNat (a b : UInt8) (data : Bytes) : (wordAt (a :: b :: data) 0).toNat = a.toNat * 256 + b.toNat := by
  have ha := a.toNat_lt
  have hb := b.toNat_lt
  rw [wordAt_zero, UInt16.toNat_ofNat']
  exact Nat.mod_eq_of_lt (by omega)

theorem unpackCodes_H (n : Nat) (data : Bytes) (h : data.length = 2 * n) (rest : List Code) (tail : Bytes) :
    unpackCodes true (List.replicate n Code.H ++ rest) (data ++ tail) =
      (List.range n).map (fun i => ((wordAt data i).toNat : Int)) ++ unpackCodes true rest tail := by
  induction n generalizing data with
  | zero =>
    have : data = [] := List.eq_nil_of_length_eq_zero (by omega)
    subst this; rfl
  | succ n ih =>
    match data with
    | [] => simp at h
    | [_] => simp at h; omega
    | a :: b :: data =>
      rw [List.replicate_succ, List.cons_append, unpackCodes]
      rw [show (a :: b :: data ++ tail).take Code.H.size = [a, b] from rfl,
        show (a :: b :: data ++ tail).drop Code.H.size = data ++ tail from rfl,
        ih data (by simp at h; omega), List.range_succ_eq_map, List.map_cons, List.map_map, List.cons_append]
      congr 1
      · rw [unpackOne_H, wordAt_zero_toNat]
        push_cast; rfl

/-- `struct.unpack(">HH...H", data)` -/
theorem unpack_words (n : Nat) (data : Bytes) :
    structUnpack (be (List.replicate n Code.H)) data =
      if data.length = 2 * n then .ok ((List.range n).map (fun i => ((wordAt data i).toNat : Int)))
      else .error .structError := by
  rw [structUnpack, calcsize_replicate]
  by_cases h : data.length = 2 * n
  · rw [if_pos (show data.length = n * Code.H.size by simp [Code.H]; omega), if_pos h]
    have := unpackCodes_H n data h [] []
    simp only [List.append_nil, show unpackCodes true [] [] = [] from rfl] at this
    exact congrArg _ this
  · rw [if_neg (show ¬ data.length = n * Code.H.size by simp [Code.H]; omega), if_neg h]

/-! ### Bits -/

theorem digitsInner_eq (k : Nat) (v : Nat) (D : List Int) (nb : Nat) :
    digitsInner k (v : Int) D nb =
      D ++ (List.range (min k (nb - D.length))).map (fun j => if v.testBit j then (1 : Int) else 0) := by
  induction k generalizing v D with
  | zero => simp [digitsInner]
  | succ k ih =>
    rw [digitsInner]
    by_cases h : D.length ≥ nb
    · rw [if_pos h, show nb - D.length = 0 by omega]; simp
    · rw [if_neg h]
      have e : ((v : Int) / 2) = ((v / 2 : Nat) : Int) := by omega
      rw [e, ih]
      rw [show min (k+1) (nb - D.length) = min k (nb - (D ++ [(v : Int) % 2]).length) + 1 by
        simp only [List.length_append, List.length_singleton]; omega]
      rw [List.range_succ_eq_map, List.map_cons, List.map_map, List.append_assoc]
      congr 1
      rw [List.singleton_append]
      congr 1
      · rw [Nat.testBit_zero]
        by_cases h2 : v % 2 = 1 <;> simp [h2] <;> omega
      · apply List.map_congr_left
        intro j _
        simp only [Function.comp, Nat.testBit_succ]

theorem bitAt_cons_lt (b : UInt8) (data : Bytes) {k : Nat} (h : k < 8) : bitAt (b :: data) k = b.toNat.testBit k := by
  unfold bitAt
  rw [show k / 8 = 0 by omega, show k % 8 = k by omega, List.getD_cons_zero]

theorem bitAt_cons_ge (b : UInt8) (data : Bytes) (k : Nat) : bitAt (b :: data) (8 + k) = bitAt data k := by
  unfold bitAt
  rw [show (8 + k) / 8 = k / 8 + 1 by omega, show (8 + k) % 8 = k % 8 by omega, List.getD_cons_succ]

theorem digits_foldl (data : Bytes) (D : List Int) (nb : Nat) :
    (data.map (fun b => (b.toNat : Int))).foldl (fun digits byteVal => digitsInner 8 byteVal digits nb) D =
      D ++ (List.range (min (nb - D.length) (8 * data.length))).map (fun k => if bitAt data k then (1 : Int) else 0) := by
  induction data generalizing D with
  | nil => simp
  | cons b data ih =>
    rw [List.map_cons, List.foldl_cons, digitsInner_eq, ih, List.append_assoc]
    congr 1
    simp only [List.length_append, List.length_map, List.length_range, List.length_cons]
    by_cases h : nb - D.length ≥ 8
    · rw [show min 8 (nb - D.length) = 8 by omega,
        show min (nb - D.length) (8 * (data.length + 1)) = 8 + min (nb - (D.length + 8)) (8 * data.length) by omega,
        List.range_add, List.map_append, List.map_map]
      congr 1
      apply List.map_congr_left
      intro k _
      simp only [Function.comp, bitAt_cons_ge]
    · rw [show nb - (D.length + min 8 (nb - D.length)) = 0 by omega,
        show min (nb - D.length) (8 * (data.length + 1)) = min 8 (nb - D.length) by omega]
      simp only [Nat.zero_min, List.range_zero, List.map_nil, List.append_nil]
      apply List.map_congr_left
      intro k hk
      rw [bitAt_cons_lt _ _ (by have := List.mem_range.mp hk; omega)]

/-- the digits of modbus.py:401-409 are the first bits of the data -/
theorem digitsLoop_eq (data : Bytes) (nb : Nat) :
    digitsLoop (data.map (fun b => (b.toNat : Int))) nb =
      (List.range (min nb (8 * data.length))).map (fun k => if bitAt data k then (1 : Int) else 0) := by
  rw [digitsLoop, digits_foldl]; simp

theorem bitAt_packBits (bits : List Bool) {k : Nat} (h : k < bits.length) : bitAt (packBits bits) k = bits[k] := by
  unfold bitAt packBits
  rw [List.getD_eq_getElem?_getD, List.getElem?_map, List.getElem?_range (by simp only [bytesFor]; omega)]
  simp only [Option.map_some, Option.getD_some]
  have hb := bitsSum_lt 8 ((bits.drop (8 * (k/8))).take 8)
  have key : ∀ (n : Nat) (q : List Bool) (j : Nat), j < n → (bitsSum n q).testBit j = q.getD j false := by
    intro n q
    induction n with
    | zero => intro j hj; omega
    | succ n ih =>
      intro j hj
      rw [bitsSum_succ]
      have hlt := bitsSum_lt n q
      by_cases hjn : j < n
      · split
        · rw [Nat.add_comm, Nat.testBit_two_pow_add_gt hjn]; exact ih j hjn
        · rw [Nat.add_zero]; exact ih j hjn
      · have : j = n := by omega
        subst this
        split
        · rename_i hq
          rw [Nat.add_comm, Nat.testBit_two_pow_add_eq, Nat.testBit_lt_two_pow hlt, hq]; rfl
        · rename_i hq
          rw [Nat.add_zero, Nat.testBit_lt_two_pow hlt]; simpa using hq
  have e : ((List.range 8).map (fun j => if bits.getD (8*(k/8) + j) false then 2^j else 0)).sum
      = bitsSum 8 (bits.drop (8*(k/8))) := by
    unfold bitsSum
    congr 1
    apply List.map_congr_left
    intro j _
    simp only [List.getD_eq_getElem?_getD, List.getElem?_drop]
  unfold bitByte
  have hlt := bitsSum_lt 8 (bits.drop (8*(k/8)))
  rw [e, UInt8.toNat_ofNat', Nat.mod_eq_of_lt (by simpa using hlt), key 8 _ (k % 8) (by omega)]
  simp only [List.getD_eq_getElem?_getD, List.getElem?_drop]
  rw [show 8 * (k/8) + k % 8 = k by omega, List.getElem?_eq_getElem h, Option.getD_some]

theorem wordAt_flatMap (vs : List UInt16) {i : Nat} (h : i < vs.length) : wordAt (vs.flatMap word) i = vs[i] := by
  induction vs generalizing i with
  | nil => simp at h
  | cons v vs ih =>
    rw [List.flatMap_cons]
    have e : word v ++ vs.flatMap word = UInt8.ofNat (v.toNat / 256) :: UInt8.ofNat (v.toNat % 256) :: vs.flatMap word := rfl
    rw [e]
    cases i with
    | zero =>
      have hv := v.toNat_lt
      apply UInt16.toNat_inj.mp
      rw [wordAt_zero_toNat, UInt8.toNat_ofNat', UInt8.toNat_ofNat', List.getElem_cons_zero]
      omega
    | succ i => rw [wordAt_drop, ih (by simpa using h), List.getElem_cons_succ]

theorem flatMap_word_length (vs : List UInt16) : (vs.flatMap word).length = 2 * vs.length := by
  induction vs with
  | nil => rfl
  | cons v vs ih => rw [List.flatMap_cons, List.length_append, ih, word_length, List.length_cons]; omega

theorem range_wordAt_flatMap (vs : List UInt16) :
    (List.range vs.length).map (fun i => ((wordAt (vs.flatMap word) i).toNat : Int)) = vs.map (fun v => (v.toNat : Int)) := by
  apply List.ext_getElem
  · simp
  · intro i h1 h2
    simp only [List.getElem_map, List.getElem_range]
    rw [wordAt_flatMap vs (by simpa using h1)]

theorem range_bitAt_packBits (bits : List Bool) :
    (List.range bits.length).map (fun k => if bitAt (packBits bits) k then (1 : Int) else 0) =
      bits.map (fun b => if b then (1 : Int) else 0) := by
  apply List.ext_getElem
  · simp
  · intro i h1 h2
    simp only [List.getElem_map, List.getElem_range]
    rw [bitAt_packBits bits (by simpa using h1)]

theorem packBits_length (bits : List Bool) : (packBits bits).length = bytesFor bits.length := by simp [packBits]

end Modbus
