import Verif.Lemmas.Slave
/- Lemmas about packing of bits and registers and about decoding requests. -/
namespace Modbus
open Spec (word toWord ofWord fits wordAt bitAt packBits bitByte bytesFor)

/-! ### Bits -/

/-- sum of the first `n` bits -/
def bitsSum (n : Nat) (bits : List Bool) : Nat :=
  ((List.range n).map (fun j => if bits.getD j false then 2^j else 0)).sum

theorem bitsSum_succ (n : Nat) (bits : List Bool) :
    bitsSum (n+1) bits = bitsSum n bits + if bits.getD n false then 2^n else 0 := by
  simp [bitsSum, List.range_succ]

theorem bitsSum_snoc (n : Nat) (p : List Bool) (x : Bool) :
    bitsSum n (p ++ [x]) = bitsSum n p + if p.length < n ∧ x then 2^p.length else 0 := by
  induction n with
  | zero => simp [bitsSum]
  | succ n ih =>
    rw [bitsSum_succ, bitsSum_succ, ih]
    by_cases h1 : p.length < n
    · have e : (p ++ [x]).getD n false = p.getD n false := by
        simp only [List.getD_eq_getElem?_getD]
        rw [List.getElem?_eq_none (by simp; omega), List.getElem?_eq_none (by omega)]
      rw [e]; simp [h1, show p.length < n+1 by omega]; omega
    · by_cases h2 : p.length = n
      · have e : (p ++ [x]).getD n false = x := by subst h2; simp
        have e2 : p.getD n false = false := by
          simp only [List.getD_eq_getElem?_getD]; rw [List.getElem?_eq_none (by omega)]; rfl
        rw [e, e2]; simp [h2]
      · have e : (p ++ [x]).getD n false = p.getD n false := by
          simp only [List.getD_eq_getElem?_getD]
          rw [List.getElem?_append_left (by omega)]
        rw [e]; simp [h1, show ¬ p.length < n+1 by omega]

theorem bitsSum_lt (n : Nat) (p : List Bool) : bitsSum n p < 2^n := by
  induction n with
  | zero => simp [bitsSum]
  | succ n ih => rw [bitsSum_succ, Nat.pow_succ]; split <;> omega

theorem bitsSum_lt_len (n : Nat) (p : List Bool) : bitsSum n p < 2^p.length := by
  induction n with
  | zero => simp [bitsSum]; exact Nat.two_pow_pos _
  | succ n ih =>
    by_cases h : n < p.length
    · have := bitsSum_lt (n+1) p
      have h2 : 2^(n+1) ≤ 2^p.length := Nat.pow_le_pow_right (by decide) h
      omega
    · rw [bitsSum_succ]
      have e : p.getD n false = false := by
        simp only [List.getD_eq_getElem?_getD]; rw [List.getElem?_eq_none (by omega)]; rfl
      rw [e]; simpa using ih

theorem bitByte_zero (p : List Bool) : bitByte p 0 = UInt8.ofNat (bitsSum 8 p) := by
  simp only [bitByte, bitsSum, Nat.mul_zero, Nat.zero_add]

theorem bitByte_append_zero {p q : List Bool} (h : p.length = 8) : bitByte (p ++ q) 0 = bitByte p 0 := by
  simp only [bitByte, Nat.mul_zero, Nat.zero_add]
  congr 2
  apply List.map_congr_left
  intro j hj
  have := List.mem_range.mp hj
  simp only [List.getD_eq_getElem?_getD]
  rw [List.getElem?_append_left (by omega)]

theorem bitByte_append_succ {p q : List Bool} (h : p.length = 8) (i : Nat) :
    bitByte (p ++ q) (i+1) = bitByte q i := by
  simp only [bitByte]
  congr 2
  apply List.map_congr_left
  intro j hj
  simp only [List.getD_eq_getElem?_getD]
  rw [List.getElem?_append_right (by omega), h, show 8 * (i+1) + j - 8 = 8*i+j by omega]

theorem packBits_append {p q : List Bool} (h : p.length = 8) :
    packBits (p ++ q) = bitByte p 0 :: packBits q := by
  have e : bytesFor (p ++ q).length = bytesFor q.length + 1 := by
    simp only [bytesFor, List.length_append, h]; omega
  simp only [packBits, e, List.range_succ_eq_map, List.map_cons, List.map_map, bitByte_append_zero h]
  congr 1
  apply List.map_congr_left
  intro i _
  simp [Function.comp, bitByte_append_succ h]

theorem packBits_short {p : List Bool} (h0 : 0 < p.length) (h : p.length ≤ 8) : packBits p = [bitByte p 0] := by
  have e : bytesFor p.length = 1 := by simp only [bytesFor]; omega
  simp [packBits, e]

theorem packBitsLoop_eq (u : Bool) (coils : List Int) (p : List Bool) (hp : p.length < 8) (acc : Bytes) :
    packBitsLoop u coils p.length (bitsSum 8 p) acc =
      .ok (acc ++ packBits (p ++ coils.map (fun v => v != 0))) := by
  induction coils generalizing p acc with
  | nil =>
    rw [packBitsLoop]
    by_cases h0 : 0 < p.length
    · rw [if_pos h0, structPack_single]
      have hlt := bitsSum_lt_len 8 p
      have h7 : 2^p.length ≤ 2^7 := Nat.pow_le_pow_right (by decide) (by omega)
      have e : packOne true (if u then Code.B else Code.b) (bitsSum 8 p : Int)
          = .ok [UInt8.ofNat (bitsSum 8 p)] := by
        cases u
        · simp only [Bool.false_eq_true, if_false]
          rw [packOne_ok (by simp [Code.b, Code.lo, Code.hi, Code.modulus]; omega)]
          have : ((bitsSum 8 p : Int) % (Code.b.modulus : Int)).toNat = bitsSum 8 p := by
            simp only [Code.b, Code.modulus]; omega
          rw [this]
          simp [Code.b, natBE, Nat.mod_eq_of_lt (show bitsSum 8 p < 256 by omega)]
        · simp only [if_true]; rw [packOne_B (by omega) (by omega)]; simp
      rw [e, except_bind_ok]
      simp only [List.map_nil, List.append_nil, packBits_short h0 (by omega), bitByte_zero]; rfl
    · have : p = [] := List.eq_nil_of_length_eq_zero (by omega)
      subst this
      simp [packBits, bytesFor]
  | cons v coils ih =>
    rw [packBitsLoop]
    have hbv : (if v ≠ 0 then bitsSum 8 p + 1 <<< p.length else bitsSum 8 p) = bitsSum 8 (p ++ [v != 0]) := by
      rw [bitsSum_snoc]
      by_cases hv : v = 0 <;> simp [hv, hp, Nat.shiftLeft_eq]
    simp only [hbv]
    by_cases h7 : p.length ≥ 7
    · rw [if_pos h7, structPack_single]
      have hlt := bitsSum_lt 8 (p ++ [v != 0])
      rw [packOne_B (by omega) (by omega), except_bind_ok]
      have := ih [] (by simp) (acc ++ [UInt8.ofNat (bitsSum 8 (p ++ [v != 0]))])
      simp only [List.length_nil, List.nil_append, Int.toNat_natCast] at this ⊢
      rw [show bitsSum 8 [] = 0 from rfl] at this
      rw [this, List.map_cons, show p ++ (v != 0) :: coils.map (fun v => v != 0)
        = (p ++ [v != 0]) ++ coils.map (fun v => v != 0) by simp,
        packBits_append (by simp; omega), bitByte_zero]
      simp
    · rw [if_neg h7]
      have := ih (p ++ [v != 0]) (by simp; omega) acc
      simp only [List.length_append, List.length_singleton] at this
      rw [this]; simp

/-! ### Registers -/

theorem packReg_eq {sl : Slave} {v : Int} (h : fits sl.unsigned v) :
    structPack (be [regCode sl]) [v] = .ok (word (toWord v)) := by
  rw [structPack_single]
  unfold fits at h
  have e : (toWord v).toNat = (v % 65536).toNat := by
    unfold toWord; rw [UInt16.toNat_ofNat']; apply Nat.mod_eq_of_lt; show _ < 65536; omega
  cases hu : sl.unsigned
  · simp only [hu, Bool.false_eq_true, if_false] at h
    simp only [regCode, hu, Bool.false_eq_true, if_false]
    rw [packOne_h h.1 h.2]; simp only [word, e]
  · simp only [hu, if_true] at h
    simp only [regCode, hu, if_true]
    rw [packOne_H h.1 h.2]; simp only [word, e]
    rw [show v % 65536 = v by omega]

theorem packRegsLoop_eq {sl : Slave} (vs : List Int) (h : ∀ v ∈ vs, fits sl.unsigned v) (acc : Bytes) :
    packRegsLoop (regCode sl) vs acc = .ok (acc ++ vs.flatMap (fun v => word (toWord v))) := by
  induction vs generalizing acc with
  | nil => simp [packRegsLoop]
  | cons v vs ih =>
    rw [packRegsLoop, packReg_eq (h v (by simp)), except_bind_ok, ih (fun x hx => h x (by simp [hx]))]
    simp

theorem regCode_size (sl : Slave) : (regCode sl).size = 2 := by
  unfold regCode; split <;> rfl

/-- two bytes decode to the integer their word stands for -/
theorem unpackReg (sl : Slave) (a b : UInt8) :
    unpackOne true (regCode sl) [a, b] = ofWord sl.unsigned (UInt16.ofNat (a.toNat * 256 + b.toNat)) := by
  have ha := u8_lt a; have hb := u8_lt b
  have e : (UInt16.ofNat (a.toNat * 256 + b.toNat)).toNat = a.toNat * 256 + b.toNat := by
    rw [UInt16.toNat_ofNat']; apply Nat.mod_eq_of_lt; show _ < 65536; omega
  unfold ofWord
  rw [e]
  cases hu : sl.unsigned
  · simp only [regCode, hu, Bool.false_eq_true, if_false, false_or]
    rw [unpackOne_h]
    by_cases h : 32768 ≤ a.toNat * 256 + b.toNat
    · rw [if_pos h, if_neg (by omega)]; omega
    · rw [if_neg h, if_pos (by omega)]; omega
  · simp [regCode, hu]

theorem ofWord_fits (u : Bool) (x : UInt16) : fits u (ofWord u x) := by
  have : x.toNat < 65536 := x.toNat_lt
  unfold fits ofWord
  cases u <;> simp <;> (try split) <;> omega

theorem toWord_ofWord (u : Bool) (x : UInt16) : toWord (ofWord u x) = x := by
  have hx : x.toNat < 65536 := x.toNat_lt
  apply UInt16.toNat_inj.mp
  unfold toWord ofWord
  rw [UInt16.toNat_ofNat']
  show _ % 65536 = _
  split <;> omega

theorem ofWord_toWord {u : Bool} {v : Int} (h : fits u v) : ofWord u (toWord v) = v := by
  have e : (toWord v).toNat = (v % 65536).toNat := by
    unfold toWord; rw [UInt16.toNat_ofNat']; apply Nat.mod_eq_of_lt; show _ < 65536; omega
  unfold ofWord; rw [e]
  unfold fits at h
  cases u
  · simp only [Bool.false_eq_true, if_false, false_or] at h ⊢
    split <;> omega
  · simp only [if_true, true_or] at h ⊢; omega

/-! ### Words -/

theorem word_length (x : UInt16) : (word x).length = 2 := rfl
@[simp] theorem word_take (x : UInt16) : (word x).take 2 = word x := rfl

@[simp] theorem unpackOne_word (x : UInt16) : unpackOne true Code.H (word x) = x.toNat := by
  have hx : x.toNat < 65536 := x.toNat_lt
  simp only [word, unpackOne_H]
  rw [u8_ofNat_toNat (by omega), u8_ofNat_toNat (by omega)]; omega

theorem unpackOne_regWord (sl : Slave) (x : UInt16) :
    unpackOne true (regCode sl) (word x) = ofWord sl.unsigned x := by
  have hx : x.toNat < 65536 := x.toNat_lt
  simp only [word, unpackReg]
  rw [u8_ofNat_toNat (by omega), u8_ofNat_toNat (by omega)]
  congr 1
  apply UInt16.toNat_inj.mp
  rw [UInt16.toNat_ofNat']; show _ % 65536 = _; omega

theorem packH_word (x : UInt16) : packOne true Code.H (x.toNat : Int) = .ok (word x) := by
  have hx : x.toNat < 65536 := x.toNat_lt
  rw [packOne_H (Int.natCast_nonneg _) (by omega), Int.toNat_natCast]; rfl

theorem structPack_HH (x y : UInt16) :
    structPack (be [Code.H, Code.H]) [(x.toNat : Int), (y.toNat : Int)] = .ok (word x ++ word y) := by
  show packCodes true _ _ = _
  exact packCodes_cons (packH_word x) (by simpa using packCodes_cons (packH_word y) packCodes_nil)

theorem structUnpack_HH (x y : UInt16) :
    structUnpack (be [Code.H, Code.H]) (word x ++ word y) = .ok [(x.toNat : Int), (y.toNat : Int)] := by
  have hx := word_length x; have hy := word_length y
  simp [structUnpack, calcsize, be, unpackCodes, hx, hy]

theorem structUnpack_HReg (sl : Slave) (x y : UInt16) :
    structUnpack (be [Code.H, regCode sl]) (word x ++ word y) = .ok [(x.toNat : Int), ofWord sl.unsigned y] := by
  have hx := word_length x; have hy := word_length y
  have := regCode_size sl
  simp [structUnpack, calcsize, be, unpackCodes, hx, hy, this,
    unpackOne_regWord]

theorem structUnpack_HHH (x y z : UInt16) :
    structUnpack (be [Code.H, Code.H, Code.H]) (word x ++ word y ++ word z)
      = .ok [(x.toNat : Int), (y.toNat : Int), (z.toNat : Int)] := by
  have hx := word_length x; have hy := word_length y; have hz := word_length z
  simp [structUnpack, calcsize, be, unpackCodes, hx, hy, hz]

theorem structUnpack_HHB (x y : UInt16) (b : UInt8) :
    structUnpack (be [Code.H, Code.H, Code.B]) (word x ++ word y ++ [b])
      = .ok [(x.toNat : Int), (y.toNat : Int), (b.toNat : Int)] := by
  have hx := word_length x; have hy := word_length y
  simp [structUnpack, calcsize, be, unpackCodes, hx, hy]

theorem structUnpack_HHHHB (x y z w : UInt16) (b : UInt8) :
    structUnpack (be [Code.H, Code.H, Code.H, Code.H, Code.B]) (word x ++ word y ++ word z ++ word w ++ [b])
      = .ok [(x.toNat : Int), (y.toNat : Int), (z.toNat : Int), (w.toNat : Int), (b.toNat : Int)] := by
  have hx := word_length x; have hy := word_length y; have hz := word_length z; have hw := word_length w
  simp [structUnpack, calcsize, be, unpackCodes, hx, hy, hz, hw]

/-! ### Payloads -/

theorem regAt_payload (sl : Slave) {pre payload : Bytes} {i : Nat} (h : 2*i + 2 ≤ payload.length) :
    regAt (regCode sl) (pre ++ payload) pre.length i = ofWord sl.unsigned (wordAt payload i) := by
  have e : slice (pre ++ payload) (pre.length + 2*i) (pre.length + 2 + 2*i)
      = [payload.getD (2*i) 0, payload.getD (2*i+1) 0] := by
    rw [show pre.length + 2 + 2*i = (pre.length + 2*i) + 2 by omega, slice_eq_drop_take,
      List.drop_append, show pre.length + 2*i - pre.length = 2*i by omega,
      List.drop_eq_nil_of_le (show pre.length ≤ pre.length + 2*i by omega), List.nil_append]
    rw [List.drop_eq_getElem_cons (by omega), List.drop_eq_getElem_cons (by omega)]
    simp only [List.take_succ_cons, List.take_zero]
    rw [List.getD_eq_getElem?_getD, List.getD_eq_getElem?_getD, List.getElem?_eq_getElem (by omega),
      List.getElem?_eq_getElem (by omega)]
    rfl
  rw [regAt, e, unpackReg]; rfl

theorem pyBit_byte (u : Bool) (x : UInt8) {j : Nat} (hj : j < 8) :
    pyBit (unpackOne true (if u then Code.B else Code.b) [x]) j = x.toNat.testBit j := by
  have hx := u8_lt x
  cases u
  · simp only [Bool.false_eq_true, if_false, unpackOne_b]
    split
    · rename_i h
      rw [show (x.toNat : Int) - 256 = Int.negSucc (2^8 - (x.toNat + 1)) by omega]
      simp only [pyBit]
      rw [Nat.testBit_two_pow_sub_succ (by omega)]
      simp [hj]
    · rfl
  · simp only [if_true, unpackOne_B]; rfl

theorem coilAt_payload (u : Bool) {pre payload : Bytes} (hpre : pre.length = 6) {k : Nat}
    (h : k / 8 < payload.length) :
    coilAt (if u then Code.B else Code.b) (pre ++ payload) k = if bitAt payload k then 1 else 0 := by
  have e : slice (pre ++ payload) (6 + k/8) (7 + k/8) = [payload.getD (k/8) 0] := by
    rw [show 7 + k/8 = (6 + k/8) + 1 by omega, slice_eq_drop_take,
      List.drop_append, show 6 + k/8 - pre.length = k/8 by omega,
      List.drop_eq_nil_of_le (by omega), List.nil_append]
    rw [List.drop_eq_getElem_cons (by omega)]
    simp only [List.take_succ_cons, List.take_zero]
    rw [List.getD_eq_getElem?_getD, List.getElem?_eq_getElem (by omega)]
    rfl
  rw [coilAt, e, pyBit_byte u _ (by omega)]; rfl

theorem byteCount_eq (n : Nat) : byteCount (n : Int) = (bytesFor n : Int) := by
  unfold byteCount bytesFor; split <;> omega

end Modbus
