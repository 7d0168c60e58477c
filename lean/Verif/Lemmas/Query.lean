import Verif.Model.Query
import Verif.Spec.Frames
import Verif.Lemmas.Crc
import Verif.Lemmas.Codec
namespace Modbus
open Spec

theorem unpack1_ok {c : Code} {bs : Bytes} (h : bs.length = c.size) : unpack1 c bs = .ok (unpackOne true c bs) := by
  have h1 : bs.take c.size = bs := by rw [← h]; simp
  simp [unpack1, structUnpack, calcsize, be, h, unpackCodes, h1]

theorem crc_word (data : Bytes) :
    structPack (be [Code.H]) [(calculateCrc data : Int)] =
      .ok [UInt8.ofNat (crc16 data % 256), UInt8.ofNat (crc16 data / 256)] := by
  have hc := crc16_lt data
  have e : calculateCrc data = (crc16 data % 256) * 256 + crc16 data / 256 := by
    unfold calculateCrc
    rw [crc_foldl, show data.foldl crcByte 0xFFFF = crc16 data from rfl, swapBytes_eq hc]
  rw [structPack_single, e, packOne_H (by omega) (by omega)]
  have h1 : (((crc16 data % 256) * 256 + crc16 data / 256 : Nat) : Int).toNat / 256 = crc16 data % 256 := by omega
  have h2 : (((crc16 data % 256) * 256 + crc16 data / 256 : Nat) : Int).toNat % 256 = crc16 data / 256 := by omega
  rw [h1, h2]

theorem rtuFrame_eq {a : Int} (h0 : 0 ≤ a) (h1 : a < 256) (pdu : Bytes) :
    rtuFrame a pdu = .ok (rtuAdu (UInt8.ofNat a.toNat) pdu) := by
  unfold rtuFrame
  rw [structPack_single, packOne_B h0 h1, except_bind_ok]
  dsimp only
  rw [crc_word]
  rfl

theorem rtuFrame_bad {a : Int} (h : a < 0 ∨ 256 ≤ a) (pdu : Bytes) : rtuFrame a pdu = .error .structError := by
  unfold rtuFrame
  rw [structPack_single, packOne_error]
  · rfl
  · simp only [Code.lo, Code.hi, Code.B, Code.modulus]
    simp
    omega

/-- the shape of a byte string of at least three bytes -/
theorem rtu_shape {f : Bytes} (h : ¬ f.length < 3) : ∃ a pdu lo hi, f = a :: (pdu ++ [lo, hi]) := by
  match f with
  | [] => simp at h
  | a :: t =>
    have ht : 2 ≤ t.length := by simp only [List.length_cons] at h; omega
    refine ⟨a, t.take (t.length - 2), t[t.length - 2], t[t.length - 1], ?_⟩
    congr 1
    have e : t.drop (t.length - 2) = [t[t.length - 2], t[t.length - 1]] := by
      apply List.ext_getElem
      · simp; omega
      · intro i h1 h2
        simp at h2
        match i, h2 with
        | 0, _ => simp
        | 1, _ => simp; congr 1; omega
    rw [← e, List.take_append_drop]

theorem crc_check (a : UInt8) (pdu : Bytes) (lo hi : UInt8) :
    (unpackOne true Code.H [lo, hi] = (calculateCrc (a :: pdu) : Int)) ↔ a :: (pdu ++ [lo, hi]) = rtuAdu a pdu := by
  have hc := crc16_lt (a :: pdu)
  have e : calculateCrc (a :: pdu) = (crc16 (a :: pdu) % 256) * 256 + crc16 (a :: pdu) / 256 := by
    unfold calculateCrc
    rw [crc_foldl, show (a :: pdu).foldl crcByte 0xFFFF = crc16 (a :: pdu) from rfl, swapBytes_eq hc]
  rw [e, unpackOne_H, rtuAdu]
  have hl := lo.toNat_lt
  have hh := hi.toNat_lt
  generalize crc16 (a :: pdu) = c at *
  constructor
  · intro h
    have h1 : lo.toNat = c % 256 := by omega
    have h2 : hi.toNat = c / 256 := by omega
    rw [← h1, ← h2]
    simp
  · intro h
    have h' : [lo, hi] = [UInt8.ofNat (c % 256), UInt8.ofNat (c / 256)] := by
      simpa using h
    have h1 : lo = UInt8.ofNat (c % 256) := by simpa using congrArg (fun l => l.head?) h'
    have h2 : hi = UInt8.ofNat (c / 256) := by
      have := congrArg (fun l => l[1]?) h'
      simpa using this
    rw [h1, h2, u8_ofNat_toNat (by omega), u8_ofNat_toNat (by omega)]
    omega

theorem rtu_lastN (a : UInt8) (pdu : Bytes) (lo hi : UInt8) : lastN (a :: (pdu ++ [lo, hi])) 2 = [lo, hi] := by
  unfold lastN
  rw [show (a :: (pdu ++ [lo, hi])).length - 2 = (a :: pdu).length by simp]
  rw [show a :: (pdu ++ [lo, hi]) = (a :: pdu) ++ [lo, hi] from rfl, List.drop_left]

theorem rtu_dropLastN (a : UInt8) (pdu : Bytes) (lo hi : UInt8) : dropLastN (a :: (pdu ++ [lo, hi])) 2 = a :: pdu := by
  unfold dropLastN
  rw [show (a :: (pdu ++ [lo, hi])).length - 2 = (a :: pdu).length by simp]
  rw [show a :: (pdu ++ [lo, hi]) = (a :: pdu) ++ [lo, hi] from rfl, List.take_left]

theorem rtuParseRequest_shape (a : UInt8) (pdu : Bytes) (lo hi : UInt8) (s : RtuQuery) :
    rtuParseRequest (a :: (pdu ++ [lo, hi])) s =
      (if a :: (pdu ++ [lo, hi]) = rtuAdu a pdu then .ok ((a.toNat : Int), pdu) else .error .invalidRequest,
       { s with requestAddress := a.toNat }) := by
  unfold rtuParseRequest
  rw [if_neg (by simp), rtu_lastN, rtu_dropLastN]
  rw [show slice (a :: (pdu ++ [lo, hi])) 0 1 = [a] from rfl, unpack1_ok rfl, unpack1_ok rfl, unpackOne_B]
  dsimp only
  by_cases h : a :: (pdu ++ [lo, hi]) = rtuAdu a pdu
  · rw [if_pos h, if_neg (not_not_intro ((crc_check a pdu lo hi).mpr h))]; rfl
  · rw [if_neg h, if_pos (fun h' => h ((crc_check a pdu lo hi).mp h'))]

theorem rtuParseResponse_shape (a : UInt8) (pdu : Bytes) (lo hi : UInt8) (s : RtuQuery) :
    rtuParseResponse (a :: (pdu ++ [lo, hi])) s =
      (if s.requestAddress = a.toNat ∧ a :: (pdu ++ [lo, hi]) = rtuAdu a pdu then .ok pdu else .error .invalidResponse,
       { s with responseAddress := a.toNat }) := by
  unfold rtuParseResponse
  rw [if_neg (by simp), rtu_lastN, rtu_dropLastN]
  rw [show slice (a :: (pdu ++ [lo, hi])) 0 1 = [a] from rfl, unpack1_ok rfl, unpack1_ok rfl, unpackOne_B]
  dsimp only
  by_cases ha : s.requestAddress = a.toNat
  · rw [if_neg (not_not_intro ha)]
    by_cases h : a :: (pdu ++ [lo, hi]) = rtuAdu a pdu
    · rw [if_neg (not_not_intro ((crc_check a pdu lo hi).mpr h)),
        if_pos (show s.requestAddress = a.toNat ∧ a :: (pdu ++ [lo, hi]) = rtuAdu a pdu from ⟨ha, h⟩)]; rfl
    · rw [if_pos (fun h' => h ((crc_check a pdu lo hi).mp h')),
        if_neg (show ¬ (s.requestAddress = a.toNat ∧ a :: (pdu ++ [lo, hi]) = rtuAdu a pdu) from fun h' => h h'.2)]
  · rw [if_pos ha,
      if_neg (show ¬ (s.requestAddress = a.toNat ∧ a :: (pdu ++ [lo, hi]) = rtuAdu a pdu) from fun h' => ha h'.1)]

/-! ## TCP -/

theorem word_bytes (a b : UInt8) : word (UInt16.ofNat (a.toNat * 256 + b.toNat)) = [a, b] := by
  have ha := a.toNat_lt
  have hb := b.toNat_lt
  have e : (UInt16.ofNat (a.toNat * 256 + b.toNat)).toNat = a.toNat * 256 + b.toNat := by
    rw [UInt16.toNat_ofNat']; exact Nat.mod_eq_of_lt (by omega)
  unfold word
  rw [e, show (a.toNat * 256 + b.toNat) / 256 = a.toNat by omega,
    show (a.toNat * 256 + b.toNat) % 256 = b.toNat by omega]
  simp

theorem word_exists (a b : UInt8) : ∃ x : UInt16, [a, b] = word x := ⟨_, (word_bytes a b).symm⟩

theorem word_inj {x y : UInt16} (h : word x = word y) : x = y := by
  have hx := x.toNat_lt
  have hy := y.toNat_lt
  unfold word at h
  have h1 : UInt8.ofNat (x.toNat / 256) = UInt8.ofNat (y.toNat / 256) := (List.cons.inj h).1
  have h2 : UInt8.ofNat (x.toNat % 256) = UInt8.ofNat (y.toNat % 256) := (List.cons.inj (List.cons.inj h).2).1
  have h1' := congrArg UInt8.toNat h1
  have h2' := congrArg UInt8.toNat h2
  rw [u8_ofNat_toNat (by omega), u8_ofNat_toNat (by omega)] at h1' h2'
  exact UInt16.toNat_inj.mp (by omega)

theorem structUnpack_HHHB (x y z : UInt16) (b : UInt8) :
    structUnpack (be [Code.H, Code.H, Code.H, Code.B]) (word x ++ word y ++ word z ++ [b])
      = .ok [(x.toNat : Int), (y.toNat : Int), (z.toNat : Int), (b.toNat : Int)] := by
  have h : (word x ++ word y ++ word z ++ [b]).length = calcsize (be [Code.H, Code.H, Code.H, Code.B]) := rfl
  rw [structUnpack, if_pos h]
  rw [show unpackCodes (be [Code.H, Code.H, Code.H, Code.B]).big (be [Code.H, Code.H, Code.H, Code.B]).codes
      (word x ++ word y ++ word z ++ [b])
    = [unpackOne true Code.H (word x), unpackOne true Code.H (word y), unpackOne true Code.H (word z),
       unpackOne true Code.B [b]] from rfl]
  rw [unpackOne_word, unpackOne_word, unpackOne_word, unpackOne_B]

theorem Mbap.unpack_eq (x y z : UInt16) (b : UInt8) :
    Mbap.unpack (word x ++ word y ++ word z ++ [b]) = .ok ⟨x.toNat, y.toNat, z.toNat, b.toNat⟩ := by
  unfold Mbap.unpack; rw [structUnpack_HHHB]

theorem Mbap.pack_eq (x y z : UInt16) (b : UInt8) :
    Mbap.pack ⟨x.toNat, y.toNat, z.toNat, b.toNat⟩ = .ok (word x ++ word y ++ word z ++ [b]) := by
  unfold Mbap.pack structPack
  have hb : packOne true Code.B (b.toNat : Int) = .ok [b] := by
    rw [packOne_B (by omega) (by have := b.toNat_lt; omega)]; simp
  have e := packCodes_cons (packH_word x) (packCodes_cons (packH_word y)
    (packCodes_cons (packH_word z) (packCodes_cons hb packCodes_nil)))
  refine e.trans ?_
  simp

/-- the shape of a byte string of at least seven bytes -/
theorem tcp_shape {f : Bytes} (h : f.length > 6) :
    ∃ (x y z : UInt16) (u : UInt8) (pdu : Bytes), f = word x ++ word y ++ word z ++ u :: pdu := by
  match f with
  | a :: b :: c :: d :: e :: g :: u :: pdu =>
    obtain ⟨x, hx⟩ := word_exists a b
    obtain ⟨y, hy⟩ := word_exists c d
    obtain ⟨z, hz⟩ := word_exists e g
    exact ⟨x, y, z, u, pdu, by rw [← hx, ← hy, ← hz]; rfl⟩
  | [] | [_] | [_, _] | [_, _, _] | [_, _, _, _] | [_, _, _, _, _] | [_, _, _, _, _, _] => simp at h

theorem tcp_head (x y z : UInt16) (u : UInt8) (pdu : Bytes) :
    slice (word x ++ word y ++ word z ++ u :: pdu) 0 7 = word x ++ word y ++ word z ++ [u] := rfl

theorem tcp_tail (x y z : UInt16) (u : UInt8) (pdu : Bytes) :
    (word x ++ word y ++ word z ++ u :: pdu).drop 7 = pdu := rfl

theorem tcpParseRequest_shape (x y z : UInt16) (u : UInt8) (pdu : Bytes) (s : TcpQuery) :
    tcpParseRequest (word x ++ word y ++ word z ++ u :: pdu) s =
      (if z.toNat = pdu.length + 1 then .ok ((u.toNat : Int), pdu) else .error .invalidMbap,
       { s with request := ⟨x.toNat, y.toNat, z.toNat, u.toNat⟩ }) := by
  unfold tcpParseRequest
  rw [if_pos (by simp [word]), tcp_head, tcp_tail, Mbap.unpack_eq]
  dsimp only
  by_cases h : z.toNat = pdu.length + 1
  · rw [if_pos h, if_pos (by simp [Mbap.checkLength, h])]
  · rw [if_neg h, if_neg (by simp only [Mbap.checkLength, decide_eq_true_eq]; omega)]

theorem tcpParseResponse_shape (x y z : UInt16) (u : UInt8) (pdu : Bytes) (s : TcpQuery) :
    tcpParseResponse (word x ++ word y ++ word z ++ u :: pdu) s =
      (if z.toNat = pdu.length + 1 ∧ s.request.transactionId = x.toNat ∧ s.request.protocolId = y.toNat ∧
          s.request.unitId = u.toNat then .ok pdu else .error .invalidMbap,
       { s with response := ⟨x.toNat, y.toNat, z.toNat, u.toNat⟩ }) := by
  unfold tcpParseResponse
  rw [if_pos (by simp [word]), tcp_head, tcp_tail, Mbap.unpack_eq]
  dsimp only
  unfold Mbap.checkResponse
  by_cases h : z.toNat = pdu.length + 1 ∧ s.request.transactionId = x.toNat ∧ s.request.protocolId = y.toNat ∧
          s.request.unitId = u.toNat
  · rw [if_pos h, if_pos (by
      obtain ⟨h1, h2, h3, h4⟩ := h
      simp [Mbap.checkLength, Mbap.checkIds, h1, h2, h3, h4])]
  · rw [if_neg h, if_neg (by
      intro h'
      apply h
      simp only [Mbap.checkLength, Mbap.checkIds, decide_eq_true_eq] at h'
      omega)]

end Modbus
