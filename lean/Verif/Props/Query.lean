import Verif.Lemmas.Query
/-
# C23, C24, C25, C28: framing of requests and responses
-/
namespace Modbus
open Spec

theorem word_ofNat_toNat {n : Nat} (h : n < 65536) : (UInt16.ofNat n).toNat = n := by
  rw [UInt16.toNat_ofNat']; exact Nat.mod_eq_of_lt h

/-- frames are determined by their fields -/
theorem tcpAdu_inj {x x' y y' : UInt16} {u u' : UInt8} {p p' : Bytes} (h : tcpAdu x y u p = tcpAdu x' y' u' p') :
    x = x' ∧ y = y' ∧ u = u' ∧ p = p' := by
  unfold tcpAdu at h
  rw [List.append_assoc, List.append_assoc, List.append_assoc, List.append_assoc] at h
  have h1 := List.append_inj h (by rw [word_length, word_length])
  have h2 := List.append_inj h1.2 (by rw [word_length, word_length])
  have h3 := List.append_inj h2.2 (by rw [word_length, word_length])
  have h4 := List.cons.inj h3.2
  exact ⟨word_inj h1.1, word_inj h2.1, h4.1, h4.2⟩

theorem tcpParseRequest_adu (x y : UInt16) (u : UInt8) {pdu : Bytes} (h : pdu.length ≤ 65534) (q : TcpQuery) :
    tcpParseRequest (tcpAdu x y u pdu) q =
      (.ok ((u.toNat : Int), pdu), { q with request := ⟨x.toNat, y.toNat, pdu.length + 1, u.toNat⟩ }) := by
  unfold tcpAdu
  rw [tcpParseRequest_shape, word_ofNat_toNat (by omega), if_pos rfl]
  rfl

theorem tcpBuildResponse_adu (x y : UInt16) (u : UInt8) {pdu : Bytes} (h : pdu.length ≤ 65534) (q : TcpQuery)
    (hq : ∃ l, q.request = ⟨x.toNat, y.toNat, l, u.toNat⟩) :
    (tcpBuildResponse pdu q).1 = .ok (tcpAdu x y u pdu) := by
  obtain ⟨l, hl⟩ := hq
  unfold tcpBuildResponse
  have e := Mbap.pack_eq x y (UInt16.ofNat (pdu.length + 1)) u
  rw [word_ofNat_toNat (by omega)] at e
  have e' : ({ q.request with length := (pdu.length : Int) + 1 } : Mbap)
      = ⟨x.toNat, y.toNat, ((pdu.length + 1 : Nat) : Int), u.toNat⟩ := by rw [hl]; rfl
  dsimp only
  rw [e', e]
  dsimp only
  rw [tcpAdu, List.append_assoc, List.singleton_append]

theorem tcpBuildRequest_adu {pdu : Bytes} (h : pdu.length ≤ 65534) {slave : Int} (h0 : 0 ≤ slave) (h1 : slave ≤ 255)
    (q : TcpQuery) (hq : q.request.protocolId = 0) {last : Int} (hl0 : 0 ≤ last) (hl1 : last ≤ 65535) :
    tcpBuildRequest pdu slave (q, last) =
      (.ok (tcpAdu (UInt16.ofNat ((last + 1) % 65536).toNat) 0 (UInt8.ofNat slave.toNat) pdu),
       ({ q with request := ⟨(last + 1) % 65536, 0, pdu.length + 1, slave⟩ }, (last + 1) % 65536)) := by
  have hn : nextTransactionId last = (last + 1) % 65536 := by
    unfold nextTransactionId; split <;> omega
  unfold tcpBuildRequest
  rw [if_neg (by omega)]
  dsimp only
  rw [hn, hq]
  have e := Mbap.pack_eq (UInt16.ofNat ((last + 1) % 65536).toNat) 0 (UInt16.ofNat (pdu.length + 1))
    (UInt8.ofNat slave.toNat)
  rw [word_ofNat_toNat (by omega), word_ofNat_toNat (by omega), u8_ofNat_toNat (by omega)] at e
  have e' : (⟨(last + 1) % 65536, 0, (pdu.length : Int) + 1, slave⟩ : Mbap) =
      ⟨(((last + 1) % 65536).toNat : Int), ((0 : UInt16).toNat : Int), ((pdu.length + 1 : Nat) : Int), (slave.toNat : Int)⟩ := by
    rw [Int.toNat_of_nonneg (by omega), Int.toNat_of_nonneg h0]; rfl
  rw [e', e]
  dsimp only
  rw [← e', tcpAdu, List.append_assoc, List.singleton_append]

/-! ## C23 -/

/-- **C23.** A whole exchange over TCP: the request built by a new query for slave `slave` is understood by the server
    as that pdu for that slave, and the response the server builds for it is understood by the master as that pdu. -/
theorem C23_roundtrip (pdu rpdu : Bytes) (hp : pdu.length ≤ 65534) (hr : rpdu.length ≤ 65534)
    (slave : Int) (h0 : 0 ≤ slave) (h1 : slave ≤ 255) (last : Int) (hl : 0 ≤ last ∧ last ≤ 65535) :
    ∃ frame mq last' sq rframe,
      tcpMac.buildRequest pdu slave (tcpMac.new, last) = (.ok frame, (mq, last')) ∧
      tcpMac.parseRequest frame tcpMac.new = (.ok (slave, pdu), sq) ∧
      (tcpMac.buildResponse rpdu sq).1 = .ok rframe ∧
      (tcpMac.parseResponse rframe mq).1 = .ok rpdu := by
  refine ⟨_, _, _, (⟨⟨(UInt16.ofNat ((last + 1) % 65536).toNat).toNat, (0 : UInt16).toNat,
        pdu.length + 1, (UInt8.ofNat slave.toNat).toNat⟩, Mbap.zero⟩ : TcpQuery),
    tcpAdu (UInt16.ofNat ((last + 1) % 65536).toNat) 0 (UInt8.ofNat slave.toNat) rpdu,
    tcpBuildRequest_adu hp h0 h1 _ rfl hl.1 hl.2, ?_, ?_, ?_⟩
  · refine (tcpParseRequest_adu _ _ _ hp _).trans ?_
    rw [u8_ofNat_toNat (by omega), Int.toNat_of_nonneg h0]
    rfl
  · generalize UInt16.ofNat ((last + 1) % 65536).toNat = x
    generalize UInt8.ofNat slave.toNat = u
    generalize (0 : UInt16) = y
    have := @tcpBuildResponse_adu x y u rpdu hr ⟨⟨x.toNat, y.toNat, pdu.length + 1, u.toNat⟩, Mbap.zero⟩
      ⟨(pdu.length : Int) + 1, rfl⟩
    exact this
  · rw [show tcpMac.parseResponse = tcpParseResponse from rfl]
    unfold tcpAdu
    rw [tcpParseResponse_shape, word_ofNat_toNat (by omega), word_ofNat_toNat (by omega), u8_ofNat_toNat (by omega),
      Int.toNat_of_nonneg (by omega), Int.toNat_of_nonneg h0]
    rw [if_pos ⟨rfl, rfl, rfl, rfl⟩]

/-- **C23.** The frame on the wire is the one of the Modbus TCP specification, with the next transaction id and
    protocol id 0. -/
theorem C23_request_frame (pdu : Bytes) (hp : pdu.length ≤ 65534) (slave : Int) (h0 : 0 ≤ slave) (h1 : slave ≤ 255)
    (last : Int) (hl : 0 ≤ last ∧ last ≤ 65535) :
    (tcpMac.buildRequest pdu slave (tcpMac.new, last)).1 =
      .ok (tcpAdu (UInt16.ofNat ((last + 1) % 65536).toNat) 0 (UInt8.ofNat slave.toNat) pdu) :=
  congrArg Prod.fst (tcpBuildRequest_adu hp h0 h1 tcpMac.new rfl hl.1 hl.2)

/-- **C23.** Any other slave id is refused with InvalidArgumentError and consumes no transaction id. -/
theorem C23_refused (pdu : Bytes) (slave : Int) (h : slave < 0 ∨ slave > 255) (s : TcpQuery × Int) :
    tcpMac.buildRequest pdu slave s = (.error .invalidArgument, s) := by
  show tcpBuildRequest pdu slave s = _
  unfold tcpBuildRequest
  rw [if_pos h]

example : (tcpMac.buildRequest [3, 0, 0, 0, 1] 1 (tcpMac.new, 65535)).1 =
    .ok [0, 0, 0, 0, 0, 6, 1, 3, 0, 0, 0, 1] := by decide +kernel

/-! ## C24 -/

/-- **C24.** `parse_response` returns a pdu iff the response is exactly the TCP frame with that pdu (so at least seven
    bytes, the length field counting what follows) and the three ids of the request. -/
theorem C24_accepts (f : Bytes) (q : TcpQuery) (pdu : Bytes) :
    (tcpMac.parseResponse f q).1 = .ok pdu ↔
      ∃ tid pid unit, f = tcpAdu tid pid unit pdu ∧ pdu.length ≤ 65534 ∧
        q.request.transactionId = tid.toNat ∧ q.request.protocolId = pid.toNat ∧ q.request.unitId = unit.toNat := by
  show (tcpParseResponse f q).1 = .ok pdu ↔ _
  constructor
  · intro h
    by_cases hl : f.length > 6
    · obtain ⟨x, y, z, u, p, rfl⟩ := tcp_shape hl
      rw [tcpParseResponse_shape] at h
      dsimp only at h
      by_cases hc : z.toNat = p.length + 1 ∧ q.request.transactionId = x.toNat ∧ q.request.protocolId = y.toNat ∧
          q.request.unitId = u.toNat
      · rw [if_pos hc] at h
        have hz := z.toNat_lt
        cases h
        refine ⟨x, y, u, ?_, by omega, hc.2⟩
        rw [tcpAdu, ← hc.1]; simp
      · rw [if_neg hc] at h; cases h
    · unfold tcpParseResponse at h; rw [if_neg hl] at h; cases h
  · rintro ⟨x, y, u, rfl, hp, h1, h2, h3⟩
    unfold tcpAdu
    rw [tcpParseResponse_shape, word_ofNat_toNat (by omega), if_pos ⟨rfl, h1, h2, h3⟩]

/-- **C24.** Otherwise it raises: ModbusInvalidResponseError below seven bytes, ModbusInvalidMbapError else. -/
theorem C24_rejects (f : Bytes) (q : TcpQuery)
    (h : ∀ pdu tid pid unit, f = tcpAdu tid pid unit pdu → pdu.length ≤ 65534 →
      ¬ (q.request.transactionId = tid.toNat ∧ q.request.protocolId = pid.toNat ∧ q.request.unitId = unit.toNat)) :
    (tcpMac.parseResponse f q).1 = .error (if f.length < 7 then .invalidResponse else .invalidMbap) := by
  show (tcpParseResponse f q).1 = _
  by_cases hl : f.length > 6
  · rw [if_neg (by omega)]
    cases he : (tcpParseResponse f q).1 with
    | ok pdu =>
      obtain ⟨x, y, u, e1, e2, e3⟩ := (C24_accepts f q pdu).mp he
      exact absurd e3 (h pdu x y u e1 e2)
    | error e =>
      obtain ⟨x, y, z, u, p, rfl⟩ := tcp_shape hl
      rw [tcpParseResponse_shape] at he
      dsimp only at he
      split at he <;> cases he
      rfl
  · rw [if_pos (by omega)]; unfold tcpParseResponse; rw [if_neg hl]

/-- **C24.** The server side: a request is accepted iff it is a TCP frame; the ids are kept for the response. -/
theorem C24_request (f : Bytes) (q : TcpQuery) (unitId : Int) (pdu : Bytes) :
    (tcpMac.parseRequest f q).1 = .ok (unitId, pdu) ↔
      ∃ tid pid unit, f = tcpAdu tid pid unit pdu ∧ pdu.length ≤ 65534 ∧ unitId = unit.toNat := by
  show (tcpParseRequest f q).1 = .ok (unitId, pdu) ↔ _
  constructor
  · intro h
    by_cases hl : f.length > 6
    · obtain ⟨x, y, z, u, p, rfl⟩ := tcp_shape hl
      rw [tcpParseRequest_shape] at h
      dsimp only at h
      by_cases hc : z.toNat = p.length + 1
      · rw [if_pos hc] at h
        have hz := z.toNat_lt
        cases h
        refine ⟨x, y, u, ?_, by omega, rfl⟩
        rw [tcpAdu, ← hc]; simp
      · rw [if_neg hc] at h; cases h
    · unfold tcpParseRequest at h; rw [if_neg hl] at h; cases h
  · rintro ⟨x, y, u, rfl, hp, rfl⟩
    rw [tcpParseRequest_adu _ _ _ hp]

example : (tcpMac.parseResponse [0, 7, 0, 0, 0, 3, 1, 6, 5] ⟨⟨7, 0, 6, 1⟩, Mbap.zero⟩).1 = .ok [6, 5] := by decide +kernel
/-- a stale response (wrong transaction id) -/
example : (tcpMac.parseResponse [0, 6, 0, 0, 0, 3, 1, 6, 5] ⟨⟨7, 0, 6, 1⟩, Mbap.zero⟩).1 = .error .invalidMbap := by
  decide +kernel

/-! ## C25 -/

theorem rtuAdu_inj {a a' : UInt8} {p p' : Bytes} (h : rtuAdu a p = rtuAdu a' p') : a = a' ∧ p = p' := by
  unfold rtuAdu at h
  have h1 := List.append_inj' h rfl
  exact List.cons.inj h1.1

/-- **C25.** A whole exchange over RTU. -/
theorem C25_roundtrip (pdu rpdu : Bytes) (slave : Int) (h0 : 0 ≤ slave) (h1 : slave ≤ 255) (last : Int) :
    ∃ frame mq last' sq rframe,
      rtuMac.buildRequest pdu slave (rtuMac.new, last) = (.ok frame, (mq, last')) ∧
      rtuMac.parseRequest frame rtuMac.new = (.ok (slave, pdu), sq) ∧
      (rtuMac.buildResponse rpdu sq).1 = .ok rframe ∧
      (rtuMac.parseResponse rframe mq).1 = .ok rpdu := by
  refine ⟨rtuAdu (UInt8.ofNat slave.toNat) pdu, (⟨slave, 0⟩ : RtuQuery), last, (⟨slave, 0⟩ : RtuQuery),
    rtuAdu (UInt8.ofNat slave.toNat) rpdu, ?_, ?_, ?_, ?_⟩
  · show rtuBuildRequest _ _ _ = _
    unfold rtuBuildRequest
    dsimp only
    rw [if_neg (by omega), rtuFrame_eq h0 (by omega)]
    rfl
  · show rtuParseRequest _ _ = _
    have e : rtuAdu (UInt8.ofNat slave.toNat) pdu = UInt8.ofNat slave.toNat :: (pdu ++
      [UInt8.ofNat (crc16 (UInt8.ofNat slave.toNat :: pdu) % 256), UInt8.ofNat (crc16 (UInt8.ofNat slave.toNat :: pdu) / 256)]) := rfl
    rw [e]
    refine (rtuParseRequest_shape _ _ _ _ _).trans ?_
    rw [if_pos e.symm, u8_ofNat_toNat (by omega), Int.toNat_of_nonneg h0]
    rfl
  · show rtuFrame slave rpdu = _
    rw [rtuFrame_eq h0 (by omega)]
  · show (rtuParseResponse _ _).1 = _
    have e : rtuAdu (UInt8.ofNat slave.toNat) rpdu = UInt8.ofNat slave.toNat :: (rpdu ++
      [UInt8.ofNat (crc16 (UInt8.ofNat slave.toNat :: rpdu) % 256), UInt8.ofNat (crc16 (UInt8.ofNat slave.toNat :: rpdu) / 256)]) := rfl
    rw [e, rtuParseResponse_shape, if_pos ⟨by rw [u8_ofNat_toNat (by omega), Int.toNat_of_nonneg h0], e.symm⟩]

/-- **C25.** The request on the wire is the RTU frame of the pdu; other addresses are refused. -/
theorem C25_request_frame (pdu : Bytes) (slave : Int) (s : RtuQuery × Int) :
    (rtuMac.buildRequest pdu slave s).1 =
      if 0 ≤ slave ∧ slave ≤ 255 then .ok (rtuAdu (UInt8.ofNat slave.toNat) pdu) else .error .invalidArgument := by
  show (rtuBuildRequest pdu slave s).1 = _
  unfold rtuBuildRequest
  dsimp only
  by_cases h : 0 ≤ slave ∧ slave ≤ 255
  · rw [if_pos h, if_neg (by omega), rtuFrame_eq h.1 (by omega)]
  · rw [if_neg h, if_pos (by omega)]

/-- **C25.** A response is accepted iff it is a valid frame from the requested address; everything else is refused with
    ModbusInvalidResponseError. -/
theorem C25_response (f : Bytes) (q : RtuQuery) :
    (∀ pdu, (rtuMac.parseResponse f q).1 = .ok pdu ↔ ∃ a, f = rtuAdu a pdu ∧ q.requestAddress = a.toNat) ∧
    ((∀ pdu a, f = rtuAdu a pdu → q.requestAddress ≠ a.toNat) →
      (rtuMac.parseResponse f q).1 = .error .invalidResponse) := by
  show (∀ pdu, (rtuParseResponse f q).1 = .ok pdu ↔ _) ∧ (_ → (rtuParseResponse f q).1 = _)
  by_cases hl : f.length < 3
  · have e : (rtuParseResponse f q).1 = .error .invalidResponse := by
      unfold rtuParseResponse; rw [if_pos hl]
    refine ⟨fun pdu => ⟨fun h => by (rw [e] at h; cases h), ?_⟩, fun _ => e⟩
    rintro ⟨a, rfl, _⟩
    exact absurd hl (by simp [rtuAdu])
  · obtain ⟨a, p, lo, hi, rfl⟩ := rtu_shape hl
    rw [rtuParseResponse_shape]
    refine ⟨fun pdu => ⟨?_, ?_⟩, ?_⟩
    · intro h
      dsimp only at h
      split at h
      · rename_i hc; cases h; exact ⟨a, hc.2, hc.1⟩
      · cases h
    · rintro ⟨a', h1, h2⟩
      have hh : a = a' ∧ p = pdu := by
        have h' := h1
        rw [rtuAdu] at h'
        have := (List.append_inj' (s₁ := a :: p) h' rfl).1
        exact List.cons.inj this
      obtain ⟨rfl, rfl⟩ := hh
      rw [if_pos ⟨h2, h1⟩]
    · intro h
      rw [if_neg (fun hc => h p a hc.2 hc.1)]

/-- **C25.** A request is accepted iff it is a valid frame, and yields its address and pdu; everything else is refused with
    ModbusInvalidRequestError. -/
theorem C25_request (f : Bytes) (q : RtuQuery) :
    (∀ slave pdu, (rtuMac.parseRequest f q).1 = .ok (slave, pdu) ↔ ∃ a, f = rtuAdu a pdu ∧ slave = a.toNat) ∧
    ((∀ pdu a, f ≠ rtuAdu a pdu) → (rtuMac.parseRequest f q).1 = .error .invalidRequest) := by
  show (∀ slave pdu, (rtuParseRequest f q).1 = .ok (slave, pdu) ↔ _) ∧ (_ → (rtuParseRequest f q).1 = _)
  by_cases hl : f.length < 3
  · have e : (rtuParseRequest f q).1 = .error .invalidRequest := by
      unfold rtuParseRequest; rw [if_pos hl]
    refine ⟨fun slave pdu => ⟨fun h => by (rw [e] at h; cases h), ?_⟩, fun _ => e⟩
    rintro ⟨a, rfl, _⟩
    exact absurd hl (by simp [rtuAdu])
  · obtain ⟨a, p, lo, hi, rfl⟩ := rtu_shape hl
    rw [rtuParseRequest_shape]
    refine ⟨fun slave pdu => ⟨?_, ?_⟩, ?_⟩
    · intro h
      dsimp only at h
      split at h
      · rename_i hc; cases h; exact ⟨a, hc, rfl⟩
      · cases h
    · rintro ⟨a', h1, rfl⟩
      have hh : a = a' ∧ p = pdu := by
        have h' := h1
        rw [rtuAdu] at h'
        have := (List.append_inj' (s₁ := a :: p) h' rfl).1
        exact List.cons.inj this
      obtain ⟨rfl, rfl⟩ := hh
      rw [if_pos h1]
    · intro h
      rw [if_neg (h p a)]

example : (rtuMac.buildRequest [3, 0, 0, 0, 1] 1 (rtuMac.new, 0)).1 = .ok [1, 3, 0, 0, 0, 1, 0x84, 0x0A] := by
  decide +kernel
/-- a valid frame from another slave -/
example : (rtuMac.parseResponse [1, 3, 0, 0, 0, 1, 0x84, 0x0A] ⟨2, 0⟩).1 = .error .invalidResponse := by decide +kernel

/-! ## C28 -/

/-- a call of `build_request` on some query object -/
structure BuildCall where
  query : TcpQuery
  pdu : Bytes
  slave : Int

/-- the results of a history of `build_request` calls, whatever objects they are made on: only the class variable
    connects them.  (Each `_get_transaction_id` is atomic, see `Props/Locks.lean`, so every interleaving is such a
    history.) -/
def buildAll : List BuildCall → Int → List (Except PyErr Bytes)
  | [], _ => []
  | c :: cs, last =>
    let r := tcpBuildRequest c.pdu c.slave (c.query, last)
    r.1 :: buildAll cs r.2.2

/-- the call is made as a master makes it: on a query whose protocol id is 0, a slave id in range, a pdu that fits -/
def BuildCall.Valid (c : BuildCall) : Prop :=
  c.query.request.protocolId = 0 ∧ 0 ≤ c.slave ∧ c.slave ≤ 255 ∧ c.pdu.length ≤ 65534

theorem buildAll_getElem? (cs : List BuildCall) (h : ∀ c ∈ cs, c.Valid) (last : Int) (hl : 0 ≤ last ∧ last ≤ 65535)
    (k : Nat) (c : BuildCall) (hk : cs[k]? = some c) :
    (buildAll cs last)[k]? = some (.ok (tcpAdu (UInt16.ofNat ((last + 1 + k) % 65536).toNat) 0
      (UInt8.ofNat c.slave.toNat) c.pdu)) := by
  induction cs generalizing last k with
  | nil => simp at hk
  | cons c0 cs ih =>
    obtain ⟨h1, h2, h3, h4⟩ := h c0 (by simp)
    have e := tcpBuildRequest_adu h4 h2 h3 c0.query h1 hl.1 hl.2
    rw [buildAll, e]
    cases k with
    | zero =>
      simp only [List.getElem?_cons_zero, Option.some.injEq] at hk
      subst hk
      simp
    | succ k =>
      simp only [List.getElem?_cons_succ] at hk ⊢
      rw [ih (fun c hc => h c (by simp [hc])) _ (by omega) k hk]
      have : ((last + 1) % 65536 + 1 + (k : Int)) % 65536 = (last + 1 + ((k + 1 : Nat) : Int)) % 65536 := by omega
      rw [this]

/-- **C28.** In any history of requests, on any query objects, request number `k` carries transaction id
    `last + 1 + k` modulo 65536. -/
theorem C28_ids (cs : List BuildCall) (h : ∀ c ∈ cs, c.Valid) (last : Int) (hl : 0 ≤ last ∧ last ≤ 65535)
    (k : Nat) (hk : k < cs.length) :
    ∃ c, cs[k]? = some c ∧ (buildAll cs last)[k]? = some (.ok (tcpAdu (UInt16.ofNat ((last + 1 + k) % 65536).toNat) 0
      (UInt8.ofNat c.slave.toNat) c.pdu)) :=
  ⟨cs[k], List.getElem?_eq_getElem hk, buildAll_getElem? cs h last hl k _ (List.getElem?_eq_getElem hk)⟩

/-- **C28.** Any two of 65536 consecutive requests carry different transaction ids. -/
theorem C28_distinct (cs : List BuildCall) (h : ∀ c ∈ cs, c.Valid) (last : Int) (hl : 0 ≤ last ∧ last ≤ 65535)
    (i j : Nat) (hij : i < j) (hw : j < i + 65536) (x y px py : UInt16) (ux uy : UInt8) (dx dy : Bytes)
    (hi : (buildAll cs last)[i]? = some (.ok (tcpAdu x px ux dx)))
    (hj : (buildAll cs last)[j]? = some (.ok (tcpAdu y py uy dy))) : x ≠ y := by
  have len : ∀ (cs : List BuildCall) (last : Int), (buildAll cs last).length = cs.length := by
    intro cs
    induction cs with
    | nil => intro _; rfl
    | cons c cs ih => intro last; simp [buildAll, ih]
  have li : i < cs.length := by rw [← len cs last]; exact (List.getElem?_eq_some_iff.mp hi).1
  have lj : j < cs.length := by rw [← len cs last]; exact (List.getElem?_eq_some_iff.mp hj).1
  obtain ⟨ci, _, ei⟩ := C28_ids cs h last hl i li
  obtain ⟨cj, _, ej⟩ := C28_ids cs h last hl j lj
  rw [hi, Option.some.injEq, Except.ok.injEq] at ei
  rw [hj, Option.some.injEq, Except.ok.injEq] at ej
  rw [(tcpAdu_inj ei).1, (tcpAdu_inj ej).1]
  intro e
  have e' := congrArg UInt16.toNat e
  rw [word_ofNat_toNat (by omega), word_ofNat_toNat (by omega)] at e'
  omega

example : BuildCall.Valid ⟨tcpMac.new, [3, 0, 0, 0, 1], 1⟩ := ⟨rfl, by decide, by decide, by decide⟩
/-- the wrap-around -/
example : buildAll [⟨tcpMac.new, [7], 1⟩, ⟨tcpMac.new, [7], 2⟩, ⟨tcpMac.new, [7], 300⟩, ⟨tcpMac.new, [7], 3⟩] 65534 =
    [.ok [0xff, 0xff, 0, 0, 0, 2, 1, 7], .ok [0, 0, 0, 0, 0, 2, 2, 7], .error .invalidArgument,
     .ok [0, 1, 0, 0, 0, 2, 3, 7]] := by decide +kernel

end Modbus
