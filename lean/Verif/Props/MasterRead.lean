import Verif.Props.Master
/-
# Properties C35, C36, C37, C40: what a master makes of the answer
-/
namespace Modbus
open Spec (word toWord bytesFor packBits wordAt bitAt Fits8 Fits16 FitsReg toByte Call tcpAdu rtuAdu)

variable {σ : Type}

/-- the transport carried the request `request` out and brought `response` back -/
def Exchanged (ch : Chan σ) (request : Bytes) (n : Int) (l : σ) (response : Bytes) : Prop :=
  ∃ l1 l2, ch.send request l = (.ok (), l1) ∧ ch.recv n l1 = (.ok response, l2)

/-- If the answer to a TCP request is a frame with the ids of the request, the result is the analysis of its pdu. -/
theorem execute_tcp {R : Registry} (hR : Quiet R) {ch : Chan σ} {a : ExecArgs} {p : Prepared} (hp : prepare a = .ok p)
    (hl : p.pdu.length ≤ 65534) {slave : Int} (hs : a.slave = some slave) (h0 : 0 ≤ slave) (h1 : slave ≤ 255)
    {s s1 : MasterSt σ} (ht : 0 ≤ s.lastTid ∧ s.lastTid ≤ 65535) (ho : masterOpen ch s = (.ok (), s1))
    {pdu : Bytes} (hpdu : pdu.length ≤ 65534)
    (hx : Exchanged ch (tcpAdu (UInt16.ofNat ((s.lastTid + 1) % 65536).toNat) 0 (UInt8.ofNat slave.toNat) p.pdu)
      p.expectedLength s1.link
      (tcpAdu (UInt16.ofNat ((s.lastTid + 1) % 65536).toNat) 0 (UInt8.ofNat slave.toNat) pdu)) :
    (execute R tcpMac ch a s).1 = analyse a p pdu := by
  obtain ⟨l1, l2, hsend, hrecv⟩ := hx
  have hs1 : s1.lastTid = s.lastTid := by have := masterOpen_lastTid (ch := ch) s; rw [ho] at this; exact this
  obtain ⟨q, hb, q1, q2, q3⟩ := buildRequest_tcp (pdu := p.pdu) hl h0 h1 (s := s1) (by rw [hs1]; exact ht)
  rw [hs1] at hb q1
  have hparse := (C24_accepts (tcpAdu (UInt16.ofNat ((s.lastTid + 1) % 65536).toNat) 0 (UInt8.ofNat slave.toNat)
    pdu) q pdu).mpr ⟨_, _, _, rfl, hpdu, q1, q2, q3⟩
  rw [execute_main hR ho hp hs hb]
  dsimp only
  rw [hsend]
  dsimp only
  rw [hrecv]
  dsimp only
  rw [hparse]

/-- the same for RTU -/
theorem execute_rtu {R : Registry} (hR : Quiet R) {ch : Chan σ} {a : ExecArgs} {p : Prepared} (hp : prepare a = .ok p)
    {slave : Int} (hs : a.slave = some slave) (h0 : 0 ≤ slave) (h1 : slave ≤ 255)
    {s s1 : MasterSt σ} (ho : masterOpen ch s = (.ok (), s1)) {pdu : Bytes}
    (hx : Exchanged ch (rtuAdu (UInt8.ofNat slave.toNat) p.pdu) p.expectedLength s1.link
      (rtuAdu (UInt8.ofNat slave.toNat) pdu)) :
    (execute R rtuMac ch a s).1 = analyse a p pdu := by
  obtain ⟨l1, l2, hsend, hrecv⟩ := hx
  obtain ⟨q, hb, hq⟩ := buildRequest_rtu (pdu := p.pdu) h0 h1 (s := s1)
  have hparse := ((C25_response (rtuAdu (UInt8.ofNat slave.toNat) pdu) q).1 pdu).mpr ⟨_, rfl, hq⟩
  rw [execute_main hR ho hp hs hb]
  rw [hsend]
  dsimp only
  rw [hrecv]
  dsimp only
  rw [hparse]

/-! ## C36 -/

/-- **C36.** TCP: whatever was called with whatever arguments, if the answer to the request is a frame (with the ids of the
    request) whose function byte is above 0x80, `execute` raises ModbusError with the second byte of the pdu. -/
theorem C36_tcp (R : Registry) (hR : Quiet R) (ch : Chan σ) (a : ExecArgs) (p : Prepared) (hp : prepare a = .ok p)
    (hl : p.pdu.length ≤ 65534) (slave : Int) (hs : a.slave = some slave) (h0 : 0 ≤ slave) (h1 : slave ≤ 255)
    (s s1 : MasterSt σ) (ht : 0 ≤ s.lastTid ∧ s.lastTid ≤ 65535) (ho : masterOpen ch s = (.ok (), s1))
    (rc code : UInt8) (rest : Bytes) (hrc : rc.toNat > 128) (hrest : rest.length ≤ 65532)
    (hx : Exchanged ch (tcpAdu (UInt16.ofNat ((s.lastTid + 1) % 65536).toNat) 0 (UInt8.ofNat slave.toNat) p.pdu)
      p.expectedLength s1.link
      (tcpAdu (UInt16.ofNat ((s.lastTid + 1) % 65536).toNat) 0 (UInt8.ofNat slave.toNat) (rc :: code :: rest))) :
    (execute R tcpMac ch a s).1 = .error (.modbusError code.toNat) := by
  rw [execute_tcp hR hp hl hs h0 h1 ht ho (by simp; omega) hx]
  exact analyse_exception a p rc code rest hrc

/-- **C36.** RTU: likewise for an RTU frame from the slave. -/
theorem C36_rtu (R : Registry) (hR : Quiet R) (ch : Chan σ) (a : ExecArgs) (p : Prepared) (hp : prepare a = .ok p)
    (slave : Int) (hs : a.slave = some slave) (h0 : 0 ≤ slave) (h1 : slave ≤ 255)
    (s s1 : MasterSt σ) (ho : masterOpen ch s = (.ok (), s1)) (rc code : UInt8) (rest : Bytes) (hrc : rc.toNat > 128)
    (hx : Exchanged ch (rtuAdu (UInt8.ofNat slave.toNat) p.pdu) p.expectedLength s1.link
      (rtuAdu (UInt8.ofNat slave.toNat) (rc :: code :: rest))) :
    (execute R rtuMac ch a s).1 = .error (.modbusError code.toNat) := by
  rw [execute_rtu hR hp hs h0 h1 ho hx]
  exact analyse_exception a p rc code rest hrc

/-- the hypotheses can be met: reading coils, exception 2 -/
example : (execute [] tcpMac (fixedLink [0, 0, 0, 0, 0, 3, 9, 0x81, 2]) (Call.args 9 (.readCoils 0 8)) ⟨false, (), 65535⟩).1 =
    .error (.modbusError 2) := by decide +kernel
example : (execute [] tcpMac (fixedLink [0, 0, 0, 0, 0, 3, 9, 0x86, 3])
    { slave := some 9, functionCode := 6, startingAddress := .int 0, returnsRaw := true } ⟨true, (), 65535⟩).1 =
    .error (.modbusError 3) := by decide +kernel

/-! ## C35 -/

/-- the values a response pdu carries for a reading call: function byte (not an exception), byte count, data of exactly the
    requested size -/
def Carries (c : Call) (pdu : Bytes) (vs : List Int) : Prop :=
  ∃ (fc count : UInt8) (data : Bytes), pdu = fc :: count :: data ∧ fc.toNat ≤ 128 ∧ count.toNat = data.length ∧
    match c with
    | .readCoils _ q | .readDiscrete _ q =>
        data.length = bytesFor q.toNat ∧ vs = (List.range q.toNat).map (fun k => if bitAt data k then 1 else 0)
    | .readHolding _ q | .readInput _ q | .readWrite _ q _ _ =>
        data.length = 2 * q.toNat ∧ vs = (List.range q.toNat).map (fun i => ((wordAt data i).toNat : Int))
    | _ => False

/-- the reading calls -/
def Spec.Call.IsRead : Call → Prop
  | .readCoils .. | .readDiscrete .. | .readHolding .. | .readInput .. | .readWrite .. => True
  | _ => False

theorem analyse_two {a : ExecArgs} {p : Prepared} {pdu : Bytes} {r : ExecResult} (h : analyse a p pdu = .ok r) :
    ∃ fc count data, pdu = fc :: count :: data ∧ fc.toNat ≤ 128 := by
  match pdu with
  | [] => rw [analyse_short _ _ _ (by simp)] at h; cases h
  | [x] => rw [analyse_short _ _ _ (by simp)] at h; cases h
  | x :: y :: d =>
    refine ⟨x, y, d, rfl, ?_⟩
    by_cases hx : x.toNat ≤ 128
    · exact hx
    · rw [analyse_exception _ _ _ _ _ (by omega)] at h; cases h

theorem analyse_bits (a : ExecArgs) (q : Int) (hq : Fits16 q) (pdu e : Bytes) (n : Int) (hraw : a.returnsRaw = false)
    (hfc : a.functionCode ≠ 20) (r : ExecResult) :
    analyse a ⟨e, true, q, some (be (List.replicate (nbBytes q).toNat Code.B)), n⟩ pdu = .ok r ↔
      ∃ (fc count : UInt8) (data : Bytes), pdu = fc :: count :: data ∧ fc.toNat ≤ 128 ∧ count.toNat = data.length ∧
        data.length = bytesFor q.toNat ∧
        r = .values ((List.range q.toNat).map (fun k => if bitAt data k then 1 else 0)) := by
  have eq : q = (q.toNat : Int) := by have := hq.1; omega
  have key : ∀ (rc b2 : UInt8) (rest : Bytes), rc.toNat ≤ 128 →
      analyse a ⟨e, true, q, some (be (List.replicate (nbBytes q).toNat Code.B)), n⟩ (rc :: b2 :: rest) =
        if b2.toNat ≠ rest.length then .error .invalidResponse
        else if rest.length = bytesFor q.toNat then
          .ok (.values ((List.range q.toNat).map (fun k => if bitAt rest k then 1 else 0)))
        else .error .structError := by
    intro rc b2 rest h
    rw [analyse_normal _ _ _ _ _ h, if_pos rfl]
    by_cases h2 : b2.toNat = rest.length
    · rw [if_neg (by simpa using h2), if_neg (by simpa using h2)]
      unfold analyseData
      rw [if_neg (by simp [hraw])]
      rw [show (Option.getD (some (be (List.replicate (nbBytes q).toNat Code.B))) (be [])) =
        be (List.replicate (nbBytes q).toNat Code.B) from rfl, unpack_bytes]
      have e3 : (nbBytes q).toNat = bytesFor q.toNat := by
        have := nbBytes_eq q.toNat
        rw [← eq] at this; omega
      rw [e3]
      by_cases h3 : rest.length = bytesFor q.toNat
      · rw [if_pos h3, except_bind_ok, if_pos h3, if_neg (by simpa [defines.READ_FILE_RECORD] using hfc)]
        dsimp only
        by_cases h4 : q > 0
        · rw [if_pos h4, digitsLoop_eq, show min q.toNat (8 * rest.length) = q.toNat by
            rw [h3, bytesFor]; omega]
          rfl
        · rw [if_neg h4, show q.toNat = 0 by omega]
          have : rest = [] := List.eq_nil_of_length_eq_zero (by rw [h3, bytesFor]; omega)
          subst this
          rfl
      · rw [if_neg h3, except_bind_error, if_neg h3]
    · rw [if_pos h2, if_pos h2]
  constructor
  · intro h
    obtain ⟨fc, count, data, rfl, hfc'⟩ := analyse_two h
    rw [key _ _ _ hfc'] at h
    by_cases h2 : count.toNat = data.length
    · rw [if_neg (by simpa using h2)] at h
      by_cases h3 : data.length = bytesFor q.toNat
      · rw [if_pos h3] at h
        exact ⟨fc, count, data, rfl, hfc', h2, h3, (Except.ok.inj h).symm⟩
      · rw [if_neg h3] at h; cases h
    · rw [if_pos h2] at h; cases h
  · rintro ⟨fc, count, data, rfl, h1, h2, h3, rfl⟩
    rw [key _ _ _ h1, if_neg (by simpa using h2), if_pos h3]

theorem analyse_regs (a : ExecArgs) (q : Int) (pdu e : Bytes) (n : Int) (hraw : a.returnsRaw = false)
    (hfc : a.functionCode ≠ 20) (r : ExecResult) :
    analyse a ⟨e, true, 0, some (be (List.replicate q.toNat Code.H)), n⟩ pdu = .ok r ↔
      ∃ (fc count : UInt8) (data : Bytes), pdu = fc :: count :: data ∧ fc.toNat ≤ 128 ∧ count.toNat = data.length ∧
        data.length = 2 * q.toNat ∧
        r = .values ((List.range q.toNat).map (fun i => ((wordAt data i).toNat : Int))) := by
  have key : ∀ (rc b2 : UInt8) (rest : Bytes), rc.toNat ≤ 128 →
      analyse a ⟨e, true, 0, some (be (List.replicate q.toNat Code.H)), n⟩ (rc :: b2 :: rest) =
        if b2.toNat ≠ rest.length then .error .invalidResponse
        else if rest.length = 2 * q.toNat then
          .ok (.values ((List.range q.toNat).map (fun i => ((wordAt rest i).toNat : Int))))
        else .error .structError := by
    intro rc b2 rest h
    rw [analyse_normal _ _ _ _ _ h, if_pos rfl]
    by_cases h2 : b2.toNat = rest.length
    · rw [if_neg (by simpa using h2), if_neg (by simpa using h2)]
      unfold analyseData
      rw [if_neg (by simp [hraw])]
      rw [show (Option.getD (some (be (List.replicate q.toNat Code.H))) (be [])) =
        be (List.replicate q.toNat Code.H) from rfl, unpack_words]
      by_cases h3 : rest.length = 2 * q.toNat
      · rw [if_pos h3, except_bind_ok, if_pos h3, if_neg (by simpa [defines.READ_FILE_RECORD] using hfc)]
        rfl
      · rw [if_neg h3, except_bind_error, if_neg h3]
    · rw [if_pos h2, if_pos h2]
  constructor
  · intro h
    obtain ⟨fc, count, data, rfl, hfc'⟩ := analyse_two h
    rw [key _ _ _ hfc'] at h
    by_cases h2 : count.toNat = data.length
    · rw [if_neg (by simpa using h2)] at h
      by_cases h3 : data.length = 2 * q.toNat
      · rw [if_pos h3] at h
        exact ⟨fc, count, data, rfl, hfc', h2, h3, (Except.ok.inj h).symm⟩
      · rw [if_neg h3] at h; cases h
    · rw [if_pos h2] at h; cases h
  · rintro ⟨fc, count, data, rfl, h1, h2, h3, rfl⟩
    rw [key _ _ _ h1, if_neg (by simpa using h2), if_pos h3]

/-- for the reading calls the analysis yields exactly what the pdu carries -/
theorem analyse_read {c : Call} (hc : c.Fits) (hr : c.IsRead) (slave : Int) (pdu : Bytes) (r : ExecResult) :
    analyse (c.args slave) c.prepared pdu = .ok r ↔ ∃ vs, r = .values vs ∧ Carries c pdu vs := by
  cases c with
  | readCoils a q =>
    rw [Call.prepared, analyse_bits _ q hc.2 _ _ _ rfl (by simp [Call.args])]
    constructor
    · rintro ⟨fc, n, d, h1, h2, h3, h4, h5⟩; exact ⟨_, h5, fc, n, d, h1, h2, h3, h4, rfl⟩
    · rintro ⟨vs, h5, fc, n, d, h1, h2, h3, h4, h6⟩; exact ⟨fc, n, d, h1, h2, h3, h4, by rw [h5, h6]⟩
  | readDiscrete a q =>
    rw [Call.prepared, analyse_bits _ q hc.2 _ _ _ rfl (by simp [Call.args])]
    constructor
    · rintro ⟨fc, n, d, h1, h2, h3, h4, h5⟩; exact ⟨_, h5, fc, n, d, h1, h2, h3, h4, rfl⟩
    · rintro ⟨vs, h5, fc, n, d, h1, h2, h3, h4, h6⟩; exact ⟨fc, n, d, h1, h2, h3, h4, by rw [h5, h6]⟩
  | readHolding a q =>
    rw [Call.prepared, analyse_regs _ q _ _ _ rfl (by simp [Call.args])]
    constructor
    · rintro ⟨fc, n, d, h1, h2, h3, h4, h5⟩; exact ⟨_, h5, fc, n, d, h1, h2, h3, h4, rfl⟩
    · rintro ⟨vs, h5, fc, n, d, h1, h2, h3, h4, h6⟩; exact ⟨fc, n, d, h1, h2, h3, h4, by rw [h5, h6]⟩
  | readInput a q =>
    rw [Call.prepared, analyse_regs _ q _ _ _ rfl (by simp [Call.args])]
    constructor
    · rintro ⟨fc, n, d, h1, h2, h3, h4, h5⟩; exact ⟨_, h5, fc, n, d, h1, h2, h3, h4, rfl⟩
    · rintro ⟨vs, h5, fc, n, d, h1, h2, h3, h4, h6⟩; exact ⟨fc, n, d, h1, h2, h3, h4, by rw [h5, h6]⟩
  | readWrite ra q wa vs =>
    rw [Call.prepared, analyse_regs _ q _ _ _ rfl (by simp [Call.args])]
    constructor
    · rintro ⟨fc, n, d, h1, h2, h3, h4, h5⟩; exact ⟨_, h5, fc, n, d, h1, h2, h3, h4, rfl⟩
    · rintro ⟨vs, h5, fc, n, d, h1, h2, h3, h4, h6⟩; exact ⟨fc, n, d, h1, h2, h3, h4, by rw [h5, h6]⟩
  | _ => exact absurd hr (by simp [Call.IsRead])

/-- **C35.** TCP: if a reading call returns, then the bytes received were exactly one frame with the ids of the request
    whose pdu carries exactly the requested number of values, and these are returned. -/
theorem C35_tcp (R : Registry) (hR : Quiet R) (ch : Chan σ) (c : Call) (hr : c.IsRead) (slave : Int)
    (s s' : MasterSt σ) (ht : 0 ≤ s.lastTid ∧ s.lastTid ≤ 65535) (r : ExecResult)
    (h : execute R tcpMac ch (c.args slave) s = (.ok r, s')) :
    ∃ (n : Int) (l : σ) (pdu : Bytes) (vs : List Int),
      ch.recv n l = (.ok (tcpAdu (UInt16.ofNat ((s.lastTid + 1) % 65536).toNat) 0 (UInt8.ofNat slave.toNat) pdu), s'.link) ∧
      Carries c pdu vs ∧ r = .values vs := by
  obtain ⟨s1, s2, p, sl, request, q, l1, l2, resp, pdu, ho, hp, hs, hb, h1, h2, h3, h4, rfl⟩ := execute_ok hR h
  have hs1 : s1.lastTid = s.lastTid := by have := masterOpen_lastTid (ch := ch) s; rw [ho] at this; exact this
  have hsl : sl = slave := by
    have : (c.args slave).slave = some slave := by cases c <;> rfl
    rw [this] at hs; exact (Option.some.inj hs).symm
  subst hsl
  have hc : c.Fits := by
    by_cases hc : c.Fits
    · exact hc
    · rcases prepare_call_error sl hc with e | e <;> (rw [e] at hp; cases hp)
  rw [prepare_call sl hc] at hp
  cases hp
  have hrange : 0 ≤ sl ∧ sl ≤ 255 := by
    by_cases hh : 0 ≤ sl ∧ sl ≤ 255
    · exact hh
    · rw [buildRequest_bad_tcp (by omega)] at hb; cases hb
  have hlen := C38_length c hc (fun sub data e => by subst e; exact hr)
  obtain ⟨q', hb', q1, q2, q3⟩ := buildRequest_tcp (pdu := c.pdu) hlen hrange.1 hrange.2 (s := s1)
    (by rw [hs1]; exact ht)
  rw [prepared_pdu] at hb
  have e := hb.symm.trans hb'
  injection e with e1 e2
  injection e1 with e1
  injection e1 with e3 e4
  subst e4
  obtain ⟨tid, pid, unit, hresp, hle, t1, t2, t3⟩ := (C24_accepts resp q pdu).mp h3
  obtain ⟨vs, hv, hcar⟩ := (analyse_read hc hr sl pdu r).mp h4
  refine ⟨c.prepared.expectedLength, l1, pdu, vs, ?_, hcar, hv⟩
  rw [h2, hresp]
  have i1 : tid = UInt16.ofNat ((s.lastTid + 1) % 65536).toNat := by
    apply UInt16.toNat_inj.mp
    rw [hs1] at q1; omega
  have i2 : pid = 0 := by
    apply UInt16.toNat_inj.mp
    have : (pid.toNat : Int) = 0 := by rw [← t2, q2]
    simpa using this
  have i3 : unit = UInt8.ofNat sl.toNat := by apply UInt8.toNat_inj.mp; omega
  rw [i1, i2, i3]

/-- **C35.** RTU: likewise, the bytes received were exactly one frame from the slave with a correct CRC. -/
theorem C35_rtu (R : Registry) (hR : Quiet R) (ch : Chan σ) (c : Call) (hr : c.IsRead) (slave : Int)
    (s s' : MasterSt σ) (r : ExecResult) (h : execute R rtuMac ch (c.args slave) s = (.ok r, s')) :
    ∃ (n : Int) (l : σ) (pdu : Bytes) (vs : List Int),
      ch.recv n l = (.ok (rtuAdu (UInt8.ofNat slave.toNat) pdu), s'.link) ∧ Carries c pdu vs ∧ r = .values vs := by
  obtain ⟨s1, s2, p, sl, request, q, l1, l2, resp, pdu, ho, hp, hs, hb, h1, h2, h3, h4, rfl⟩ := execute_ok hR h
  have hsl : sl = slave := by
    have : (c.args slave).slave = some slave := by cases c <;> rfl
    rw [this] at hs; exact (Option.some.inj hs).symm
  subst hsl
  have hc : c.Fits := by
    by_cases hc : c.Fits
    · exact hc
    · rcases prepare_call_error sl hc with e | e <;> (rw [e] at hp; cases hp)
  rw [prepare_call sl hc] at hp
  cases hp
  have hrange : 0 ≤ sl ∧ sl ≤ 255 := by
    by_cases hh : 0 ≤ sl ∧ sl ≤ 255
    · exact hh
    · rw [buildRequest_bad_rtu (by omega)] at hb; cases hb
  obtain ⟨q', hb', q1⟩ := buildRequest_rtu (pdu := c.pdu) hrange.1 hrange.2 (s := s1)
  rw [prepared_pdu] at hb
  have e := hb.symm.trans hb'
  injection e with e1 e2
  injection e1 with e1
  injection e1 with e3 e4
  subst e4
  obtain ⟨addr, hresp, t1⟩ := ((C25_response resp q).1 pdu).mp h3
  obtain ⟨vs, hv, hcar⟩ := (analyse_read hc hr sl pdu r).mp h4
  refine ⟨c.prepared.expectedLength, l1, pdu, vs, ?_, hcar, hv⟩
  rw [h2, hresp]
  have i3 : addr = UInt8.ofNat sl.toNat := by apply UInt8.toNat_inj.mp; omega
  rw [i3]

/-- the number of values a reading call asks for -/
def Spec.Call.quantity : Call → Option Nat
  | .readCoils _ q | .readDiscrete _ q | .readHolding _ q | .readInput _ q | .readWrite _ q _ _ => some q.toNat
  | _ => none

/-- **C35.** In particular: exactly as many values as asked for. -/
theorem C35_count (c : Call) (pdu : Bytes) (vs : List Int) (h : Carries c pdu vs) : c.quantity = some vs.length := by
  obtain ⟨fc, n, d, _, _, _, hm⟩ := h
  cases c <;> first | exact hm.elim | (simp only [Call.quantity]; rw [hm.2]; simp)

/-- one extra byte, one missing byte, a wrong count: nothing is returned; the right response is -/
example : (execute [] tcpMac (fixedLink [0, 0, 0, 0, 0, 7, 9, 3, 4, 1, 2, 255, 255]) (Call.args 9 (.readHolding 0 2))
    ⟨true, (), 65535⟩).1 = .ok (.values [258, 65535]) := by decide +kernel
example : (execute [] tcpMac (fixedLink [0, 0, 0, 0, 0, 8, 9, 3, 4, 1, 2, 255, 255, 0]) (Call.args 9 (.readHolding 0 2))
    ⟨true, (), 65535⟩).1 = .error .invalidResponse := by decide +kernel
example : (execute [] tcpMac (fixedLink [0, 0, 0, 0, 0, 9, 9, 3, 6, 1, 2, 255, 255, 0, 0]) (Call.args 9 (.readHolding 0 2))
    ⟨true, (), 65535⟩).1 = .error .structError := by decide +kernel
example : (execute [] tcpMac (fixedLink [0, 0, 0, 0, 0, 7, 9, 3, 4, 1, 2, 255]) (Call.args 9 (.readHolding 0 2))
    ⟨true, (), 65535⟩).1 = .error .invalidMbap := by decide +kernel
example : (execute [] tcpMac (fixedLink [0, 0, 0, 0, 0, 5, 9, 1, 2, 0x0d, 2]) (Call.args 9 (.readCoils 0 10))
    ⟨true, (), 65535⟩).1 = .ok (.values [1, 0, 1, 1, 0, 0, 0, 0, 0, 1]) := by decide +kernel

/-! ## C37 -/

theorem analyse_function (a : ExecArgs) (p : Prepared) {fc fc' : UInt8} (h : fc.toNat ≤ 128) (h' : fc'.toNat ≤ 128) (rest : Bytes) :
    analyse a p (fc :: rest) = analyse a p (fc' :: rest) := by
  cases rest with
  | nil => rfl
  | cons b rest =>
    have e : ∀ f : UInt8, slice (f :: b :: rest) 0 2 = [f, b] := by intro f; simp [slice]
    have u : ∀ f : UInt8, structUnpack (be [Code.B, Code.B]) [f, b] = .ok [(f.toNat : Int), (b.toNat : Int)] := by
      intro f
      have := unpack_bytes 2 [f, b]
      simpa using this
    have g : ∀ f : UInt8, f.toNat ≤ 128 → ¬ ((f.toNat : Int) > 0x80) := by intro f hf; omega
    unfold analyse
    rw [e, e, u, u, except_bind_ok, except_bind_ok]
    simp only [g fc h, g fc' h', if_false, List.drop_succ_cons]

/-- **C37 (partial: the exact extent).** The function code of a response plays no part at all, as long as it is not above 0x80: whatever was called, two responses that differ only in
    the function code make `execute` return the same or raise the same.  TCP. -/
theorem C37_ignored_tcp_partial (R : Registry) (hR : Quiet R) (ch ch' : Chan σ) (a : ExecArgs) (p : Prepared) (hp : prepare a = .ok p)
    (hl : p.pdu.length ≤ 65534) (slave : Int) (hs : a.slave = some slave) (h0 : 0 ≤ slave) (h1 : slave ≤ 255)
    (s s1 s' s1' : MasterSt σ) (ht : 0 ≤ s.lastTid ∧ s.lastTid ≤ 65535) (ht' : 0 ≤ s'.lastTid ∧ s'.lastTid ≤ 65535)
    (ho : masterOpen ch s = (.ok (), s1)) (ho' : masterOpen ch' s' = (.ok (), s1'))
    (fc fc' : UInt8) (hf : fc.toNat ≤ 128) (hf' : fc'.toNat ≤ 128) (rest : Bytes) (hrest : rest.length ≤ 65533)
    (hx : Exchanged ch (tcpAdu (UInt16.ofNat ((s.lastTid + 1) % 65536).toNat) 0 (UInt8.ofNat slave.toNat) p.pdu) p.expectedLength s1.link
      (tcpAdu (UInt16.ofNat ((s.lastTid + 1) % 65536).toNat) 0 (UInt8.ofNat slave.toNat) (fc :: rest)))
    (hx' : Exchanged ch' (tcpAdu (UInt16.ofNat ((s'.lastTid + 1) % 65536).toNat) 0 (UInt8.ofNat slave.toNat) p.pdu) p.expectedLength s1'.link
      (tcpAdu (UInt16.ofNat ((s'.lastTid + 1) % 65536).toNat) 0 (UInt8.ofNat slave.toNat) (fc' :: rest))) :
    (execute R tcpMac ch a s).1 = (execute R tcpMac ch' a s').1 := by
  rw [execute_tcp hR hp hl hs h0 h1 ht ho (by simp; omega) hx, execute_tcp hR hp hl hs h0 h1 ht' ho' (by simp; omega) hx']
  exact analyse_function a p hf hf' rest

/-- **C37 (partial: the exact extent).** The same over RTU. -/
theorem C37_ignored_rtu_partial (R : Registry) (hR : Quiet R) (ch ch' : Chan σ) (a : ExecArgs) (p : Prepared) (hp : prepare a = .ok p)
    (slave : Int) (hs : a.slave = some slave) (h0 : 0 ≤ slave) (h1 : slave ≤ 255)
    (s s1 s' s1' : MasterSt σ) (ho : masterOpen ch s = (.ok (), s1)) (ho' : masterOpen ch' s' = (.ok (), s1'))
    (fc fc' : UInt8) (hf : fc.toNat ≤ 128) (hf' : fc'.toNat ≤ 128) (rest : Bytes)
    (hx : Exchanged ch (rtuAdu (UInt8.ofNat slave.toNat) p.pdu) p.expectedLength s1.link (rtuAdu (UInt8.ofNat slave.toNat) (fc :: rest)))
    (hx' : Exchanged ch' (rtuAdu (UInt8.ofNat slave.toNat) p.pdu) p.expectedLength s1'.link (rtuAdu (UInt8.ofNat slave.toNat) (fc' :: rest))) :
    (execute R rtuMac ch a s).1 = (execute R rtuMac ch' a s').1 := by
  rw [execute_rtu hR hp hs h0 h1 ho hx, execute_rtu hR hp hs h0 h1 ho' hx']
  exact analyse_function a p hf hf' rest

/-- **C37 is false.** A response to "write single coil" (0x05) is accepted as the answer to "write single register", and the
    response to "read input registers" as the answer to "read holding registers"; execute returns their data. -/
theorem C37_false :
    (execute [] tcpMac (fixedLink [0, 0, 0, 0, 0, 6, 9, 5, 0, 1, 255, 0]) (Call.args 9 (.writeRegister 1 7))
      ⟨true, (), 65535⟩).1 = .ok (.values [1, 65280]) ∧
    (execute [] tcpMac (fixedLink [0, 0, 0, 0, 0, 5, 9, 4, 2, 0, 42]) (Call.args 9 (.readHolding 1 1))
      ⟨true, (), 65535⟩).1 = .ok (.values [42]) := by decide +kernel

/-- **C37 (partial).** What is true: a result is only returned if the function byte of the response is at most 0x80 (so an
    exception response is never taken for data); whether it is the function asked for is not checked. -/
theorem C37_partial (R : Registry) (hR : Quiet R) (mac : Mac) (ch : Chan σ) (a : ExecArgs) (s s' : MasterSt σ) (r : ExecResult)
    (h : execute R mac ch a s = (.ok r, s')) :
    ∃ (n : Int) (l : σ) (resp : Bytes) (q : mac.Q) (fc b : UInt8) (rest : Bytes), ch.recv n l = (.ok resp, s'.link) ∧
      (mac.parseResponse resp q).1 = .ok (fc :: b :: rest) ∧ fc.toNat ≤ 128 := by
  obtain ⟨s1, s2, p, sl, request, q, l1, l2, resp, pdu, ho, hp, hs, hb, h1, h2, h3, h4, rfl⟩ := execute_ok hR h
  obtain ⟨fc, b, rest, rfl, hfc⟩ := analyse_two h4
  exact ⟨_, l1, resp, q, fc, b, rest, h2, h3, hfc⟩

/-! ## C40 -/

/-- one sub-response of Read File Record: its length, the reference type 6 and the registers -/
def fileRecord (regs : List UInt16) : Bytes := UInt8.ofNat (2 * regs.length + 1) :: 6 :: regs.flatMap word

theorem recordFormat_codes (q : Int) (qs : List Int) :
    (recordFormat (q :: qs)).codes =
      (q :: qs).flatMap (fun q => Code.B :: Code.B :: List.replicate q.toNat Code.H) := by
  have key : ∀ (x : List Code) (xs : List (List Code)), Code.B :: Code.B :: List.intercalate [Code.B, Code.B] (x :: xs) =
      (x :: xs).flatMap (fun l => Code.B :: Code.B :: l) := by
    intro x xs
    induction xs generalizing x with
    | nil => simp [List.intercalate]
    | cons y ys ih =>
      rw [List.flatMap_cons, ← ih y]
      simp [List.intercalate]
  rw [recordFormat, be, List.map_cons, key, List.flatMap_cons, List.flatMap_cons, List.flatMap_map]

theorem fileRecord_length (regs : List UInt16) : (fileRecord regs).length = 2 + 2 * regs.length := by
  simp only [fileRecord, List.length_cons, flatMap_word_length]; omega

theorem unpack_records (recs : List (List UInt16)) (hsmall : ∀ r ∈ recs, 2 * r.length + 1 < 256) :
    unpackCodes true (recs.flatMap (fun r => Code.B :: Code.B :: List.replicate r.length Code.H)) (recs.flatMap fileRecord) =
      (recs.map (fun r => r.map (fun v => (v.toNat : Int)))).flatMap recordValues := by
  induction recs with
  | nil => rfl
  | cons r recs ih =>
    rw [List.flatMap_cons, List.flatMap_cons, List.map_cons, List.flatMap_cons]
    have hr := hsmall r List.mem_cons_self
    rw [List.cons_append, List.cons_append, fileRecord, List.cons_append, List.cons_append, unpackCodes, unpackCodes]
    rw [show ∀ (x : UInt8) (t : Bytes), (x :: t).take Code.B.size = [x] from fun _ _ => rfl,
      show ∀ (x : UInt8) (t : Bytes), (x :: t).drop Code.B.size = t from fun _ _ => rfl,
      show ∀ (x : UInt8) (t : Bytes), (x :: t).take Code.B.size = [x] from fun _ _ => rfl,
      show ∀ (x : UInt8) (t : Bytes), (x :: t).drop Code.B.size = t from fun _ _ => rfl,
      unpackOne_B, unpackOne_B, unpackCodes_H _ _ (flatMap_word_length r), ih (fun r' h => hsmall r' (List.mem_cons_of_mem _ h)),
      range_wordAt_flatMap, UInt8.toNat_ofNat', Nat.mod_eq_of_lt (by omega)]
    simp only [recordValues, List.length_map, List.cons_append]
    push_cast
    rfl

/-- For a conforming response - one sub-response per sub-request, with as many registers as asked for - the result
    is one tuple per sub-request with exactly its registers. -/
theorem analyse_records (rs : List Spec.FileReq) (hc : (Call.readFileRecord rs).Fits) (slave : Int) (fc : UInt8) (hfc : fc.toNat ≤ 128)
    (recs : List (List UInt16)) (hlen : recs.map (fun r => (r.length : Int)) = rs.map (·.len))
    (hsmall : ∀ r ∈ recs, 2 * r.length + 1 < 256) (count : UInt8) (hcount : count.toNat = (recs.flatMap fileRecord).length) :
    analyse (Call.args slave (.readFileRecord rs)) (Call.prepared (.readFileRecord rs))
      (fc :: count :: recs.flatMap fileRecord) =
      .ok (.records (recs.map (fun r => r.map (fun v => (v.toNat : Int))))) := by
  rw [analyse_normal _ _ _ _ _ hfc]
  rw [if_pos (show (Call.prepared (.readFileRecord rs)).isRead = true from rfl), if_neg (by simpa using hcount)]
  unfold analyseData
  rw [if_neg (by simp [Call.args])]
  rw [show ((Call.prepared (.readFileRecord rs)).dataFormat.getD (be [])) = recordFormat (rs.map (·.len)) from rfl]
  have hfmt : recordFormat (rs.map (·.len)) =
      be (recs.flatMap (fun r => Code.B :: Code.B :: List.replicate r.length Code.H)) := by
    match rs, hc.1, hlen with
    | [], h, _ => exact absurd rfl h
    | r :: rs, _, hlen =>
      rw [← hlen]
      match recs, hlen with
      | [], h => simp at h
      | x :: xs, _ =>
        have := recordFormat_codes (x.length : Int) (xs.map (fun r => (r.length : Int)))
        rw [List.map_cons]
        rw [show recordFormat _ = be (recordFormat ((x.length : Int) :: xs.map (fun r => (r.length : Int)))).codes from rfl,
          this]
        congr 1
        rw [List.flatMap_cons, List.flatMap_cons, List.flatMap_map]
        rfl
  rw [hfmt]
  have hsize : (recs.flatMap fileRecord).length =
      calcsize (be (recs.flatMap (fun r => Code.B :: Code.B :: List.replicate r.length Code.H))) := by
    unfold calcsize be
    dsimp only
    induction recs with
    | nil => rfl
    | cons r recs ih =>
      rw [List.flatMap_cons, List.flatMap_cons, List.length_append, List.map_append, List.sum_append, fileRecord_length]
      have : ∀ l : List (List UInt16), (l.flatMap fileRecord).length = ((l.flatMap (fun r => Code.B :: Code.B ::
          List.replicate r.length Code.H)).map Code.size).sum := by
        intro l
        induction l with
        | nil => rfl
        | cons r l ih =>
          rw [List.flatMap_cons, List.flatMap_cons, List.length_append, List.map_append, List.sum_append, fileRecord_length,
            ih]
          simp [Code.B, Code.H]
          omega
      rw [this]
      simp [Code.B, Code.H]
      omega
  rw [structUnpack, if_pos hsize, except_bind_ok]
  have := unpack_records recs hsmall
  rw [show (be (recs.flatMap (fun r => Code.B :: Code.B :: List.replicate r.length Code.H))).codes =
    recs.flatMap (fun r => Code.B :: Code.B :: List.replicate r.length Code.H) from rfl, show (be (recs.flatMap
      (fun r => Code.B :: Code.B :: List.replicate r.length Code.H))).big = true from rfl, this]
  rw [show (Call.prepared (.readFileRecord rs)).nbOfDigits = 0 from rfl]
  dsimp only
  rw [if_neg (show ¬ ((0 : Int) > 0) by decide), if_pos (show (Call.args slave (.readFileRecord rs)).functionCode = defines.READ_FILE_RECORD from rfl), splitRecords_conforming]
  rfl

/-- **C40.** TCP: for a conforming response - one sub-response per sub-request, with as many registers as asked for -
    execute returns one tuple per sub-request with exactly its registers. -/
theorem C40_tcp (R : Registry) (hR : Quiet R) (ch : Chan σ) (rs : List Spec.FileReq) (hc : (Call.readFileRecord rs).Fits)
    (slave : Int) (h0 : 0 ≤ slave) (h1 : slave ≤ 255) (s s1 : MasterSt σ) (ht : 0 ≤ s.lastTid ∧ s.lastTid ≤ 65535)
    (ho : masterOpen ch s = (.ok (), s1)) (n : Int)
    (recs : List (List UInt16)) (hlen : recs.map (fun r => (r.length : Int)) = rs.map (·.len))
    (hsmall : ∀ r ∈ recs, 2 * r.length + 1 < 256) (count : UInt8) (hcount : count.toNat = (recs.flatMap fileRecord).length)
    (hn : n = 2 * (rs.map (·.len)).sum + 2 * rs.length + 5)
    (hx : Exchanged ch (tcpAdu (UInt16.ofNat ((s.lastTid + 1) % 65536).toNat) 0 (UInt8.ofNat slave.toNat)
        (Call.readFileRecord rs).pdu) n s1.link
      (tcpAdu (UInt16.ofNat ((s.lastTid + 1) % 65536).toNat) 0 (UInt8.ofNat slave.toNat)
        (20 :: count :: recs.flatMap fileRecord))) :
    (execute R tcpMac ch (Call.args slave (.readFileRecord rs)) s).1 =
      .ok (.records (recs.map (fun r => r.map (fun v => (v.toNat : Int))))) := by
  subst hn
  rw [execute_tcp hR (prepare_call slave hc) (C38_length _ hc (by intros; simp)) rfl h0 h1 ht ho (by
    have := count.toNat_lt
    simp only [List.length_cons]; omega) hx]
  exact analyse_records rs hc slave 20 (by decide) recs hlen hsmall count hcount

/-- **C40.** RTU: likewise. -/
theorem C40_rtu (R : Registry) (hR : Quiet R) (ch : Chan σ) (rs : List Spec.FileReq) (hc : (Call.readFileRecord rs).Fits)
    (slave : Int) (h0 : 0 ≤ slave) (h1 : slave ≤ 255) (s s1 : MasterSt σ)
    (ho : masterOpen ch s = (.ok (), s1)) (n : Int)
    (recs : List (List UInt16)) (hlen : recs.map (fun r => (r.length : Int)) = rs.map (·.len))
    (hsmall : ∀ r ∈ recs, 2 * r.length + 1 < 256) (count : UInt8) (hcount : count.toNat = (recs.flatMap fileRecord).length)
    (hn : n = 2 * (rs.map (·.len)).sum + 2 * rs.length + 5)
    (hx : Exchanged ch (rtuAdu (UInt8.ofNat slave.toNat) (Call.readFileRecord rs).pdu) n s1.link
      (rtuAdu (UInt8.ofNat slave.toNat) (20 :: count :: recs.flatMap fileRecord))) :
    (execute R rtuMac ch (Call.args slave (.readFileRecord rs)) s).1 =
      .ok (.records (recs.map (fun r => r.map (fun v => (v.toNat : Int))))) := by
  subst hn
  rw [execute_rtu hR (prepare_call slave hc) rfl h0 h1 ho hx]
  exact analyse_records rs hc slave 20 (by decide) recs hlen hsmall count hcount

example : (execute [] tcpMac (fixedLink [0, 0, 0, 0, 0, 15, 9, 20, 12, 5, 6, 0x0d, 0xfe, 0, 0x20, 5, 6, 0x33, 0xcd, 0, 0x40])
    (Call.args 9 (.readFileRecord [⟨4, 1, 2⟩, ⟨3, 9, 2⟩])) ⟨true, (), 65535⟩).1 =
    .ok (.records [[0x0dfe, 0x20], [0x33cd, 0x40]]) := by decide +kernel
example : (Call.readFileRecord [⟨4, 1, 2⟩, ⟨3, 9, 2⟩]).Fits := by decide

theorem unpackCodes_nonneg (big : Bool) (cs : List Code) (h : ∀ c ∈ cs, c.signed = false) (data : Bytes) :
    ∀ v ∈ unpackCodes big cs data, 0 ≤ v := by
  induction cs generalizing data with
  | nil => intro v hv; cases hv
  | cons c cs ih =>
    intro v hv
    rw [unpackCodes] at hv
    rcases List.mem_cons.mp hv with rfl | hv
    · unfold unpackOne
      have := h c List.mem_cons_self
      simp [this]
    · exact ih (fun c' hc' => h c' (List.mem_cons_of_mem _ hc')) _ v hv

/-- **C40 (partial).** Splitting terminates for any response whatever when the format has only unsigned codes, as the
    default format has. -/
theorem C40_terminates_partial (a : ExecArgs) (p : Prepared) (hdig : p.nbOfDigits = 0) (f : Fmt) (hf : p.dataFormat = some f)
    (hu : ∀ c ∈ f.codes, c.signed = false) (pdu : Bytes) : analyse a p pdu ≠ .error .nonTermination := by
  have hdata : ∀ (data : Bytes) (g : Fmt), (∀ c ∈ g.codes, c.signed = false) →
      analyseData a p data g ≠ .error .nonTermination := by
    intro data g hg
    unfold analyseData
    split
    · intro h; cases h
    · unfold structUnpack
      split
      · rw [except_bind_ok, hdig]
        dsimp only
        rw [if_neg (show ¬ ((0 : Int) > 0) by decide)]
        split
        · obtain ⟨rs, hrs⟩ := splitRecords_terminates _ (unpackCodes_nonneg g.big g.codes hg data)
          rw [hrs, except_bind_ok]
          intro h; cases h
        · intro h; cases h
      · rw [except_bind_error]; intro h; cases h
  match pdu with
  | [] => rw [analyse_short _ _ _ (by simp)]; intro h; cases h
  | [x] => rw [analyse_short _ _ _ (by simp)]; intro h; cases h
  | x :: y :: d =>
    by_cases hx : x.toNat ≤ 128
    · rw [analyse_normal _ _ _ _ _ hx, hf]
      split
      · split
        · intro h; cases h
        · exact hdata _ _ hu
      · split
        · apply hdata
          intro c hc
          rw [List.eq_of_mem_replicate hc]; rfl
        · exact hdata _ _ hu
    · rw [analyse_exception _ _ _ _ _ (by omega)]; intro h; cases h

/-- the default format has only unsigned codes -/
theorem C40_default_unsigned (rs : List Spec.FileReq) : ∀ c ∈ (recordFormat (rs.map (·.len))).codes, c.signed = false := by
  have hrep : ∀ (q : Nat), ∀ c ∈ List.replicate q Code.H, c.signed = false := by
    intro q c hc; rw [List.eq_of_mem_replicate hc]; rfl
  match rs with
  | [] =>
    intro c hc
    have : c = Code.B := by simpa [recordFormat, be, List.intercalate] using hc
    rw [this]; rfl
  | r :: rs =>
    rw [List.map_cons, recordFormat_codes]
    intro c hc
    obtain ⟨q, _, hq⟩ := List.mem_flatMap.mp hc
    rcases List.mem_cons.mp hq with rfl | hq
    · rfl
    · rcases List.mem_cons.mp hq with rfl | hq
      · rfl
      · exact hrep _ c hq

/-- **C40 is false in general.** With a format of signed codes a response makes `execute` loop for ever: the loop of
    modbus.py:413-415 on the values (-4,) has not ended after any number of rounds. -/
theorem C40_false :
    (execute [] tcpMac (fixedLink [0, 0, 0, 0, 0, 4, 9, 20, 1, 0xfc])
      { slave := some 9, functionCode := 20, startingAddress := .seq [1], quantity := .seq [1], numberFile := [4],
        dataFormat := some (be [Code.b]) } ⟨true, (), 65535⟩).1 = .error .nonTermination ∧
    ∀ rounds, recordsLoop [-4] rounds 0 [] = none := by
  refine ⟨by decide +kernel, fun n => recordsLoop_diverges [-4] (by decide) n⟩

end Modbus
