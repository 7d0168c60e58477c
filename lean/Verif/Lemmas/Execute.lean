import Verif.Lemmas.Prepare
import Verif.Props.Query
/- `execute` as a sequence: open, prepare, build, send, receive, parse, analyse. -/
namespace Modbus
open Spec (word toWord bytesFor packBits Fits8 Fits16 FitsReg toByte Call tcpAdu rtuAdu)

variable {σ : Type} {R : Registry} {mac : Mac} {ch : Chan σ} {a : ExecArgs}

theorem pdu_toReq (c : Call) : c.pdu = c.toReq.encode := by cases c <;> rfl

theorem execute_open_error {s s1 : MasterSt σ} {e : PyErr} (ho : masterOpen ch s = (.error e, s1)) :
    execute R mac ch a s = (.error e, s1) := by
  simp only [execute, PyM.bind_apply, ho]

theorem execute_prepare_error {s s1 : MasterSt σ} {e : PyErr} (ho : masterOpen ch s = (.ok (), s1))
    (hp : prepare a = .error e) : execute R mac ch a s = (.error e, s1) := by
  simp only [execute, PyM.bind_apply, ho, PyM.lift_apply, hp]

theorem execute_build_error {s s1 s2 : MasterSt σ} {e : PyErr} {p : Prepared} {slave : Int}
    (ho : masterOpen ch s = (.ok (), s1))
    (hp : prepare a = .ok p) (hs : a.slave = some slave) (hb : buildRequest mac p.pdu slave s1 = (.error e, s2)) :
    execute R mac ch a s = (.error e, s2) := by
  simp only [execute, PyM.bind_apply, ho, PyM.lift_apply, hp, hs, hb]

theorem execute_main (hR : Quiet R) {s s1 s2 : MasterSt σ} {p : Prepared} {slave : Int} {request : Bytes} {q : mac.Q}
    (ho : masterOpen ch s = (.ok (), s1))
    (hp : prepare a = .ok p) (hs : a.slave = some slave) (hb : buildRequest mac p.pdu slave s1 = (.ok (request, q), s2)) :
    execute R mac ch a s =
      match ch.send request s2.link with
      | (.error e, l) => (.error e, { s2 with link := l })
      | (.ok _, l) => match ch.recv p.expectedLength l with
        | (.error e, l') => (.error e, { s2 with link := l' })
        | (.ok resp, l') => match (mac.parseResponse resp q).1 with
          | .error e => (.error e, { s2 with link := l' })
          | .ok pdu => (analyse a p pdu, { s2 with link := l' }) := by
  simp only [execute, PyM.bind_apply, ho, PyM.lift_apply, hp, hs, hb, hR _ _, Option.getD_none, onLink]
  cases h1 : ch.send request s2.link with
  | mk r1 l =>
    cases r1 with
    | error e => rfl
    | ok _ =>
      dsimp only
      cases h2 : ch.recv p.expectedLength l with
      | mk r2 l' =>
        cases r2 with
        | error e => rfl
        | ok resp =>
          dsimp only
          cases (mac.parseResponse resp q).1 <;> rfl

/-- everything that must have happened when `execute` returned a value -/
theorem execute_ok (hR : Quiet R) {s s' : MasterSt σ} {r : ExecResult} (h : execute R mac ch a s = (.ok r, s')) :
    ∃ (s1 s2 : MasterSt σ) (p : Prepared) (slave : Int) (request : Bytes) (q : mac.Q) (l1 l2 : σ) (resp pdu : Bytes),
      masterOpen ch s = (.ok (), s1) ∧ prepare a = .ok p ∧ a.slave = some slave ∧
      buildRequest mac p.pdu slave s1 = (.ok (request, q), s2) ∧ ch.send request s2.link = (.ok (), l1) ∧
      ch.recv p.expectedLength l1 = (.ok resp, l2) ∧ (mac.parseResponse resp q).1 = .ok pdu ∧ analyse a p pdu = .ok r ∧
      s' = { s2 with link := l2 } := by
  cases ho : masterOpen ch s with
  | mk ro s1 =>
    cases ro with
    | error e => rw [execute_open_error ho] at h; cases h
    | ok u =>
      cases hp : prepare a with
      | error e => rw [execute_prepare_error ho hp] at h; cases h
      | ok p =>
        cases hs : a.slave with
        | none =>
          simp only [execute, PyM.bind_apply, ho, PyM.lift_apply, hp, hs, PyM.raise_apply] at h
          cases h
        | some slave =>
          cases hb : buildRequest mac p.pdu slave s1 with
          | mk rb s2 =>
            cases rb with
            | error e => rw [execute_build_error ho hp hs hb] at h; cases h
            | ok rq =>
              obtain ⟨request, q⟩ := rq
              rw [execute_main hR ho hp hs hb] at h
              cases h1 : ch.send request s2.link with
              | mk r1 l1 =>
                rw [h1] at h
                cases r1 with
                | error e => cases h
                | ok u1 =>
                  dsimp only at h
                  cases h2 : ch.recv p.expectedLength l1 with
                  | mk r2 l2 =>
                    rw [h2] at h
                    cases r2 with
                    | error e => cases h
                    | ok resp =>
                      dsimp only at h
                      cases h3 : (mac.parseResponse resp q).1 with
                      | error e => rw [h3] at h; cases h
                      | ok pdu =>
                        rw [h3] at h
                        dsimp only at h
                        injection h with hr hs'
                        exact ⟨s1, s2, p, slave, request, q, l1, l2, resp, pdu, rfl, rfl, rfl, hb, h1, h2, h3, hr, hs'.symm⟩

theorem masterOpen_lastTid (s : MasterSt σ) : (masterOpen ch s).2.lastTid = s.lastTid := by
  unfold masterOpen
  split
  · rfl
  · split <;> rfl

/-- the query object and state after a TCP request was built -/
theorem buildRequest_tcp {pdu : Bytes} (hp : pdu.length ≤ 65534) {slave : Int} (h0 : 0 ≤ slave) (h1 : slave ≤ 255)
    {s : MasterSt σ} (ht : 0 ≤ s.lastTid ∧ s.lastTid ≤ 65535) :
    ∃ q : TcpQuery, buildRequest tcpMac pdu slave s =
        (.ok (tcpAdu (UInt16.ofNat ((s.lastTid + 1) % 65536).toNat) 0 (UInt8.ofNat slave.toNat) pdu, q),
         { s with lastTid := (s.lastTid + 1) % 65536 }) ∧
      q.request.transactionId = (UInt16.ofNat ((s.lastTid + 1) % 65536).toNat).toNat ∧ q.request.protocolId = 0 ∧
      q.request.unitId = (UInt8.ofNat slave.toNat).toNat := by
  have := tcpBuildRequest_adu hp h0 h1 tcpMac.new rfl ht.1 ht.2
  unfold buildRequest
  rw [show tcpMac.buildRequest pdu slave (tcpMac.new, s.lastTid) = _ from this]
  refine ⟨_, rfl, ?_, rfl, ?_⟩
  · show (s.lastTid + 1) % 65536 = _
    rw [UInt16.toNat_ofNat', Nat.mod_eq_of_lt (by omega)]
    omega
  · show slave = _
    rw [UInt8.toNat_ofNat', Nat.mod_eq_of_lt (by omega)]
    omega

theorem buildRequest_rtu {pdu : Bytes} {slave : Int} (h0 : 0 ≤ slave) (h1 : slave ≤ 255) {s : MasterSt σ} :
    ∃ q : RtuQuery, buildRequest rtuMac pdu slave s = (.ok (rtuAdu (UInt8.ofNat slave.toNat) pdu, q), s) ∧
      q.requestAddress = (UInt8.ofNat slave.toNat).toNat := by
  have : rtuMac.buildRequest pdu slave (rtuMac.new, s.lastTid) =
      (.ok (rtuAdu (UInt8.ofNat slave.toNat) pdu), ((⟨slave, 0⟩ : RtuQuery), s.lastTid)) := by
    show rtuBuildRequest pdu slave _ = _
    unfold rtuBuildRequest
    dsimp only
    rw [if_neg (by omega), rtuFrame_eq h0 (by omega)]
    rfl
  unfold buildRequest
  rw [this]
  refine ⟨_, rfl, ?_⟩
  show slave = _
  rw [UInt8.toNat_ofNat', Nat.mod_eq_of_lt (by omega)]
  omega

theorem buildRequest_bad_tcp {pdu : Bytes} {slave : Int} (h : slave < 0 ∨ slave > 255) {s : MasterSt σ} :
    buildRequest tcpMac pdu slave s = (.error .invalidArgument, s) := by
  have : tcpMac.buildRequest pdu slave (tcpMac.new, s.lastTid) = (.error .invalidArgument, (tcpMac.new, s.lastTid)) := by
    show tcpBuildRequest pdu slave _ = _
    unfold tcpBuildRequest
    rw [if_pos h]
    rfl
  unfold buildRequest
  rw [this]

theorem buildRequest_bad_rtu {pdu : Bytes} {slave : Int} (h : slave < 0 ∨ slave > 255) {s : MasterSt σ} :
    buildRequest rtuMac pdu slave s = (.error .invalidArgument, s) := by
  have : rtuMac.buildRequest pdu slave (rtuMac.new, s.lastTid) =
      (.error .invalidArgument, ((⟨slave, 0⟩ : RtuQuery), s.lastTid)) := by
    show rtuBuildRequest pdu slave _ = _
    unfold rtuBuildRequest
    dsimp only
    rw [if_pos h]
    rfl
  unfold buildRequest
  rw [this]

/-! ### Analysis of the response pdu -/

theorem analyse_exception (a : ExecArgs) (p : Prepared) (rc b2 : UInt8) (rest : Bytes) (h : rc.toNat > 128) :
    analyse a p (rc :: b2 :: rest) = .error (.modbusError b2.toNat) := by
  unfold analyse
  rw [show slice (rc :: b2 :: rest) 0 2 = [rc, b2] from rfl]
  have : structUnpack (be [Code.B, Code.B]) [rc, b2] = .ok [(rc.toNat : Int), (b2.toNat : Int)] := by
    have := unpack_bytes 2 [rc, b2]
    simpa using this
  rw [this, except_bind_ok]
  dsimp only
  rw [if_pos (by omega)]

theorem analyse_short (a : ExecArgs) (p : Prepared) (pdu : Bytes) (h : pdu.length < 2) :
    analyse a p pdu = .error .structError := by
  unfold analyse
  have := unpack_bytes 2 (slice pdu 0 2)
  rw [if_neg (by simp [slice]; omega)] at this
  rw [show be [Code.B, Code.B] = be (List.replicate 2 Code.B) from rfl, this, except_bind_error]

/-- the data part and its format -/
theorem analyse_normal (a : ExecArgs) (p : Prepared) (rc b2 : UInt8) (rest : Bytes) (h : rc.toNat ≤ 128) :
    analyse a p (rc :: b2 :: rest) =
      if p.isRead then
        if b2.toNat ≠ rest.length then .error .invalidResponse
        else analyseData a p rest (p.dataFormat.getD (be []))
      else if a.functionCode = 43 then analyseData a p (b2 :: rest) (be (List.replicate (b2 :: rest).length Code.B))
      else analyseData a p (b2 :: rest) (p.dataFormat.getD (be [])) := by
  unfold analyse
  rw [show slice (rc :: b2 :: rest) 0 2 = [rc, b2] from rfl]
  have : structUnpack (be [Code.B, Code.B]) [rc, b2] = .ok [(rc.toNat : Int), (b2.toNat : Int)] := by
    have := unpack_bytes 2 [rc, b2]
    simpa using this
  rw [this, except_bind_ok]
  dsimp only
  rw [if_neg (show ¬ ((rc.toNat : Int) > 128) by omega)]
  rw [show List.drop 2 (rc :: b2 :: rest) = rest from rfl, show List.drop 1 (rc :: b2 :: rest) = b2 :: rest from rfl]
  by_cases h1 : p.isRead = true
  · rw [if_pos h1, if_pos h1]
    by_cases h2 : b2.toNat = rest.length
    · rw [if_neg (show ¬ ((b2.toNat : Int) ≠ rest.length) by omega), if_neg (by simpa using h2), except_bind_ok]
    · rw [if_pos (show ((b2.toNat : Int) ≠ rest.length) by omega), if_pos h2, except_bind_error]
  · rw [if_neg h1, if_neg h1]
    by_cases h3 : a.functionCode = 43
    · rw [if_pos h3, if_pos h3, except_bind_ok]
    · rw [if_neg h3, if_neg h3, except_bind_ok]

end Modbus
