import Verif.Props.Broadcast
/-
# C22: responses are framed for the requester
-/
namespace Modbus
open Spec (word tcpAdu rtuAdu)

/-- the server's answer `r` to the bytes `request` is a TCP frame carrying the ids of the request -/
def TcpFramed (request r : Bytes) : Prop :=
  ∃ tid pid unit pdu rpdu, request = tcpAdu tid pid unit pdu ∧ pdu.length ≤ 65534 ∧
    r = tcpAdu tid pid unit rpdu ∧ rpdu.length ≤ 65534

/-- the server's answer `r` to the bytes `request` is an RTU frame from the address of the request, with a valid CRC -/
def RtuFramed (request r : Bytes) : Prop := ∃ addr pdu rpdu, request = rtuAdu addr pdu ∧ r = rtuAdu addr rpdu

/-- a bare exception pdu: function code + 0x80, code 4 -/
def Unframed (r : Bytes) : Prop := ∃ fc : UInt8, fc.toNat < 128 ∧ r = [fc + 128, 4]

theorem packExc {fc : Int} (h0 : 0 ≤ fc) :
    (fc < 128 ∧ structPack (be [Code.B, Code.B]) [fc + 0x80, defines.SLAVE_DEVICE_FAILURE] =
      .ok [UInt8.ofNat fc.toNat + 128, 4]) ∨
    (128 ≤ fc ∧ structPack (be [Code.B, Code.B]) [fc + 0x80, defines.SLAVE_DEVICE_FAILURE] = .error .structError) := by
  by_cases hb : fc < 128
  · left
    refine ⟨hb, ?_⟩
    refine (packCodes_cons (packOne_B (v := fc + 128) (by omega) (by omega))
      (packCodes_cons (packOne_B (v := 4) (by decide) (by decide)) packCodes_nil)).trans ?_
    have : UInt8.ofNat (fc + 128).toNat = UInt8.ofNat fc.toNat + 128 := by
      apply u8_ext
      rw [UInt8.toNat_add, u8_ofNat_toNat (by omega), u8_ofNat_toNat (by omega)]
      have : (128 : UInt8).toNat = 128 := rfl
      omega
    rw [this]
    rfl
  · right
    refine ⟨by omega, ?_⟩
    unfold structPack be packCodes
    rw [packOne_error]
    · rfl
    · simp only [Code.lo, Code.hi, Code.B, Code.modulus]; simp; omega

theorem unframed_pack {fc : Int} (h0 : 0 ≤ fc) {b : Bytes}
    (h : structPack (be [Code.B, Code.B]) [fc + 0x80, defines.SLAVE_DEVICE_FAILURE] = .ok b) : Unframed b := by
  rcases packExc h0 with ⟨h1, h2⟩ | ⟨_, h2⟩
  · rw [h2] at h
    cases h
    exact ⟨_, by rw [u8_ofNat_toNat (by omega)]; omega, rfl⟩
  · rw [h2] at h; cases h

theorem dbExcept_result {R : Registry} {pdu : Bytes} {e : PyErr} {h h' : Heap} {r : Option Bytes}
    (he : dbExcept R pdu e h = (.ok r, h')) : r = some [] ∨ ∃ b, r = some b ∧ Unframed b := by
  unfold dbExcept at he
  split at he
  · cases he; exact .inl rfl
  · cases he; exact .inl rfl
  · right
    simp only [PyM.bind_apply] at he
    rcases hc : callHook_ R "modbus.Databank.on_error" (HookArg.exc e pdu) h with ⟨x, h1⟩
    rw [hc] at he
    cases x with
    | error e => cases he
    | ok u =>
      dsimp only at he
      cases pdu with
      | nil =>
        rw [if_neg (by simp), PyM.pure_apply] at he
        dsimp only at he
        rw [PyM.lift_apply] at he
        cases hp : structPack (be [Code.B, Code.B]) [1 + 128, defines.SLAVE_DEVICE_FAILURE] with
        | error e => rw [hp] at he; cases he
        | ok b => rw [hp] at he; cases he; exact ⟨b, rfl, unframed_pack (by decide) hp⟩
      | cons b rest =>
        rw [if_pos (by simp), show slice (b :: rest) 0 1 = [b] from rfl, unpackSingle_ok rfl, unpackOne_B,
          PyM.lift_apply] at he
        dsimp only at he
        rw [PyM.lift_apply] at he
        have h0 : (0 : Int) ≤ (b.toNat : Int) := Int.natCast_nonneg _
        cases hp : structPack (be [Code.B, Code.B]) [(b.toNat : Int) + 128, defines.SLAVE_DEVICE_FAILURE] with
        | error e => rw [hp] at he; cases he
        | ok b => rw [hp] at he; cases he; exact ⟨b, rfl, unframed_pack h0 hp⟩

/-- what `dbHandle` can return, for any transport -/
theorem dbHandle_result {R : Registry} {mac : Mac} {db : Databank} {request : Bytes} {h h' : Heap} {r : Option Bytes}
    (he : dbHandle R mac db request h = (.ok r, h')) :
    r = none ∨ r = some [] ∨ (∃ b, r = some b ∧ Unframed b) ∨
    ∃ sid pdu q rpdu b, mac.parseRequest request mac.new = (.ok (sid, pdu), q) ∧ sid ≠ 0 ∧
      (mac.buildResponse rpdu q).1 = .ok b ∧ r = some b := by
  unfold dbHandle at he
  rcases hp : mac.parseRequest request mac.new with ⟨x, q⟩
  rw [hp] at he
  cases x with
  | error e =>
    rcases dbExcept_result he with h | h
    · exact .inr (.inl h)
    · exact .inr (.inr (.inl h))
  | ok v =>
    obtain ⟨sid, pdu⟩ := v
    dsimp only at he
    rw [PyM.tryExcept_apply] at he
    have hex : ∀ (e : PyErr) (h1 : Heap), dbExcept R pdu e h1 = (.ok r, h') →
        r = none ∨ r = some [] ∨ (∃ b, r = some b ∧ Unframed b) ∨
        ∃ sid' pdu' q' rpdu b, ((.ok (sid, pdu), q) : Except PyErr (Int × Bytes) × mac.Q) = (.ok (sid', pdu'), q') ∧ sid' ≠ 0 ∧
          (mac.buildResponse rpdu q').1 = .ok b ∧ r = some b := by
      intro e h1 he'
      rcases dbExcept_result he' with h | h
      · exact .inr (.inl h)
      · exact .inr (.inr (.inl h))
    by_cases h0 : sid = 0
    · unfold dbBody at he
      rw [if_pos h0] at he
      simp only [PyM.bind_apply, PyM.pure_apply] at he
      rcases hb : broadcastLoop R pdu db.slaves h with ⟨y, h1⟩
      rw [hb] at he
      cases y with
      | ok _ => cases he; exact .inl rfl
      | error e => exact hex e h1 he
    · cases hsl : Dict.get? db.slaves sid with
      | none =>
        unfold dbBody at he
        rw [if_neg h0, hsl] at he
        dsimp only at he
        split at he
        · rename_i h1; split at h1 <;> cases h1; cases he; exact .inr (.inl rfl)
        · rename_i h1
          split at h1 <;> cases h1
          exact hex _ _ he
      | some sl =>
        rw [dbBody_some R mac q h0 hsl pdu h] at he
        rcases hx : handleRequest R sl pdu false h with ⟨y, h1⟩
        rw [hx] at he
        cases y with
        | error e => exact hex e h1 he
        | ok rp =>
          dsimp only at he
          cases hbr : (mac.buildResponse rp q).1 with
          | error e => rw [hbr] at he; exact hex e h1 he
          | ok b =>
            rw [hbr] at he
            cases he
            exact .inr (.inr (.inr ⟨sid, pdu, q, rp, b, rfl, h0, hbr, rfl⟩))

/-- a request to a registered slave that answers -/
theorem dbHandle_some {R : Registry} {mac : Mac} {db : Databank} {request : Bytes} {sid : Int} {pdu : Bytes} {q : mac.Q}
    (hp : mac.parseRequest request mac.new = (.ok (sid, pdu), q)) (h0 : sid ≠ 0) {sl : Slave}
    (hs : Dict.get? db.slaves sid = some sl) {h h' : Heap} {rp b : Bytes}
    (hr : handleRequest R sl pdu false h = (.ok rp, h')) (hb : (mac.buildResponse rp q).1 = .ok b) :
    dbHandle R mac db request h = (.ok (some b), h') := by
  unfold dbHandle
  rw [hp]
  dsimp only
  rw [PyM.tryExcept_apply, dbBody_some R mac q h0 hs, hr]
  dsimp only
  rw [hb]

theorem rtuParseRequest_adu (a : UInt8) (pdu : Bytes) (q : RtuQuery) :
    rtuParseRequest (rtuAdu a pdu) q = (.ok ((a.toNat : Int), pdu), { q with requestAddress := (a.toNat : Int) }) := by
  have := rtuParseRequest_shape a pdu (UInt8.ofNat (Spec.crc16 (a :: pdu) % 256))
    (UInt8.ofNat (Spec.crc16 (a :: pdu) / 256)) q
  rw [if_pos (by rfl)] at this
  exact this

theorem rtuBuildResponse_adu (a : UInt8) (pdu : Bytes) (q : RtuQuery) (hq : q.requestAddress = (a.toNat : Int)) :
    (rtuBuildResponse pdu q).1 = .ok (rtuAdu a pdu) := by
  unfold rtuBuildResponse
  dsimp only
  rw [hq, rtuFrame_eq (by omega) (by have := a.toNat_lt; omega)]
  simp

/-- **C22 (partial).** Whatever bytes the TCP server is given, and whatever the hooks and the slaves: if it produces a
    non-empty response, this is a TCP frame with the transaction, protocol and unit id of the request and the right
    length — or the bare two-byte exception pdu.  Missing: the second alternative does occur (`C22_false_tcp`). -/
theorem C22_tcp_partial (R : Registry) (db : Databank) (request : Bytes) (h h' : Heap) (b : Bytes)
    (he : dbHandle R tcpMac db request h = (.ok (some b), h')) (hb : b ≠ []) :
    TcpFramed request b ∨ Unframed b := by
  rcases dbHandle_result he with h1 | h1 | ⟨b', h1, h2⟩ | ⟨sid, pdu, q, rpdu, b', h1, h2, h3, h4⟩
  · cases h1
  · cases h1; exact absurd rfl hb
  · cases h1; exact .inr h2
  · cases h4
    left
    have h1a := congrArg Prod.fst h1
    obtain ⟨tid, pid, unit, rfl, hl, rfl⟩ := (C24_request request tcpMac.new sid pdu).mp h1a
    have hq : q = { (tcpMac.new : TcpQuery) with request := ⟨tid.toNat, pid.toNat, pdu.length + 1, unit.toNat⟩ } := by
      have := congrArg Prod.snd (tcpParseRequest_adu tid pid unit hl tcpMac.new)
      have h1b : (tcpParseRequest (tcpAdu tid pid unit pdu) tcpMac.new).2 = q := congrArg Prod.snd h1
      rw [← h1b, this]
    refine ⟨tid, pid, unit, pdu, rpdu, rfl, hl, ?_⟩
    by_cases hlen : rpdu.length ≤ 65534
    · have e := tcpBuildResponse_adu tid pid unit hlen q ⟨pdu.length + 1, by rw [hq]⟩
      have h3' : (tcpBuildResponse rpdu q).1 = .ok b := h3
      rw [e] at h3'
      cases h3'
      exact ⟨rfl, hlen⟩
    · exfalso
      have h3' : (tcpBuildResponse rpdu q).1 = .ok b := h3
      unfold tcpBuildResponse at h3'
      dsimp only at h3'
      have hp : Mbap.pack { q.request with length := (rpdu.length : Int) + 1 } = .error .structError := by
        have e1 : structPack (be [Code.H, Code.H, Code.H, Code.B])
            [(tid.toNat : Int), (pid.toNat : Int), (rpdu.length : Int) + 1, (unit.toNat : Int)] = .error .structError := by
          have e3 : packOne true Code.H ((rpdu.length : Int) + 1) = .error .structError := by
            apply packOne_error
            simp only [Code.lo, Code.hi, Code.H, Code.modulus]; simp; omega
          simp only [structPack, be, packCodes, packH_word, e3]
          rfl
        rw [hq]
        exact e1
      rw [hp] at h3'
      cases h3'

/-- **C22 (partial).** The same over RTU: address of the request and valid CRC, or the bare exception pdu. -/
theorem C22_rtu_partial (R : Registry) (db : Databank) (request : Bytes) (h h' : Heap) (b : Bytes)
    (he : dbHandle R rtuMac db request h = (.ok (some b), h')) (hb : b ≠ []) :
    RtuFramed request b ∨ Unframed b := by
  rcases dbHandle_result he with h1 | h1 | ⟨b', h1, h2⟩ | ⟨sid, pdu, q, rpdu, b', h1, h2, h3, h4⟩
  · cases h1
  · cases h1; exact absurd rfl hb
  · cases h1; exact .inr h2
  · cases h4
    left
    have h1a := congrArg Prod.fst h1
    obtain ⟨a, rfl, rfl⟩ := ((C25_request request rtuMac.new).1 sid pdu).mp h1a
    have hp : (_, _) = (_, _) := (rtuParseRequest_adu a pdu (rtuMac.new : RtuQuery)).symm.trans h1
    have hq := (Prod.mk.inj hp).2
    have e2 : (rtuBuildResponse rpdu q).1 = .ok (rtuAdu a rpdu) := rtuBuildResponse_adu a rpdu q (by rw [← hq])
    have e3 : Except.ok (rtuAdu a rpdu) = Except.ok b := e2.symm.trans h3
    cases e3
    exact ⟨a, pdu, rpdu, rfl, rfl⟩

/-- **C22.** For well-formed requests to slaves in good order, without interfering hooks, the response over TCP is the
    frame with the request's ids carrying the reply the Modbus specification prescribes. -/
theorem C22_tcp_wellformed (R : Registry) (hR : Quiet R) (db : Databank) (tid pid : UInt16) (unit : UInt8) (h0 : unit ≠ 0)
    (sl : Slave) (hs : Dict.get? db.slaves (unit.toNat : Int) = some sl) (h : Heap) (r : Refs) (g : Good h sl r)
    (req : Spec.Req) (hwf : req.WF) (hl : req.encode.length ≤ 65534)
    (hm : sl.unsigned = true ∨ ∀ a am om, req ≠ .maskWrite a am om)
    (hrl : ((Spec.exec sl.unsigned (absMem h sl) req).1.encode req.fc).length ≤ 65534) :
    (dbHandle R tcpMac db (tcpAdu tid pid unit req.encode) h).1 =
      .ok (some (tcpAdu tid pid unit ((Spec.exec sl.unsigned (absMem h sl) req).1.encode req.fc))) := by
  have hu : (unit.toNat : Int) ≠ 0 := by
    intro e; apply h0; apply u8_ext; have : (0 : UInt8).toNat = 0 := rfl; omega
  obtain ⟨h', e1, _, _, _⟩ := handler_refines hR g req hwf hm
  have hp : tcpMac.parseRequest (tcpAdu tid pid unit req.encode) tcpMac.new = _ :=
    tcpParseRequest_adu tid pid unit hl (tcpMac.new : TcpQuery)
  have e2 := tcpBuildResponse_adu tid pid unit hrl
    ({ (tcpMac.new : TcpQuery) with request := ⟨tid.toNat, pid.toNat, req.encode.length + 1, unit.toNat⟩ }) ⟨_, rfl⟩
  exact congrArg Prod.fst (dbHandle_some hp hu hs e1 e2)

/-- **C22.** The same over RTU. -/
theorem C22_rtu_wellformed (R : Registry) (hR : Quiet R) (db : Databank) (addr : UInt8) (h0 : addr ≠ 0)
    (sl : Slave) (hs : Dict.get? db.slaves (addr.toNat : Int) = some sl) (h : Heap) (r : Refs) (g : Good h sl r)
    (req : Spec.Req) (hwf : req.WF) (hm : sl.unsigned = true ∨ ∀ a am om, req ≠ .maskWrite a am om) :
    (dbHandle R rtuMac db (rtuAdu addr req.encode) h).1 =
      .ok (some (rtuAdu addr ((Spec.exec sl.unsigned (absMem h sl) req).1.encode req.fc))) := by
  have hu : (addr.toNat : Int) ≠ 0 := by
    intro e; apply h0; apply u8_ext; have : (0 : UInt8).toNat = 0 := rfl; omega
  obtain ⟨h', e1, _, _, _⟩ := handler_refines hR g req hwf hm
  have hp : rtuMac.parseRequest (rtuAdu addr req.encode) rtuMac.new = _ :=
    rtuParseRequest_adu addr req.encode (rtuMac.new : RtuQuery)
  have e2 := rtuBuildResponse_adu addr ((Spec.exec sl.unsigned (absMem h sl) req).1.encode req.fc)
    ({ (rtuMac.new : RtuQuery) with requestAddress := (addr.toNat : Int) }) rfl
  exact congrArg Prod.fst (dbHandle_some hp hu hs e1 e2)

theorem dbHandle_raises {R : Registry} {sl : Slave} {mac : Mac} {db : Databank} {request : Bytes} {sid : Int} {pdu : Bytes} {q : mac.Q} (hp : mac.parseRequest request mac.new = (.ok (sid, pdu), q)) (h0 : sid ≠ 0)
    (hs : Dict.get? db.slaves sid = some sl) {h h' : Heap} {e : PyErr} (hr : handleRequest R sl pdu false h = (.error e, h')) :
    dbHandle R mac db request h = dbExcept R pdu e h' := by
  unfold dbHandle
  rw [hp]
  dsimp only
  rw [PyM.tryExcept_apply, dbBody_some R mac q h0 hs, hr]

theorem dbExcept_silent {R : Registry} (hR : Quiet R) {fc : UInt8} (hfc : fc.toNat < 128) (rest : Bytes) {e : PyErr} (h1 : e ≠ .invalidRequest) (h2 : e ≠ .missingKey) (h : Heap) :
    dbExcept R (fc :: rest) e h = (.ok (some [fc + 128, 4]), h) := by
  have hu : unpackSingle Code.B [fc] = .ok (fc.toNat : Int) := by rw [unpackSingle_ok rfl, unpackOne_B]
  have hs : Modbus.slice (fc :: rest) 0 1 = [fc] := by simp [Modbus.slice]
  have hpk : structPack (be [Code.B, Code.B]) [(fc.toNat : Int) + 0x80, defines.SLAVE_DEVICE_FAILURE] = .ok [fc + 128, 4] := packBB_exc fc 4 hfc
  unfold dbExcept
  split
  · exact absurd rfl h1
  · exact absurd rfl h2
  · simp only [PyM.bind_apply, callHook_quiet hR, hs, PyM.lift_apply, hu, List.length_cons, gt_iff_lt, Nat.zero_lt_succ, if_true, hpk, PyM.pure_apply]

/-- **C22 (partial: when a response is framed).** A frame with a pdu of function 1..127 for a registered slave, hooks that answer None: if the slave answers, the response is the
    framed answer; if `handle_request` of the slave raises, it is the bare exception pdu. -/
theorem C22_tcp_exact_partial (R : Registry) (hR : Quiet R) (db : Databank) (tid pid : UInt16) (unit : UInt8) (h0 : unit ≠ 0) (sl : Slave)
    (hs : Dict.get? db.slaves (unit.toNat : Int) = some sl) (h h' : Heap) (fc : UInt8) (rest : Bytes) (hl : (fc :: rest).length ≤ 65534) :
    (∀ rep, handleRequest R sl (fc :: rest) false h = (.ok rep, h') → rep.length ≤ 65534 →
      dbHandle R tcpMac db (tcpAdu tid pid unit (fc :: rest)) h = (.ok (some (tcpAdu tid pid unit rep)), h')) ∧
    (∀ e, handleRequest R sl (fc :: rest) false h = (.error e, h') → fc.toNat < 128 → e ≠ .invalidRequest → e ≠ .missingKey →
      dbHandle R tcpMac db (tcpAdu tid pid unit (fc :: rest)) h = (.ok (some [fc + 128, 4]), h')) := by
  have hu : (unit.toNat : Int) ≠ 0 := by
    intro e; apply h0; apply u8_ext; have : (0 : UInt8).toNat = 0 := rfl; omega
  have hp : tcpMac.parseRequest (tcpAdu tid pid unit (fc :: rest)) tcpMac.new = _ := tcpParseRequest_adu tid pid unit hl (tcpMac.new : TcpQuery)
  constructor
  · intro rep he hrl
    have e2 := tcpBuildResponse_adu tid pid unit hrl
      ({ (tcpMac.new : TcpQuery) with request := ⟨tid.toNat, pid.toNat, (fc :: rest).length + 1, unit.toNat⟩ }) ⟨_, rfl⟩
    exact dbHandle_some hp hu hs he e2
  · intro e he hfc h1 h2
    exact (dbHandle_raises hp hu hs he).trans (dbExcept_silent hR hfc rest h1 h2 h')

/-- **C22 (partial: when a response is framed).** The same over RTU. -/
theorem C22_rtu_exact_partial (R : Registry) (hR : Quiet R) (db : Databank) (addr : UInt8) (h0 : addr ≠ 0) (sl : Slave)
    (hs : Dict.get? db.slaves (addr.toNat : Int) = some sl) (h h' : Heap) (fc : UInt8) (rest : Bytes) :
    (∀ rep, handleRequest R sl (fc :: rest) false h = (.ok rep, h') →
      dbHandle R rtuMac db (rtuAdu addr (fc :: rest)) h = (.ok (some (rtuAdu addr rep)), h')) ∧
    (∀ e, handleRequest R sl (fc :: rest) false h = (.error e, h') → fc.toNat < 128 → e ≠ .invalidRequest → e ≠ .missingKey →
      dbHandle R rtuMac db (rtuAdu addr (fc :: rest)) h = (.ok (some [fc + 128, 4]), h')) := by
  have hu : (addr.toNat : Int) ≠ 0 := by
    intro e; apply h0; apply u8_ext; have : (0 : UInt8).toNat = 0 := rfl; omega
  have hp : rtuMac.parseRequest (rtuAdu addr (fc :: rest)) rtuMac.new = _ := rtuParseRequest_adu addr (fc :: rest) (rtuMac.new : RtuQuery)
  constructor
  · intro rep he
    have e2 := rtuBuildResponse_adu addr rep ({ (rtuMac.new : RtuQuery) with requestAddress := (addr.toNat : Int) }) rfl
    exact dbHandle_some hp hu hs he e2
  · intro e he hfc h1 h2
    exact (dbHandle_raises hp hu hs he).trans (dbExcept_silent hR hfc rest h1 h2 h')

/-- **C22 (partial: broadcasts).** A broadcast is answered only if some slave raises, and then with the bare exception pdu. -/
theorem C22_broadcast_partial (R : Registry) (hR : Quiet R) (mac : Mac) (db : Databank) (request : Bytes) (fc : UInt8) (rest : Bytes)
    (hp : (mac.parseRequest request mac.new).1 = .ok (0, fc :: rest)) (h h' : Heap) :
    (broadcastLoop R (fc :: rest) db.slaves h = (.ok (), h') → dbHandle R mac db request h = (.ok none, h')) ∧
    (∀ e, broadcastLoop R (fc :: rest) db.slaves h = (.error e, h') → fc.toNat < 128 → e ≠ .invalidRequest → e ≠ .missingKey →
      dbHandle R mac db request h = (.ok (some [fc + 128, 4]), h')) := by
  have key : dbHandle R mac db request h = PyM.tryExcept (do broadcastLoop R (fc :: rest) db.slaves; return none) (dbExcept R (fc :: rest)) h := by
    unfold dbHandle
    rcases hq : mac.parseRequest request mac.new with ⟨x, q⟩
    rw [hq] at hp
    cases hp
    dsimp only
    unfold dbBody
    rw [if_pos rfl]
  rw [key, PyM.tryExcept_apply]
  simp only [PyM.bind_apply]
  constructor
  · intro hb
    rw [hb]
    rfl
  · intro e hb hfc h1 h2
    rw [hb]
    exact dbExcept_silent hR hfc rest h1 h2 h'

/-- an instance of the second alternatives: a truncated read raises struct.error -/
example : (handleRequest [] ⟨1, true, [("a", (3, 10))], 0⟩ [3, 0, 10] false exTwo.st.heap).1 = .error .structError := by decide
example : (broadcastLoop [] [6, 0] exTwo.st.db.slaves exTwo.st.heap).1 = .error .structError := by decide

/-- **C22 is false as stated**: a request with a truncated pdu is answered with two bare bytes. -/
theorem C22_false_tcp :
    ∃ (db : Databank) (h : Heap) (request b : Bytes), (dbHandle [] tcpMac db request h).1 = .ok (some b) ∧ b ≠ [] ∧
      ¬ TcpFramed request b := by
  refine ⟨exTwo.st.db, exTwo.st.heap, [0, 1, 0, 0, 0, 4, 1, 3, 0, 10], [0x83, 4], by decide, by decide, ?_⟩
  rintro ⟨tid, pid, unit, pdu, rpdu, _, _, h, _⟩
  have := congrArg List.length h
  simp [tcpAdu, word] at this

theorem C22_false_rtu :
    ∃ (db : Databank) (h : Heap) (request b : Bytes), (dbHandle [] rtuMac db request h).1 = .ok (some b) ∧ b ≠ [] ∧
      ¬ RtuFramed request b := by
  refine ⟨exTwo.st.db, exTwo.st.heap, rtuAdu 1 [3, 0, 10], [0x83, 4], by decide +kernel, by decide, ?_⟩
  rintro ⟨addr, pdu, rpdu, _, h⟩
  have := congrArg List.length h
  simp [rtuAdu] at this

-- a framed answer, and the hypotheses of the well-formed case are met
example : (dbHandle [] tcpMac exTwo.st.db [0, 9, 0, 0, 0, 6, 1, 3, 0, 10, 0, 2] exTwo.st.heap).1 =
    .ok (some [0, 9, 0, 0, 0, 7, 1, 3, 4, 0, 0, 0, 0]) := by decide
example : (dbHandle [] tcpMac exTwo.st.db (tcpAdu 9 0 1 (Spec.Req.readHolding 10 2).encode) exTwo.st.heap).1 =
    .ok (some (tcpAdu 9 0 1 ((Spec.exec true (absMem exTwo.st.heap ⟨1, true, [("a", (3, 10))], 0⟩) (.readHolding 10 2)).1.encode 3))) :=
  C22_tcp_wellformed [] quiet_nil _ 9 0 1 (by decide) ⟨1, true, [("a", (3, 10))], 0⟩ (by decide) _ _
    (block_good (a := 0) (b := 1) (c := 2) (d := 3) (bs := [Block.new 10 5]) (by decide) (by decide)
        (by decide) (by decide) (by decide) (by decide) (single_wf (by decide) true).1 (single_wf (by decide) _).2)
    (.readHolding 10 2) trivial (by decide) (.inl rfl) (by decide)
end Modbus
