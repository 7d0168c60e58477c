import Verif.Props.FormatCalls
/-
# C88: lost messages and retries
-/
namespace Modbus
open Spec (Call Fits16 Fits8 FitsReg word wordAt toWord toByte tcpAdu rtuAdu ofWord)

/-! ## One message per call -/

variable {σ : Type}

/-- the observer saw at most one message -/
def OneMore (before after : List Event) : Prop := ∃ ext, after = before ++ ext ∧ (sentOf ext).length ≤ 1

theorem exchange_log (R : Registry) (mac : Mac) (ch : Chan σ) (slave : Int) (pdu : Bytes) (n : Int) (s : MasterSt (σ × List Event)) :
    ((exchange R mac ch.logged slave pdu n s).2.link.2 = s.link.2 ∧ ∃ e, (exchange R mac ch.logged slave pdu n s).1 = .error e) ∨
    ∃ m, (exchange R mac ch.logged slave pdu n s).2.link.2 = s.link.2 ++ [.sent m] ∨ (exchange R mac ch.logged slave pdu n s).2.link.2 = s.link.2 ++ [.sent m, .asked n] := by
  unfold exchange
  simp only [PyM.bind_apply, PyM.lift_apply]
  unfold buildRequest
  cases hb : mac.buildRequest pdu slave (mac.new, s.lastTid) with
  | mk rb qt =>
    obtain ⟨q, tid⟩ := qt
    cases rb with
    | error e => exact .inl ⟨rfl, e, rfl⟩
    | ok request =>
      dsimp only
      cases callHooks R "modbus.Master.before_send" (.msg request) with
      | error e => exact .inl ⟨rfl, e, rfl⟩
      | ok rv =>
        right
        refine ⟨rv.getD request, ?_⟩
        dsimp only [onLink, Chan.logged]
        cases (ch.send (rv.getD request) s.link.1).1 with
        | error e => exact .inl rfl
        | ok u =>
          dsimp only
          cases callHooks R "modbus.Master.after_send" .obj with
          | error e => exact .inl rfl
          | ok rv2 =>
            right
            dsimp only
            cases (ch.recv n (ch.send (rv.getD request) s.link.1).2).1 with
            | error e => simp
            | ok resp =>
              dsimp only
              cases callHooks R "modbus.Master.after_recv" (.msg resp) with
              | error e => simp
              | ok rv3 => simp

/-- **C88 (no resending).** A call hands at most one message to the transport, whatever the arguments, the hooks, the transport and the answer are, and exactly one if it returns:
    the library never repeats a request on its own. -/
theorem C88_once (R : Registry) (mac : Mac) (ch : Chan σ) (a : ExecArgs) (s : MasterSt (σ × List Event)) :
    OneMore s.link.2 (execute R mac ch.logged a s).2.link.2 ∧
    (∀ v s', execute R mac ch.logged a s = (.ok v, s') → ∃ m, sentOf s'.link.2 = sentOf s.link.2 ++ [m]) := by
  have hself : OneMore s.link.2 s.link.2 := ⟨[], by simp, by simp [sentOf]⟩
  have hopen := open_log ch s
  rw [execute_exchange]
  cases ho : masterOpen ch.logged s with
  | mk r s1 =>
    rw [ho] at hopen
    dsimp only at hopen
    cases r with
    | error e => exact ⟨by dsimp only; rw [hopen]; exact hself, fun v s' h => by cases h⟩
    | ok u =>
      dsimp only
      cases prepare a with
      | error e => exact ⟨by dsimp only; rw [hopen]; exact hself, fun v s' h => by cases h⟩
      | ok p =>
        dsimp only
        cases a.slave with
        | none => exact ⟨by dsimp only; rw [hopen]; exact hself, fun v s' h => by cases h⟩
        | some slave =>
          dsimp only
          have hx := exchange_log R mac ch slave p.pdu p.expectedLength s1
          rw [hopen] at hx
          cases hr : exchange R mac ch.logged slave p.pdu p.expectedLength s1 with
          | mk rx s2 =>
            rw [hr] at hx
            dsimp only at hx
            have hlink : (conclude (rx, s2) (analyse a p)).2 = s2 := by cases rx <;> rfl
            rw [hlink]
            refine ⟨?_, fun v s' h => ?_⟩
            · rcases hx with ⟨h, -⟩ | ⟨m, h | h⟩
              · rw [h]; exact hself
              · exact ⟨_, h, by simp [sentOf]⟩
              · exact ⟨_, h, by simp [sentOf]⟩
            · have hs' : s' = s2 := by rw [h] at hlink; exact hlink
              subst hs'
              rcases hx with ⟨-, e, he⟩ | ⟨m, hm | hm⟩
              · rw [he] at h; cases h
              · exact ⟨m, by rw [hm]; simp [sentOf]⟩
              · exact ⟨m, by rw [hm]; simp [sentOf]⟩

/-! ## Repeated requests -/

theorem write_write (t : Spec.Table) (a : Int) (vs : List Int) : (t.write a vs).write a vs = t.write a vs := by
  unfold Spec.Table.write
  congr 1
  funext x
  dsimp only
  split <;> rfl

theorem write_covers (t : Spec.Table) (a b n : Int) (vs : List Int) : (t.write a vs).covers b n = t.covers b n := rfl

theorem maskWord_twice (c am om : UInt16) : Spec.maskWord (Spec.maskWord c am om) am om = Spec.maskWord c am om := by
  unfold Spec.maskWord
  apply UInt16.toBitVec_inj.mp
  simp only [UInt16.toBitVec_or, UInt16.toBitVec_and, UInt16.toBitVec_not]
  ext i hi
  simp only [BitVec.getElem_or, BitVec.getElem_and, BitVec.getElem_not]
  cases c.toBitVec[i] <;> cases am.toBitVec[i] <;> cases om.toBitVec[i] <;> rfl

/-- **C88 (repetition).** Executing a request once more has no effect on the memory, for all requests; and it has the same answer, except for function 23 (which reads before it writes). -/
theorem C88_repeat (u : Bool) (m : Spec.Mem) (q : Spec.Req) :
    (Spec.exec u (Spec.exec u m q).2 q).2 = (Spec.exec u m q).2 ∧
    ((∀ ra rq wa wq bc p, q ≠ .readWrite ra rq wa wq bc p) → (Spec.exec u (Spec.exec u m q).2 q).1 = (Spec.exec u m q).1) := by
  cases q with
  | readCoils a n => exact ⟨rfl, fun _ => rfl⟩
  | readDiscrete a n => exact ⟨rfl, fun _ => rfl⟩
  | readHolding a n => exact ⟨rfl, fun _ => rfl⟩
  | readInput a n => exact ⟨rfl, fun _ => rfl⟩
  | readExceptionStatus => exact ⟨rfl, fun _ => rfl⟩
  | other fc rest => exact ⟨rfl, fun _ => rfl⟩
  | writeCoil a v =>
    by_cases h1 : m.coils.covers a.toNat 1 = true
    · by_cases h2 : v = 0
      · simp [Spec.exec, h1, h2, write_write, write_covers]
      · by_cases h3 : v = 0xff00
        · simp [Spec.exec, h1, h3, write_write, write_covers]
        · simp [Spec.exec, h1, h2, h3]
    · simp [Spec.exec, h1]
  | writeRegister a v =>
    by_cases h1 : m.holding.covers a.toNat 1 = true <;> simp [Spec.exec, h1, write_write, write_covers]
  | writeCoils a n bc p =>
    by_cases h0 : n.toNat = 0 ∨ n.toNat > 1968 ∨ bc.toNat ≠ Spec.bytesFor n.toNat
    · simp only [Spec.exec, if_pos h0]; simp
    · by_cases h1 : m.coils.covers a.toNat n.toNat = true <;> simp only [Spec.exec, if_neg h0] <;> simp [h1, write_write, write_covers]
  | writeRegisters a n bc p =>
    by_cases h0 : n.toNat = 0 ∨ n.toNat > 123 ∨ bc.toNat ≠ 2 * n.toNat
    · simp only [Spec.exec, if_pos h0]; simp
    · by_cases h1 : m.holding.covers a.toNat n.toNat = true <;> simp only [Spec.exec, if_neg h0] <;> simp [h1, write_write, write_covers]
  | maskWrite a am om =>
    by_cases h1 : m.holding.covers a.toNat 1 = true
    · have hv : ∀ x : Int, (m.holding.write a.toNat [x]).val a.toNat = x := by intro x; simp [Spec.Table.write]
      simp [Spec.exec, h1, write_covers, hv, toWord_ofWord, maskWord_twice, write_write]
    · simp [Spec.exec, h1]
  | readWrite ra rq wa wq bc p =>
    refine ⟨?_, fun h => absurd rfl (h _ _ _ _ _ _)⟩
    have hreads : ∀ t : Spec.Table, t.regions = m.holding.regions → (∃ c, Spec.readRegs m.holding ra rq = .exc c ∧ Spec.readRegs t ra rq = .exc c) ∨
        (∃ d d', Spec.readRegs m.holding ra rq = .ok d ∧ Spec.readRegs t ra rq = .ok d') := by
      intro t ht
      have hc : t.covers ra.toNat rq.toNat = m.holding.covers ra.toNat rq.toNat := by unfold Spec.Table.covers; rw [ht]
      unfold Spec.readRegs
      rw [hc]
      split
      · exact .inl ⟨_, rfl, rfl⟩
      · split
        · exact .inl ⟨_, rfl, rfl⟩
        · exact .inr ⟨_, _, rfl, rfl⟩
    rcases hreads m.holding rfl with ⟨c, h1, -⟩ | ⟨d, -, h1, -⟩
    · simp [Spec.exec, h1]
    · by_cases h0 : wq.toNat = 0 ∨ wq.toNat > 123 ∨ bc.toNat ≠ 2 * wq.toNat
      · simp only [Spec.exec, h1, if_pos h0]
      · by_cases h2 : m.holding.covers wa.toNat wq.toNat = true
        · have e1 : (Spec.exec u m (.readWrite ra rq wa wq bc p)).2 = { m with holding := m.holding.write wa.toNat (Spec.payloadValues u p wq.toNat) } := by
            simp only [Spec.exec, h1, if_neg h0]; simp [h2]
          rw [e1]
          rcases hreads (m.holding.write wa.toNat (Spec.payloadValues u p wq.toNat)) rfl with ⟨c, hx, -⟩ | ⟨-, d', -, h3⟩
          · rw [h1] at hx; cases hx
          · simp only [Spec.exec, h3, if_neg h0, write_covers]
            simp [h2, write_write]
        · simp only [Spec.exec, h1, if_neg h0]; simp [h2, h1]

/-! ## A link that loses messages -/

/-- what happens to one call -/
inductive Fault where
  /-- nothing -/
  | fine
  /-- the transport raises instead of sending -/
  | sendFails
  /-- the request does not arrive -/
  | requestLost
  /-- the request arrives, the response does not -/
  | responseLost
  /-- the request arrives, and something else comes back -/
  | other (bs : Bytes)
  deriving DecidableEq, Repr

/-- does the server get the request? -/
def Fault.arrives : Fault → Bool
  | .fine => true
  | .sendFails => false
  | .requestLost => false
  | .responseLost => true
  | .other _ => true

/-- The link to a server, see `serverLink`; with each message the next fault happens. -/
def faultyLink (R : Registry) (mac : Mac) : Chan (Net × List Fault) where
  doOpen := fun s => (.ok (), s)
  doClose := fun s => (.ok true, s)
  send := fun m s =>
    match s.2 with
    | [] => let r := (serverLink R mac).send m s.1; (r.1, (r.2, []))
    | .fine :: fs => let r := (serverLink R mac).send m s.1; (r.1, (r.2, fs))
    | .sendFails :: fs => (.error .osError, (s.1, fs))
    | .requestLost :: fs => (.ok (), (s.1, fs))
    | .responseLost :: fs => let r := (serverLink R mac).send m s.1; (r.1, ({ r.2 with back := [] }, fs))
    | .other bs :: fs => let r := (serverLink R mac).send m s.1; (r.1, ({ r.2 with back := bs }, fs))
  recv := fun n s => let r := (serverLink R mac).recv n s.1; (r.1, (r.2, s.2))

/-- see `Ready` -/
structure FReady (id : Int) (sl : Slave) (r : Refs) (s : MasterSt (Net × List Fault)) : Prop where
  known : Dict.get? s.link.1.db.slaves id = some sl
  good : Good s.link.1.heap sl r
  clean : s.link.1.back = []
  tid : 0 ≤ s.lastTid ∧ s.lastTid ≤ 65535

/-- what a request makes of a server -/
theorem deliver (R : Registry) (hR : Quiet R) (mac : Mac) (hmac : mac = tcpMac ∨ mac = rtuMac) (id : Int) (h0 : 1 ≤ id) (h1 : id ≤ 255) (sl : Slave) (r : Refs) (n : Net)
    (hk : Dict.get? n.db.slaves id = some sl) (hg : Good n.heap sl r) (hclean : n.back = []) {τ : Type} (s : MasterSt τ) (htid : 0 ≤ s.lastTid ∧ s.lastTid ≤ 65535) (req : Spec.Req)
    (hwf : req.WF) (hl : req.encode.length ≤ 65534) (hm : sl.unsigned = true ∨ ∀ a am om, req ≠ .maskWrite a am om) :
    ∃ (request : Bytes) (q : mac.Q) (tid : Int) (resp : Bytes) (h' : Heap), buildRequest mac req.encode id s = (.ok (request, q), { s with lastTid := tid }) ∧ (0 ≤ tid ∧ tid ≤ 65535) ∧
      (serverLink R mac).send request n = (.ok (), { n with heap := h', back := resp }) ∧ resp ≠ [] ∧
      (mac.parseResponse resp q).1 = .ok ((Spec.exec sl.unsigned (absMem n.heap sl) req).1.encode req.fc) ∧
      absMem h' sl = (Spec.exec sl.unsigned (absMem n.heap sl) req).2 ∧ Good h' sl r := by
  have hid : ((UInt8.ofNat id.toNat).toNat : Int) = id := by
    rw [UInt8.toNat_ofNat', Nat.mod_eq_of_lt (by omega)]; omega
  obtain ⟨h', e1, e2, e3, _⟩ := handler_refines hR hg req hwf hm
  have hrl := reply_length sl.unsigned (absMem n.heap sl) req
  generalize hrep : (Spec.exec sl.unsigned (absMem n.heap sl) req).1.encode req.fc = rep at e1 hrl ⊢
  rcases hmac with rfl | rfl
  · obtain ⟨q, hb, q1, q2, q3⟩ := buildRequest_tcp (pdu := req.encode) hl (by omega : 0 ≤ id) h1 (s := s) htid
    generalize ht : UInt16.ofNat ((s.lastTid + 1) % 65536).toNat = tid at hb
    rw [ht] at q1
    generalize hu : UInt8.ofNat id.toNat = unit at hid q3 hb
    have hpr : tcpMac.parseRequest (tcpAdu tid 0 unit req.encode) tcpMac.new = _ := tcpParseRequest_adu tid 0 unit hl (tcpMac.new : TcpQuery)
    have e4 := tcpBuildResponse_adu tid 0 unit (pdu := rep) (by omega)
      ({ (tcpMac.new : TcpQuery) with request := ⟨tid.toNat, (0 : UInt16).toNat, req.encode.length + 1, unit.toNat⟩ }) ⟨_, rfl⟩
    have hdb : dbHandle R tcpMac n.db (tcpAdu tid 0 unit req.encode) n.heap = (.ok (some (tcpAdu tid 0 unit rep)), h') :=
      dbHandle_some hpr (by omega) (by rw [hid]; exact hk) e1 e4
    refine ⟨_, q, _, tcpAdu tid 0 unit rep, h', hb, by omega, ?_, by simp [tcpAdu, word], (C24_accepts _ q rep).mpr ⟨_, _, _, rfl, by omega, q1, q2, q3⟩, e2, e3⟩
    show (match serverHandle R tcpMac n.db _ n.heap with
      | (.ok r, h) => ((Except.ok () : Except PyErr Unit), { n with heap := h, back := n.back ++ r.getD [] })
      | (.error _, h) => (.ok (), { n with heap := h })) = _
    rw [serverHandle_quiet hR, hdb]
    dsimp only
    rw [hclean]
    rfl
  · obtain ⟨q, hb, q1⟩ := buildRequest_rtu (pdu := req.encode) (by omega : 0 ≤ id) h1 (s := s)
    generalize hu : UInt8.ofNat id.toNat = unit at hid q1 hb
    have hpr : rtuMac.parseRequest (rtuAdu unit req.encode) rtuMac.new = _ := rtuParseRequest_adu unit req.encode (rtuMac.new : RtuQuery)
    have e4 := rtuBuildResponse_adu unit rep ({ (rtuMac.new : RtuQuery) with requestAddress := (unit.toNat : Int) }) rfl
    have hdb : dbHandle R rtuMac n.db (rtuAdu unit req.encode) n.heap = (.ok (some (rtuAdu unit rep)), h') :=
      dbHandle_some hpr (by omega) (by rw [hid]; exact hk) e1 e4
    refine ⟨_, q, s.lastTid, rtuAdu unit rep, h', hb, htid, ?_, by simp [rtuAdu], ((C25_response _ q).1 rep).mpr ⟨_, rfl, q1⟩, e2, e3⟩
    show (match serverHandle R rtuMac n.db _ n.heap with
      | (.ok r, h) => ((Except.ok () : Except PyErr Unit), { n with heap := h, back := n.back ++ r.getD [] })
      | (.error _, h) => (.ok (), { n with heap := h })) = _
    rw [serverHandle_quiet hR, hdb]
    dsimp only
    rw [hclean]
    rfl

theorem open_faultyLink (R : Registry) (mac : Mac) (s : MasterSt (Net × List Fault)) : masterOpen (faultyLink R mac) s = (.ok (), { s with isOpened := true }) := by
  unfold masterOpen
  cases h : s.isOpened
  · rfl
  · obtain ⟨o, l, t⟩ := s
    simp only at h
    subst h
    rfl

/-- the fault of the next message, and the faults after it -/
def nextFault : List Fault → Fault × List Fault
  | [] => (.fine, [])
  | f :: fs => (f, fs)

/-- **C88 (at most once).** One call on a link that loses messages: the request is executed by the slave at most once, namely when it arrives; without a fault the result is the one the
    specification prescribes; when the request or the response is lost the call raises. -/
theorem C88_at_most_once (R : Registry) (hR : Quiet R) (mac : Mac) (hmac : mac = tcpMac ∨ mac = rtuMac) (id : Int) (h0 : 1 ≤ id) (h1 : id ≤ 255) (sl : Slave) (r : Refs)
    (s : MasterSt (Net × List Fault)) (hs : FReady id sl r s) (c : Call) (hc : c.Fits) (hl : c.pdu.length ≤ 65534) (hm : sl.unsigned = true ∨ ∀ a am om, c ≠ .maskWrite a am om) :
    ∃ res s', execute R mac (faultyLink R mac) (c.args id) s = (res, s') ∧ FReady id sl r s' ∧ s'.link.2 = (nextFault s.link.2).2 ∧
      absMem s'.link.1.heap sl = (if (nextFault s.link.2).1.arrives then c.after sl.unsigned (absMem s.link.1.heap sl) else absMem s.link.1.heap sl) ∧
      ((nextFault s.link.2).1 = .fine → res = outcome (c.answer sl.unsigned (absMem s.link.1.heap sl))) ∧
      ((nextFault s.link.2).1 = .sendFails → res = .error .osError) ∧
      ((nextFault s.link.2).1 = .requestLost ∨ (nextFault s.link.2).1 = .responseLost → res = .error .timeout) := by
  have hm' : sl.unsigned = true ∨ ∀ a am om, c.toReq ≠ .maskWrite a am om := by
    rcases hm with h | h
    · exact .inl h
    · right; intro a am om e
      cases c <;> first | exact absurd rfl (h _ _ _) | (simp [Call.toReq] at e)
  have ho := open_faultyLink R mac s
  have hp := prepare_call id hc
  obtain ⟨request, q, tid, resp, h', hb, ht, hsend, hne, hparse, hmem, hgood⟩ := deliver R hR mac hmac id h0 h1 sl r s.link.1 hs.known hs.good hs.clean { s with isOpened := true } hs.tid c.toReq
    (toReq_WF c hc) (by rw [← pdu_toReq]; exact hl) hm'
  rw [← pdu_toReq, ← prepared_pdu] at hb
  have hx := execute_main hR ho hp (args_slave c id) hb
  clear ho hb
  obtain ⟨o, ⟨n, fs⟩, t⟩ := s
  obtain ⟨k1, k2, k3, k4⟩ := hs
  dsimp only at *
  have hfine : ∀ fs'', (faultyLink R mac).send request (n, fs) = (.ok (), ({ n with heap := h', back := resp }, fs'')) →
      ∃ res s', execute R mac (faultyLink R mac) (c.args id) ⟨o, (n, fs), t⟩ = (res, s') ∧
        FReady id sl r s' ∧ s'.link.2 = fs'' ∧ absMem s'.link.1.heap sl = c.after sl.unsigned (absMem n.heap sl) ∧ res = outcome (c.answer sl.unsigned (absMem n.heap sl)) := by
    intro fs'' h
    rw [hx]
    rw [h]
    dsimp only
    have hrecv : (faultyLink R mac).recv c.prepared.expectedLength ({ n with heap := h', back := resp }, fs'') = (.ok resp, ({ n with heap := h', back := [] }, fs'')) := by
      show (let r := (serverLink R mac).recv c.prepared.expectedLength { n with heap := h', back := resp }; (r.1, (r.2, fs''))) = _
      rw [serverLink_recv R mac _ _ hne]
    rw [hrecv]
    dsimp only
    rw [hparse]
    dsimp only
    rw [analyse_reply _ _ c hc]
    exact ⟨_, _, rfl, ⟨k1, hgood, rfl, ht⟩, rfl, hmem, rfl⟩
  have hlost : ∀ (h : Heap) (fs'' : List Fault), (faultyLink R mac).recv c.prepared.expectedLength ({ n with heap := h, back := [] }, fs'') = (.error .timeout, ({ n with heap := h, back := [] }, fs'')) := by
    intro h fs''
    rfl
  have hn : n = { n with heap := n.heap, back := [] } := by rw [← k3]
  cases fs with
  | nil =>
    obtain ⟨res, s', e1, e2, e3, e4, e5⟩ := hfine [] (by show (let r := (serverLink R mac).send request n; (r.1, (r.2, []))) = _; rw [hsend])
    exact ⟨res, s', e1, e2, e3, e4, fun _ => e5, (fun h => by cases h), (fun h => by rcases h with h | h <;> cases h)⟩
  | cons f fs =>
    cases f with
    | fine =>
      obtain ⟨res, s', e1, e2, e3, e4, e5⟩ := hfine fs (by show (let r := (serverLink R mac).send request n; (r.1, (r.2, fs))) = _; rw [hsend])
      exact ⟨res, s', e1, e2, e3, e4, fun _ => e5, (fun h => by cases h), (fun h => by rcases h with h | h <;> cases h)⟩
    | sendFails =>
      rw [hx]
      exact ⟨_, _, rfl, ⟨k1, k2, k3, ht⟩, rfl, rfl, (fun h => by cases h), fun _ => rfl, (fun h => by rcases h with h | h <;> cases h)⟩
    | requestLost =>
      rw [hx]
      have hs1 : (faultyLink R mac).send request (n, .requestLost :: fs) = (.ok (), (n, fs)) := rfl
      rw [hs1]
      dsimp only
      have := hlost n.heap fs
      rw [← hn] at this
      rw [this]
      exact ⟨_, _, rfl, ⟨k1, k2, k3, ht⟩, rfl, rfl, (fun h => by cases h), (fun h => by cases h), fun _ => rfl⟩
    | responseLost =>
      rw [hx]
      have hs1 : (faultyLink R mac).send request (n, .responseLost :: fs) = (.ok (), ({ n with heap := h', back := [] }, fs)) := by
        show (let r := (serverLink R mac).send request n; (r.1, ({ r.2 with back := [] }, fs))) = _
        rw [hsend]
      rw [hs1]
      dsimp only
      rw [hlost]
      exact ⟨_, _, rfl, ⟨k1, hgood, rfl, ht⟩, rfl, hmem, (fun h => by cases h), (fun h => by cases h), fun _ => rfl⟩
    | other bs =>
      rw [hx]
      have hs1 : (faultyLink R mac).send request (n, .other bs :: fs) = (.ok (), ({ n with heap := h', back := bs }, fs)) := by
        show (let r := (serverLink R mac).send request n; (r.1, ({ r.2 with back := bs }, fs))) = _
        rw [hsend]
      rw [hs1]
      dsimp only
      by_cases hbs : bs = []
      · subst hbs
        rw [hlost]
        exact ⟨_, _, rfl, ⟨k1, hgood, rfl, ht⟩, rfl, hmem, (fun h => by cases h), (fun h => by cases h), (fun h => by rcases h with h | h <;> cases h)⟩
      · have hrecv : (faultyLink R mac).recv c.prepared.expectedLength ({ n with heap := h', back := bs }, fs) = (.ok bs, ({ n with heap := h', back := [] }, fs)) := by
          show (let r := (serverLink R mac).recv c.prepared.expectedLength { n with heap := h', back := bs }; (r.1, (r.2, fs))) = _
          rw [serverLink_recv R mac _ _ hbs]
        rw [hrecv]
        dsimp only
        cases (mac.parseResponse bs q).1 with
        | error e => exact ⟨_, _, rfl, ⟨k1, hgood, rfl, ht⟩, rfl, hmem, (fun h => by cases h), (fun h => by cases h), (fun h => by rcases h with h | h <;> cases h)⟩
        | ok pdu => exact ⟨_, _, rfl, ⟨k1, hgood, rfl, ht⟩, rfl, hmem, (fun h => by cases h), (fun h => by cases h), (fun h => by rcases h with h | h <;> cases h)⟩

/-! ## Programs that repeat their calls -/

/-- `while True: try: return master.execute(...); except ModbusError: raise; except Exception: continue`, for at most `n` attempts -/
def persist (R : Registry) (mac : Mac) (ch : Chan σ) (a : ExecArgs) : Nat → MasterSt σ → Except PyErr ExecResult × MasterSt σ
  | 0, s => (.error .generic, s)
  | n + 1, s =>
    match execute R mac ch a s with
    | (.ok v, s') => (.ok v, s')
    | (.error (.modbusError c), s') => (.error (.modbusError c), s')
    | (.error _, s') => persist R mac ch a n s'

/-- the fault is a loss (or none): no foreign bytes -/
def Fault.IsLoss (f : Fault) : Prop := ∀ bs, f ≠ .other bs

instance (f : Fault) : Decidable f.IsLoss :=
  match f with
  | .fine => isTrue (fun _ h => by cases h)
  | .sendFails => isTrue (fun _ h => by cases h)
  | .requestLost => isTrue (fun _ h => by cases h)
  | .responseLost => isTrue (fun _ h => by cases h)
  | .other bs => isFalse (fun h => h bs rfl)

theorem after_after (u : Bool) (m : Spec.Mem) (c : Call) : c.after u (c.after u m) = c.after u m := (C88_repeat u m c.toReq).1

theorem answer_after (u : Bool) (m : Spec.Mem) (c : Call) (hw : ∀ ra rq wa vs, c ≠ .readWrite ra rq wa vs) : c.answer u (c.after u m) = c.answer u m := by
  have h := (C88_repeat u m c.toReq).2 (by
    intro ra rq wa wq bc p e
    cases c <;> first | exact hw _ _ _ _ rfl | (simp [Call.toReq] at e))
  cases c with
  | readWrite ra rq wa vs => exact absurd rfl (hw _ _ _ _)
  | _ =>
    unfold Call.answer Call.after
    rw [h]
    try (cases hx : (Spec.exec u m _).1 <;> rfl)

theorem nextFault_drop (fs : List Fault) : (nextFault fs).2 = fs.drop 1 := by cases fs <;> rfl

theorem persist_done {R : Registry} {mac : Mac} {ch : Chan σ} {a : ExecArgs} {n : Nat} {s s' : MasterSt σ} {o : Except UInt8 (List Int)} (h : execute R mac ch a s = (outcome o, s')) :
    persist R mac ch a (n + 1) s = (outcome o, s') := by
  rw [persist]
  rw [h]
  cases o <;> rfl

theorem persist_again {R : Registry} {mac : Mac} {ch : Chan σ} {a : ExecArgs} {n : Nat} {s s' : MasterSt σ} {e : PyErr} (he : ∀ x, e ≠ .modbusError x) (h : execute R mac ch a s = (.error e, s')) :
    persist R mac ch a (n + 1) s = persist R mac ch a n s' := by
  rw [persist]
  rw [h]
  cases e <;> first | rfl | exact absurd rfl (he _)

/-- **C88 (retries).** A caller that repeats a call until it gets an answer, on a link that loses any requests and responses: in the end the memory of the slave is what it would be had the
    call been made once on a perfect link, however often the request was executed, and the result is the same too; only the result of function 23 may be the one of a second execution. -/
theorem C88_retry (R : Registry) (hR : Quiet R) (mac : Mac) (hmac : mac = tcpMac ∨ mac = rtuMac) (id : Int) (h0 : 1 ≤ id) (h1 : id ≤ 255) (sl : Slave) (r : Refs)
    (s : MasterSt (Net × List Fault)) (hs : FReady id sl r s) (c : Call) (hc : c.Fits) (hl : c.pdu.length ≤ 65534) (hm : sl.unsigned = true ∨ ∀ a am om, c ≠ .maskWrite a am om)
    (hloss : ∀ f ∈ s.link.2, f.IsLoss) (n : Nat) (hn : s.link.2.length < n) :
    ∃ res s', persist R mac (faultyLink R mac) (c.args id) n s = (res, s') ∧ FReady id sl r s' ∧ (∃ k, s'.link.2 = s.link.2.drop k) ∧
      absMem s'.link.1.heap sl = c.after sl.unsigned (absMem s.link.1.heap sl) ∧
      ((∀ ra rq wa vs, c ≠ .readWrite ra rq wa vs) → res = outcome (c.answer sl.unsigned (absMem s.link.1.heap sl))) ∧
      (res = outcome (c.answer sl.unsigned (absMem s.link.1.heap sl)) ∨ res = outcome (c.answer sl.unsigned (c.after sl.unsigned (absMem s.link.1.heap sl)))) := by
  generalize hmem : absMem s.link.1.heap sl = m
  have hmm : absMem s.link.1.heap sl = m ∨ absMem s.link.1.heap sl = c.after sl.unsigned m := .inl hmem
  clear hmem
  induction n generalizing s with
  | zero => omega
  | succ n ih =>
    obtain ⟨res, s1, e1, e2, e3, e4, e5, e6, e7⟩ := C88_at_most_once R hR mac hmac id h0 h1 sl r s hs c hc hl hm
    have hagain : (absMem s1.link.1.heap sl = m ∨ absMem s1.link.1.heap sl = c.after sl.unsigned m) := by
      rw [e4]
      rcases hmm with h | h <;> rw [h] <;> split
      · exact .inr rfl
      · exact .inl rfl
      · exact .inr (after_after _ _ _)
      · exact .inr rfl
    have hdone : (nextFault s.link.2).1 = .fine → ∃ res s', persist R mac (faultyLink R mac) (c.args id) (n + 1) s = (res, s') ∧ FReady id sl r s' ∧ (∃ k, s'.link.2 = s.link.2.drop k) ∧
      absMem s'.link.1.heap sl = c.after sl.unsigned m ∧
      ((∀ ra rq wa vs, c ≠ .readWrite ra rq wa vs) → res = outcome (c.answer sl.unsigned m)) ∧
      (res = outcome (c.answer sl.unsigned m) ∨ res = outcome (c.answer sl.unsigned (c.after sl.unsigned m))) := by
      intro hf
      have hres := e5 hf
      refine ⟨res, s1, ?_, e2, ⟨1, by rw [e3, nextFault_drop]⟩, ?_, ?_, ?_⟩
      · rw [hres] at e1 ⊢
        exact persist_done e1
      · rw [e4, hf]
        rcases hmm with h | h <;> rw [h]
        · rfl
        · exact after_after _ _ _
      · intro hw
        rw [hres]
        rcases hmm with h | h <;> rw [h]
        rw [answer_after _ _ _ hw]
      · rw [hres]
        rcases hmm with h | h <;> rw [h]
        · exact .inl rfl
        · exact .inr rfl
    have hmore : s.link.2 ≠ [] → (∃ e, res = .error e ∧ ∀ x, e ≠ .modbusError x) → ∃ res s', persist R mac (faultyLink R mac) (c.args id) (n + 1) s = (res, s') ∧ FReady id sl r s' ∧ (∃ k, s'.link.2 = s.link.2.drop k) ∧
      absMem s'.link.1.heap sl = c.after sl.unsigned m ∧
      ((∀ ra rq wa vs, c ≠ .readWrite ra rq wa vs) → res = outcome (c.answer sl.unsigned m)) ∧
      (res = outcome (c.answer sl.unsigned m) ∨ res = outcome (c.answer sl.unsigned (c.after sl.unsigned m))) := by
      rintro hne ⟨e, rfl, he⟩
      rw [nextFault_drop] at e3
      have hlen : s1.link.2.length < n := by
        rw [e3, List.length_drop]
        have := List.length_pos_iff.mpr hne
        omega
      obtain ⟨res', s', f1, f2, ⟨k, f3⟩, f4⟩ := ih s1 e2 (fun f hf => hloss f (by rw [e3] at hf; exact List.mem_of_mem_drop hf)) hlen hagain
      refine ⟨res', s', ?_, f2, ⟨1 + k, by rw [f3, e3, List.drop_drop]⟩, f4⟩
      rw [persist_again he e1]
      exact f1
    cases hfs : s.link.2 with
    | nil => rw [← hfs]; exact hdone (by rw [hfs]; rfl)
    | cons f fs =>
      rw [← hfs]
      have hl2 := hloss f (by rw [hfs]; simp)
      have hnf : (nextFault s.link.2).1 = f := by rw [hfs]; rfl
      cases f with
      | fine => exact hdone hnf
      | sendFails => exact hmore (by rw [hfs]; simp) ⟨_, e6 hnf, by simp⟩
      | requestLost => exact hmore (by rw [hfs]; simp) ⟨_, e7 (.inl hnf), by simp⟩
      | responseLost => exact hmore (by rw [hfs]; simp) ⟨_, e7 (.inr hnf), by simp⟩
      | other bs => exact absurd rfl (hl2 bs)

/-- a program of calls on a slave, each repeated until it is answered -/
def persistCalls (R : Registry) (mac : Mac) (ch : Chan σ) (id : Int) (n : Nat) : List Call → MasterSt σ → List (Except PyErr ExecResult) × MasterSt σ
  | [], s => ([], s)
  | c :: cs, s =>
    let r := persist R mac ch (c.args id) n s
    let rest := persistCalls R mac ch id n cs r.2
    (r.1 :: rest.1, rest.2)

/-- **C88 (programs).** Any program of calls without function 23, each repeated until it is answered, on a link that loses any requests and responses, has the results and leaves the memory
    that the specification prescribes - those of the program on a perfect link (see C34_history). -/
theorem C88_program (R : Registry) (hR : Quiet R) (mac : Mac) (hmac : mac = tcpMac ∨ mac = rtuMac) (id : Int) (h0 : 1 ≤ id) (h1 : id ≤ 255) (sl : Slave) (r : Refs)
    (s : MasterSt (Net × List Fault)) (hs : FReady id sl r s) (hloss : ∀ f ∈ s.link.2, f.IsLoss) (n : Nat) (hn : s.link.2.length < n) (cs : List Call)
    (hc : ∀ c ∈ cs, c.Fits ∧ c.pdu.length ≤ 65534 ∧ (sl.unsigned = true ∨ ∀ a am om, c ≠ .maskWrite a am om) ∧ ∀ ra rq wa vs, c ≠ .readWrite ra rq wa vs) :
    (persistCalls R mac (faultyLink R mac) id n cs s).1 = (specCalls sl.unsigned cs (absMem s.link.1.heap sl)).1.map outcome ∧
    absMem (persistCalls R mac (faultyLink R mac) id n cs s).2.link.1.heap sl = (specCalls sl.unsigned cs (absMem s.link.1.heap sl)).2 := by
  induction cs generalizing s with
  | nil => exact ⟨rfl, rfl⟩
  | cons c cs ih =>
    obtain ⟨a1, a2, a3, a4⟩ := hc c (by simp)
    obtain ⟨res, s', e1, e2, ⟨k, e3⟩, e4, e5, -⟩ := C88_retry R hR mac hmac id h0 h1 sl r s hs c a1 a2 a3 hloss n hn
    have := ih s' e2 (fun f hf => hloss f (by rw [e3] at hf; exact List.mem_of_mem_drop hf)) (by rw [e3, List.length_drop]; omega) (fun c h => hc c (by simp [h]))
    rw [e4] at this
    simp only [persistCalls, specCalls, e1, List.map_cons]
    exact ⟨by rw [this.1, e5 a4], this.2⟩

/-! ## Instances -/

/-- the master and the server of `exNet`, on a link with faults -/
def exFaulty (fs : List Fault) : MasterSt (Net × List Fault) := ⟨false, (exNet.link, fs), 65535⟩

theorem exFaulty_ready (fs : List Fault) : FReady 1 ⟨1, true, [("a", (3, 10))], 0⟩ ⟨0, 1, 2, 3⟩ (exFaulty fs) :=
  ⟨exNet_ready.known, exNet_ready.good, exNet_ready.clean, exNet_ready.tid⟩

-- the hypotheses are met; a loss of each kind
example : (persistCalls [] tcpMac (faultyLink [] tcpMac) 1 9 [.writeRegisters 11 [5, 6], .maskWrite 11 240 3, .readHolding 11 2, .readHolding 14 2]
      (exFaulty [.requestLost, .responseLost, .sendFails, .fine, .responseLost, .responseLost, .fine, .requestLost])).1 =
    [.ok (.values [11, 2]), .ok (.values [11, 240, 3]), .ok (.values [3, 6]), .error (.modbusError 2)] := by
  have h := C88_program [] quiet_nil tcpMac (.inl rfl) 1 (by decide) (by decide) _ _
    (exFaulty [.requestLost, .responseLost, .sendFails, .fine, .responseLost, .responseLost, .fine, .requestLost]) (exFaulty_ready _) (by decide) 9 (by decide)
    [.writeRegisters 11 [5, 6], .maskWrite 11 240 3, .readHolding 11 2, .readHolding 14 2] (by
      intro c hc
      simp only [List.mem_cons, List.not_mem_nil, or_false] at hc
      rcases hc with rfl | rfl | rfl | rfl <;> exact ⟨by decide, by decide, .inl rfl, by simp⟩)
  rw [h.1]
  decide +kernel

/-- a retried function 23 gives the registers its own first execution has written -/
theorem C88_function23 : (persist [] rtuMac (faultyLink [] rtuMac) ((Call.readWrite 11 2 11 [5, 6]).args 1) 2 (exFaulty [])).1 = .ok (.values [0, 0]) ∧
    (persist [] rtuMac (faultyLink [] rtuMac) ((Call.readWrite 11 2 11 [5, 6]).args 1) 2 (exFaulty [.responseLost])).1 = .ok (.values [5, 6]) := by
  constructor <;> decide +kernel

-- without a retry: nothing is known after a lost message
example : (execute [] tcpMac (faultyLink [] tcpMac) ((Call.writeRegister 11 5).args 1) (exFaulty [.requestLost])).1 =
    (execute [] tcpMac (faultyLink [] tcpMac) ((Call.writeRegister 11 5).args 1) (exFaulty [.responseLost])).1 := by decide +kernel

end Modbus
