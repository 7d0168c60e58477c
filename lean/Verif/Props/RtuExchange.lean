import Verif.Props.RtuServerTime
import Verif.Props.EndToEnd
/-
# C78: an `RtuMaster` and an `RtuServer` on a line, with the time everything takes
-/
namespace Modbus

open Spec (rtuAdu Call Fits16 bytesFor toWord word)

/-! ## The line -/

/-- the arrivals at one end of a line of what was written at the other; `c`: the time a byte takes, `d`: the delay of the line -/
def delivered (d c : Nat) (written : List (Nat × Bytes)) : List (Nat × UInt8) := written.flatMap fun w => onLine c (w.1 + d) w.2

/-- a server and a master -/
structure RtuLink where
  srv : CRtuSrv
  mst : MasterSt CRtu

/-- what was written between two states of a port -/
def newWrites (before after : CPort) : List (Nat × Bytes) := after.written.drop before.written.length

def CPort.deliver (s : CPort) (ev : List (Nat × UInt8)) : CPort := { s with future := s.future ++ ev }
def CRtuSrv.deliver (s : CRtuSrv) (ev : List (Nat × UInt8)) : CRtuSrv := { s with port := s.port.deliver ev }
def masterDeliver (s : MasterSt CRtu) (ev : List (Nat × UInt8)) : MasterSt CRtu := { s with link := { s.link with port := s.link.port.deliver ev } }

/-- what the master writes during a call; it does not depend on what arrives during the call (`C78_call`) -/
def writes (R : Registry) (a : ExecArgs) (m : MasterSt CRtu) : List (Nat × Bytes) :=
  newWrites m.link.port (execute R rtuMac (clockedRtu R) a m).2.link.port

/-- A call over the line: the server receives what the master writes, in one run of its loop, and the master receives what the server writes.  `out`, `back`: the delays. -/
def timedCall (R : Registry) (db : Databank) (out back : Nat) (a : ExecArgs) (w : RtuLink) : Except PyErr ExecResult × RtuLink :=
  let srv := (crRun R db (w.srv.deliver (delivered out w.mst.link.port.charTime (writes R a w.mst)))).2
  let r := execute R rtuMac (clockedRtu R) a (masterDeliver w.mst (delivered back w.srv.port.charTime (newWrites w.srv.port srv.port)))
  (r.1, ⟨srv, r.2⟩)

/-! ## Bytes on a line -/

theorem arrivedBytes_onLine (c : Nat) : ∀ (bs : Bytes) (m : Nat), arrivedBytes (onLine c m bs) = bs
  | [], _ => rfl
  | b :: bs, m => by
    show b :: arrivedBytes (onLine c (m + c) bs) = _
    rw [arrivedBytes_onLine]

theorem onLine_length (c : Nat) (bs : Bytes) (m : Nat) : (onLine c m bs).length = bs.length := by
  rw [← arrivedBytes_length, arrivedBytes_onLine]

theorem onLine_ne {c m : Nat} {bs : Bytes} (h : bs ≠ []) : onLine c m bs ≠ [] := by
  cases bs with
  | nil => exact absurd rfl h
  | cons b bs => simp [onLine]

theorem lastAt_onLine (c : Nat) : ∀ (bs : Bytes) (m now : Nat), bs ≠ [] → lastAt now (onLine c m bs) = max now (m + c * bs.length)
  | [], _, _, h => absurd rfl h
  | [b], m, now, _ => by simp [onLine, lastAt]
  | b :: b' :: bs, m, now, _ => by
    rw [onLine, lastAt, lastAt_onLine c (b' :: bs) (m + c) _ (by simp)]
    simp only [List.length_cons, Nat.mul_add]
    omega

theorem gaps_onLine {c x : Nat} (hc : c < x) : ∀ (bs : Bytes) (m now : Nat), m + c < now + x → Gaps x now (onLine c m bs)
  | [], _, _, _ => trivial
  | b :: bs, m, now, h => ⟨h, gaps_onLine hc bs (m + c) _ (by omega)⟩

theorem noneBefore_onLine (c m : Nat) (bs : Bytes) : NoneBefore (m + c) (onLine c m bs) := by
  cases bs with
  | nil => simp [NoneBefore, onLine]
  | cons b bs => intro e he; cases he; exact Nat.le_refl _

theorem toCome_later {t t' : Nat} {ev : List (Nat × UInt8)} (h : NoneBefore t' ev) (ht : t < t') : toCome t ev = ev := by
  cases ev with
  | nil => rfl
  | cons e ev =>
    have := h e rfl
    simp only [toCome, List.dropWhile_cons]
    rw [if_neg (by simp; omega)]

/-! ## The length of responses -/

/-- a normal response of a modbus-tk slave has the expected length -/
theorem expected_ok (u : Bool) (m : Spec.Mem) (c : Call) (hc : c.Fits) (d : Bytes) (h : (Spec.exec u m c.toReq).1 = .ok d) :
    c.prepared.expectedLength = (d.length : Int) + 4 := by
  have ints : ∀ q : Int, Fits16 q → ((toWord q).toNat : Int) = q := fun q hq => toWord_toNat hq
  have bits : ∀ (t : Spec.Table) (a q : Int), Fits16 q → Spec.readBits t (toWord a) (toWord q) = .ok d → nbBytes q + 5 = (d.length : Int) + 4 := by
    intro t a q hq h
    obtain ⟨_, rfl⟩ := readBits_inv h
    have e := ints q hq
    rw [List.length_cons, packBits_length, List.length_map]
    simp only [Spec.Table.read, List.length_map, List.length_range]
    have e' : nbBytes q = bytesFor (toWord q).toNat := by rw [← nbBytes_eq, e]
    rw [e']
    push_cast
    omega
  have regs : ∀ (t : Spec.Table) (a q : Int), Fits16 q → Spec.readRegs t (toWord a) (toWord q) = .ok d → 2 * q + 5 = (d.length : Int) + 4 := by
    intro t a q hq h
    obtain ⟨_, rfl⟩ := readRegs_inv h
    have e := ints q hq
    have efm : (t.read (toWord a).toNat (toWord q).toNat).flatMap (fun v => word (toWord v)) = ((t.read (toWord a).toNat (toWord q).toNat).map toWord).flatMap word := by
      simp [List.flatMap_map]
    rw [List.length_cons, efm, flatMap_word_length]
    simp only [List.length_map, Spec.Table.read, List.length_range]
    omega
  cases c with
  | readCoils a q => exact bits _ a q hc.2 h
  | readDiscrete a q => exact bits _ a q hc.2 h
  | readHolding a q => exact regs _ a q hc.2 h
  | readInput a q => exact regs _ a q hc.2 h
  | readWrite ra rq wa vs =>
    simp only [Call.toReq, Spec.exec] at h
    cases hr : Spec.readRegs m.holding (toWord ra) (toWord rq) with
    | exc c => rw [hr] at h; cases h
    | ok d' =>
      rw [hr] at h
      dsimp only at h
      have : d' = d := by
        split at h
        · cases h
        · split at h
          · cases h
          · cases h; rfl
      subst this
      exact regs _ ra rq hc.2.1 hr
  | diagnostic sub data => cases h
  | readFileRecord rs => cases h
  | deviceInfo a b => cases h
  | readExceptionStatus => cases h; rfl
  | writeCoil a v =>
    simp only [Call.toReq, Spec.exec] at h
    split at h
    · cases h
    · split at h
      · cases h; rfl
      · simp at h
        subst h; rfl
  | writeRegister a v =>
    simp only [Call.toReq, Spec.exec] at h
    split at h <;> cases h
    rfl
  | writeCoils a vs =>
    simp only [Call.toReq, Spec.exec] at h
    split at h
    · cases h
    · split at h <;> cases h
      rfl
  | writeRegisters a vs =>
    simp only [Call.toReq, Spec.exec] at h
    split at h
    · cases h
    · split at h <;> cases h
      rfl
  | maskWrite a am om =>
    simp only [Call.toReq, Spec.exec] at h
    split at h <;> cases h
    rfl

/-- an exception response is never longer than expected -/
theorem expected_exc (c : Call) (hc : c.Fits) : c.prepared.expectedLength < 0 ∨ 5 ≤ c.prepared.expectedLength := by
  cases c with
  | readCoils a q => right; have h := hc.2.1; simp only [Call.prepared, nbBytes]; split <;> omega
  | readDiscrete a q => right; have h := hc.2.1; simp only [Call.prepared, nbBytes]; split <;> omega
  | readHolding a q => right; have h := hc.2.1; simp only [Call.prepared]; omega
  | readInput a q => right; have h := hc.2.1; simp only [Call.prepared]; omega
  | readWrite ra rq wa vs => right; have h := hc.2.1.1; simp only [Call.prepared]; omega
  | diagnostic sub data =>
    simp only [Call.prepared]
    split
    · simp
    · right; dsimp only; omega
  | readFileRecord rs =>
    right
    have : ∀ rs : List Spec.FileReq, (∀ r ∈ rs, Fits16 r.len) → 0 ≤ (rs.map (·.len)).sum := by
      intro rs
      induction rs with
      | nil => intro _; simp
      | cons r rs ih =>
        intro h
        have h1 := ih (fun r' hr' => h r' (List.mem_cons_of_mem _ hr'))
        have h2 := (h r List.mem_cons_self).1
        simp only [List.map_cons, List.sum_cons]
        omega
    have := this rs (fun r hr => (hc.2.2 r hr).2.2)
    simp only [Call.prepared]
    omega
  | _ => simp [Call.prepared]

/-! ## The server's answer -/

theorem rtu_answer {R : Registry} (hR : Quiet R) {db : Databank} {heap : Heap} {id : Int} (h0 : 1 ≤ id) (h1 : id ≤ 255) {sl : Slave} {r : Refs}
    (hk : Dict.get? db.slaves id = some sl) (hg : Good heap sl r) (c : Call) (hc : c.Fits) (hm : sl.unsigned = true ∨ ∀ a am om, c ≠ .maskWrite a am om) :
    ∃ h', replyOf R rtuMac db (rtuAdu (UInt8.ofNat id.toNat) c.pdu) heap =
        (some (rtuAdu (UInt8.ofNat id.toNat) ((Spec.exec sl.unsigned (absMem heap sl) c.toReq).1.encode c.toReq.fc)), h') ∧
      absMem h' sl = c.after sl.unsigned (absMem heap sl) ∧ Good h' sl r := by
  have hid : ((UInt8.ofNat id.toNat).toNat : Int) = id := by
    rw [UInt8.toNat_ofNat', Nat.mod_eq_of_lt (by omega)]; omega
  generalize UInt8.ofNat id.toNat = unit at hid ⊢
  have hm' : sl.unsigned = true ∨ ∀ a am om, c.toReq ≠ .maskWrite a am om := by
    rcases hm with h | h
    · exact .inl h
    · right; intro a am om e
      cases c <;> first | exact absurd rfl (h _ _ _) | (simp [Call.toReq] at e)
  obtain ⟨h', e1, e2, e3, _⟩ := handler_refines hR hg c.toReq (toReq_WF c hc) hm'
  rw [pdu_toReq]
  generalize hrep : (Spec.exec sl.unsigned (absMem heap sl) c.toReq).1.encode c.toReq.fc = rep at e1
  have hpr : rtuMac.parseRequest (rtuAdu unit c.toReq.encode) rtuMac.new = _ :=
    rtuParseRequest_adu unit c.toReq.encode (rtuMac.new : RtuQuery)
  have e4 := rtuBuildResponse_adu unit rep ({ (rtuMac.new : RtuQuery) with requestAddress := (unit.toNat : Int) }) rfl
  have hdb : dbHandle R rtuMac db (rtuAdu unit c.toReq.encode) heap = (.ok (some (rtuAdu unit rep)), h') :=
    dbHandle_some hpr (by omega) (by rw [hid]; exact hk) e1 e4
  refine ⟨h', ?_, e2, e3⟩
  unfold replyOf
  rw [serverHandle_quiet hR, hdb]
  cases hx : rtuAdu unit rep with
  | nil => simp [rtuAdu] at hx
  | cons b bs => rfl

/-! ## The master -/

/-- a response on the line, complete or shorter than expected: the call ends with it -/
theorem master_over {R : Registry} (hR : Quiet R) {a : ExecArgs} {p : Prepared} {slave : Int} {s : MasterSt CRtu} {x : Nat} (h : RtuCalls a p slave s x)
    (hsw : s.link.useSwTimeout = false) {c m : Nat} {bs : Bytes} (hbs : bs ≠ []) (hf : s.link.port.future = onLine c m bs) (hc : c < x) (hm : s.link.port.now < m + c)
    (hfirst : m + c < sentAt slave p s.link.port + x) (hsent : sentAt slave p s.link.port ≤ m + c * bs.length)
    (hlen : p.expectedLength < 0 ∨ (bs.length : Int) ≤ p.expectedLength) :
    ∃ e, (execute R rtuMac (clockedRtu R) a s).2 =
        { s with link := { s.link with port := { requested s.link.port (rtuAdu (UInt8.ofNat slave.toNat) p.pdu) with now := e, future := [] } } } ∧
      Concludes a p slave bs (execute R rtuMac (clockedRtu R) a s).1 ∧ ((bs.length : Int) = p.expectedLength → e = m + c * bs.length) ∧
      m + c * bs.length ≤ e ∧ e ≤ m + c * bs.length + 2 * x := by
  have hin : toCome s.link.port.now s.link.port.future = onLine c m bs ++ [] := by
    rw [hf, List.append_nil]; exact toCome_later (noneBefore_onLine c m bs) hm
  have hg := gaps_onLine hc bs m (sentAt slave p s.link.port) hfirst
  have hl : lastAt (sentAt slave p s.link.port) (onLine c m bs) = m + c * bs.length := by rw [lastAt_onLine c bs m _ hbs]; omega
  by_cases heq : (bs.length : Int) = p.expectedLength
  · have e := crRecvLoop_prompt s.link.useSwTimeout (sentAt slave p s.link.port) x h.positive
      ((requested s.link.port (rtuAdu (UInt8.ofNat slave.toNat) p.pdu)).future.length + 1) [] (requested s.link.port (rtuAdu (UInt8.ofNat slave.toNat) p.pdu)) (onLine c m bs) []
      h.portOpen h.timeout hin (onLine_ne hbs) hg (by show (onLine c m bs).length ≤ (toCome _ _).length + 1; rw [hin]; simp) (by simp [hsw])
    rw [List.length_nil, Nat.zero_add, onLine_length, heq] at e
    have hcc := call_concludes hR h.prepared h.addressed h.low h.high s h.opened h.portOpen h.noEcho rfl e
    rw [List.nil_append, arrivedBytes_onLine] at hcc
    refine ⟨m + c * bs.length, ?_, hcc.1, fun _ => rfl, Nat.le_refl _, by omega⟩
    rw [hcc.2]
    have : lastAt (requested s.link.port (rtuAdu (UInt8.ofNat slave.toNat) p.pdu)).now (onLine c m bs) = m + c * bs.length := hl
    rw [this]
  · obtain ⟨now', e, r1, r2, _, _⟩ := crRecvLoop_short (sentAt slave p s.link.port) x h.positive p.expectedLength
      ((requested s.link.port (rtuAdu (UInt8.ofNat slave.toNat) p.pdu)).future.length + 1) [] (requested s.link.port (rtuAdu (UInt8.ofNat slave.toNat) p.pdu)) (onLine c m bs) []
      h.portOpen h.timeout hin (onLine_ne hbs) hg (by show (onLine c m bs).length < (toCome _ _).length + 1; rw [hin]; simp) (by simp [NoneBefore])
      (by rw [List.length_nil, Nat.zero_add, onLine_length]; omega)
    have hl' : lastAt (requested s.link.port (rtuAdu (UInt8.ofNat slave.toNat) p.pdu)).now (onLine c m bs) = m + c * bs.length := hl
    rw [hl'] at r1 r2
    have hcc := call_concludes hR h.prepared h.addressed h.low h.high s h.opened h.portOpen h.noEcho rfl (by rw [hsw]; exact e)
    rw [List.nil_append, arrivedBytes_onLine] at hcc
    exact ⟨now', hcc.2, hcc.1, fun h => absurd h heq, by omega, r2⟩

/-- what a call writes when nothing arrives -/
theorem writes_request {R : Registry} (hR : Quiet R) {a : ExecArgs} {p : Prepared} {slave : Int} {s : MasterSt CRtu} {x : Nat} (h : RtuCalls a p slave s x)
    (hf : s.link.port.future = []) : writes R a s = [(s.link.port.now, rtuAdu (UInt8.ofNat slave.toNat) p.pdu)] := by
  have hc := call_concludes hR h.prepared h.addressed h.low h.high s h.opened h.portOpen h.noEcho rfl
    (crRecvLoop_silent s.link.useSwTimeout _ p.expectedLength x h.positive _ [] 0 (requested s.link.port (rtuAdu (UInt8.ofNat slave.toNat) p.pdu))
      h.portOpen h.timeout (by show NoneBefore _ (toCome _ s.link.port.future); rw [hf]; simp [toCome, NoneBefore]))
  unfold writes newWrites
  rw [hc.2]
  simp [requested]

/-! ## The exchange -/

/-- a line and the settings of its ends -/
structure LineSpec where
  /-- the delay from the master to the server -/
  out : Nat
  /-- the delay from the server to the master -/
  back : Nat
  /-- the time a byte takes -/
  byte : Nat
  /-- the time-out of the server -/
  t : Nat
  /-- the inter-byte time-out of the server -/
  gap : Option Nat
  /-- the time-out of the master -/
  x : Nat

/-- after the arrival of the last byte the server answers within this time (it may still be in the pause after its last response) -/
def LineSpec.reaction (L : LineSpec) : Nat := 2 * L.t + readLag L.t L.gap

/-- the time-out of the master leaves the server enough time -/
def LineSpec.Patient (L : LineSpec) : Prop := L.out + L.back + L.byte + L.reaction < L.x

/-- A running server that has slave `sl` under `id`, and an open master, on a line, nothing under way. -/
structure LinkReady (db : Databank) (id : Int) (sl : Slave) (r : Refs) (L : LineSpec) (w : RtuLink) : Prop where
  known : Dict.get? db.slaves id = some sl
  good : Good w.srv.heap sl r
  srvOpen : w.srv.port.isOpen = true
  running : w.srv.block = true
  srvQuiet : w.srv.port.future = []
  srvByte : w.srv.port.charTime = L.byte
  srvTimeout : w.srv.timeout = L.t
  srvGap : w.srv.port.interByte = L.gap
  opened : w.mst.isOpened = true
  mstOpen : w.mst.link.port.isOpen = true
  noEcho : w.mst.link.handleLocalEcho = false
  noSw : w.mst.link.useSwTimeout = false
  timeout : w.mst.link.port.timeout = some L.x
  mstQuiet : w.mst.link.port.future = []
  mstByte : w.mst.link.port.charTime = L.byte
  /-- the server may still be in the pause after its last response -/
  pause : w.srv.port.now ≤ w.mst.link.port.now + L.t
  /-- a byte takes less than the server's time-out -/
  fast : L.byte < L.t

theorem rtuCalls_call {id : Int} (h0 : 1 ≤ id) (h1 : id ≤ 255) {c : Call} (hc : c.Fits) {s : MasterSt CRtu} {x : Nat} (ho : s.isOpened = true)
    (hp : s.link.port.isOpen = true) (he : s.link.handleLocalEcho = false) (hx : s.link.port.timeout = some x) (hx0 : 0 < x) : RtuCalls (c.args id) c.prepared id s x :=
  ⟨prepare_call id hc, args_slave c id, by omega, h1, ho, hp, he, hx, hx0⟩

/-- the server after a response -/
def CRtuSrv.answered (srv : CRtuSrv) (heap : Heap) (h : Nat) (req resp : Bytes) : CRtuSrv :=
  { srv with heap := heap, log := srv.log ++ [(h, req)], port := { srv.port with now := h + srv.port.charTime * resp.length + srv.timeout, future := [], timeout := some srv.timeout, written := srv.port.written ++ [(h, resp)] } }

/-- the frame with which a slave that has the data `m` has to answer a call -/
def rtuAnswer' (id : Int) (u : Bool) (m : Spec.Mem) (c : Call) : Bytes := rtuAdu (UInt8.ofNat id.toNat) ((Spec.exec u m c.toReq).1.encode c.toReq.fc)

/-- the call as it happens: the request sent at the beginning, the response sent at `h`, the end at `e` -/
structure CallHappens (id : Int) (L : LineSpec) (u : Bool) (m : Spec.Mem) (c : Call) (w w' : RtuLink) (h : Nat) : Prop where
  sent : newWrites w.mst.link.port w'.mst.link.port = [(w.mst.link.port.now, rtuAdu (UInt8.ofNat id.toNat) c.pdu)]
  answered : newWrites w.srv.port w'.srv.port = [(h, rtuAnswer' id u m c)]
  notBefore : w.mst.link.port.now + L.byte * (rtuAdu (UInt8.ofNat id.toNat) c.pdu).length + L.out + L.t ≤ h
  soon : h ≤ w.mst.link.port.now + L.byte * (rtuAdu (UInt8.ofNat id.toNat) c.pdu).length + L.out + L.reaction
  prompt : (∃ vs, c.answer u m = .ok vs) → w'.mst.link.port.now = h + L.back + L.byte * (rtuAnswer' id u m c).length
  over : w'.mst.link.port.now ≤ h + L.back + L.byte * (rtuAnswer' id u m c).length + 2 * L.x

/-- the server's part: whatever the time-out of the master -/
theorem link_server {R : Registry} (hR : Quiet R) {db : Databank} {id : Int} (h0 : 1 ≤ id) (h1 : id ≤ 255) {sl : Slave} {r : Refs} {L : LineSpec} {w : RtuLink}
    (hw : LinkReady db id sl r L w) (hx0 : 0 < L.x) (c : Call) (hc : c.Fits) (hm : sl.unsigned = true ∨ ∀ a am om, c ≠ .maskWrite a am om) :
    ∃ heap' h, absMem heap' sl = c.after sl.unsigned (absMem w.srv.heap sl) ∧ Good heap' sl r ∧
      w.mst.link.port.now + L.byte * (rtuAdu (UInt8.ofNat id.toNat) c.pdu).length + L.out + L.t ≤ h ∧
      h ≤ w.mst.link.port.now + L.byte * (rtuAdu (UInt8.ofNat id.toNat) c.pdu).length + L.out + L.reaction ∧
      timedCall R db L.out L.back (c.args id) w =
        ((execute R rtuMac (clockedRtu R) (c.args id) (masterDeliver w.mst (onLine L.byte (h + L.back) (rtuAnswer' id sl.unsigned (absMem w.srv.heap sl) c)))).1,
         ⟨w.srv.answered heap' h (rtuAdu (UInt8.ofNat id.toNat) c.pdu) (rtuAnswer' id sl.unsigned (absMem w.srv.heap sl) c),
          (execute R rtuMac (clockedRtu R) (c.args id) (masterDeliver w.mst (onLine L.byte (h + L.back) (rtuAnswer' id sl.unsigned (absMem w.srv.heap sl) c)))).2⟩) := by
  have hfast := hw.fast
  have hpause := hw.pause
  have hcalls := rtuCalls_call h0 h1 hc hw.opened hw.mstOpen hw.noEcho hw.timeout hx0
  have hwr := writes_request hR hcalls hw.mstQuiet
  rw [prepared_pdu] at hwr
  obtain ⟨heap', a1, a2, a3⟩ := rtu_answer hR h0 h1 hw.known hw.good c hc hm
  have hreqne : rtuAdu (UInt8.ofNat id.toNat) c.pdu ≠ [] := by simp [rtuAdu]
  have hresp' : rtuAnswer' id sl.unsigned (absMem w.srv.heap sl) c = rtuAdu (UInt8.ofNat id.toNat) ((Spec.exec sl.unsigned (absMem w.srv.heap sl) c.toReq).1.encode c.toReq.fc) := rfl
  rw [← hresp'] at a1
  clear hresp'
  generalize rtuAdu (UInt8.ofNat id.toNat) c.pdu = req at *
  generalize rtuAnswer' id sl.unsigned (absMem w.srv.heap sl) c = resp at *
  have hdel : delivered L.out w.mst.link.port.charTime [(w.mst.link.port.now, req)] = onLine L.byte (w.mst.link.port.now + L.out) req := by
    simp [delivered, hw.mstByte]
  have hfut : (w.srv.deliver (onLine L.byte (w.mst.link.port.now + L.out) req)).port.future = onLine L.byte (w.mst.link.port.now + L.out) req := by
    show w.srv.port.future ++ _ = _
    rw [hw.srvQuiet, List.nil_append]
  obtain ⟨taken, h, ev', H, hrun⟩ := C77_run R hR db (w.srv.deliver (onLine L.byte (w.mst.link.port.now + L.out) req)) hw.srvOpen (.inl hw.running)
    (by show 0 < w.srv.timeout; rw [hw.srvTimeout]; omega)
  have hbeg : (w.srv.deliver (onLine L.byte (w.mst.link.port.now + L.out) req)).begins = max w.srv.port.now (w.mst.link.port.now + L.out + L.byte) := by
    cases req with
    | nil => exact absurd rfl hreqne
    | cons b bs =>
      unfold CRtuSrv.begins
      rw [if_pos (show (w.srv.deliver _).block = true from hw.running), hfut]
      rfl
  rw [hbeg, hfut] at H
  have htm : (w.srv.deliver (onLine L.byte (w.mst.link.port.now + L.out) req)).timeout = L.t := hw.srvTimeout
  have hgp : (w.srv.deliver (onLine L.byte (w.mst.link.port.now + L.out) req)).port.interByte = L.gap := hw.srvGap
  rw [htm, hgp] at H
  have hlast : lastAt (max w.srv.port.now (w.mst.link.port.now + L.out + L.byte)) (onLine L.byte (w.mst.link.port.now + L.out) req) =
      max w.srv.port.now (w.mst.link.port.now + L.out + L.byte * req.length) := by
    rw [lastAt_onLine L.byte req _ _ hreqne]
    have : L.byte ≤ L.byte * req.length := Nat.le_mul_of_pos_right _ (List.length_pos_iff.mpr hreqne)
    omega
  obtain ⟨e1, e2⟩ := H.frame (f := onLine L.byte (w.mst.link.port.now + L.out) req) (rest := []) (by simp)
    (gaps_onLine hfast req (w.mst.link.port.now + L.out) _ (by omega)) (by simp [NoneBefore])
  subst e1 e2
  have hsil := H.silence
  have hpr := H.prompt
  rw [hlast] at hsil hpr
  rw [if_neg (onLine_ne hreqne), arrivedBytes_onLine] at hrun
  have hsrv : crRun R db (w.srv.deliver (onLine L.byte (w.mst.link.port.now + L.out) req)) = (.ok (), w.srv.answered heap' h req resp) := by
    rw [hrun]
    unfold CRtuSrv.handles
    show (_, match (replyOf R rtuMac db req w.srv.heap).1 with | none => _ | some b => _) = _
    rw [a1]
    simp only [CRtuSrv.heard, byteThere, Bool.false_eq_true, if_false, CRtuSrv.responds, CRtuSrv.deliver, CPort.deliver, a1, CRtuSrv.answered]
  have hnew : newWrites w.srv.port (w.srv.answered heap' h req resp).port = [(h, resp)] := by simp [newWrites, CRtuSrv.answered]
  have hback : delivered L.back w.srv.port.charTime (newWrites w.srv.port (w.srv.answered heap' h req resp).port) = onLine L.byte (h + L.back) resp := by
    rw [hnew]
    simp [delivered, hw.srvByte]
  refine ⟨heap', h, a2, a3, by omega, by unfold LineSpec.reaction; omega, ?_⟩
  unfold timedCall
  dsimp only
  rw [hwr, hdel, hsrv]
  dsimp only
  rw [hback]

/-- **C78.** A call of a master to a server on a line, everything ready, the time-out of the master long enough: it returns what the specification gives for the data of the slave, which change as specified, and everything
    is ready again.  The master writes exactly the request, at once, the server exactly one response, at `h`, between one and two time-outs and its lag after the request arrived; a call
    that succeeds is over when the last byte of the response arrives; one that is refused at most two time-outs of the master later. -/
theorem C78_call (R : Registry) (hR : Quiet R) (db : Databank) (id : Int) (h0 : 1 ≤ id) (h1 : id ≤ 255) (sl : Slave) (r : Refs) (L : LineSpec) (w : RtuLink)
    (hw : LinkReady db id sl r L w) (hpat : L.Patient) (c : Call) (hc : c.Fits) (hm : sl.unsigned = true ∨ ∀ a am om, c ≠ .maskWrite a am om) :
    ∃ w' h, timedCall R db L.out L.back (c.args id) w = (outcome (c.answer sl.unsigned (absMem w.srv.heap sl)), w') ∧
      absMem w'.srv.heap sl = c.after sl.unsigned (absMem w.srv.heap sl) ∧ LinkReady db id sl r L w' ∧
      CallHappens id L sl.unsigned (absMem w.srv.heap sl) c w w' h := by
  have hpat' := hpat
  unfold LineSpec.Patient at hpat'
  have hx0 : 0 < L.x := by omega
  obtain ⟨heap', h, a2, a3, hlow, hup, htc⟩ := link_server hR h0 h1 hw hx0 c hc hm
  have hrespne : rtuAnswer' id sl.unsigned (absMem w.srv.heap sl) c ≠ [] := by simp [rtuAnswer', rtuAdu]
  have hresplen : (rtuAnswer' id sl.unsigned (absMem w.srv.heap sl) c).length = ((Spec.exec sl.unsigned (absMem w.srv.heap sl) c.toReq).1.encode c.toReq.fc).length + 3 := by
    simp [rtuAnswer', rtuAdu]
  have hresp' : rtuAnswer' id sl.unsigned (absMem w.srv.heap sl) c = rtuAdu (UInt8.ofNat id.toNat) ((Spec.exec sl.unsigned (absMem w.srv.heap sl) c.toReq).1.encode c.toReq.fc) := rfl
  generalize hrr : rtuAnswer' id sl.unsigned (absMem w.srv.heap sl) c = resp at htc hrespne hresplen hresp'
  generalize hreq : rtuAdu (UInt8.ofNat id.toNat) c.pdu = req at htc hlow hup
  have hcalls' := rtuCalls_call (s := masterDeliver w.mst (onLine L.byte (h + L.back) resp)) h0 h1 hc hw.opened hw.mstOpen hw.noEcho hw.timeout hx0
  have hsentAt : sentAt id c.prepared (masterDeliver w.mst (onLine L.byte (h + L.back) resp)).link.port = w.mst.link.port.now + L.byte * req.length := by
    unfold sentAt
    rw [prepared_pdu, hreq]
    show w.mst.link.port.now + w.mst.link.port.charTime * _ = _
    rw [hw.mstByte]
  have hlen : c.prepared.expectedLength < 0 ∨ (resp.length : Int) ≤ c.prepared.expectedLength := by
    rw [hresplen]
    cases he : (Spec.exec sl.unsigned (absMem w.srv.heap sl) c.toReq).1 with
    | exc code =>
      have := expected_exc c hc
      simp only [Spec.Reply.encode, List.length_cons, List.length_nil]
      omega
    | ok d =>
      have := expected_ok _ _ c hc d he
      simp only [Spec.Reply.encode, List.length_cons]
      omega
  obtain ⟨e, m1, m2, m3, m4, m5⟩ := master_over (c := L.byte) (m := h + L.back) (bs := resp) hR hcalls' hw.noSw hrespne (by
      show w.mst.link.port.future ++ _ = _
      rw [hw.mstQuiet, List.nil_append]) (by omega) (by show w.mst.link.port.now < _; have := hw.fast; omega) (by rw [hsentAt]; omega) (by rw [hsentAt]; omega) hlen
  have hres : (execute R rtuMac (clockedRtu R) (c.args id) (masterDeliver w.mst (onLine L.byte (h + L.back) resp))).1 =
      outcome (c.answer sl.unsigned (absMem w.srv.heap sl)) := by
    rw [m2.1 _ hresp', analyse_reply _ _ c hc]
  rw [htc, hres, m1]
  refine ⟨_, h, rfl, a2, ?_, ?_⟩
  · refine ⟨hw.known, a3, hw.srvOpen, hw.running, rfl, hw.srvByte, hw.srvTimeout, hw.srvGap, hw.opened, hw.mstOpen, hw.noEcho, hw.noSw, hw.timeout, rfl, hw.mstByte, ?_, hw.fast⟩
    show h + w.srv.port.charTime * resp.length + w.srv.timeout ≤ e + L.t
    rw [hw.srvByte, hw.srvTimeout]
    omega
  · refine ⟨?_, by rw [hrr]; simp [newWrites, CRtuSrv.answered], ?_, ?_, ?_, ?_⟩
    · show List.drop w.mst.link.port.written.length (w.mst.link.port.written ++ [(w.mst.link.port.now, rtuAdu (UInt8.ofNat id.toNat) c.prepared.pdu)]) = _
      rw [prepared_pdu, hreq]
      simp
    · rw [hreq]; exact hlow
    · rw [hreq]; exact hup
    · rintro ⟨vs, hvs⟩
      rw [hrr]
      refine m3 ?_
      rw [hresplen]
      cases he : (Spec.exec sl.unsigned (absMem w.srv.heap sl) c.toReq).1 with
      | exc code => simp [Call.answer, he] at hvs
      | ok d =>
        have := expected_ok _ _ c hc d he
        simp only [Spec.Reply.encode, List.length_cons]
        omega
    · rw [hrr]; exact m5

/-- **C78.** When the time-out of the master is not longer than that of the server, the time of a byte and the delays of the line - the default of both classes: 3.5 characters -
    every call fails with ModbusInvalidResponseError although the server carries it out; the response comes later and is there for the next call to stumble on. -/
theorem C78_impatient (R : Registry) (hR : Quiet R) (db : Databank) (id : Int) (h0 : 1 ≤ id) (h1 : id ≤ 255) (sl : Slave) (r : Refs) (L : LineSpec) (w : RtuLink)
    (hw : LinkReady db id sl r L w) (hx0 : 0 < L.x) (himp : L.x ≤ L.out + L.back + L.byte + L.t) (c : Call) (hc : c.Fits)
    (hm : sl.unsigned = true ∨ ∀ a am om, c ≠ .maskWrite a am om) :
    ∃ w' h, timedCall R db L.out L.back (c.args id) w = (.error .invalidResponse, w') ∧
      absMem w'.srv.heap sl = c.after sl.unsigned (absMem w.srv.heap sl) ∧
      w'.mst.link.port.now = w.mst.link.port.now + L.byte * (rtuAdu (UInt8.ofNat id.toNat) c.pdu).length + L.x ∧
      w'.mst.link.port.future = onLine L.byte (h + L.back) (rtuAnswer' id sl.unsigned (absMem w.srv.heap sl) c) ∧
      w'.mst.link.port.now ≤ h + L.back + L.byte := by
  obtain ⟨heap', h, a2, a3, hlow, hup, htc⟩ := link_server hR h0 h1 hw hx0 c hc hm
  have hfast := hw.fast
  have hcalls' := rtuCalls_call (s := masterDeliver w.mst (onLine L.byte (h + L.back) (rtuAnswer' id sl.unsigned (absMem w.srv.heap sl) c))) h0 h1 hc hw.opened hw.mstOpen hw.noEcho
    hw.timeout hx0
  have hsentAt : sentAt id c.prepared (masterDeliver w.mst (onLine L.byte (h + L.back) (rtuAnswer' id sl.unsigned (absMem w.srv.heap sl) c))).link.port =
      w.mst.link.port.now + L.byte * (rtuAdu (UInt8.ofNat id.toNat) c.pdu).length := by
    unfold sentAt
    rw [prepared_pdu]
    show w.mst.link.port.now + w.mst.link.port.charTime * _ = _
    rw [hw.mstByte]
  have hin : toCome (masterDeliver w.mst (onLine L.byte (h + L.back) (rtuAnswer' id sl.unsigned (absMem w.srv.heap sl) c))).link.port.now
      (masterDeliver w.mst (onLine L.byte (h + L.back) (rtuAnswer' id sl.unsigned (absMem w.srv.heap sl) c))).link.port.future =
      onLine L.byte (h + L.back) (rtuAnswer' id sl.unsigned (absMem w.srv.heap sl) c) := by
    show toCome w.mst.link.port.now (w.mst.link.port.future ++ _) = _
    rw [hw.mstQuiet, List.nil_append]
    exact toCome_later (noneBefore_onLine _ _ _) (by omega)
  obtain ⟨s1, s2, s3⟩ := C76_silent R hR _ _ _ _ _ hcalls' (by
    rw [hin, hsentAt]
    intro e he
    have := noneBefore_onLine _ _ _ e he
    omega)
  rw [htc, s1]
  refine ⟨_, h, rfl, a2, by rw [s2, hsentAt], by rw [s3, hin], ?_⟩
  show (execute R rtuMac (clockedRtu R) (c.args id) _).2.link.port.now ≤ _
  rw [s2, hsentAt]
  omega

/-! ## Programs -/

/-- the user of the master does something else -/
def RtuLink.wait (w : RtuLink) (d : Nat) : RtuLink :=
  ⟨w.srv, { w.mst with link := { w.mst.link with port := { w.mst.link.port with now := w.mst.link.port.now + d } } }⟩

/-- a program of the master: before each call the user does something else for some time -/
def timedCalls (R : Registry) (db : Databank) (out back : Nat) (id : Int) : List (Nat × Call) → RtuLink → List (Except PyErr ExecResult) × RtuLink
  | [], w => ([], w)
  | (d, c) :: cs, w =>
    let r := timedCall R db out back (c.args id) (w.wait d)
    let next := timedCalls R db out back id cs r.2
    (r.1 :: next.1, next.2)

/-- the time a call may take, in all -/
def LineSpec.callTime (L : LineSpec) (call : Call) : Nat := L.byte * (call.pdu.length + 3) + L.byte * 255 + L.out + L.back + L.reaction + 2 * L.x

theorem LinkReady.wait {db : Databank} {id : Int} {sl : Slave} {r : Refs} {L : LineSpec} {w : RtuLink} (hw : LinkReady db id sl r L w) (d : Nat) :
    LinkReady db id sl r L (w.wait d) :=
  ⟨hw.known, hw.good, hw.srvOpen, hw.running, hw.srvQuiet, hw.srvByte, hw.srvTimeout, hw.srvGap, hw.opened, hw.mstOpen, hw.noEcho, hw.noSw, hw.timeout, hw.mstQuiet, hw.mstByte, by
    have := hw.pause; show _ ≤ w.mst.link.port.now + d + _; simp only [RtuLink.wait]; omega, hw.fast⟩

/-- **C78.** A program of calls, with any pauses (none, if the user is in a hurry), gives what the specification gives for the sequence of calls, and is over in bounded time. -/
theorem C78_history (R : Registry) (hR : Quiet R) (db : Databank) (id : Int) (h0 : 1 ≤ id) (h1 : id ≤ 255) (sl : Slave) (r : Refs) (L : LineSpec) (hpat : L.Patient) :
    ∀ (cs : List (Nat × Call)) (w : RtuLink), LinkReady db id sl r L w →
    (∀ p ∈ cs, p.2.Fits ∧ (sl.unsigned = true ∨ ∀ a am om, p.2 ≠ .maskWrite a am om)) →
    (timedCalls R db L.out L.back id cs w).1 = (specCalls sl.unsigned (cs.map Prod.snd) (absMem w.srv.heap sl)).1.map outcome ∧
    absMem (timedCalls R db L.out L.back id cs w).2.srv.heap sl = (specCalls sl.unsigned (cs.map Prod.snd) (absMem w.srv.heap sl)).2 ∧
    LinkReady db id sl r L (timedCalls R db L.out L.back id cs w).2 ∧
    (timedCalls R db L.out L.back id cs w).2.mst.link.port.now ≤ w.mst.link.port.now + (cs.map fun p => p.1 + L.callTime p.2).sum
  | [], w, hw, _ => ⟨rfl, rfl, hw, Nat.le_refl _⟩
  | (d, c) :: cs, w, hw, hcs => by
    obtain ⟨hc, hm⟩ := hcs (d, c) (by simp)
    obtain ⟨w', h, r1, r2, r3, hp⟩ := C78_call R hR db id h0 h1 sl r L _ (hw.wait d) hpat c hc hm
    obtain ⟨i1, i2, i3, i4⟩ := C78_history R hR db id h0 h1 sl r L hpat cs _ r3 (fun p hp => hcs p (List.mem_cons_of_mem _ hp))
    have hmem : absMem (w.wait d).srv.heap sl = absMem w.srv.heap sl := rfl
    rw [hmem] at r1 r2 hp
    rw [r2] at i1 i2
    simp only [timedCalls, r1, List.map_cons, specCalls, List.sum_cons]
    refine ⟨by rw [i1], i2, i3, Nat.le_trans i4 ?_⟩
    have hrl : (rtuAnswer' id sl.unsigned (absMem w.srv.heap sl) c).length ≤ 255 := by
      have := reply_length sl.unsigned (absMem w.srv.heap sl) c.toReq
      simp only [rtuAnswer', rtuAdu, List.length_append, List.length_cons, List.length_nil]
      omega
    have hql : (rtuAdu (UInt8.ofNat id.toNat) c.pdu).length = c.pdu.length + 3 := by simp [rtuAdu]
    have ht := hp.soon
    have hend := hp.over
    rw [hql] at ht
    have hmul := Nat.mul_le_mul_left L.byte hrl
    have hnow : (w.wait d).mst.link.port.now = w.mst.link.port.now + d := rfl
    unfold LineSpec.callTime
    omega

/-! ### A concrete line -/

/-- 2 ticks for a byte, delays of 1, a server with time-out 7 and inter-byte time-out 3; `x`: the time-out of the master -/
def exTimedLine (x : Nat) : LineSpec := ⟨1, 1, 2, 7, some 3, x⟩

/-- a master that has done nothing, a server with two slaves -/
def exRtuLink (x : Nat) : RtuLink := ⟨exTimedSrv [], ⟨true, { timeout := some x, port := { timeout := some x, charTime := 2 } }, 0⟩⟩

theorem exRtuLink_ready (x : Nat) : LinkReady exTwo.st.db 1 ⟨1, true, [("a", (3, 10))], 0⟩ ⟨0, 1, 2, 3⟩ (exTimedLine x) (exRtuLink x) :=
  ⟨exNet_ready.known, exNet_ready.good, rfl, rfl, rfl, rfl, rfl, rfl, rfl, rfl, rfl, rfl, rfl, rfl, rfl, Nat.zero_le _, by simp [exTimedLine]⟩

example : (exTimedLine 30).Patient := by simp [LineSpec.Patient, exTimedLine, LineSpec.reaction, readLag]

-- a program in a hurry
example : (timedCalls [] exTwo.st.db 1 1 1 [(0, .writeRegisters 11 [-1, 40000]), (0, .readHolding 10 4), (0, .readHolding 14 2), (5, .readHolding 12 1)] (exRtuLink 30)).1 =
    [.ok (.values [11, 2]), .ok (.values [0, 65535, 40000, 0]), .error (.modbusError 2), .ok (.values [40000])] := by decide +kernel

-- the default time-outs on both sides: the register is written and the call fails ...
example : let r := timedCalls [] exTwo.st.db 1 1 1 [(0, .writeRegister 11 7)] (exRtuLink 7)
    r.1 = [.error .invalidResponse] ∧ (absMem r.2.srv.heap ⟨1, true, [("a", (3, 10))], 0⟩).holding.val 11 = 7 := by decide +kernel
-- ... and the late answer is taken for the answer to the next call: reading register 12 gives the value of register 11
example : let r := timedCalls [] exTwo.st.db 1 1 1 [(0, .writeRegister 11 7), (100, .readHolding 11 1), (0, .readHolding 12 1)] (exRtuLink 12)
    r.1 = [.error .invalidResponse, .error .invalidResponse, .ok (.values [7])] := by decide +kernel

end Modbus
