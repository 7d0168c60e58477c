import Verif.Props.RtuRecovery
import Verif.Props.FullStack
import Verif.Props.Malformed
/-
# Property C70: an RTU master and any number of RTU servers on one line

Everything a station (the master or a server) writes is heard by all the others, in chunks of any sizes and with silences of any lengths between
the messages, differently at every station.  The servers hear the responses of the other servers too.
-/
namespace Modbus
open Spec (rtuAdu Call word toWord Fits16 bytesFor)

/-! ## Specification -/

/-- the server that has a slave -/
def owner {n : Nat} (dbs : Fin n → Databank) (k : Int) : Option (Fin n) :=
  (List.finRange n).find? fun i => (Dict.get? (dbs i).slaves k).isSome

/-- what the master's call must return: the answer of the slave; when no server has it, or the call is a broadcast, nobody answers and
    `execute` raises -/
def busAnswer (known unsigned : Int → Bool) (m : Int → Spec.Mem) (id : Int) (c : Call) : Except PyErr ExecResult :=
  if known id then outcome (c.answer (unsigned id) (m id)) else .error .invalidResponse

/-- the memories after the call: the slave's, or all for a broadcast -/
def busAfter (known unsigned : Int → Bool) (m : Int → Spec.Mem) (id : Int) (c : Call) (k : Int) : Spec.Mem :=
  if known k = true ∧ (id = k ∨ id = 0) then c.after (unsigned k) (m k) else m k

/-- the calls one after the other -/
def busSpec (known unsigned : Int → Bool) : List (Int × Call) → (Int → Spec.Mem) → List (Except PyErr ExecResult) × (Int → Spec.Mem)
  | [], m => ([], m)
  | (id, c) :: rest, m =>
    let r := busSpec known unsigned rest (busAfter known unsigned m id c)
    (busAnswer known unsigned m id c :: r.1, r.2)

/-! ## The line -/

/-- a server -/
structure Station where
  db : Databank
  srv : RtuSrv

/-- The server hears something and its loop goes round `n` times: what has become of it and what it has written. -/
def Station.hear (R : Registry) (ev : List SerialEvent) (n : Nat) (st : Station) : Station × List Bytes :=
  let s' := (rtuRuns R st.db n { st.srv with port := { st.srv.port with future := st.srv.port.future ++ ev, sched := [] } }).2
  ({ st with srv := s' }, s'.port.written.drop st.srv.port.written.length)

/-- how the line carries the messages of one call: what every server hears of the request, what the master hears, what every server hears of
    the response; with the numbers of rounds of the servers' loops -/
structure Line (n : Nat) where
  req : Fin n → List SerialEvent × Nat
  back : List SerialEvent
  rsp : Fin n → List SerialEvent × Nat

/-- the servers after the request -/
def heard {n : Nat} (R : Registry) (l : Line n) (bus : Fin n → Station) (i : Fin n) : Station × List Bytes :=
  (bus i).hear R (l.req i).1 (l.req i).2

/-- all that the servers then write -/
def said {n : Nat} (R : Registry) (l : Line n) (bus : Fin n → Station) : List Bytes :=
  (List.finRange n).flatMap fun i => (heard R l bus i).2

/-- the servers after the response -/
def settled {n : Nat} (R : Registry) (l : Line n) (bus : Fin n → Station) (i : Fin n) : Station × List Bytes :=
  (heard R l bus i).1.hear R (l.rsp i).1 (l.rsp i).2

/-- the master's call -/
def masterCall {n : Nat} (R : Registry) (cfg : RtuCfg) (l : Line n) (id : Int) (c : Call) (m : MasterSt Port) :
    Except PyErr ExecResult × MasterSt Port :=
  execute R rtuMac (rtuChan R cfg) (c.args id) { m with link := { m.link with future := l.back, sched := [] } }

/-- The server hears exactly these messages, in chunks and with silences of any kind, and has the time to handle them. -/
def Hears (messages : List Bytes) (e : List SerialEvent × Nat) : Prop :=
  burstsFrom [] e.1 = messages ∧ SerialEvent.fail ∉ e.1 ∧ e.1.length < e.2

/-- The line carries what is written and nothing else: every server hears the master's request; the master hears, before its time-out, what the
    servers say (on a line with local echo: after its own request); the servers that said nothing hear what was said. -/
structure Faithful {n : Nat} (R : Registry) (cfg : RtuCfg) (l : Line n) (id : Int) (c : Call) (m : MasterSt Port) (bus : Fin n → Station) : Prop where
  request : ∃ request, (masterCall R cfg l id c m).2.link.written = m.link.written ++ [request] ∧ (∀ i, Hears [request] (l.req i)) ∧
    if cfg.handleLocalEcho then
      ∃ more ev, l.back = .chunk (request ++ more) :: ev ∧ more ++ chunkPrefix ev = (said R l bus).flatten
    else chunkPrefix l.back = (said R l bus).flatten
  noFail : SerialEvent.fail ∉ l.back
  response : ∀ i, Hears (if (heard R l bus i).2 = [] then said R l bus else []) (l.rsp i)

/-- calls one after the other -/
def busRun {n : Nat} (R : Registry) (cfg : RtuCfg) : List (Int × Call × Line n) → MasterSt Port → (Fin n → Station) →
    List (Except PyErr ExecResult) × (Fin n → Station)
  | [], _, bus => ([], bus)
  | (id, c, l) :: rest, m, bus =>
    let r := masterCall R cfg l id c m
    let d := busRun R cfg rest r.2 (fun i => (settled R l bus i).1)
    (r.1 :: d.1, d.2)

/-- the line is faithful during all the calls -/
def FaithfulRun {n : Nat} (R : Registry) (cfg : RtuCfg) : List (Int × Call × Line n) → MasterSt Port → (Fin n → Station) → Prop
  | [], _, _ => True
  | (id, c, l) :: rest, m, bus =>
    Faithful R cfg l id c m bus ∧ FaithfulRun R cfg rest (masterCall R cfg l id c m).2 (fun i => (settled R l bus i).1)

/-- a server waiting for a request -/
structure Station.Idle (st : Station) : Prop where
  listening : st.srv.Listening
  buf : st.srv.port.buf = []
  future : st.srv.port.future = []
  good : DbGood st.db st.srv.heap

/-- the servers wait; their slaves have numbers from 1 to 255, and no two servers have the same -/
structure BusOk {n : Nat} (bus : Fin n → Station) : Prop where
  idle : ∀ i, (bus i).Idle
  ids : ∀ i, ∀ p ∈ (bus i).db.slaves, 1 ≤ p.1 ∧ p.1 ≤ 255
  disjoint : ∀ i j k, (Dict.get? (bus i).db.slaves k).isSome → (Dict.get? (bus j).db.slaves k).isSome → i = j

/-- a master with an open port and a positive time-out -/
structure MasterOk (m : MasterSt Port) : Prop where
  opened : m.isOpened = true
  isOpen : m.link.isOpen = true
  timeout : ∃ t, m.link.timeout = some t ∧ 0 < t

/-- the call fits; the address is 0 (broadcast) or any slave number (signed slaves: mask writes excepted, see C10) -/
structure BusLegal {n : Nat} (dbs : Fin n → Databank) (id : Int) (c : Call) : Prop where
  addr : 0 ≤ id ∧ id ≤ 255
  fits : c.Fits
  mask : ∀ i, ∀ p ∈ (dbs i).slaves, (id = p.1 ∨ id = 0) → p.2.unsigned = true ∨ ∀ a am om, c ≠ .maskWrite a am om

/-- the memories of all the slaves on the line -/
def busMem {n : Nat} (bus : Fin n → Station) (k : Int) : Spec.Mem :=
  match owner (fun i => (bus i).db) k with
  | some i => memOf (bus i).db (bus i).srv.heap k
  | none => memOf ⟨[], true⟩ Heap.empty k

/-- which slaves have unsigned registers -/
def busUnsigned {n : Nat} (dbs : Fin n → Databank) (k : Int) : Bool :=
  match owner dbs k with
  | some i => unsignedOf (dbs i) k
  | none => true

/-- which slaves there are -/
def busKnown {n : Nat} (dbs : Fin n → Databank) (k : Int) : Bool := (owner dbs k).isSome

/-! ## The servers -/

/-- a request for a slave: the answer, and everybody's memory -/
theorem slave_served {R : Registry} (hR : Quiet R) {db : Databank} {h : Heap} (g : DbGood db h) {id : Int} {sl : Slave}
    (hsl : Dict.get? db.slaves id = some sl) (req : Spec.Req) (hwf : req.WF)
    (hm : sl.unsigned = true ∨ ∀ a am om, req ≠ .maskWrite a am om) :
    ∃ h', handleRequest R sl req.encode false h = (.ok ((Spec.exec sl.unsigned (absMem h sl) req).1.encode req.fc), h') ∧
      DbGood db h' ∧ ∀ k, memOf db h' k = if k = id then (Spec.exec sl.unsigned (memOf db h k) req).2 else memOf db h k := by
  have hmem := get?_mem hsl
  obtain ⟨r, gr⟩ := g.good _ hmem
  obtain ⟨h', e1, e2, e3, _⟩ := handler_refines hR gr req hwf hm
  refine ⟨h', e1, ?_⟩
  have hw : Within (h.dicts sl.mem) h h' := by
    have := handleRequest_within R sl req.encode false h
    rwa [e1] at this
  have hb := g.below _ hmem
  have ag : ∀ m, m < h.nextDict → m ≠ sl.mem → Agree m (h.dicts m) h h' := fun m h1 h2 => g.sep.agree hw.memStep hb h1 h2
  constructor
  · refine ⟨g.sep.step hw.memStep hb, ?_, g.apart, ?_⟩
    · intro p hp; rw [hw.memStep.nextDict]; exact g.below p hp
    · intro p hp
      by_cases hpe : p.2.mem = sl.mem
      · have : p = (id, sl) := by
          have hpw := g.apart
          rw [List.pairwise_iff_getElem] at hpw
          obtain ⟨x, hx, ex⟩ := List.getElem_of_mem hp
          obtain ⟨y, hy, ey⟩ := List.getElem_of_mem hmem
          rcases Nat.lt_trichotomy x y with hl | he | hl
          · have := hpw x y hx hy hl; rw [ex, ey] at this; exact absurd hpe this
          · subst he; rw [← ex, ey]
          · have := hpw y x hy hx hl; rw [ex, ey] at this; exact absurd hpe.symm this
        rw [this]; exact ⟨r, e3⟩
      · obtain ⟨r', g'⟩ := g.good p hp
        exact ⟨r', (g'.agree (ag _ (g.below p hp) hpe)).1⟩
  · intro k
    split
    · rename_i hie
      subst hie
      unfold memOf
      rw [hsl]
      exact e2
    · rename_i hne
      unfold memOf
      cases hs2 : Dict.get? db.slaves k with
      | none => rfl
      | some s2 =>
        have hm2 := get?_mem hs2
        obtain ⟨r', g'⟩ := g.good _ hm2
        exact (g'.agree (ag _ (g.below _ hm2) (pairwise_mem_ne g hs2 hsl hne))).2

theorem oneByOne_sep (R : Registry) (pdu : Bytes) (L : List (Int × Slave)) (h : Heap) (hs : SepHeap h) (hb : ∀ p ∈ L, p.2.mem < h.nextDict) :
    SepHeap (oneByOne R pdu L h) ∧ (oneByOne R pdu L h).nextDict = h.nextDict := by
  induction L generalizing h with
  | nil => exact ⟨hs, rfl⟩
  | cons p L ih =>
    have hw := handleRequest_within R p.2 pdu false h
    have hn := hw.memStep.nextDict
    have := ih (handleRequest R p.2 pdu false h).2 (hs.step hw.memStep (hb p List.mem_cons_self))
      (fun q hq => by rw [hn]; exact hb q (List.mem_cons_of_mem _ hq))
    exact ⟨this.1, this.2.trans hn⟩

/-- a broadcast: no answer, everybody's memory -/
theorem broadcast_served {R : Registry} (hR : Quiet R) {db : Databank} {h : Heap} (g : DbGood db h) (req : Spec.Req) (hwf : req.WF)
    (hm : ∀ p ∈ db.slaves, p.2.unsigned = true ∨ ∀ a am om, req ≠ .maskWrite a am om) :
    ∃ h', (dbHandle R rtuMac db (rtuAdu 0 req.encode) h = (.ok none, h') ∨ dbHandle R rtuMac db (rtuAdu 0 req.encode) h = (.ok (some []), h')) ∧
      DbGood db h' ∧ ∀ k, memOf db h' k = if (Dict.get? db.slaves k).isSome then (Spec.exec (unsignedOf db k) (memOf db h k) req).2 else memOf db h k := by
  have hp : (rtuMac.parseRequest (rtuAdu 0 req.encode) rtuMac.new).1 = .ok (0, req.encode) := by
    have := rtuParseRequest_adu 0 req.encode (rtuMac.new : RtuQuery)
    exact congrArg Prod.fst this
  by_cases hr : IsRead req
  · have hrd : ∃ fc rest, (fc = 1 ∨ fc = 2 ∨ fc = 3 ∨ fc = 4) ∧ req.encode = fc :: rest := by
      cases req <;> first | exact hr.elim | skip
      · exact ⟨1, _, .inl rfl, rfl⟩
      · exact ⟨2, _, .inr (.inl rfl), rfl⟩
      · exact ⟨3, _, .inr (.inr (.inl rfl)), rfl⟩
      · exact ⟨4, _, .inr (.inr (.inr rfl)), rfl⟩
    obtain ⟨fc, rest, hfc, he⟩ := hrd
    have := C20_read R hR rtuMac db (rtuAdu 0 req.encode) fc rest hfc (by rw [hp, he]) h
    refine ⟨h, ?_, g, ?_⟩
    · rw [this]; split <;> simp
    · intro k
      cases req <;> first | exact hr.elim | (simp only [Spec.exec]; exact (ite_self _).symm)
  · obtain ⟨i1, i2, i3⟩ := oneByOne_spec hR req hwf db.slaves h g.sep g.below g.apart g.good hm
    refine ⟨_, .inl (C20_broadcast R hR rtuMac db _ req.encode hp (notRead_encode hr hwf) h i1), ?_, ?_⟩
    · obtain ⟨s1, s2⟩ := oneByOne_sep R req.encode db.slaves h g.sep g.below
      exact ⟨s1, fun p hp => by rw [s2]; exact g.below p hp, g.apart, fun p hp => (i3 p hp).1⟩
    · intro k
      cases hk : Dict.get? db.slaves k with
      | none => simp only [memOf, hk]; rfl
      | some sl =>
        have := (i3 (k, sl) (get?_mem hk)).2
        simp only [memOf, unsignedOf, hk, Option.isSome_some, if_true]
        exact this

theorem replyOf_none {R : Registry} (hR : Quiet R) {db : Databank} {request : Bytes} {h h' : Heap}
    (e : dbHandle R rtuMac db request h = (.ok none, h') ∨ dbHandle R rtuMac db request h = (.ok (some []), h')) :
    replyOf R rtuMac db request h = (none, h') := by
  unfold replyOf
  rw [serverHandle_quiet hR]
  rcases e with e | e <;> rw [e]

/-- a frame for a slave the server does not have -/
theorem replyOf_foreign {R : Registry} (hR : Quiet R) {db : Databank} {unit : UInt8} {pdu : Bytes} {h : Heap} (h0 : unit ≠ 0)
    (hn : Dict.get? db.slaves (unit.toNat : Int) = none) : replyOf R rtuMac db (rtuAdu unit pdu) h = (none, h) := by
  refine replyOf_none hR (.inr (C21_unknown R rtuMac db _ unit.toNat pdu ?_ ?_ hn h))
  · exact congrArg Prod.fst (rtuParseRequest_adu unit pdu (rtuMac.new : RtuQuery))
  · intro e; apply h0; apply UInt8.toNat_inj.mp; simpa using e

/-- what a server that waits makes of what it hears -/
theorem hear_spec {R : Registry} (hR : Quiet R) {st : Station} (hi : st.Idle) {messages : List Bytes} {e : List SerialEvent × Nat}
    (he : Hears messages e) :
    ∃ s', st.hear R e.1 e.2 = ({ st with srv := s' }, (serveBursts R st.db messages st.srv.heap).1) ∧
      s'.heap = (serveBursts R st.db messages st.srv.heap).2 ∧ s'.Listening ∧ s'.port.buf = [] ∧ s'.port.future = [] := by
  obtain ⟨e1, e2, e3⟩ := he
  have hl : ({ st.srv with port := { st.srv.port with future := st.srv.port.future ++ e.1, sched := [] } } : RtuSrv).Listening := by
    refine ⟨hi.listening.isOpen, ?_, hi.listening.timeout⟩
    show SerialEvent.fail ∉ st.srv.port.future ++ e.1
    rw [hi.future, List.nil_append]; exact e2
  obtain ⟨s', r1, r2, r3, r4, r5⟩ := C31_server_bursts R hR st.db e.2 _ hl rfl (by
    show (st.srv.port.future ++ e.1).length < e.2
    rw [hi.future, List.nil_append]; exact e3)
  obtain ⟨s'', _, q1, q2, _⟩ := C31_server_history R hR st.db e.2 _ hl
  rw [r1] at q1
  obtain rfl := (Prod.mk.inj q1).2
  have hb : burstsFrom st.srv.port.buf (st.srv.port.future ++ e.1) = messages := by rw [hi.buf, hi.future, List.nil_append, e1]
  dsimp only at r4 r5
  rw [hb] at r4 r5
  refine ⟨s', ?_, r4, q2, r2, r3⟩
  unfold Station.hear
  rw [r1]
  dsimp only
  rw [r5, List.drop_left']
  rfl

/-! ## The master -/

theorem bits_reply_length (t : Spec.Table) {a q : Int} (hq : Fits16 q) (fc : UInt8) :
    (((Spec.readBits t (toWord a) (toWord q)).encode fc).length : Int) + 3 ≤ nbBytes q + 5 ∧ 5 ≤ nbBytes q + 5 := by
  obtain ⟨h0, h1⟩ := hq
  have hn : nbBytes q = (bytesFor q.toNat : Nat) := by unfold nbBytes bytesFor; split <;> omega
  cases h : Spec.readBits t (toWord a) (toWord q) with
  | exc c => simp [Spec.Reply.encode]; omega
  | ok d =>
    obtain ⟨hle, rfl⟩ := readBits_inv h
    have hw : (toWord q).toNat = q.toNat := by have := toWord_toNat ⟨h0, h1⟩; omega
    simp only [Spec.Reply.encode, List.length_cons, packBits_length, List.length_map, Spec.Table.read, List.length_range, hw, hn]
    omega

theorem regs_reply_length (t : Spec.Table) {a q : Int} (hq : Fits16 q) :
    (∀ d, Spec.readRegs t (toWord a) (toWord q) = .ok d → (d.length : Int) = 2 * q + 1) ∧ 0 ≤ q := by
  obtain ⟨h0, h1⟩ := hq
  refine ⟨fun d h => ?_, h0⟩
  obtain ⟨hle, rfl⟩ := readRegs_inv h
  have hw : (toWord q).toNat = q.toNat := by have := toWord_toNat ⟨h0, h1⟩; omega
  have efm : (t.read (toWord a).toNat (toWord q).toNat).flatMap (fun v => word (toWord v)) =
      ((t.read (toWord a).toNat (toWord q).toNat).map toWord).flatMap word := by simp [List.flatMap_map]
  rw [List.length_cons, efm, flatMap_word_length]
  simp only [List.length_map, Spec.Table.read, List.length_range, hw]
  omega

/-- no response is longer than what the master waits for -/
theorem reply_expected (u : Bool) (m : Spec.Mem) (c : Call) (hc : c.Fits) :
    c.prepared.expectedLength < 0 ∨ (5 ≤ c.prepared.expectedLength ∧
      (((Spec.exec u m c.toReq).1.encode c.toReq.fc).length : Int) + 3 ≤ c.prepared.expectedLength) := by
  have exc : ∀ (fc code : UInt8), (((Spec.Reply.exc code).encode fc).length : Int) = 2 := by intro fc code; simp [Spec.Reply.encode]
  have regs : ∀ (t : Spec.Table) (a q : Int) (fc : UInt8), Fits16 q →
      (((Spec.readRegs t (toWord a) (toWord q)).encode fc).length : Int) + 3 ≤ 2 * q + 5 ∧ 0 ≤ q := by
    intro t a q fc hq
    obtain ⟨h1, h2⟩ := regs_reply_length t (a := a) hq
    refine ⟨?_, h2⟩
    cases h : Spec.readRegs t (toWord a) (toWord q) with
    | exc code => rw [exc]; omega
    | ok d => have := h1 d h; simp only [Spec.Reply.encode, List.length_cons]; push_cast; omega
  cases c with
  | readCoils a q => right; have := bits_reply_length m.coils (a := a) hc.2 (Spec.Req.readCoils (toWord a) (toWord q)).fc; exact ⟨this.2, this.1⟩
  | readDiscrete a q => right; have := bits_reply_length m.discrete (a := a) hc.2 (Spec.Req.readDiscrete (toWord a) (toWord q)).fc; exact ⟨this.2, this.1⟩
  | readHolding a q => right; have := regs m.holding a q (Spec.Req.readHolding (toWord a) (toWord q)).fc hc.2; exact ⟨by simp only [Call.prepared]; omega, this.1⟩
  | readInput a q => right; have := regs m.input a q (Spec.Req.readInput (toWord a) (toWord q)).fc hc.2; exact ⟨by simp only [Call.prepared]; omega, this.1⟩
  | writeCoil a v =>
    right
    simp only [Call.prepared, Call.toReq, Spec.exec]
    repeat' split
    all_goals simp [Spec.Reply.encode, word]
  | writeRegister a v =>
    right
    simp only [Call.prepared, Call.toReq, Spec.exec]
    split <;> simp [Spec.Reply.encode, word]
  | readExceptionStatus => right; simp [Call.prepared, Call.toReq, Spec.exec, Spec.Reply.encode]
  | diagnostic sub data =>
    simp only [Call.prepared, Call.toReq, Spec.exec, exc]
    split
    · left; dsimp only; omega
    · right; dsimp only; omega
  | writeCoils a vs =>
    right
    simp only [Call.prepared, Call.toReq, Spec.exec]
    split <;> [skip; split] <;> simp [Spec.Reply.encode, word]
  | writeRegisters a vs =>
    right
    simp only [Call.prepared, Call.toReq, Spec.exec]
    split <;> [skip; split] <;> simp [Spec.Reply.encode, word]
  | readFileRecord rs =>
    right
    have hs : 0 ≤ (rs.map (·.len)).sum := by
      have hall := hc.2.2
      clear hc
      induction rs with
      | nil => simp
      | cons r rs ih =>
        have h1 := (hall r (by simp)).2.2.1
        have h2 := ih (fun r hr => hall r (by simp [hr]))
        simp only [List.map_cons, List.sum_cons]
        omega
    simp only [Call.prepared, Call.toReq, Spec.exec, exc]
    omega
  | maskWrite a am om =>
    right
    simp only [Call.prepared, Call.toReq, Spec.exec]
    split <;> simp [Spec.Reply.encode, word]
  | readWrite ra rq wa vs =>
    right
    obtain ⟨h1, h2⟩ := regs_reply_length m.holding (a := ra) hc.2.1
    simp only [Call.prepared, Call.toReq, Spec.exec]
    refine ⟨by omega, ?_⟩
    cases h : Spec.readRegs m.holding (toWord ra) (toWord rq) with
    | exc code => dsimp only; rw [exc]; omega
    | ok d =>
      have := h1 d h
      dsimp only
      split
      · rw [exc]; omega
      · split
        · rw [exc]; omega
        · simp only [Spec.Reply.encode, List.length_cons]; push_cast; omega
  | deviceInfo a b => left; simp [Call.prepared]

/-- receiving what arrives before the silence, when it is not longer than expected -/
theorem rtuRecv_all {R : Registry} (hR : Quiet R) {cfg : RtuCfg} (hsw : cfg.useSwTimeout = false) {p : Port} (ho : p.isOpen = true) {t : Nat}
    (ht : p.timeout = some t) (h0 : 0 < t) (hn : p.NoFail) {L : Int} (hL : L < 0 ∨ (5 ≤ L ∧ (p.stream.length : Int) ≤ L)) :
    ∃ p', rtuRecv R cfg L p = (.ok p.stream, p') ∧ p' = { p with buf := p'.buf, future := p'.future } := by
  have hfuel := stream_le_total p
  have main : ∃ p', rtuRecvLoop cfg L (p.total + 1) [] 0 p = (.ok p.stream, p') ∧ p' = { p with buf := p'.buf, future := p'.future } := by
    by_cases he : (p.stream.length : Int) = L
    · obtain ⟨p', e1, e2, _⟩ := rtuRecv_full hsw p.stream.length h0 (p.total + 1) [] p.stream [] p ho ht (by simp)
        (by intro h; rw [h] at he; simp at he; omega) rfl (by omega)
      refine ⟨p', ?_, e2.rest⟩
      rw [he] at e1
      exact e1
    · obtain ⟨p', e1, _, _, e4⟩ := rtuRecv_silence hsw L h0 (p.total + 1) [] p ho ht (by omega) (by simp only [List.nil_append]; omega) (NoFail.later hn)
      exact ⟨p', e1, e4⟩
  obtain ⟨p', e1, e2⟩ := main
  refine ⟨p', ?_, e2⟩
  simp only [rtuRecv, PyM.bind_apply, PyM.get_apply, e1, PyM.lift_apply, hR _ _]
  rfl

/-- sending: what the master will then hear -/
theorem send_hears {R : Registry} (hR : Quiet R) {cfg : RtuCfg} {p : Port} (ho : p.isOpen = true) {request words : Bytes} (hq : request ≠ [])
    {back : List SerialEvent} (hn : SerialEvent.fail ∉ back)
    (hb : if cfg.handleLocalEcho then ∃ more ev, back = .chunk (request ++ more) :: ev ∧ more ++ chunkPrefix ev = words
      else chunkPrefix back = words) :
    ∃ p', rtuSend R cfg request { p with future := back, sched := [] } = (.ok (), p') ∧ p'.stream = words ∧ p'.NoFail ∧ p'.isOpen = true ∧
      p'.timeout = p.timeout ∧ p'.written = p.written ++ [request] := by
  by_cases hc : cfg.handleLocalEcho = true
  · rw [if_pos hc] at hb
    obtain ⟨more, ev, rfl, h2⟩ := hb
    exact ⟨_, C65_echo R hR cfg hc { p with future := .chunk (request ++ more) :: ev, sched := [] } ho request more hq ev rfl, h2,
      fun hm => hn (List.mem_cons_of_mem _ hm), ho, rfl, rfl⟩
  · rw [if_neg hc] at hb
    have hc' : cfg.handleLocalEcho = false := by simpa using hc
    exact ⟨_, C65_plain R hR cfg hc' { p with future := back, sched := [] } ho request, hb, hn, ho, rfl, rfl⟩

/-- the request frame -/
def busRequest (id : Int) (c : Call) : Bytes := rtuAdu (UInt8.ofNat id.toNat) c.pdu

/-- the master's call, by what it hears -/
theorem master_hears {R : Registry} (hR : Quiet R) {cfg : RtuCfg} (hsw : cfg.useSwTimeout = false) {n : Nat} {l : Line n} {m : MasterSt Port}
    (hm : MasterOk m) {id : Int} (hid : 0 ≤ id ∧ id ≤ 255) {c : Call} (hc : c.Fits) {words : Bytes} (hn : SerialEvent.fail ∉ l.back)
    (hb : if cfg.handleLocalEcho then ∃ more ev, l.back = .chunk (busRequest id c ++ more) :: ev ∧ more ++ chunkPrefix ev = words
      else chunkPrefix l.back = words) {r : Except PyErr ExecResult}
    (hw : (words = [] ∧ r = .error .invalidResponse) ∨
      ∃ u mem, words = rtuAdu (UInt8.ofNat id.toNat) ((Spec.exec u mem c.toReq).1.encode c.toReq.fc) ∧ r = outcome (c.answer u mem)) :
    (masterCall R cfg l id c m).1 = r ∧ MasterOk (masterCall R cfg l id c m).2 ∧
      (masterCall R cfg l id c m).2.link.written = m.link.written ++ [busRequest id c] := by
  obtain ⟨t, ht, h0⟩ := hm.timeout
  have hop : masterOpen (rtuChan R cfg) { m with link := { m.link with future := l.back, sched := [] } } =
      (.ok (), { m with link := { m.link with future := l.back, sched := [] } }) := by unfold masterOpen; rw [if_pos hm.opened]
  have hp := prepare_call id hc
  obtain ⟨q, hbr, q1⟩ := buildRequest_rtu (pdu := c.prepared.pdu) hid.1 hid.2 (s := { m with link := { m.link with future := l.back, sched := [] } })
  obtain ⟨p1, s1, s2, s3, s4, s5, s6⟩ := send_hears hR hm.isOpen (request := busRequest id c) (by simp [busRequest, rtuAdu]) hn hb
  have hlen : c.prepared.expectedLength < 0 ∨ (5 ≤ c.prepared.expectedLength ∧ (p1.stream.length : Int) ≤ c.prepared.expectedLength) := by
    rw [s2]
    rcases hw with ⟨rfl, _⟩ | ⟨u, mem, rfl, _⟩
    · rcases reply_expected true (memOf ⟨[], true⟩ Heap.empty 0) c hc with h | h
      · exact .inl h
      · exact .inr ⟨h.1, by simp; omega⟩
    · rcases reply_expected u mem c hc with h | h
      · exact .inl h
      · refine .inr ⟨h.1, ?_⟩
        have : (rtuAdu (UInt8.ofNat id.toNat) ((Spec.exec u mem c.toReq).1.encode c.toReq.fc)).length =
          ((Spec.exec u mem c.toReq).1.encode c.toReq.fc).length + 3 := by simp [rtuAdu]
        rw [this]; push_cast; exact h.2
  obtain ⟨p2, t1, t2⟩ := rtuRecv_all hR hsw s4 (s5.trans ht) h0 s3 hlen
  have hrun : masterCall R cfg l id c m = (r, { m with link := p2 }) := by
    unfold masterCall
    rw [execute_main hR hop hp (args_slave c id) hbr]
    rw [show rtuAdu (UInt8.ofNat id.toNat) c.prepared.pdu = busRequest id c by rw [prepared_pdu]; rfl]
    dsimp only
    rw [show (rtuChan R cfg).send (busRequest id c) = rtuSend R cfg (busRequest id c) from rfl, s1]
    dsimp only
    rw [show (rtuChan R cfg).recv c.prepared.expectedLength = rtuRecv R cfg c.prepared.expectedLength from rfl, t1, s2]
    dsimp only
    rcases hw with ⟨rfl, rfl⟩ | ⟨u, mem, rfl, rfl⟩
    · have : (rtuMac.parseResponse [] q).1 = .error .invalidResponse := rfl
      rw [this]
    · have hparse := ((C25_response (rtuAdu (UInt8.ofNat id.toNat) ((Spec.exec u mem c.toReq).1.encode c.toReq.fc)) q).1 _).mpr ⟨_, rfl, q1⟩
      rw [show (rtuMac.parseResponse _ q).1 = _ from hparse]
      dsimp only
      rw [analyse_reply u mem c hc]
  rw [hrun]
  refine ⟨rfl, ⟨hm.opened, ?_, t, ?_, h0⟩, ?_⟩
  · show p2.isOpen = true; rw [t2]; exact s4
  · show p2.timeout = some t; rw [t2]; exact s5.trans ht
  · show p2.written = _; rw [t2]; exact s6

/-! ### what the master writes does not depend on what it hears -/

theorem readWait_written (n : Nat) (bl : Bool) (s : Port) (ev : List SerialEvent) : (Port.readWait n bl s ev).2.written = s.written := by
  induction ev with
  | nil => rfl
  | cons e ev ih =>
    match e with
    | .chunk [] => exact ih
    | .chunk (b :: bs) => rfl
    | .silence => unfold Port.readWait; split <;> [exact ih; rfl]
    | .fail => rfl

theorem portRead_written (n : Nat) (s : Port) : (portRead n s).2.written = s.written := by
  unfold portRead
  split
  · rfl
  · split
    · rfl
    · exact readWait_written ..

theorem rtuRecvLoop_written (cfg : RtuCfg) (L : Int) (fuel : Nat) (resp : Bytes) (k : Int) (s : Port) :
    (rtuRecvLoop cfg L fuel resp k s).2.written = s.written := by
  induction fuel generalizing resp k s with
  | zero => rfl
  | succ fuel ih =>
    have h1 := portRead_written (rtuAsk s.timeout L k) s
    simp only [rtuRecvLoop, PyM.bind_apply, PyM.get_apply]
    cases hr : portRead (rtuAsk s.timeout L k) s with
    | mk r s1 =>
      rw [hr] at h1
      cases r with
      | error e => exact h1
      | ok bs =>
        dsimp only at h1 ⊢
        have h2 : (rtuDuration cfg s1).2.written = s1.written := by unfold rtuDuration; split <;> rfl
        cases hd : rtuDuration cfg s1 with
        | mk d s2 =>
          rw [hd] at h2
          cases d with
          | error e => exact h2.trans h1
          | ok d =>
            dsimp only at h2 ⊢
            cases s.timeout with
            | none => split <;> exact h2.trans h1
            | some t =>
              dsimp only
              split
              · exact h2.trans h1
              · split
                · exact h2.trans h1
                · split
                  · exact h2.trans h1
                  · exact (ih ..).trans (h2.trans h1)

theorem rtuRecv_written {R : Registry} (hR : Quiet R) (cfg : RtuCfg) (L : Int) (s : Port) : (rtuRecv R cfg L s).2.written = s.written := by
  have h := rtuRecvLoop_written cfg L (s.total + 1) [] 0 s
  simp only [rtuRecv, PyM.bind_apply, PyM.get_apply]
  cases hr : rtuRecvLoop cfg L (s.total + 1) [] 0 s with
  | mk r s1 =>
    rw [hr] at h
    cases r with
    | error e => exact h
    | ok bs => simp only [PyM.lift_apply, hR _ _]; exact h

theorem readAway_written (k : Nat) (s : Port) : ((do let _ ← portRead k; return () : PyM Port Unit) s).2.written = s.written := by
  have := portRead_written k s
  simp only [PyM.bind_apply]
  cases hr : portRead k s with
  | mk r s1 => rw [hr] at this; cases r <;> exact this

theorem rtuSend_written {R : Registry} (hR : Quiet R) (cfg : RtuCfg) (request : Bytes) (s : Port) (ho : s.isOpen = true) :
    (rtuSend R cfg request s).2.written = s.written ++ [request] := by
  by_cases hc : cfg.handleLocalEcho = true
  · have e : rtuSend R cfg request s = (do let _ ← portRead request.length; return () : PyM Port Unit) (s.afterWrite request) := by
      have h1 : (Port.arriveN (s.sched.headD 0) s).isOpen = true := by rw [parriveN_isOpen]; exact ho
      have h2 := written_arriveN (s.sched.headD 0) s
      unfold rtuSend Port.afterWrite
      simp only [PyM.bind_apply, PyM.lift_apply, hR _ _, Option.getD_none, portResetInput, portCheck, portWrite, ho, hc]
      generalize Port.arriveN (s.sched.headD 0) s = A at h1 h2
      simp [PyM.bind_apply, h1, h2]
    rw [e, readAway_written]
    rfl
  · rw [C65_plain R hR cfg (by simpa using hc) s ho request]
    rfl

/-- whatever the master hears, it writes the request frame and nothing else -/
theorem master_writes {R : Registry} (hR : Quiet R) (cfg : RtuCfg) {n : Nat} (l : Line n) {m : MasterSt Port}
    (hm : MasterOk m) {id : Int} (hid : 0 ≤ id ∧ id ≤ 255) {c : Call} (hc : c.Fits) :
    (masterCall R cfg l id c m).2.link.written = m.link.written ++ [busRequest id c] := by
  have hop : masterOpen (rtuChan R cfg) { m with link := { m.link with future := l.back, sched := [] } } =
      (.ok (), { m with link := { m.link with future := l.back, sched := [] } }) := by unfold masterOpen; rw [if_pos hm.opened]
  have hp := prepare_call id hc
  obtain ⟨q, hbr, q1⟩ := buildRequest_rtu (pdu := c.prepared.pdu) hid.1 hid.2 (s := { m with link := { m.link with future := l.back, sched := [] } })
  have h1 := rtuSend_written hR cfg (busRequest id c) { m.link with future := l.back, sched := [] } hm.isOpen
  unfold masterCall
  rw [execute_main hR hop hp (args_slave c id) hbr]
  rw [show rtuAdu (UInt8.ofNat id.toNat) c.prepared.pdu = busRequest id c by rw [prepared_pdu]; rfl]
  dsimp only
  rw [show (rtuChan R cfg).send (busRequest id c) = rtuSend R cfg (busRequest id c) from rfl]
  cases hs : rtuSend R cfg (busRequest id c) { m.link with future := l.back, sched := [] } with
  | mk r p1 =>
    rw [hs] at h1
    cases r with
    | error e => exact h1
    | ok _ =>
      dsimp only at h1 ⊢
      rw [show (rtuChan R cfg).recv c.prepared.expectedLength = rtuRecv R cfg c.prepared.expectedLength from rfl]
      have h2 := rtuRecv_written hR cfg c.prepared.expectedLength p1
      cases hr : rtuRecv R cfg c.prepared.expectedLength p1 with
      | mk r p2 =>
        rw [hr] at h2
        cases r with
        | error e => exact h2.trans h1
        | ok resp =>
          dsimp only at h2 ⊢
          cases (rtuMac.parseResponse resp q).1 <;> exact h2.trans h1

/-! ## One call -/

theorem owner_some {n : Nat} {dbs : Fin n → Databank} {k : Int} {i : Fin n} (h : owner dbs k = some i) : (Dict.get? (dbs i).slaves k).isSome := by
  have := List.find?_some h
  exact this

theorem owner_none {n : Nat} {dbs : Fin n → Databank} {k : Int} (h : owner dbs k = none) (i : Fin n) : Dict.get? (dbs i).slaves k = none := by
  have := List.find?_eq_none.mp h i (List.mem_finRange i)
  simpa using this

theorem owner_eq {n : Nat} {dbs : Fin n → Databank} (hd : ∀ i j k, (Dict.get? (dbs i).slaves k).isSome → (Dict.get? (dbs j).slaves k).isSome → i = j)
    {k : Int} {i : Fin n} (h : (Dict.get? (dbs i).slaves k).isSome) : owner dbs k = some i := by
  cases ho : owner dbs k with
  | none => rw [owner_none ho i] at h; cases h
  | some j => rw [hd i j k h (owner_some ho)]

/-- what the server says to the request, and its slaves' memories after it -/
theorem station_request {R : Registry} (hR : Quiet R) {db : Databank} {h : Heap} (g : DbGood db h) (ids : ∀ p ∈ db.slaves, 1 ≤ p.1 ∧ p.1 ≤ 255)
    {id : Int} {c : Call} (hid : 0 ≤ id ∧ id ≤ 255) (hc : c.Fits)
    (hm : ∀ p ∈ db.slaves, (id = p.1 ∨ id = 0) → p.2.unsigned = true ∨ ∀ a am om, c ≠ .maskWrite a am om) :
    (replyOf R rtuMac db (busRequest id c) h).1 =
        (if (Dict.get? db.slaves id).isSome then
          some (rtuAdu (UInt8.ofNat id.toNat) ((Spec.exec (unsignedOf db id) (memOf db h id) c.toReq).1.encode c.toReq.fc)) else none) ∧
      DbGood db (replyOf R rtuMac db (busRequest id c) h).2 ∧
      ∀ k, memOf db (replyOf R rtuMac db (busRequest id c) h).2 k =
        if (Dict.get? db.slaves k).isSome = true ∧ (id = k ∨ id = 0) then c.after (unsignedOf db k) (memOf db h k) else memOf db h k := by
  have hreq : busRequest id c = rtuAdu (UInt8.ofNat id.toNat) c.toReq.encode := by rw [busRequest, pdu_toReq]
  have hu : ((UInt8.ofNat id.toNat).toNat : Int) = id := by rw [u8_ofNat_toNat (by omega)]; omega
  have hmask : ∀ p ∈ db.slaves, (id = p.1 ∨ id = 0) → p.2.unsigned = true ∨ ∀ a am om, c.toReq ≠ .maskWrite a am om := by
    intro p hp hi
    rcases hm p hp hi with h | h
    · exact .inl h
    · refine .inr fun a am om e => ?_
      cases c <;> simp [Call.toReq] at e
      exact h _ _ _ rfl
  by_cases h0 : id = 0
  · subst h0
    have hn0 : Dict.get? db.slaves 0 = none := by
      cases hg : Dict.get? db.slaves 0 with
      | none => rfl
      | some sl => have := ids _ (get?_mem hg); simp at this
    obtain ⟨h', e1, e2, e3⟩ := broadcast_served hR g c.toReq (toReq_WF c hc) (fun p hp => hmask p hp (.inr rfl))
    rw [hreq, show UInt8.ofNat (0 : Int).toNat = 0 from rfl, replyOf_none hR e1]
    refine ⟨by rw [hn0]; rfl, e2, fun k => ?_⟩
    rw [e3 k]
    simp only [or_true, and_true]
    rfl
  · cases hg : Dict.get? db.slaves id with
    | none =>
      have hne : UInt8.ofNat id.toNat ≠ 0 := by intro e; rw [e] at hu; exact h0 hu.symm
      rw [hreq, replyOf_foreign hR hne (by rw [hu]; exact hg)]
      refine ⟨rfl, g, fun k => ?_⟩
      rw [if_neg]
      rintro ⟨h1, rfl | h2⟩
      · rw [hg] at h1; cases h1
      · exact h0 h2
    | some sl =>
      have hmem := get?_mem hg
      obtain ⟨h', e1, e2, e3⟩ := slave_served hR g hg c.toReq (toReq_WF c hc) (hmask _ hmem (.inl rfl))
      have hparse : rtuMac.parseRequest (busRequest id c) rtuMac.new = (.ok (id, c.toReq.encode), ({ rtuMac.new with requestAddress := id } : RtuQuery)) := by
        have := rtuParseRequest_adu (UInt8.ofNat id.toNat) c.toReq.encode (rtuMac.new : RtuQuery)
        rw [hu] at this
        rw [hreq]
        exact this
      have hbuild := rtuBuildResponse_adu (UInt8.ofNat id.toNat) ((Spec.exec sl.unsigned (absMem h sl) c.toReq).1.encode c.toReq.fc)
        ({ rtuMac.new with requestAddress := id } : RtuQuery) hu.symm
      have hdb := dbHandle_some (mac := rtuMac) hparse h0 hg e1 hbuild
      have hrep : replyOf R rtuMac db (busRequest id c) h =
          (some (rtuAdu (UInt8.ofNat id.toNat) ((Spec.exec sl.unsigned (absMem h sl) c.toReq).1.encode c.toReq.fc)), h') := by
        unfold replyOf
        rw [serverHandle_quiet hR, hdb]
        rfl
      rw [hrep]
      refine ⟨?_, e2, fun k => ?_⟩
      · simp only [memOf, unsignedOf, hg, Option.isSome_some, if_true]
      · rw [e3 k]
        by_cases hk : k = id
        · subst hk
          simp only [hg, if_true, Option.isSome_some, true_or, and_self]
          simp only [memOf, unsignedOf, hg]
          rfl
        · rw [if_neg hk, if_neg]
          rintro ⟨_, rfl | h2⟩
          · exact hk rfl
          · exact h0 h2

theorem flatMap_one {α : Type} {n : Nat} (f : Fin n → List α) (j : Fin n) (h : ∀ i, i ≠ j → f i = []) : (List.finRange n).flatMap f = f j := by
  have : ∀ L : List (Fin n), L.Nodup → j ∈ L → L.flatMap f = f j := by
    intro L hn hj
    induction L with
    | nil => cases hj
    | cons a L ih =>
      rw [List.nodup_cons] at hn
      rcases List.mem_cons.mp hj with rfl | hj
      · rw [List.flatMap_cons, show L.flatMap f = [] from List.flatMap_eq_nil_iff.mpr fun i hi => h i (fun e => hn.1 (e ▸ hi)), List.append_nil]
      · rw [List.flatMap_cons, h a (fun e => hn.1 (e ▸ hj)), ih hn.2 hj, List.nil_append]
  exact this _ (List.nodup_finRange n) (List.mem_finRange j)

theorem Hears.nil_of {e : List SerialEvent × Nat} {ms : List Bytes} (h : Hears ms e) (hn : ms = []) : Hears [] e := hn ▸ h

/-- a server that waits and hears the request -/
theorem heard_spec {R : Registry} (hR : Quiet R) {n : Nat} {l : Line n} {bus : Fin n → Station} {request : Bytes} {i : Fin n}
    (hi : (bus i).Idle) (hh : Hears [request] (l.req i))
    (hg : DbGood (bus i).db (replyOf R rtuMac (bus i).db request (bus i).srv.heap).2) :
    (heard R l bus i).2 = (replyOf R rtuMac (bus i).db request (bus i).srv.heap).1.toList ∧ (heard R l bus i).1.Idle ∧
      (heard R l bus i).1.db = (bus i).db ∧
      (heard R l bus i).1.srv.heap = (replyOf R rtuMac (bus i).db request (bus i).srv.heap).2 := by
  obtain ⟨s', e1, e2, e3, e4, e5⟩ := hear_spec hR hi hh
  unfold heard
  rw [e1]
  have hs : serveBursts R (bus i).db [request] (bus i).srv.heap =
      ((replyOf R rtuMac (bus i).db request (bus i).srv.heap).1.toList, (replyOf R rtuMac (bus i).db request (bus i).srv.heap).2) := by
    simp [serveBursts]
  rw [hs] at e2 ⊢
  exact ⟨rfl, ⟨e3, e4, e5, by show DbGood (bus i).db s'.heap; rw [e2]; exact hg⟩, rfl, e2⟩

/-- a server that waits and hears nothing, or a frame for a slave it does not have -/
theorem hear_foreign {R : Registry} (hR : Quiet R) {st : Station} (hi : st.Idle) {messages : List Bytes} {e : List SerialEvent × Nat}
    (he : Hears messages e)
    (hm : messages = [] ∨ ∃ unit pdu, messages = [rtuAdu unit pdu] ∧ unit ≠ 0 ∧ Dict.get? st.db.slaves (unit.toNat : Int) = none) :
    (st.hear R e.1 e.2).2 = [] ∧ (st.hear R e.1 e.2).1.Idle ∧ (st.hear R e.1 e.2).1.db = st.db ∧
      (st.hear R e.1 e.2).1.srv.heap = st.srv.heap := by
  obtain ⟨s', e1, e2, e3, e4, e5⟩ := hear_spec hR hi he
  have hs : serveBursts R st.db messages st.srv.heap = ([], st.srv.heap) := by
    rcases hm with rfl | ⟨unit, pdu, rfl, h0, hn⟩
    · rfl
    · simp [serveBursts, replyOf_foreign hR h0 hn]
  rw [hs] at e1 e2
  rw [e1]
  exact ⟨rfl, ⟨e3, e4, e5, by show DbGood st.db s'.heap; rw [e2]; exact hi.good⟩, rfl, e2⟩

/-- everything about one call -/
theorem bus_call {R : Registry} (hR : Quiet R) {cfg : RtuCfg} (hsw : cfg.useSwTimeout = false) {n : Nat} {l : Line n} {m : MasterSt Port}
    (hm : MasterOk m) {bus : Fin n → Station} (hb : BusOk bus) {id : Int} {c : Call} (hl : BusLegal (fun i => (bus i).db) id c)
    (hf : Faithful R cfg l id c m bus) :
    (masterCall R cfg l id c m).1 = busAnswer (busKnown fun i => (bus i).db) (busUnsigned fun i => (bus i).db) (busMem bus) id c ∧
      MasterOk (masterCall R cfg l id c m).2 ∧ (said R l bus).length = (if busKnown (fun i => (bus i).db) id then 1 else 0) ∧
      (∀ i, (settled R l bus i).2 = []) ∧ BusOk (fun i => (settled R l bus i).1) ∧
      (∀ i, (settled R l bus i).1.db = (bus i).db) ∧
      busMem (fun i => (settled R l bus i).1) = busAfter (busKnown fun i => (bus i).db) (busUnsigned fun i => (bus i).db) (busMem bus) id c := by
  obtain ⟨request, hw, hreq, hback⟩ := hf.request
  rw [master_writes hR cfg l hm hl.addr hl.fits] at hw
  obtain rfl : busRequest id c = request := by simpa using hw
  have hst := fun i => station_request hR (hb.idle i).good (hb.ids i) hl.addr hl.fits (hl.mask i)
  have hhe := fun i => heard_spec hR (hb.idle i) (hreq i) (hst i).2.1
  have hu : ((UInt8.ofNat id.toNat).toNat : Int) = id := by have := hl.addr; rw [u8_ofNat_toNat (by omega)]; omega
  -- what is said
  have hsaid : (owner (fun i => (bus i).db) id = none ∧ said R l bus = []) ∨
      ∃ j, owner (fun i => (bus i).db) id = some j ∧
        said R l bus = [rtuAdu (UInt8.ofNat id.toNat) ((Spec.exec (busUnsigned (fun i => (bus i).db) id) (busMem bus id) c.toReq).1.encode c.toReq.fc)] ∧
        (∀ i, i ≠ j → Dict.get? (bus i).db.slaves id = none) ∧ (heard R l bus j).2 ≠ [] ∧ id ≠ 0 := by
    cases ho : owner (fun i => (bus i).db) id with
    | none =>
      refine .inl ⟨rfl, List.flatMap_eq_nil_iff.mpr fun i _ => ?_⟩
      rw [(hhe i).1, (hst i).1, owner_none ho i]
      rfl
    | some j =>
      have hj := owner_some ho
      have hothers : ∀ i, i ≠ j → Dict.get? (bus i).db.slaves id = none := by
        intro i hij
        cases hg : Dict.get? (bus i).db.slaves id with
        | none => rfl
        | some sl => exact absurd (hb.disjoint i j id (by rw [hg]; rfl) hj) hij
      have hself : (heard R l bus j).2 =
          [rtuAdu (UInt8.ofNat id.toNat) ((Spec.exec (busUnsigned (fun i => (bus i).db) id) (busMem bus id) c.toReq).1.encode c.toReq.fc)] := by
        rw [(hhe j).1, (hst j).1, if_pos hj]
        simp only [busUnsigned, busMem, ho]
        rfl
      refine .inr ⟨j, rfl, ?_, hothers, by rw [hself]; simp, ?_⟩
      · unfold said
        rw [flatMap_one _ j fun i hij => ?_, hself]
        rw [(hhe i).1, (hst i).1, hothers i hij]
        rfl
      · rintro rfl
        obtain ⟨sl, hsl⟩ := Option.isSome_iff_exists.mp hj
        have := hb.ids j _ (get?_mem hsl)
        simp at this
  -- the servers
  have hse : ∀ i, (settled R l bus i).2 = [] ∧ (settled R l bus i).1.Idle ∧ (settled R l bus i).1.db = (heard R l bus i).1.db ∧
      (settled R l bus i).1.srv.heap = (heard R l bus i).1.srv.heap := by
    intro i
    refine hear_foreign hR (hhe i).2.1 (hf.response i) ?_
    rcases hsaid with ⟨_, hs⟩ | ⟨j, ho, hs, hoth, hne, h0⟩
    · left; rw [hs]; split <;> rfl
    · by_cases hij : i = j
      · left; subst hij; rw [if_neg hne]
      · by_cases hi : (heard R l bus i).2 = []
        · right
          refine ⟨UInt8.ofNat id.toNat, _, by rw [if_pos hi, hs], ?_, ?_⟩
          · intro e; rw [e] at hu; exact h0 hu.symm
          · rw [hu, (hhe i).2.2.1]; exact hoth i hij
        · left; rw [if_neg hi]
  have hdb : ∀ i, (settled R l bus i).1.db = (bus i).db := fun i => (hse i).2.2.1.trans (hhe i).2.2.1
  have hdbs : (fun i => (settled R l bus i).1.db) = fun i => (bus i).db := funext hdb
  have hans : (masterCall R cfg l id c m).1 = busAnswer (busKnown fun i => (bus i).db) (busUnsigned fun i => (bus i).db) (busMem bus) id c ∧
      MasterOk (masterCall R cfg l id c m).2 := by
    have := master_hears hR hsw hm hl.addr hl.fits hf.noFail hback
      (r := busAnswer (busKnown fun i => (bus i).db) (busUnsigned fun i => (bus i).db) (busMem bus) id c) ?_
    · exact ⟨this.1, this.2.1⟩
    · rcases hsaid with ⟨ho, hs⟩ | ⟨j, ho, hs, _⟩
      · left; refine ⟨by rw [hs]; rfl, ?_⟩
        simp [busAnswer, busKnown, ho]
      · right; refine ⟨busUnsigned (fun i => (bus i).db) id, busMem bus id, by rw [hs]; simp, ?_⟩
        simp [busAnswer, busKnown, ho]
  refine ⟨hans.1, hans.2, ?_, fun i => (hse i).1, ⟨fun i => (hse i).2.1, ?_, ?_⟩, hdb, ?_⟩
  · rcases hsaid with ⟨ho, hs⟩ | ⟨j, ho, hs, _⟩ <;> simp [busKnown, ho, hs]
  · intro i; rw [hdb i]; exact hb.ids i
  · intro i j k; rw [hdb i, hdb j]; exact hb.disjoint i j k
  · funext k
    unfold busMem busAfter
    rw [hdbs]
    cases ho : owner (fun i => (bus i).db) k with
    | none => simp [busKnown, ho]
    | some j =>
      have hj := owner_some ho
      dsimp only
      rw [(hse j).2.2.1, (hse j).2.2.2, (hhe j).2.2.1, (hhe j).2.2.2, (hst j).2.2 k]
      simp only [busKnown, busUnsigned, ho, hj, Option.isSome_some]

/-! ## C70 -/

/-- **C70.** Any number of servers with any slaves, all waiting, and a master on one line; the master makes any calls, to any slaves or to all of
    them, and the line carries what is written, cut and delayed in any way, to everyone: every call returns what the specification prescribes for
    its slave's memory at that time (or raises when no server has the slave), and at the end all the memories are as the calls made one
    after the other leave them. -/
theorem C70_bus (R : Registry) (hR : Quiet R) (cfg : RtuCfg) (hsw : cfg.useSwTimeout = false) {n : Nat} (calls : List (Int × Call × Line n))
    (m : MasterSt Port) (hm : MasterOk m) (bus : Fin n → Station) (hb : BusOk bus)
    (hl : ∀ x ∈ calls, BusLegal (fun i => (bus i).db) x.1 x.2.1) (hf : FaithfulRun R cfg calls m bus) :
    let spec := busSpec (busKnown fun i => (bus i).db) (busUnsigned fun i => (bus i).db) (calls.map fun x => (x.1, x.2.1)) (busMem bus)
    (busRun R cfg calls m bus).1 = spec.1 ∧ busMem (busRun R cfg calls m bus).2 = spec.2 ∧ BusOk (busRun R cfg calls m bus).2 := by
  induction calls generalizing m bus with
  | nil => exact ⟨rfl, rfl, hb⟩
  | cons x rest ih =>
    obtain ⟨id, c, l⟩ := x
    obtain ⟨f1, f2⟩ := hf
    obtain ⟨a1, a2, _, _, a5, a6, a7⟩ := bus_call hR hsw hm hb (hl _ List.mem_cons_self) f1
    have hdbs : (fun i => (settled R l bus i).1.db) = fun i => (bus i).db := funext a6
    have := ih (masterCall R cfg l id c m).2 a2 (fun i => (settled R l bus i).1) a5
      (fun x hx => by rw [hdbs]; exact hl x (List.mem_cons_of_mem _ hx)) f2
    dsimp only at this ⊢
    rw [hdbs, a7] at this
    simp only [busRun, List.map_cons, busSpec]
    exact ⟨by rw [a1, this.1], this.2.1, this.2.2⟩

/-- **C70.** Nobody talks at the same time as another: to a request at most one server says something, and says it once - the one that has
    the slave; and nobody says anything to that response. -/
theorem C70_one_speaker (R : Registry) (hR : Quiet R) (cfg : RtuCfg) (hsw : cfg.useSwTimeout = false) {n : Nat} (l : Line n) (id : Int) (c : Call)
    (m : MasterSt Port) (hm : MasterOk m) (bus : Fin n → Station) (hb : BusOk bus)
    (hl : BusLegal (fun i => (bus i).db) id c) (hf : Faithful R cfg l id c m bus) :
    (said R l bus).length ≤ 1 ∧ (said R l bus = [] ↔ ∀ i, Dict.get? (bus i).db.slaves id = none) ∧ ∀ i, (settled R l bus i).2 = [] := by
  obtain ⟨_, _, a3, a4, _⟩ := bus_call hR hsw hm hb hl hf
  refine ⟨by rw [a3]; split <;> omega, ?_, a4⟩
  rw [← List.length_eq_zero_iff, a3]
  unfold busKnown
  cases ho : owner (fun i => (bus i).db) id with
  | none => simpa using owner_none ho
  | some j =>
    have hj := owner_some ho
    simp only [Option.isSome_some, if_true]
    constructor
    · intro h; omega
    · intro h; rw [h j] at hj; cases hj

/-! ### instance: two servers; the first has slave 1, the second slave 2 -/

def exBusWorld (i : Fin 2) : World := runDb [] (World.new true)
  (if i = 0 then [.add 1 true none, .act 1 (.block (.add "a" 3 10 5))] else [.add 2 true none, .act 2 (.block (.add "a" 3 8 3))])

def exBus (i : Fin 2) : Station where
  db := (exBusWorld i).st.db
  srv := { heap := (exBusWorld i).st.heap, port := { timeout := some 3 }, timeout := 3, block := true }

theorem exBus_slaves : (exBus 0).db.slaves = [(1, ⟨1, true, [("a", (3, 10))], 0⟩)] ∧ (exBus 1).db.slaves = [(2, ⟨2, true, [("a", (3, 8))], 0⟩)] := by
  decide +kernel

theorem exBus_ok : BusOk exBus := by
  have two : ∀ i : Fin 2, i = 0 ∨ i = 1 := by decide
  refine ⟨fun i => ⟨⟨rfl, by simp [exBus, Port.NoFail], fun h => by cases h⟩, rfl, rfl, ?_⟩, fun i p hp => ?_, fun i j k h1 h2 => ?_⟩
  · have hi : WorldInv (exBusWorld i) := worldInv_run [] _ (worldInv_new true)
    rcases two i with rfl | rfl
    · refine ⟨hi.sep, ?_, ?_, ?_⟩
      · rw [exBus_slaves.1]; decide +kernel
      · rw [exBus_slaves.1]; simp
      · rw [exBus_slaves.1]; intro p hp
        simp only [List.mem_singleton] at hp
        subst hp
        exact ⟨_, block_good (a := 0) (b := 1) (c := 2) (d := 3) (bs := [Block.new 10 5]) (by decide +kernel) (by decide)
          (by decide +kernel) (by decide +kernel) (by decide +kernel) (by decide +kernel) (single_wf (by decide) true).1 (single_wf (by decide) _).2⟩
    · refine ⟨hi.sep, ?_, ?_, ?_⟩
      · rw [exBus_slaves.2]; decide +kernel
      · rw [exBus_slaves.2]; simp
      · rw [exBus_slaves.2]; intro p hp
        simp only [List.mem_singleton] at hp
        subst hp
        exact ⟨_, block_good (a := 0) (b := 1) (c := 2) (d := 3) (bs := [Block.new 8 3]) (by decide +kernel) (by decide)
          (by decide +kernel) (by decide +kernel) (by decide +kernel) (by decide +kernel) (single_wf (by decide) true).1 (single_wf (by decide) _).2⟩
  · rcases two i with rfl | rfl
    · rw [exBus_slaves.1] at hp; simp at hp; subst hp; decide
    · rw [exBus_slaves.2] at hp; simp at hp; subst hp; decide
  · rcases two i with rfl | rfl <;> rcases two j with rfl | rfl <;> try rfl
    all_goals
      rw [exBus_slaves.1] at *
      rw [exBus_slaves.2] at *
      simp [Dict.get?] at h1 h2
      omega

/-- how the messages of a call arrive; `who` answers -/
def exLine (q r : Bytes) (who : Nat) : Line 2 where
  req i := (if i = 0 then [.chunk (q.take 1), .chunk (q.drop 1), .silence] else [.silence, .chunk q], 9)
  back := [.chunk (r.take 2), .chunk (r.drop 2), .silence]
  rsp i := (if i.val = who then [] else [.chunk r, .silence], 9)

/-- a write to slave 1, a write to everybody, a read from slave 2, a read from nobody -/
def exCalls : List (Int × Call × Line 2) :=
  [(1, .writeRegister 11 7, exLine (rtuAdu 1 [6, 0, 11, 0, 7]) (rtuAdu 1 [6, 0, 11, 0, 7]) 0),
   (0, .writeRegister 10 9, exLine (rtuAdu 0 [6, 0, 10, 0, 9]) [] 2),
   (2, .readHolding 10 1, exLine (rtuAdu 2 [3, 0, 10, 0, 1]) (rtuAdu 2 [3, 2, 0, 9]) 1),
   (5, .readHolding 10 1, exLine (rtuAdu 5 [3, 0, 10, 0, 1]) [] 2)]

def exBusMaster : MasterSt Port := ⟨true, { timeout := some 3 }, 0⟩

instance (ms : List Bytes) (e : List SerialEvent × Nat) : Decidable (Hears ms e) := by unfold Hears; infer_instance

theorem exBus_faithful : FaithfulRun [] {} exCalls exBusMaster exBus := by
  refine ⟨⟨⟨rtuAdu 1 [6, 0, 11, 0, 7], by decide +kernel, by decide +kernel, ?_⟩, by decide +kernel, by decide +kernel⟩,
    ⟨⟨rtuAdu 0 [6, 0, 10, 0, 9], by decide +kernel, by decide +kernel, ?_⟩, by decide +kernel, by decide +kernel⟩,
    ⟨⟨rtuAdu 2 [3, 0, 10, 0, 1], by decide +kernel, by decide +kernel, ?_⟩, by decide +kernel, by decide +kernel⟩,
    ⟨⟨rtuAdu 5 [3, 0, 10, 0, 1], by decide +kernel, by decide +kernel, ?_⟩, by decide +kernel, by decide +kernel⟩, trivial⟩
  all_goals rw [if_neg (by decide)]; decide +kernel

theorem exBus_legal : ∀ x ∈ exCalls, BusLegal (fun i => (exBus i).db) x.1 x.2.1 := by
  intro x hx
  simp only [exCalls, List.mem_cons, List.not_mem_nil, or_false] at hx
  rcases hx with rfl | rfl | rfl | rfl <;>
    exact ⟨by decide, by decide, fun _ _ _ _ => .inr (by intro a am om e; cases e)⟩

example : BusOk (busRun [] {} exCalls exBusMaster exBus).2 :=
  (C70_bus [] quiet_nil {} rfl exCalls exBusMaster ⟨rfl, rfl, 3, rfl, by decide⟩ exBus exBus_ok exBus_legal exBus_faithful).2.2

example : (busRun [] {} exCalls exBusMaster exBus).1 =
    [.ok (.values [11, 7]), .error .invalidResponse, .ok (.values [9]), .error .invalidResponse] := by decide +kernel

/-- Two servers with the same slave number both answer (why `BusOk.disjoint` is assumed). -/
theorem C70_clash : (said [] (exLine (rtuAdu 1 [3, 0, 11, 0, 1]) [] 2) (fun _ => exBus 0)).length = 2 := by decide +kernel

end Modbus
