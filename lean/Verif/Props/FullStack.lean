import Verif.Props.TcpServer
/-
# Property C60: TCP masters and a TCP server together

The whole stack: `TcpMaster.execute` on sockets, a `TcpServer` serving all the connections, the slaves' memories.  The network delivers what
was sent, in order, in segments of any sizes.
-/
namespace Modbus
open Spec (word wordAt tcpAdu Call)

/-! ## Specification -/

/-- a call made by a master; `tid` is the value of the transaction counter before it (the counter is shared by all the masters of a program,
    so it may be anything) -/
structure Job where
  tid : Int
  id : Int
  call : Call

/-- the arguments fit, and the server has the slave (signed slaves: mask writes excepted, see C10) -/
structure Job.Legal (db : Databank) (j : Job) : Prop where
  tid : 0 ≤ j.tid ∧ j.tid ≤ 65535
  id : 1 ≤ j.id ∧ j.id ≤ 255
  fits : j.call.Fits
  len : j.call.pdu.length ≤ 65534
  known : ∃ sl, Dict.get? db.slaves j.id = some sl ∧ (sl.unsigned = true ∨ ∀ a am om, j.call ≠ .maskWrite a am om)

/-- the request frame of the call -/
def Job.request (j : Job) : Bytes :=
  tcpAdu (UInt16.ofNat ((j.tid + 1) % 65536).toNat) 0 (UInt8.ofNat j.id.toNat) j.call.pdu

/-- the memories of the slaves, by id -/
def memOf (db : Databank) (h : Heap) (id : Int) : Spec.Mem :=
  match Dict.get? db.slaves id with
  | some sl => absMem h sl
  | none => ⟨⟨[], fun _ => 0⟩, ⟨[], fun _ => 0⟩, ⟨[], fun _ => 0⟩, ⟨[], fun _ => 0⟩⟩

/-- the slave's registers are unsigned -/
def unsignedOf (db : Databank) (id : Int) : Bool :=
  match Dict.get? db.slaves id with
  | some sl => sl.unsigned
  | none => true

/-- What the specification prescribes when the calls of the list are made one after the other, in this order: who gets which answer, and the
    memories at the end.  (The first component of a pair is the number of the connection.) -/
def oneAfterTheOther (u : Int → Bool) : List (Nat × Job) → (Int → Spec.Mem) → List (Nat × Except UInt8 (List Int)) × (Int → Spec.Mem)
  | [], m => ([], m)
  | (i, j) :: rest, m =>
    let r := oneAfterTheOther u rest (fun id => if id = j.id then j.call.after (u id) (m id) else m id)
    ((i, j.call.answer (u j.id) (m j.id)) :: r.1, r.2)

/-- the entries of one connection -/
def entriesOf {α} (i : Nat) (l : List (Nat × α)) : List α := (l.filter (fun p => p.1 = i)).map (·.2)

/-- a master with a connection on which nothing is waiting -/
def Connected (s : MasterSt TcpLink) : Prop :=
  s.isOpened = true ∧ ∃ k, s.link.sock = some k ∧ k.closed = false ∧ k.buf = [] ∧ k.ended = none

/-- the network will deliver these segments to the master, not before the request has been sent -/
def TcpLink.deliver (segments : List Bytes) (l : TcpLink) : TcpLink :=
  { l with sock := l.sock.map fun k => { k with future := segments.map NetEvent.data, sched := [] } }

/-- A master makes calls on its connection; during each call the network delivers the given segments. -/
def dialogue (R : Registry) : List (Job × List Bytes) → MasterSt TcpLink → List (Except PyErr ExecResult) × MasterSt TcpLink
  | [], s => ([], s)
  | (j, segments) :: rest, s =>
    let r := execute R tcpMac (tcpChan R) (j.call.args j.id) { s with lastTid := j.tid, link := s.link.deliver segments }
    let d := dialogue R rest r.2
    (r.1 :: d.1, d.2)

/-- what the master has sent on its connection -/
def masterSent (s : MasterSt TcpLink) : List Bytes := (s.link.sock.map Sock.sent).getD []

/-- the slaves are in good order and have memories of their own -/
structure DbGood (db : Databank) (h : Heap) : Prop where
  sep : SepHeap h
  below : ∀ p ∈ db.slaves, p.2.mem < h.nextDict
  apart : db.slaves.Pairwise (fun p q => p.2.mem ≠ q.2.mem)
  good : ∀ p ∈ db.slaves, ∃ r, Good h p.2 r

/-! ## The server's side -/

theorem pairwise_mem_ne {db : Databank} {h : Heap} (g : DbGood db h) {i j : Int} {a b : Slave} (ha : Dict.get? db.slaves i = some a)
    (hb : Dict.get? db.slaves j = some b) (hne : i ≠ j) : a.mem ≠ b.mem := by
  have h1 := get?_mem ha
  have h2 := get?_mem hb
  have hp := g.apart
  rw [List.pairwise_iff_getElem] at hp
  obtain ⟨x, hx, ex⟩ := List.getElem_of_mem h1
  obtain ⟨y, hy, ey⟩ := List.getElem_of_mem h2
  rcases Nat.lt_trichotomy x y with hl | he | hl
  · have := hp x y hx hy hl; rw [ex, ey] at this; exact this
  · subst he; rw [ex] at ey; exact absurd (Prod.mk.inj ey).1 hne
  · have := hp y x hy hx hl; rw [ex, ey] at this; exact this.symm

/-- a legal request is answered as prescribed, for the memory the slave has at that moment -/
theorem serve_job {R : Registry} (hR : Quiet R) {db : Databank} {h : Heap} (g : DbGood db h) {j : Job} (hj : j.Legal db) :
    ∃ h', answerTo R db j.request h =
        (some (tcpAdu (UInt16.ofNat ((j.tid + 1) % 65536).toNat) 0 (UInt8.ofNat j.id.toNat)
          ((Spec.exec (unsignedOf db j.id) (memOf db h j.id) j.call.toReq).1.encode j.call.toReq.fc)), h') ∧
      DbGood db h' ∧ ∀ id, memOf db h' id = if id = j.id then j.call.after (unsignedOf db id) (memOf db h id) else memOf db h id := by
  obtain ⟨sl, hsl, hm⟩ := hj.known
  have hmem := get?_mem hsl
  obtain ⟨r, gr⟩ := g.good _ hmem
  have hm' : sl.unsigned = true ∨ ∀ a am om, j.call.toReq ≠ .maskWrite a am om := by
    rcases hm with h | h
    · exact .inl h
    · right; intro a am om e
      cases hc : j.call <;> rw [hc] at e h <;> first | exact absurd rfl (h _ _ _) | (simp [Call.toReq] at e)
  obtain ⟨h', e1, e2, e3, _⟩ := handler_refines hR gr j.call.toReq (toReq_WF j.call hj.fits) hm'
  have hu : unsignedOf db j.id = sl.unsigned := by unfold unsignedOf; rw [hsl]
  have hmo : memOf db h j.id = absMem h sl := by unfold memOf; rw [hsl]
  rw [hu, hmo]
  have hrl := reply_length sl.unsigned (absMem h sl) j.call.toReq
  have hid : ((UInt8.ofNat j.id.toNat).toNat : Int) = j.id := by
    have := hj.id
    rw [UInt8.toNat_ofNat', Nat.mod_eq_of_lt (by omega)]; omega
  have hid1 := hj.id.1
  have hlen := hj.len
  unfold Job.request
  rw [pdu_toReq] at hlen ⊢
  generalize UInt8.ofNat j.id.toNat = unit at hid ⊢
  generalize UInt16.ofNat ((j.tid + 1) % 65536).toNat = tid
  generalize (Spec.exec sl.unsigned (absMem h sl) j.call.toReq).1.encode j.call.toReq.fc = rep at e1 hrl ⊢
  have hpr : tcpMac.parseRequest (tcpAdu tid 0 unit j.call.toReq.encode) tcpMac.new = _ :=
    tcpParseRequest_adu tid 0 unit hlen (tcpMac.new : TcpQuery)
  have e4 := tcpBuildResponse_adu tid 0 unit (pdu := rep) (by omega)
    ({ (tcpMac.new : TcpQuery) with request := ⟨tid.toNat, (0 : UInt16).toNat, j.call.toReq.encode.length + 1, unit.toNat⟩ }) ⟨_, rfl⟩
  have hdb : dbHandle R tcpMac db (tcpAdu tid 0 unit j.call.toReq.encode) h = (.ok (some (tcpAdu tid 0 unit rep)), h') :=
    dbHandle_some hpr (by omega) (by rw [hid]; exact hsl) e1 e4
  refine ⟨h', ?_, ?_, ?_⟩
  · unfold answerTo
    rw [serverHandle_quiet hR, hdb]
    rfl
  all_goals
    have hw : Within (h.dicts sl.mem) h h' := by
      have := handleRequest_within R sl j.call.toReq.encode false h
      rwa [e1] at this
    have hb := g.below _ hmem
    have ag : ∀ m, m < h.nextDict → m ≠ sl.mem → Agree m (h.dicts m) h h' := fun m h1 h2 => g.sep.agree hw.memStep hb h1 h2
  · refine ⟨g.sep.step hw.memStep hb, ?_, g.apart, ?_⟩
    · intro p hp; rw [hw.memStep.nextDict]; exact g.below p hp
    · intro p hp
      by_cases hpe : p.2.mem = sl.mem
      · have : p = (j.id, sl) := by
          have hpw := g.apart
          rw [List.pairwise_iff_getElem] at hpw
          obtain ⟨x, hx, ex⟩ := List.getElem_of_mem hp
          obtain ⟨y, hy, ey⟩ := List.getElem_of_mem hmem
          rcases Nat.lt_trichotomy x y with hl | he | hl
          · have := hpw x y hx hy hl; rw [ex, ey] at this; exact absurd hpe this
          · subst he; rw [← ex, ey]
          · have := hpw y x hy hx hl; rw [ex, ey] at this; exact absurd hpe.symm this
        rw [this]; exact ⟨r, e3⟩
      · obtain ⟨r', g'⟩ := g.good p hp
        exact ⟨r', (g'.agree (ag _ (g.below p hp) hpe)).1⟩
  · intro id
    split
    · rename_i hie
      subst hie
      unfold memOf unsignedOf
      rw [hsl]
      exact e2
    · rename_i hne
      unfold memOf
      cases hs2 : Dict.get? db.slaves id with
      | none => rfl
      | some s2 =>
        have hm2 := get?_mem hs2
        obtain ⟨r', g'⟩ := g.good _ hm2
        exact (g'.agree (ag _ (g.below _ hm2) (pairwise_mem_ne g hs2 hsl hne))).2

/-! ## The master's side -/

theorem dataPrefix_map (segs : List Bytes) : dataPrefix (segs.map NetEvent.data) = segs.flatten ∧ afterData (segs.map NetEvent.data) = [] := by
  induction segs with
  | nil => exact ⟨rfl, rfl⟩
  | cons a segs ih => simp [dataPrefix, afterData, ih]

/-- a response that arrives in any segmentation is analysed as prescribed -/
theorem master_job {R : Registry} (hR : Quiet R) {db : Databank} {j : Job} (hj : j.Legal db) {s : MasterSt TcpLink} (hs : Connected s)
    (u : Bool) (m : Spec.Mem) (segs : List Bytes)
    (hseg : segs.flatten = tcpAdu (UInt16.ofNat ((j.tid + 1) % 65536).toNat) 0 (UInt8.ofNat j.id.toNat)
      ((Spec.exec u m j.call.toReq).1.encode j.call.toReq.fc)) :
    ∃ s', execute R tcpMac (tcpChan R) (j.call.args j.id) { s with lastTid := j.tid, link := s.link.deliver segs } =
      (outcome (j.call.answer u m), s') ∧ Connected s' ∧ masterSent s' = masterSent s ++ [j.request] := by
  obtain ⟨ho, k, hk, hc, hb, he⟩ := hs
  have hop : masterOpen (tcpChan R) { s with lastTid := j.tid, link := s.link.deliver segs } =
      (.ok (), { s with lastTid := j.tid, link := s.link.deliver segs }) := by unfold masterOpen; rw [if_pos ho]
  have hp := prepare_call j.id hj.fits
  have hl' : j.call.prepared.pdu.length ≤ 65534 := by rw [prepared_pdu]; exact hj.len
  obtain ⟨q, hbr, q1, q2, q3⟩ := buildRequest_tcp (pdu := j.call.prepared.pdu) hl' (by have := hj.id; omega : 0 ≤ j.id) hj.id.2
    (s := { s with lastTid := j.tid, link := s.link.deliver segs }) hj.tid
  rw [execute_main hR hop hp (args_slave j.call j.id) hbr]
  have hrl := reply_length u m j.call.toReq
  generalize hrep : (Spec.exec u m j.call.toReq).1.encode j.call.toReq.fc = rep at hseg hrl
  have hjreq : j.request = tcpAdu (UInt16.ofNat ((j.tid + 1) % 65536).toNat) 0 (UInt8.ofNat j.id.toNat) j.call.prepared.pdu := by
    rw [prepared_pdu]; rfl
  generalize UInt16.ofNat ((j.tid + 1) % 65536).toNat = tid at *
  generalize UInt8.ofNat j.id.toNat = unit at *
  generalize hreq : tcpAdu tid 0 unit j.call.prepared.pdu = req at *
  -- sending
  have hdel : (s.link.deliver segs).sock = some { k with future := segs.map NetEvent.data, sched := [] } := by
    unfold TcpLink.deliver; rw [hk]; rfl
  have hsend : (tcpChan R).send req (s.link.deliver segs) =
      (.ok (), { s.link.deliver segs with sock := some { k with future := segs.map NetEvent.data, sched := [], sent := k.sent ++ [req] } }) := by
    show tcpSend R req _ = _
    obtain ⟨buf, ended, future, sched, sent, closed⟩ := k
    dsimp only at hc hb he
    subst hc hb he
    simp only [tcpSend, PyM.bind_apply, PyM.lift_apply, hR _ _, PyM.tryExcept_apply, onSock, hdel, flushSocket, sockPoll, Sock.arriveN,
      Sock.readable, Option.getD_none, sockSend, List.headD_nil, List.tail_nil]
    rfl
  dsimp only
  rw [hsend]
  dsimp only
  -- receiving
  obtain ⟨k', r1, r2, r3, r4, r5⟩ := C30_reads R hR { s.link.deliver segs with sock := some { k with future := segs.map NetEvent.data, sched := [], sent := k.sent ++ [req] } }
    { k with future := segs.map NetEvent.data, sched := [], sent := k.sent ++ [req] } rfl hc (tcpAdu tid 0 unit rep) []
    (tcpAdu_complete tid 0 unit (by omega))
    (by unfold Sock.stream; rw [if_pos he, hb, (dataPrefix_map segs).1, hseg]; simp) j.call.prepared.expectedLength
  rw [show (tcpChan R).recv j.call.prepared.expectedLength = tcpRecv R j.call.prepared.expectedLength from rfl, r1]
  dsimp only
  have hparse := (C24_accepts (tcpAdu tid 0 unit rep) q rep).mpr ⟨_, _, _, rfl, by omega, q1, q2, q3⟩
  rw [show (tcpMac.parseResponse (tcpAdu tid 0 unit rep) q).1 = _ from hparse]
  dsimp only
  rw [← hrep, analyse_reply u m j.call hj.fits]
  have hla : k'.later = [] := by
    rw [r3]; simp only [Sock.later, he]; exact (dataPrefix_map segs).2
  refine ⟨_, rfl, ⟨ho, k', rfl, r5, ?_, ?_⟩, ?_⟩
  · exact (List.append_eq_nil_iff.mp r2).1
  · unfold Sock.later at hla; cases hke : k'.ended with
    | none => rfl
    | some e => rw [hke] at hla; cases e <;> simp at hla
  · show (k'.sent : List Bytes) = masterSent s ++ [j.request]
    rw [r4]
    simp only [masterSent, hk, Option.map_some, Option.getD_some]
    rw [show j.request = req from hjreq]

/-! ## Together -/

/-- a response frame and what it means -/
def Matches (j : Job) (b : Bytes) (a : Except UInt8 (List Int)) : Prop :=
  ∃ u m, b = tcpAdu (UInt16.ofNat ((j.tid + 1) % 65536).toNat) 0 (UInt8.ofNat j.id.toNat)
      ((Spec.exec u m j.call.toReq).1.encode j.call.toReq.fc) ∧ a = j.call.answer u m

theorem dialogue_ok {R : Registry} (hR : Quiet R) {db : Databank} (L : List (Job × Bytes × Except UInt8 (List Int)))
    (hL : ∀ t ∈ L, t.1.Legal db ∧ Matches t.1 t.2.1 t.2.2) (segs : List (List Bytes)) (hseg : segs.map List.flatten = L.map (·.2.1))
    (more : List Job) (s : MasterSt TcpLink) (hs : Connected s) :
    (dialogue R ((L.map (·.1) ++ more).zip segs) s).1 = (L.map (·.2.2)).map outcome ∧
    masterSent (dialogue R ((L.map (·.1) ++ more).zip segs) s).2 = masterSent s ++ (L.map (·.1)).map Job.request := by
  induction L generalizing segs s with
  | nil =>
    have : segs = [] := by simpa using hseg
    subst this
    simp [dialogue]
  | cons t L ih =>
    obtain ⟨j, b, a⟩ := t
    cases segs with
    | nil => simp at hseg
    | cons sg segs =>
      simp only [List.map_cons, List.cons.injEq] at hseg
      obtain ⟨hl, u, m, hb, ha⟩ := hL (j, b, a) (by simp)
      dsimp only at hl hb ha
      obtain ⟨s', e1, e2, e3⟩ := master_job hR hl hs u m sg (hseg.1.trans hb)
      obtain ⟨i1, i2⟩ := ih (fun t ht => hL t (by simp [ht])) segs hseg.2 s' e2
      simp only [List.map_cons, List.cons_append, List.zip_cons_cons, dialogue, e1]
      rw [i1, i2, e3, ha]
      exact ⟨rfl, by simp⟩

theorem find_jobs (log : List (Nat × Bytes)) (prog : Nat → List Job) (h : ∀ i, ofConn i log <+: (prog i).map Job.request) :
    ∃ seq : List (Nat × Job), seq.map (fun p => (p.1, p.2.request)) = log ∧ ∀ i, entriesOf i seq <+: prog i := by
  induction log generalizing prog with
  | nil => exact ⟨[], rfl, fun i => List.nil_prefix⟩
  | cons p log ih =>
    obtain ⟨i, f⟩ := p
    have hi := h i
    have e : ofConn i ((i, f) :: log) = f :: ofConn i log := by simp [ofConn]
    rw [e] at hi
    match hp : prog i with
    | [] => rw [hp] at hi; simp at hi
    | j :: tl =>
      rw [hp, List.map_cons, List.cons_prefix_cons] at hi
      obtain ⟨seq, s1, s2⟩ := ih (Function.update prog i tl) (by
        intro i'
        by_cases hi' : i' = i
        · subst hi'; rw [Function.update_self]; exact hi.2
        · rw [Function.update_of_ne hi']
          have := h i'
          rwa [show ofConn i' ((i, f) :: log) = ofConn i' log from by simp [ofConn, Ne.symm hi']] at this)
      refine ⟨(i, j) :: seq, by simp [s1, hi.1], ?_⟩
      intro i'
      have := s2 i'
      by_cases hi' : i' = i
      · subst hi'
        rw [Function.update_self] at this
        rw [hp, show entriesOf i' ((i', j) :: seq) = j :: entriesOf i' seq from by simp [entriesOf]]
        exact List.cons_prefix_cons.mpr ⟨rfl, this⟩
      · rw [Function.update_of_ne hi'] at this
        rwa [show entriesOf i' ((i, j) :: seq) = entriesOf i' seq from by simp [entriesOf, Ne.symm hi']]

theorem serve_jobs {R : Registry} (hR : Quiet R) {db : Databank} (seq : List (Nat × Job)) (hl : ∀ p ∈ seq, p.2.Legal db) (h : Heap)
    (g : DbGood db h) (m : Int → Spec.Mem) (hm : m = memOf db h) :
    ∃ T : List (Nat × (Job × Bytes × Except UInt8 (List Int))), (∀ t ∈ T, t.2.1.Legal db ∧ Matches t.2.1 t.2.2.1 t.2.2.2) ∧
      T.map (fun t => (t.1, t.2.1)) = seq ∧
      T.map (fun t => (t.1, t.2.2.1)) = (serveAll R db (seq.map (fun p => (p.1, p.2.request))) h).2 ∧
      T.map (fun t => (t.1, t.2.2.2)) = (oneAfterTheOther (unsignedOf db) seq m).1 ∧
      memOf db (serveAll R db (seq.map (fun p => (p.1, p.2.request))) h).1 = (oneAfterTheOther (unsignedOf db) seq m).2 := by
  induction seq generalizing h m with
  | nil => exact ⟨[], by simp, rfl, rfl, rfl, hm.symm⟩
  | cons p seq ih =>
    obtain ⟨i, j⟩ := p
    have hj := hl (i, j) (by simp)
    obtain ⟨h', e1, e2, e3⟩ := serve_job hR g hj
    obtain ⟨T, t1, t2, t3, t4, t5⟩ := ih (fun p hp => hl p (by simp [hp])) h' e2
      (fun id => if id = j.id then j.call.after (unsignedOf db id) (m id) else m id) (by
        funext id; rw [e3 id, hm])
    refine ⟨(i, j, tcpAdu (UInt16.ofNat ((j.tid + 1) % 65536).toNat) 0 (UInt8.ofNat j.id.toNat)
      ((Spec.exec (unsignedOf db j.id) (memOf db h j.id) j.call.toReq).1.encode j.call.toReq.fc),
      j.call.answer (unsignedOf db j.id) (m j.id)) :: T, ?_, ?_, ?_, ?_, ?_⟩
    rotate_left 2
    · simp only [List.map_cons, serveAll, e1, ← t3]
      rfl
    · simp only [List.map_cons, oneAfterTheOther, t4]
    · simp only [List.map_cons, serveAll, e1, oneAfterTheOther, t5]
    · intro t ht
      rcases List.mem_cons.mp ht with rfl | ht
      · exact ⟨hj, _, _, rfl, by rw [hm]⟩
      · exact t1 t ht
    · simp only [List.map_cons, t2]

theorem entriesOf_map {α β} (i : Nat) (f : α → β) (T : List (Nat × α)) :
    entriesOf i (T.map fun t => (t.1, f t.2)) = (entriesOf i T).map f := by
  induction T with
  | nil => rfl
  | cons t T ih =>
    unfold entriesOf at *
    by_cases h : t.1 = i
    · simp [h, ih]
    · simp [h, ih]

/-- **C60.** TCP masters, each on its own connection, make calls; the server is scheduled in any way, the requests and the responses arrive
    in any segments.  There is one sequence of the calls - the calls of each master in its own order - such that every master gets, for
    each of its calls that was served, what the specification prescribes when the calls of the sequence are made one after the other; the
    slaves' memories at the end are those after the sequence.  Between them the masters send exactly the requests the server was given. -/
theorem C60_linearizable (R : Registry) (hR : Quiet R) (db : Databank) (s : Srv) (hg : DbGood db s.heap) (prog : Nat → List Job)
    (hlegal : ∀ i, ∀ j ∈ prog i, j.Legal db) (hin : ∀ i, (s.socks i).allData = ((prog i).map Job.request).flatten)
    (hu : ∀ i, (s.socks i).Unbroken) (hsent : ∀ i, (s.socks i).sent = []) (rounds : List Round) :
    ∃ seq : List (Nat × Job), (∀ i, entriesOf i seq <+: prog i) ∧
      memOf db (srvRounds R db rounds s).2.heap = (oneAfterTheOther (unsignedOf db) seq (memOf db s.heap)).2 ∧
      ∀ (i : Nat) (m : MasterSt TcpLink) (segs : List (List Bytes)), Connected m →
        segs.map List.flatten = ((srvRounds R db rounds s).2.socks i).sent →
        (dialogue R ((prog i).zip segs) m).1 =
          (entriesOf i (oneAfterTheOther (unsignedOf db) seq (memOf db s.heap)).1).map outcome ∧
        masterSent (dialogue R ((prog i).zip segs) m).2 = masterSent m ++ (entriesOf i seq).map Job.request := by
  obtain ⟨log, hh⟩ := C29_history R hR db rounds s
  have hsf : ∀ i, ∀ f ∈ (prog i).map Job.request, ServerFrame f := by
    intro i f hf
    obtain ⟨j, hj, rfl⟩ := List.mem_map.mp hf
    exact serverFrame_adu _ _ _ (hlegal i j hj).len
  obtain ⟨seq, q1, q2⟩ := find_jobs log prog (by
    intro i
    obtain ⟨rest, d, _⟩ := (hh.conn i).data
    exact frames_prefix _ _ rest [] (hh.conn i).frame (hsf i) (by unfold Framed; simp) (by rw [← d, hin i, List.append_nil]))
  subst q1
  have hl : ∀ p ∈ seq, p.2.Legal db := by
    intro p hp
    refine hlegal p.1 p.2 ((q2 p.1).subset ?_)
    exact List.mem_map.mpr ⟨p, List.mem_filter.mpr ⟨hp, by simp⟩, rfl⟩
  obtain ⟨T, t1, t2, t3, t4, t5⟩ := serve_jobs hR seq hl s.heap hg _ rfl
  refine ⟨seq, q2, by rw [hh.heap]; exact t5, ?_⟩
  intro i m segs hm hseg
  have hsn := (hh.conn i).sent (hu i)
  rw [hsent i, List.nil_append] at hsn
  rw [hsn, ← t3] at hseg
  have k1 : entriesOf i seq = (entriesOf i T).map (·.1) := by rw [← t2]; exact entriesOf_map i (·.1) T
  have k2 : ofConn i (T.map (fun t => (t.1, t.2.2.1))) = (entriesOf i T).map (·.2.1) :=
    entriesOf_map i (fun x : Job × Bytes × Except UInt8 (List Int) => x.2.1) T
  have k3 : entriesOf i (oneAfterTheOther (unsignedOf db) seq (memOf db s.heap)).1 = (entriesOf i T).map (·.2.2) := by
    rw [← t4]; exact entriesOf_map i (·.2.2) T
  obtain ⟨more, hmore⟩ := q2 i
  rw [k2] at hseg
  have := dialogue_ok hR (db := db) (entriesOf i T) (by
    intro t ht
    obtain ⟨p, hp, rfl⟩ := List.mem_map.mp ht
    exact t1 p (List.mem_filter.mp hp).1) segs hseg more m hm
  rw [k1] at hmore ⊢
  rw [k3, ← hmore]
  exact this

/-! ### a concrete case: two masters -/

/-- master 1 writes register 11 of slave 1, then reads it; master 2 reads it and writes to slave 2 -/
def exProg (i : Nat) : List Job :=
  if i = 1 then [⟨0, 1, .writeRegister 11 7⟩, ⟨2, 1, .readHolding 11 2⟩]
  else if i = 2 then [⟨1, 1, .readHolding 11 1⟩, ⟨65535, 2, .writeRegisters 8 [1, 2]⟩, ⟨0, 2, .readHolding 8 9⟩]
  else []

/-- the requests arrive in odd segments -/
def exStack : Srv where
  heap := exTwo.st.heap
  sock := some 0
  sockets := [0]
  socks := fun i =>
    if i = 1 then { future := [.data [0, 1, 0, 0, 0], .data [6, 1, 6, 0, 11, 0, 7, 0, 3], .data [0, 0, 0, 6, 1, 3, 0, 11, 0, 2]] }
    else if i = 2 then { future := [.data [0, 2, 0, 0, 0, 6, 1, 3, 0, 11], .data [0, 1, 0, 0, 0, 0, 0, 11, 2, 16, 0, 8, 0, 2, 4, 0, 1, 0, 2, 0, 1],
      .data [0, 0, 0, 6, 2, 3, 0, 8, 0, 9]] }
    else {}
  timed := []
  next := 1

theorem exStack_good : DbGood exTwo.st.db exStack.heap := by
  have hi : WorldInv exTwo := worldInv_run [] _ (worldInv_new true)
  refine ⟨hi.sep, by decide, by decide, ?_⟩
  intro p hp
  have : p = (1, ⟨1, true, [("a", (3, 10))], 0⟩) ∨ p = (2, ⟨2, true, [("a", (3, 8))], 1⟩) := by
    revert p; decide
  rcases this with rfl | rfl
  · exact ⟨_, block_good (a := 0) (b := 1) (c := 2) (d := 3) (bs := [Block.new 10 5]) (by decide) (by decide)
      (by decide) (by decide) (by decide) (by decide) (single_wf (by decide) true).1 (single_wf (by decide) _).2⟩
  · exact ⟨_, block_good (a := 4) (b := 5) (c := 6) (d := 7) (bs := [Block.new 8 3]) (by decide) (by decide)
      (by decide) (by decide) (by decide) (by decide) (single_wf (by decide) true).1 (single_wf (by decide) _).2⟩

theorem exProg_legal : ∀ i, ∀ j ∈ exProg i, j.Legal exTwo.st.db := by
  intro i j hj
  unfold exProg at hj
  split at hj
  · simp only [List.mem_cons, List.not_mem_nil, or_false] at hj
    rcases hj with rfl | rfl
    all_goals exact ⟨by decide, by decide, by decide, by decide, _, rfl, .inl rfl⟩
  · split at hj
    · simp only [List.mem_cons, List.not_mem_nil, or_false] at hj
      rcases hj with rfl | rfl | rfl
      all_goals exact ⟨by decide, by decide, by decide, by decide, _, rfl, .inl rfl⟩
    · cases hj

example : ∀ i, (exStack.socks i).allData = ((exProg i).map Job.request).flatten := by
  intro i
  unfold exProg
  simp only [exStack]
  split
  · decide +kernel
  · split
    · decide +kernel
    · rfl

example : ∀ i, (exStack.socks i).Unbroken := by
  intro i; simp only [exStack, Sock.Unbroken]; split
  · decide +kernel
  · split
    · decide +kernel
    · decide +kernel

/-- the write of master 1 is served before the read of master 2, the responses come one byte and the rest -/
def exServed : Srv := (srvRounds [] exTwo.st.db
  ([{ accept := some (.ok ()) }, { accept := some (.ok ()) }] ++ List.replicate 6 { arrivals := fun _ => 1 }) exStack).2

def exSegs (i : Nat) : List (List Bytes) := (exServed.socks i).sent.map fun f => [f.take 1, f.drop 1]

example : (exSegs 1).map List.flatten = (exServed.socks 1).sent ∧ (exSegs 2).map List.flatten = (exServed.socks 2).sent := by decide +kernel

def exTcpMaster : MasterSt TcpLink := ⟨true, { sock := some {} }, 0⟩
example : Connected exTcpMaster := ⟨rfl, _, rfl, rfl, rfl, rfl⟩

example : (dialogue [] ((exProg 1).zip (exSegs 1)) exTcpMaster).1 = [.ok (.values [11, 7]), .ok (.values [7, 0])] := by decide +kernel
example : (dialogue [] ((exProg 2).zip (exSegs 2)) exTcpMaster).1 =
    [.ok (.values [7]), .ok (.values [8, 2]), .error (.modbusError 2)] := by decide +kernel

end Modbus
