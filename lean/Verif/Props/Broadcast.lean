import Verif.Props.DatabankMap
/-
# C20, C22: broadcast, and the framing of responses
-/
namespace Modbus
open Spec (word tcpAdu rtuAdu)

/-! ## C20 -/

/-- the request is none of the four read functions (for which `cant_be_broadcasted` holds) -/
def NotRead (pdu : Bytes) : Prop := ∀ b rest, pdu = b :: rest → b ≠ 1 ∧ b ≠ 2 ∧ b ≠ 3 ∧ b ≠ 4

theorem cantBe_false {fc : Int} (h : fc ≠ 1 ∧ fc ≠ 2 ∧ fc ≠ 3 ∧ fc ≠ 4) : cantBeBroadcasted fc = false := by
  unfold cantBeBroadcasted defines.READ_COILS defines.READ_DISCRETE_INPUTS defines.READ_INPUT_REGISTERS
    defines.READ_HOLDING_REGISTERS
  simp only [decide_eq_false_iff_not]
  omega

/-- a broadcast request does the same as a request addressed to the slave -/
theorem dispatch_broadcast {R : Registry} (hR : Quiet R) (sl : Slave) {fc : Int} (hc : cantBeBroadcasted fc = false)
    (h0 : 0 ≤ fc) (h1 : fc < 256) (pdu : Bytes) (h : Heap) :
    (dispatch R sl fc pdu true h).2 = (dispatch R sl fc pdu false h).2 ∧
    (∀ e, (dispatch R sl fc pdu true h).1 = .error e ↔ (dispatch R sl fc pdu false h).1 = .error e) := by
  unfold dispatch
  cases hf : fnCodeMap R sl fc with
  | none => exact ⟨rfl, fun _ => Iff.rfl⟩
  | some f =>
    dsimp only
    rw [if_neg (by rw [hc]; simp), if_neg (by simp)]
    simp only [PyM.bind_apply]
    rcases f pdu h with ⟨x, h'⟩
    cases x with
    | error e => exact ⟨rfl, fun _ => Iff.rfl⟩
    | ok r =>
      dsimp only
      by_cases hr : r ≠ []
      · rw [if_pos hr, if_pos trivial, if_pos hr, if_neg (show ¬ false = true by decide)]
        simp only [PyM.bind_apply, callHook_quiet hR, PyM.lift_apply, structPack_single, packOne_B h0 h1, PyM.pure_apply]
        exact ⟨trivial, fun _ => ⟨fun h => (by cases h), fun h => (by cases h)⟩⟩
      · rw [if_neg hr, if_neg hr]
        exact ⟨rfl, fun _ => Iff.rfl⟩

theorem handle_broadcast {R : Registry} (hR : Quiet R) (sl : Slave) {pdu : Bytes} (hn : NotRead pdu) (h : Heap) :
    (handleRequest R sl pdu true h).2 = (handleRequest R sl pdu false h).2 ∧
    (∀ b, (handleRequest R sl pdu false h).1 = .ok b → ∃ b', (handleRequest R sl pdu true h).1 = .ok b') := by
  unfold handleRequest
  rw [hR]
  dsimp only
  simp only [PyM.bind_apply, PyM.lift_apply]
  cases pdu with
  | nil => exact ⟨rfl, fun b hb => by cases hb⟩
  | cons fc rest =>
    rw [show slice (fc :: rest) 0 1 = [fc] from rfl, unpackSingle_ok rfl, unpackOne_B]
    dsimp only
    have hb := hn fc rest rfl
    have hlt := fc.toNat_lt
    have hc : cantBeBroadcasted (fc.toNat : Int) = false := by
      apply cantBe_false
      refine ⟨?_, ?_, ?_, ?_⟩
      · intro e; exact hb.1 (u8_ext (by have : (1 : UInt8).toNat = 1 := rfl; omega))
      · intro e; exact hb.2.1 (u8_ext (by have : (2 : UInt8).toNat = 2 := rfl; omega))
      · intro e; exact hb.2.2.1 (u8_ext (by have : (3 : UInt8).toNat = 3 := rfl; omega))
      · intro e; exact hb.2.2.2 (u8_ext (by have : (4 : UInt8).toNat = 4 := rfl; omega))
    have key := dispatch_broadcast hR sl hc (by omega) (by omega) (fc :: rest) h
    simp only [PyM.tryExcept_apply]
    rcases hx : dispatch R sl (fc.toNat : Int) (fc :: rest) true h with ⟨x, hx'⟩
    rcases hy : dispatch R sl (fc.toNat : Int) (fc :: rest) false h with ⟨y, hy'⟩
    rw [hx, hy] at key
    dsimp only at key
    obtain ⟨rfl, ke⟩ := key
    cases x with
    | error e =>
      have := (ke e).mp rfl
      subst this
      exact ⟨rfl, fun b hb => ⟨b, hb⟩⟩
    | ok v =>
      cases y with
      | error e => exact absurd ((ke e).mpr rfl) (by simp)
      | ok v' => exact ⟨rfl, fun _ _ => ⟨v, rfl⟩⟩

/-- `pdu` sent to each of the slaves in turn, addressed to it -/
def oneByOne (R : Registry) (pdu : Bytes) (L : List (Int × Slave)) (h : Heap) : Heap :=
  L.foldl (fun h p => (handleRequest R p.2 pdu false h).2) h

/-- every slave, addressed in turn, would answer (normally or with an exception response) rather than raise -/
def AllAnswer (R : Registry) (pdu : Bytes) : List (Int × Slave) → Heap → Prop
  | [], _ => True
  | p :: L, h => (∃ b, (handleRequest R p.2 pdu false h).1 = .ok b) ∧
      AllAnswer R pdu L (handleRequest R p.2 pdu false h).2

theorem broadcastLoop_eq {R : Registry} (hR : Quiet R) {pdu : Bytes} (hn : NotRead pdu) (L : List (Int × Slave))
    (h : Heap) (ha : AllAnswer R pdu L h) : broadcastLoop R pdu L h = (.ok (), oneByOne R pdu L h) := by
  induction L generalizing h with
  | nil => rfl
  | cons p L ih =>
    obtain ⟨k, sl⟩ := p
    obtain ⟨⟨b, hb⟩, ha'⟩ := ha
    obtain ⟨e1, e2⟩ := handle_broadcast hR sl hn h
    obtain ⟨b', hb'⟩ := e2 b hb
    simp only [broadcastLoop, PyM.bind_apply]
    rcases hx : handleRequest R sl pdu true h with ⟨x, h1⟩
    rw [hx] at e1 hb'
    dsimp only at e1 hb'
    subst hb' e1
    dsimp only
    exact ih _ ha'

theorem dbHandle_broadcast {R : Registry} {mac : Mac} {db : Databank} {request pdu : Bytes}
    (hp : (mac.parseRequest request mac.new).1 = .ok (0, pdu)) (h : Heap) :
    dbHandle R mac db request h =
      match broadcastLoop R pdu db.slaves h with
      | (.ok _, h') => (.ok none, h')
      | (.error e, h') => dbExcept R pdu e h' := by
  unfold dbHandle
  rcases hq : mac.parseRequest request mac.new with ⟨x, q⟩
  rw [hq] at hp
  dsimp only at hp
  subst hp
  dsimp only
  rw [PyM.tryExcept_apply]
  unfold dbBody
  rw [if_pos rfl]
  simp only [PyM.bind_apply, PyM.pure_apply]
  rcases broadcastLoop R pdu db.slaves h with ⟨y, h'⟩
  cases y <;> rfl

/-- **C20.** A broadcast (id 0) that is not a read gets no response, and leaves the databank exactly as if the request
    had been sent to each slave in turn — provided every slave would answer it (see the finding in DESIGN.md: a
    slave that raises, for instance on a truncated payload, stops the broadcast). -/
theorem C20_broadcast (R : Registry) (hR : Quiet R) (mac : Mac) (db : Databank) (request pdu : Bytes)
    (hp : (mac.parseRequest request mac.new).1 = .ok (0, pdu)) (hn : NotRead pdu) (h : Heap)
    (ha : AllAnswer R pdu db.slaves h) :
    dbHandle R mac db request h = (.ok none, oneByOne R pdu db.slaves h) := by
  rw [dbHandle_broadcast hp, broadcastLoop_eq hR hn _ _ ha]

theorem Good.agree {h h' : Heap} {sl : Slave} {r : Refs} (g : Good h sl r)
    (a : Agree sl.mem (h.dicts sl.mem) h h') : Good h' sl r ∧ absMem h' sl = absMem h sl := by
  have hd : h'.dicts sl.mem = h.dicts sl.mem := a.right
  have hl : ∀ bt ref, Dict.get? (h.dicts sl.mem) bt = some ref → h'.lists ref = h.lists ref :=
    fun bt ref hb => (a.lists ref ⟨bt, hb⟩).symm
  have b : ∀ bt, blocksOf h' sl bt = blocksOf h sl bt := (sameAnswers_of_agree (R := []) a).2.2
  refine ⟨⟨⟨?_, ?_, ?_, ?_, g.refs.distinct⟩, ?_, ?_, ?_, ?_, ?_, ?_⟩, ?_⟩
  · rw [hd]; exact g.refs.coils
  · rw [hd]; exact g.refs.discrete
  · rw [hd]; exact g.refs.holding
  · rw [hd]; exact g.refs.input
  · rw [hl _ _ g.refs.coils]; exact g.coils
  · rw [hl _ _ g.refs.discrete]; exact g.discrete
  · rw [hl _ _ g.refs.holding]; exact g.holding
  · rw [hl _ _ g.refs.input]; exact g.input
  · rw [hl _ _ g.refs.holding]; exact g.holdingFits
  · rw [hl _ _ g.refs.input]; exact g.inputFits
  · unfold absMem; rw [b, b, b, b]

/-- for the specification: the four read requests -/
def IsRead : Spec.Req → Prop
  | .readCoils .. | .readDiscrete .. | .readHolding .. | .readInput .. => True
  | _ => False

theorem notRead_encode {req : Spec.Req} (h : ¬ IsRead req) (hwf : req.WF) : NotRead req.encode := by
  intro b rest e
  cases req with
  | readCoils => exact (h trivial).elim
  | readDiscrete => exact (h trivial).elim
  | readHolding => exact (h trivial).elim
  | readInput => exact (h trivial).elim
  | other fc r =>
    obtain ⟨rfl, _⟩ := List.cons.inj e
    have := hwf.1
    unfold Spec.implemented at this
    exact ⟨fun h => this (by simp [h]), fun h => this (by simp [h]), fun h => this (by simp [h]),
      fun h => this (by simp [h])⟩
  | _ =>
    have := (List.cons.inj e).1
    subst this
    decide

/-- a sequence of slaves with different memories: each is served as if alone -/
theorem oneByOne_spec {R : Registry} (hR : Quiet R) (req : Spec.Req) (hwf : req.WF)
    (L : List (Int × Slave)) (h : Heap) (hs : SepHeap h) (hb : ∀ p ∈ L, p.2.mem < h.nextDict)
    (hd : L.Pairwise (fun p q => p.2.mem ≠ q.2.mem))
    (hg : ∀ p ∈ L, ∃ r, Good h p.2 r)
    (hm : ∀ p ∈ L, p.2.unsigned = true ∨ ∀ a am om, req ≠ .maskWrite a am om) :
    AllAnswer R req.encode L h ∧
    (∀ m, m < h.nextDict → (∀ p ∈ L, p.2.mem ≠ m) → Agree m (h.dicts m) h (oneByOne R req.encode L h)) ∧
    ∀ p ∈ L, (∃ r, Good (oneByOne R req.encode L h) p.2 r) ∧
      absMem (oneByOne R req.encode L h) p.2 = (Spec.exec p.2.unsigned (absMem h p.2) req).2 := by
  induction L generalizing h with
  | nil => exact ⟨trivial, fun m _ _ => .refl, by simp⟩
  | cons p L ih =>
    obtain ⟨r, g⟩ := hg p List.mem_cons_self
    obtain ⟨h1, e1, e2, g1, _⟩ := handler_refines hR g req hwf (hm p List.mem_cons_self)
    have hw : Within (h.dicts p.2.mem) h h1 := by
      have := handleRequest_within R p.2 req.encode false h
      rwa [e1] at this
    have hpb := hb p List.mem_cons_self
    have hs1 : SepHeap h1 := hs.step hw.memStep hpb
    have hne : ∀ q ∈ L, q.2.mem ≠ p.2.mem := fun q hq => fun e => (List.rel_of_pairwise_cons hd hq) e.symm
    have ag : ∀ m, m < h.nextDict → m ≠ p.2.mem → Agree m (h.dicts m) h h1 :=
      fun m hm' hne' => hs.agree hw.memStep hpb hm' hne'
    have hg1 : ∀ q ∈ L, ∃ r, Good h1 q.2 r := by
      intro q hq
      obtain ⟨r', g'⟩ := hg q (List.mem_cons_of_mem _ hq)
      exact ⟨r', (g'.agree (ag q.2.mem (hb q (List.mem_cons_of_mem _ hq)) (hne q hq))).1⟩
    obtain ⟨i1, i2, i3⟩ := ih h1 hs1 (fun q hq => by rw [hw.nextDict]; exact hb q (List.mem_cons_of_mem _ hq))
      (List.Pairwise.of_cons hd) hg1 (fun q hq => hm q (List.mem_cons_of_mem _ hq))
    have one : oneByOne R req.encode (p :: L) h = oneByOne R req.encode L h1 := by
      simp only [oneByOne, List.foldl_cons, e1]
    rw [one]
    refine ⟨⟨⟨_, by rw [e1]⟩, by rw [e1]; exact i1⟩, ?_, ?_⟩
    · intro m hmb hnm
      have a1 := ag m hmb (fun e => hnm p List.mem_cons_self e.symm)
      have a2 := i2 m (by rw [hw.nextDict]; exact hmb) (fun q hq => hnm q (List.mem_cons_of_mem _ hq))
      rw [congrFun hw.dicts m] at a2
      exact a1.trans a2
    · intro q hq
      rcases List.mem_cons.mp hq with rfl | hq'
      · have a2 := i2 q.2.mem (by rw [hw.nextDict]; exact hpb) hne
        obtain ⟨gg, ee⟩ := g1.agree a2
        exact ⟨⟨r, gg⟩, by rw [ee, e2]⟩
      · obtain ⟨gg, ee⟩ := i3 q hq'
        refine ⟨gg, ?_⟩
        obtain ⟨r', g'⟩ := hg q hq
        rw [ee, (g'.agree (ag q.2.mem (hb q hq) (hne q hq'))).2]

/-- **C20.** In every databank reached by any history in which no two slaves share a memory: a well-formed broadcast
    request that is not a read gets no response and every slave's tables become what the Modbus specification prescribes
    for that request addressed to that slave. -/
theorem C20_write (R : Registry) (hR : Quiet R) (w : World) (hw : Reachable R w)
    (hsh : ∀ i j, i ≠ j → ¬ Share w i j)
    (hg : ∀ id sl, w.slave id = some sl → ∃ r, Good w.st.heap sl r)
    (req : Spec.Req) (hwf : req.WF) (hnr : ¬ IsRead req)
    (hm : (∀ id sl, w.slave id = some sl → sl.unsigned = true) ∨ ∀ a am om, req ≠ .maskWrite a am om)
    (mac : Mac) (request : Bytes) (hp : (mac.parseRequest request mac.new).1 = .ok (0, req.encode)) :
    ∃ h', dbHandle R mac w.st.db request w.st.heap = (.ok none, h') ∧
      ∀ id sl, w.slave id = some sl →
        absMem h' sl = (Spec.exec sl.unsigned (absMem w.st.heap sl) req).2 := by
  have hi := hw.inv
  have hmem : ∀ p ∈ w.st.db.slaves, w.slave p.1 = some p.2 := fun p hp => get?_of_mem hi.keys hp
  have hd : w.st.db.slaves.Pairwise (fun p q => p.2.mem ≠ q.2.mem) := by
    have hk : w.st.db.slaves.Pairwise (fun p q => p.1 ≠ q.1) := by
      have := hi.keys
      rw [List.Nodup, List.pairwise_map] at this
      exact this
    exact hk.imp_of_mem (fun {p q} hp hq hne => mem_ne hi (hmem p hp) (hmem q hq) hne (hsh _ _ hne))
  obtain ⟨i1, _, i3⟩ := oneByOne_spec hR req hwf w.st.db.slaves w.st.heap hi.sep
    (fun p hp => hi.bound p.1 p.2 (hmem p hp)) hd (fun p hp => hg p.1 p.2 (hmem p hp))
    (fun p hp => hm.imp (fun h => h p.1 p.2 (hmem p hp)) id)
  refine ⟨_, C20_broadcast R hR mac w.st.db request req.encode hp (notRead_encode hnr hwf) w.st.heap i1, ?_⟩
  intro id sl hsl
  exact (i3 (id, sl) (get?_mem hsl)).2

/-- **C20.** A broadcast of one of the four read functions, well formed or not, changes nothing and gets no response
    (None or the empty string). -/
theorem C20_read (R : Registry) (hR : Quiet R) (mac : Mac) (db : Databank) (request : Bytes) (fc : UInt8) (rest : Bytes)
    (hfc : fc = 1 ∨ fc = 2 ∨ fc = 3 ∨ fc = 4)
    (hp : (mac.parseRequest request mac.new).1 = .ok (0, fc :: rest)) (h : Heap) :
    dbHandle R mac db request h = (.ok (if db.slaves = [] then none else some []), h) := by
  rw [dbHandle_broadcast hp]
  cases hs : db.slaves with
  | nil => rfl
  | cons p L =>
    obtain ⟨k, sl⟩ := p
    have hd : ∀ fc' : UInt8, (fc' = 1 ∨ fc' = 2 ∨ fc' = 3 ∨ fc' = 4) →
        handleRequest R sl (fc' :: rest) true h = (.error .invalidRequest, h) := by
      intro fc' hfc'
      unfold handleRequest
      rw [hR]
      dsimp only
      simp only [PyM.bind_apply, PyM.lift_apply]
      rw [show slice (fc' :: rest) 0 1 = [fc'] from rfl, unpackSingle_ok rfl, unpackOne_B]
      rcases hfc' with rfl | rfl | rfl | rfl <;> rfl
    simp only [broadcastLoop, PyM.bind_apply, hd fc hfc]
    rfl

/-- two slaves with their own memory -/
def exTwo : World := runDb [] (World.new true)
  [.add 1 true none, .add 2 true none,
   .act 1 (.block (.add "a" 3 10 5)), .act 2 (.block (.add "a" 3 8 3))]

-- a broadcast write of register 10 over TCP (unit 0) reaches both slaves; a broadcast read does nothing
example : (let r := dbHandle [] tcpMac exTwo.st.db [0, 1, 0, 0, 0, 6, 0, 6, 0, 10, 0, 7] exTwo.st.heap
    (r.1, r.2.lists 2, r.2.lists 6)) =
    (.ok none, [⟨10, [7, 0, 0, 0, 0], 5⟩], [⟨8, [0, 0, 7], 3⟩]) := by decide
example : (tcpMac.parseRequest [0, 1, 0, 0, 0, 6, 0, 6, 0, 10, 0, 7] tcpMac.new).1 =
    .ok (0, (Spec.Req.writeRegister 10 7).encode) := by decide
example : (dbHandle [] tcpMac exTwo.st.db [0, 1, 0, 0, 0, 6, 0, 3, 0, 10, 0, 1] exTwo.st.heap).1 = .ok (some []) := by
  decide
example : (rtuMac.parseRequest [0, 6, 0, 10, 0, 7, 0xe9, 0xdb] rtuMac.new).1 =
    .ok (0, (Spec.Req.writeRegister 10 7).encode) := by decide +kernel

theorem block_good {h : Heap} {sl : Slave} {a b c d : Nat} {bs : List Block}
    (hd : h.dicts sl.mem = [(1, a), (2, b), (3, c), (4, d)]) (hn : [a, b, c, d].Nodup)
    (ha : h.lists a = []) (hb : h.lists b = []) (hc : h.lists c = bs) (hdd : h.lists d = [])
    (wf : ListWF bs) (fit : ListFits sl.unsigned bs) : Good h sl ⟨a, b, c, d⟩ := by
  have empty : ListWF [] := ⟨by simp, by simp [DisjointBlocks]⟩
  refine ⟨⟨?_, ?_, ?_, ?_, hn⟩, ?_, ?_, ?_, ?_, ?_, ?_⟩
  · rw [hd]; rfl
  · rw [hd]; rfl
  · rw [hd]; rfl
  · rw [hd]; rfl
  · rw [ha]; exact empty
  · rw [hb]; exact empty
  · rw [hc]; exact wf
  · rw [hdd]; exact empty
  · rw [hc]; exact fit
  · rw [hdd]; intro b hb; simp at hb

theorem single_wf {st n : Int} (hn : 0 < n) (u : Bool) :
    ListWF [Block.new st n] ∧ ListFits u [Block.new st n] := by
  refine ⟨⟨?_, by simp [DisjointBlocks]⟩, ?_⟩
  · intro b hb; simp only [List.mem_singleton] at hb; subst hb; exact block_new_wf hn
  · intro b hb v hv
    simp only [List.mem_singleton] at hb; subst hb
    simp only [Block.new, List.mem_replicate] at hv
    rw [hv.2]
    cases u <;> decide

theorem exTwo_slaves (id : Int) (sl : Slave) (h : exTwo.slave id = some sl) :
    (id = 1 ∧ sl = ⟨1, true, [("a", (3, 10))], 0⟩) ∨ (id = 2 ∧ sl = ⟨2, true, [("a", (3, 8))], 1⟩) := by
  have hm := get?_mem (show Dict.get? exTwo.st.db.slaves id = some sl from h)
  rw [show exTwo.st.db.slaves = [(1, ⟨1, true, [("a", (3, 10))], 0⟩), (2, ⟨2, true, [("a", (3, 8))], 1⟩)] by decide] at hm
  simp only [List.mem_cons, Prod.mk.injEq, List.not_mem_nil, or_false] at hm
  exact hm

-- the hypotheses of C20_write are met by this databank
example : ∃ h', dbHandle [] tcpMac exTwo.st.db [0, 1, 0, 0, 0, 6, 0, 6, 0, 10, 0, 7] exTwo.st.heap = (.ok none, h') ∧
      ∀ id sl, exTwo.slave id = some sl →
        absMem h' sl = (Spec.exec sl.unsigned (absMem exTwo.st.heap sl) (.writeRegister 10 7)).2 := by
  refine C20_write [] quiet_nil exTwo ⟨_, _, rfl⟩ ?_ ?_ (.writeRegister 10 7) trivial (fun h => h) (.inr (by simp)) tcpMac _
    (by decide)
  · rintro i j hij ⟨k, h1, h2⟩
    have hm := get?_mem h1
    rw [show exTwo.args = [(1, none), (2, none)] by decide] at hm
    simp at hm
  · intro id sl h
    rcases exTwo_slaves id sl h with ⟨_, rfl⟩ | ⟨_, rfl⟩
    · exact ⟨_, block_good (a := 0) (b := 1) (c := 2) (d := 3) (bs := [Block.new 10 5]) (by decide) (by decide)
        (by decide) (by decide) (by decide) (by decide) (single_wf (by decide) true).1 (single_wf (by decide) _).2⟩
    · exact ⟨_, block_good (a := 4) (b := 5) (c := 6) (d := 7) (bs := [Block.new 8 3]) (by decide) (by decide)
        (by decide) (by decide) (by decide) (by decide) (single_wf (by decide) true).1 (single_wf (by decide) _).2⟩

end Modbus
