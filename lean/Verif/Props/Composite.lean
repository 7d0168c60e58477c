import Verif.Model.Composite
import Verif.Lemmas.LocksMany
import Verif.Props.Locks
import Verif.Props.ServerThread
import Verif.Props.Broadcast
import Verif.Props.Framing
/-
# C61: several servers sharing one databank
-/
namespace Modbus

/-! ## The general fact -/

section
variable {L K τ : Type} [DecidableEq L] [DecidableEq K] {Op Res : Type}

theorem many_init (D : K → L) (key : Op → K) (body : Op → Prog L τ Res) (x0 : K → τ) :
    ManyInv D key body x0 (Calls.init x0) [] x0 :=
  ⟨rfl, fun _ _ => rfl, (fun _ _ _ h => by cases h), (fun _ _ => .inl ⟨rfl, rfl⟩)⟩

theorem many_reach {D : K → L} (hD : Function.Injective D) {key : Op → K} {body : Op → Prog L τ Res} (hb : ∀ op, (body op).Balanced)
    (ho : ∀ op, (body op).Only D (key op)) {x0 : K → τ} {s s' : Calls L (K → τ) Op Res} {log : List (Nat × Op × Res)} {y : K → τ}
    (h : ManyInv D key body x0 s log y) (hr : Calls.Reach (keyCode D key body) s s') :
    ∃ log' y', ManyInv D key body x0 s' (log ++ log') y' := by
  induction hr with
  | refl => exact ⟨[], y, by simpa using h⟩
  | step _ hs ih =>
    obtain ⟨log1, y1, h1⟩ := ih
    obtain ⟨log2, y2, h2⟩ := h1.step hD hb ho hs
    exact ⟨log1 ++ log2, y2, by rw [← List.append_assoc]; exact h2⟩

theorem ManyInv.recorded {D : K → L} {key : Op → K} {body : Op → Prog L τ Res} {x0 : K → τ} {s : Calls L (K → τ) Op Res}
    {log : List (Nat × Op × Res)} {y : K → τ} (h : ManyInv D key body x0 s log y) (t : Nat) : Recorded log s t := by
  by_cases hin : ∃ k n, s.owners (D k) = some (t, n)
  · obtain ⟨k, n, hk⟩ := hin
    obtain ⟨_, op, p, r, _, h2, _, _, _, h6⟩ := h.busy k t n hk
    exact .inr ⟨op, _, r, h2, h6⟩
  · rcases h.out t (fun k n e => hin ⟨k, n, e⟩) with ⟨_, h2⟩ | ⟨op, h1, h2⟩ | ⟨op, r, h1, h2⟩
    · exact .inl h2
    · exact .inl h2
    · exact .inr ⟨op, _, r, h1, h2⟩
end

/-! ## Requests -/

variable {L : Type} [DecidableEq L]

/-- the sequential specification: the operation on its slave, the others unchanged -/
def bankSpec (R : Registry) (op : BankOp) (x : Int → SlaveSt) : BankRes × (Int → SlaveSt) :=
  ((op.run R (x op.key)).1, Function.update x op.key (op.run R (x op.key)).2)

/-- **C61.** Any number of threads - those of the servers, TCP and RTU, that share the databank, and those of users - handle requests
    addressed to any slaves and call methods of any slaves, at any times, in atomic steps of any size.  There is one sequential history of all
    of these operations, on all slaves, in which each has the result it had (for requests: the response, framed for the server it came from);
    it contains the operations of each thread in their order.  When nobody is inside a method of a slave, the slave is in the state this history
    leads to. -/
theorem C61_linearizable (R : Registry) (D : Int → L) (hD : Function.Injective D) (body : BankOp → Prog L SlaveSt BankRes)
    (hb : ∀ op, (body op).Balanced) (ho : ∀ op, (body op).Only D op.key) (hspec : ∀ op x, (body op).run x = op.run R x)
    (x0 : Int → SlaveSt) (s : Calls L (Int → SlaveSt) BankOp BankRes)
    (hr : Calls.Reach (fun op => (bankCode D body op).onKey op.key) (Calls.init x0) s) :
    ∃ log y, Legal (bankSpec R) x0 log y ∧ (∀ t, Recorded log s t) ∧ ∀ id, s.owners (D id) = none → s.shared id = y id := by
  obtain ⟨log, y, h⟩ := many_reach hD hb ho (many_init D BankOp.key body x0) hr
  have he : (keySpec BankOp.key fun op => (body op).run) = bankSpec R := by
    funext op x; simp only [keySpec, bankSpec, hspec]
  have hl := h.legal
  rw [he] at hl
  exact ⟨[] ++ log, y, hl, h.recorded, h.free⟩

/-- **C61.** ... and the histories at two moments of one execution are one a prefix of the other: an operation that returned before another
    one began comes first, also when they came from different servers and went to different slaves. -/
theorem C61_realtime (R : Registry) (D : Int → L) (hD : Function.Injective D) (body : BankOp → Prog L SlaveSt BankRes)
    (hb : ∀ op, (body op).Balanced) (ho : ∀ op, (body op).Only D op.key) (hspec : ∀ op x, (body op).run x = op.run R x)
    (x0 : Int → SlaveSt) (s s' : Calls L (Int → SlaveSt) BankOp BankRes)
    (hr : Calls.Reach (fun op => (bankCode D body op).onKey op.key) (Calls.init x0) s)
    (hr' : Calls.Reach (fun op => (bankCode D body op).onKey op.key) s s') :
    ∃ log log' y y', Legal (bankSpec R) x0 log y ∧ Legal (bankSpec R) x0 (log ++ log') y' ∧
      (∀ t, Recorded log s t) ∧ (∀ t, Recorded (log ++ log') s' t) ∧ ∀ id, s'.owners (D id) = none → s'.shared id = y' id := by
  obtain ⟨log, y, h⟩ := many_reach hD hb ho (many_init D BankOp.key body x0) hr
  obtain ⟨log', y', h'⟩ := many_reach hD hb ho h hr'
  have he : (keySpec BankOp.key fun op => (body op).run) = bankSpec R := by
    funext op x; simp only [keySpec, bankSpec, hspec]
  have hl := h.legal
  have hl' := h'.legal
  rw [he] at hl hl'
  exact ⟨[] ++ log, log', y, y', hl, hl', h.recorded, h'.recorded, h'.free⟩

/-- **C61.** A request that is addressed to a slave of the databank is handled as if the databank had only this slave: neither the other slaves
    nor the server it came from matter.  (So `BankOp.run` speaks about every databank.) -/
theorem C61_one_slave (R : Registry) (w : Wire) (db : Databank) (id : Int) (sl : Slave) (request : Bytes) (ha : Addressed w id request)
    (hs : Dict.get? db.slaves id = some sl) (h : Heap) :
    (BankOp.frame w id request ha).run R ⟨sl, h⟩ = (.answer (dbHandle R w.mac db request h).1, ⟨sl, (dbHandle R w.mac db request h).2⟩) := by
  suffices he : dbHandle R w.mac db request h = dbHandle R w.mac ⟨[(id, sl)], true⟩ request h by rw [he]; rfl
  obtain ⟨h0, pdu, q, hp⟩ := ha
  have h1 : Dict.get? (⟨[(id, sl)], true⟩ : Databank).slaves id = some sl := by simp [Dict.get?]
  unfold dbHandle
  rw [hp]
  dsimp only
  rw [PyM.tryExcept_apply, PyM.tryExcept_apply, dbBody_some R w.mac q h0 hs, dbBody_some R w.mac q h0 h1]

/-! ### Non-vacuity -/

-- the locks: `some id` belongs to slave `id`, `none` to the hooks; the bodies in one step
example (R : Registry) : (∀ op, (oneStep (L := Option Int) (BankOp.run R) op).Balanced) ∧
    (∀ op, (oneStep (L := Option Int) (BankOp.run R) op).Only some op.key) ∧
    ∀ op x, (oneStep (L := Option Int) (BankOp.run R) op).run x = op.run R x :=
  ⟨fun _ _ _ => rfl, fun _ _ => trivial, fun _ _ => rfl⟩

-- bodies that call hooks are allowed as well: they use a lock that belongs to no slave
example (f : SlaveSt → SlaveSt) (r : BankRes) :
    (Prog.step f fun _ => (Prog.withLock none (.ret ())).bind fun _ => .ret r : Prog (Option Int) SlaveSt BankRes).Only some 1 :=
  fun _ => ⟨(fun _ h => by cases h), (fun _ h => by cases h), trivial⟩

/-- slaves with one register each, at address 0 -/
def exBank (id : Int) : SlaveSt :=
  ⟨⟨id, true, [("a", (3, 0))], 0⟩, (Modbus.addBlock "a" 3 0 1 ⟨(Slave.new id true none Heap.empty).1, (Slave.new id true none Heap.empty).2⟩).2.heap⟩

-- a TCP request and an RTU request (write 7 to register 0 of slave 1, of slave 2)
example : Addressed .tcp 1 [0, 1, 0, 0, 0, 6, 1, 6, 0, 0, 0, 7] := ⟨by decide, [6, 0, 0, 0, 7], _, rfl⟩
theorem addressed_rtu (a : UInt8) (ha : a ≠ 0) (pdu : Bytes) : Addressed .rtu a.toNat (Spec.rtuAdu a pdu) := by
  refine ⟨fun h => ha ?_, pdu, _, rtuParseRequest_adu a pdu _⟩
  exact UInt8.toNat_inj.mp (by simpa using h)
example : Addressed .rtu 2 (Spec.rtuAdu 2 [6, 0, 0, 0, 7]) := addressed_rtu 2 (by decide) _
example : (dbHandle [] tcpMac ⟨[(1, (exBank 1).sl)], true⟩ [0, 1, 0, 0, 0, 6, 1, 6, 0, 0, 0, 7] (exBank 1).heap).1 =
    .ok (some [0, 1, 0, 0, 0, 6, 1, 6, 0, 0, 0, 7]) := by decide +kernel

/-! ### Broadcasts -/

/-- what a slave in the state `s` does with a broadcast request: the exception it raises, if any, and its new state -/
def afterBroadcast (R : Registry) (pdu : Bytes) (s : SlaveSt) : Option PyErr × SlaveSt :=
  match handleRequest R s.sl pdu true s.heap with
  | (.ok _, h) => (none, { s with heap := h })
  | (.error e, h) => (some e, { s with heap := h })

omit [DecidableEq L] in
theorem bankCode_broadcast (R : Registry) (D : Int → L) (body : BankOp → Prog L SlaveSt BankRes)
    (hspec : ∀ op x, (body op).run x = op.run R x) (pdu : Bytes) (id : Int) (x : Int → SlaveSt) :
    ((Prog.onKey id (bankCode D body (.call id (.handle pdu true)))).run x).1.raised = (afterBroadcast R pdu (x id)).1 ∧
    ((Prog.onKey id (bankCode D body (.call id (.handle pdu true)))).run x).2 = Function.update x id (afterBroadcast R pdu (x id)).2 := by
  have h : (bankCode D body (.call id (.handle pdu true))).run (x id) = (body (.call id (.handle pdu true))).run (x id) := by
    unfold bankCode Prog.withLock
    show (Prog.bind _ _).run _ = _
    rw [Prog.run_bind]; rfl
  rw [Prog.run_onKey, h, hspec]
  simp only [BankOp.run, SlaveCall.run, onHeap, afterBroadcast]
  generalize handleRequest R (x id).sl pdu true (x id).heap = r
  obtain ⟨_ | _, _⟩ := r <;> exact ⟨rfl, rfl⟩

theorem takeWhile_congr' {α : Type} {p q : α → Bool} : ∀ {l : List α}, (∀ a ∈ l, p a = q a) → l.takeWhile p = l.takeWhile q
  | [], _ => rfl
  | a :: l, h => by
    rw [List.takeWhile_cons, List.takeWhile_cons, h a (by simp), takeWhile_congr' fun b hb => h b (by simp [hb])]

theorem findSome?_congr' {α β : Type} {p q : α → Option β} : ∀ {l : List α}, (∀ a ∈ l, p a = q a) → l.findSome? p = l.findSome? q
  | [], _ => rfl
  | a :: l, h => by
    rw [List.findSome?_cons, List.findSome?_cons, h a (by simp), findSome?_congr' fun b hb => h b (by simp [hb])]

omit [DecidableEq L] in
/-- **C61.** A broadcast that nobody disturbs: the slaves handle the request in the order of the databank, up to the first that raises an exception
    (which is the outcome then); the others are not touched. -/
theorem C61_broadcast_alone (R : Registry) (D : Int → L) (body : BankOp → Prog L SlaveSt BankRes)
    (hspec : ∀ op x, (body op).run x = op.run R x) (pdu : Bytes) (ids : List Int) (hn : ids.Nodup) (x : Int → SlaveSt) :
    let reached := (ids.takeWhile fun id => (afterBroadcast R pdu (x id)).1.isNone).length + 1
    (∀ id, ((broadcastCode D body pdu ids).run x).2 id = if id ∈ ids.take reached then (afterBroadcast R pdu (x id)).2 else x id) ∧
    ((broadcastCode D body pdu ids).run x).1 = ids.findSome? fun id => (afterBroadcast R pdu (x id)).1 := by
  induction ids generalizing x with
  | nil => simp [broadcastCode, Prog.run]
  | cons i is ih =>
    obtain ⟨hi, hn'⟩ := List.nodup_cons.mp hn
    obtain ⟨h1, h2⟩ := bankCode_broadcast R D body hspec pdu i x
    simp only [broadcastCode, Prog.run_bind, h1, h2]
    cases he : (afterBroadcast R pdu (x i)).1 with
    | some e =>
      simp only [he, List.takeWhile_cons, Option.isNone_some, List.findSome?_cons, Prog.run]
      refine ⟨fun id => ?_, trivial⟩
      by_cases hid : id = i
      · subst hid; simp
      · simp [hid, Function.update_of_ne]
    | none =>
      obtain ⟨g1, g2⟩ := ih hn' (Function.update x i (afterBroadcast R pdu (x i)).2)
      have hsame : ∀ id ∈ is, Function.update x i (afterBroadcast R pdu (x i)).2 id = x id := by
        intro id hid
        exact Function.update_of_ne (fun h : id = i => hi (h ▸ hid)) _ _
      have ht : (is.takeWhile fun id => (afterBroadcast R pdu (Function.update x i (afterBroadcast R pdu (x i)).2 id)).1.isNone) =
          is.takeWhile fun id => (afterBroadcast R pdu (x id)).1.isNone := by
        refine takeWhile_congr' ?_
        intro id hid; rw [hsame id hid]
      rw [ht] at g1
      simp only [he, List.takeWhile_cons, Option.isNone_none, List.findSome?_cons, if_true, List.length_cons, List.take_succ_cons]
      refine ⟨fun id => ?_, ?_⟩
      · rw [g1 id]
        by_cases hid : id = i
        · subst hid
          have : id ∉ is.take ((is.takeWhile fun id => (afterBroadcast R pdu (x id)).1.isNone).length + 1) := fun h => hi (List.mem_of_mem_take h)
          simp [this]
        · simp [hid, Function.update_of_ne]
      · rw [g2]
        refine findSome?_congr' ?_
        intro id hid; rw [hsame id hid]

-- both slaves write
example : ((broadcastCode (L := Option Int) some (oneStep (BankOp.run [])) [6, 0, 0, 0, 10] [1, 2]).run exBank).1 = none := by decide +kernel
-- a read request cannot be broadcast: the first slave raises
example : ((broadcastCode (L := Option Int) some (oneStep (BankOp.run [])) [3, 0, 0, 0, 1] [1, 2]).run exBank).1 = some .invalidRequest := by decide +kernel

/-! ### Broadcasts are not atomic -/

/-- two server threads handle a broadcast each: write 10 resp. 20 to register 0 -/
def exBroadcasts (t : Nat) : Prog (Option Int) (Int → SlaveSt) (Option PyErr) :=
  if t = 0 then broadcastCode some (oneStep (BankOp.run [])) [6, 0, 0, 0, 10] [1, 2]
  else if t = 1 then broadcastCode some (oneStep (BankOp.run [])) [6, 0, 0, 0, 20] [1, 2]
  else .ret none

/-- **C61 does not hold for broadcasts** (requests with slave id 0, which have several objects): the lock of each slave is held only while that
    slave writes.  Two broadcasts that arrive at two servers at the same time may leave slave 1 with the value of one and slave 2 with the value
    of the other. -/
theorem C61_false_broadcast :
    ∃ s, Sys.Reach (Sys.init exBank exBroadcasts) s ∧ s.progs 0 = .ret none ∧ s.progs 1 = .ret none ∧
      (Modbus.getValues "a" 0 1 (s.shared 1).sl (s.shared 1).heap).1 = .ok [20] ∧
      (Modbus.getValues "a" 0 1 (s.shared 2).sl (s.shared 2).heap).1 = .ok [10] := by
  refine ⟨_, reach_of_schedule [0, 0, 0, 1, 1, 1, 1, 1, 1, 0, 0, 0] _ _ rfl, rfl, rfl, ?_, ?_⟩
  · decide +kernel
  · decide +kernel

/-! ## `start` and `stop` -/

/-- the state of a composite server with `n` servers after the actions `es`, from its construction -/
def CompAfter (n : Nat) (es : List CEv) (c : CompObj) : Prop := compRun { n := n } es = some c

/-- the controlling thread is inside a `stop` -/
def Stopping (c : SCaller) : Prop := NotStarting c ∧ c ≠ .idle

structure CInv (c : CompObj) : Prop where
  each : ∀ i, ∃ es, ServerAfter es (c.servers i)
  others : ∀ i, (∀ up, c.caller ≠ .inside up i) → (c.servers i).caller = .idle
  here : ∀ i, c.caller = .inside false i → Stopping (c.servers i).caller
  done : ∀ i j, (c.caller = .next false i ∨ c.caller = .inside false i) → j < i → Silent (c.servers j)

theorem serverRun_append : ∀ (es es' : List SEv) (s : ServerObj),
    serverRun s (es ++ es') = (serverRun s es).bind fun s' => serverRun s' es'
  | [], _, _ => rfl
  | e :: es, es', s => by
    simp only [List.cons_append, serverRun]
    cases serverStep s e with
    | none => rfl
    | some s1 => exact serverRun_append es es' s1

theorem serverAfter_snoc {es : List SEv} {s s' : ServerObj} {e : SEv} (h : ServerAfter es s) (he : serverStep s e = some s') :
    ServerAfter (es ++ [e]) s' := by
  unfold ServerAfter at *
  rw [serverRun_append, h]
  simp [serverRun, he]

theorem stopping_ends {s s' : ServerObj} (h : Stopping s.caller) (he : controlAct s = some s') :
    Stopping s'.caller ∨ ∃ o, s'.log = s.log ++ [o] ∧ (o = .stopRaised ∨ ∃ b, o = .stopDone b) := by
  obtain ⟨⟨n1, n2, n3, n4⟩, n5⟩ := h
  simp only [controlAct] at he
  split at he
  · rename_i hc; exact absurd hc n5
  · rename_i hc; exact absurd hc n1
  · rename_i hc; exact absurd hc (n2 _)
  · rename_i hc; exact absurd hc n3
  · rename_i hc; exact absurd hc (n4 _)
  all_goals try (split at he)
  all_goals try (split at he)
  all_goals first
    | (cases he; done)
    | (cases he; left; simp [Stopping, NotStarting, ServerObj.ctl]; done)
    | (cases he; right; exact ⟨_, rfl, by simp⟩)

theorem cInv_new (n : Nat) : CInv { n := n } :=
  ⟨fun _ => ⟨[], rfl⟩, fun _ _ => rfl, (fun _ h => by cases h), (fun _ _ h => by rcases h with h | h <;> cases h)⟩

/-- a thread of a server acts -/
theorem cInv_server {c : CompObj} {i t : Nat} {ok : Bool} {s : ServerObj} (h : CInv c) (he : serverAct (c.servers i) t ok = some s) :
    CInv { c with servers := Function.update c.servers i s } ∧ s.caller = (c.servers i).caller := by
  have hcall : s.caller = (c.servers i).caller := by
    simp only [serverAct] at he
    split at he <;> first | (cases he; done) | (cases he; rfl)
  have hst : serverStep (c.servers i) (.server t ok) = some s := he
  refine ⟨⟨?_, ?_, ?_, ?_⟩, hcall⟩
  · intro j
    by_cases hj : j = i
    · subst hj
      obtain ⟨es, hes⟩ := h.each j
      exact ⟨es ++ [.server t ok], by show ServerAfter _ (Function.update c.servers j s j); rw [Function.update_self]; exact serverAfter_snoc hes hst⟩
    · show ∃ es, ServerAfter es (Function.update c.servers i s j)
      rw [Function.update_of_ne hj]; exact h.each j
  · intro j hj
    show (Function.update c.servers i s j).caller = _
    by_cases hji : j = i
    · subst hji; rw [Function.update_self, hcall]; exact h.others j hj
    · rw [Function.update_of_ne hji]; exact h.others j hj
  · intro j hj
    show Stopping (Function.update c.servers i s j).caller
    by_cases hji : j = i
    · subst hji; rw [Function.update_self, hcall]; exact h.here j hj
    · rw [Function.update_of_ne hji]; exact h.here j hj
  · intro k j hc hj
    show Silent (Function.update c.servers i s j)
    by_cases hji : j = i
    · subst hji
      rw [Function.update_self]
      have hidle : (c.servers j).caller = .idle := h.others j (by
        intro up hu
        rcases hc with hc | hc
        · have := hc.symm.trans hu; cases this
        · have := hc.symm.trans hu
          injection this with _ h2
          omega)
      exact (silent_step (h.done k j hc hj) (by rw [hidle]; exact ⟨by simp, by simp, by simp, by simp⟩) (by simp) hst).1
    · rw [Function.update_of_ne hji]; exact h.done k j hc hj

theorem cInv_step {c c' : CompObj} {e : CEv} (h : CInv c) (he : compStep c e = some c') : CInv c' := by
  cases e with
  | callStart =>
    simp only [compStep] at he
    split at he <;> cases he
    rename_i hc
    exact ⟨h.each, fun i _ => h.others i (by rw [hc]; simp), (fun _ h => by cases h), (fun _ _ h => by rcases h with h | h <;> cases h)⟩
  | callStop =>
    simp only [compStep] at he
    split at he <;> cases he
    rename_i hc
    refine ⟨h.each, fun i _ => h.others i (by rw [hc]; simp), (fun _ h => by cases h), ?_⟩
    intro i j hij hj
    rcases hij with hij | hij
    · cases hij; omega
    · cases hij
  | server i t ok =>
    simp only [compStep] at he
    cases hs : serverAct (c.servers i) t ok with
    | none => rw [hs] at he; cases he
    | some s => rw [hs] at he; cases he; exact (cInv_server h hs).1
  | control =>
    simp only [compStep, compControl] at he
    cases hc : c.caller with
    | idle => rw [hc] at he; cases he
    | next up i =>
      rw [hc] at he
      dsimp only at he
      have hidle : ∀ j, (c.servers j).caller = .idle := fun j => h.others j (by rw [hc]; simp)
      by_cases hi : i < c.n
      · rw [if_pos hi] at he
        cases hs : serverStep (c.servers i) (if up then .callStart else .callStop) with
        | none => rw [hs] at he; cases he
        | some s =>
          rw [hs] at he; cases he
          refine ⟨?_, ?_, ?_, ?_⟩
          · intro j
            show ∃ es, ServerAfter es (Function.update c.servers i s j)
            by_cases hj : j = i
            · subst hj
              obtain ⟨es, hes⟩ := h.each j
              exact ⟨es ++ [_], by rw [Function.update_self]; exact serverAfter_snoc hes hs⟩
            · rw [Function.update_of_ne hj]; exact h.each j
          · intro j hj
            show (Function.update c.servers i s j).caller = _
            have hji : j ≠ i := by rintro rfl; exact hj up rfl
            rw [Function.update_of_ne hji]; exact hidle j
          · intro j hj
            cases hj
            show Stopping (Function.update c.servers i s i).caller
            rw [Function.update_self]
            simp only [Bool.false_eq_true, if_false, serverStep, hidle i, if_true] at hs
            cases hs
            simp [Stopping, NotStarting, ServerObj.ctl]
          · intro k j hk hj
            show Silent (Function.update c.servers i s j)
            rcases hk with hk | hk
            · cases hk
            · cases hk
              rw [Function.update_of_ne (by omega)]
              exact h.done i j (.inl hc) hj
      · rw [if_neg hi] at he
        cases he
        exact ⟨h.each, fun j _ => hidle j, (fun _ h => by cases h), (fun _ _ h => by rcases h with h | h <;> cases h)⟩
    | inside up i =>
      rw [hc] at he
      dsimp only at he
      have hoth : ∀ j, j ≠ i → (c.servers j).caller = .idle := fun j hj => h.others j (by rw [hc]; intro u hu; cases hu; exact hj rfl)
      cases hs : controlAct (c.servers i) with
      | none => rw [hs] at he; cases he
      | some s =>
        rw [hs] at he
        dsimp only at he
        have hst : serverStep (c.servers i) .control = some s := hs
        have each : ∀ j, ∃ es, ServerAfter es (Function.update c.servers i s j) := by
          intro j
          by_cases hj : j = i
          · subst hj
            obtain ⟨es, hes⟩ := h.each j
            exact ⟨es ++ [_], by rw [Function.update_self]; exact serverAfter_snoc hes hst⟩
          · rw [Function.update_of_ne hj]; exact h.each j
        by_cases hid : s.caller = .idle
        · rw [if_pos hid] at he
          have hall : ∀ j, (Function.update c.servers i s j).caller = .idle := by
            intro j
            by_cases hj : j = i
            · subst hj; rw [Function.update_self]; exact hid
            · rw [Function.update_of_ne hj]; exact hoth j hj
          cases hlr : s.lastRaised with
          | true =>
            rw [hlr, if_pos rfl] at he
            cases he
            exact ⟨each, fun j _ => hall j, (fun _ h => by cases h), (fun _ _ h => by rcases h with h | h <;> cases h)⟩
          | false =>
            rw [hlr, if_neg (by simp)] at he
            cases he
            refine ⟨each, fun j _ => hall j, (fun _ h => by cases h), ?_⟩
            intro k j hk hj
            rcases hk with hk | hk
            · cases hk
              show Silent (Function.update c.servers i s j)
              by_cases hji : j = i
              · subst hji
                rw [Function.update_self]
                obtain ⟨es, hes⟩ := h.each j
                rcases stopping_ends (h.here j hc) hs with h1 | ⟨o, h1, h2⟩
                · exact absurd hid h1.2
                · exact (stop_silent (serverAfter_inv hes) hst h1 h2).1
              · rw [Function.update_of_ne hji]
                exact h.done i j (.inr hc) (by omega)
            · cases hk
        · rw [if_neg hid] at he
          cases he
          refine ⟨each, ?_, ?_, ?_⟩
          · intro j hj
            show (Function.update c.servers i s j).caller = _
            have hji : j ≠ i := by rintro rfl; exact hj up rfl
            rw [Function.update_of_ne hji]; exact hoth j hji
          · intro j hj
            have hj : CCaller.inside up i = .inside false j := hj
            cases hj
            show Stopping (Function.update c.servers i s i).caller
            rw [Function.update_self]
            rcases stopping_ends (h.here i hc) hs with h1 | ⟨o, h1, h2⟩
            · exact h1
            · obtain ⟨es, hes⟩ := h.each i
              exact absurd (stop_silent (serverAfter_inv hes) hst h1 h2).2 hid
          · intro k j hk hj
            have hk : CCaller.inside up i = .next false k ∨ CCaller.inside up i = .inside false k := hk
            have := h.done k j (by rw [hc]; exact hk) hj
            show Silent (Function.update c.servers i s j)
            rcases hk with hk | hk
            · cases hk
            · cases hk
              rw [Function.update_of_ne (by omega)]; exact this

/-- induction over executions -/
theorem compRun_inv {P : CompObj → Prop} (hstep : ∀ c c' e, P c → compStep c e = some c' → P c') :
    ∀ (es : List CEv) (c c' : CompObj), P c → compRun c es = some c' → P c'
  | [], _, _, h, hr => by cases hr; exact h
  | e :: es, c, c', h, hr => by
    simp only [compRun] at hr
    cases hs : compStep c e with
    | none => rw [hs] at hr; cases hr
    | some c1 => rw [hs] at hr; exact compRun_inv hstep es c1 c' (hstep _ _ _ h hs) hr

theorem compAfter_inv {n : Nat} {es : List CEv} {c : CompObj} (h : CompAfter n es c) : CInv c :=
  compRun_inv (fun _ _ _ => cInv_step) es _ _ (cInv_new n) h

/-- **C61.** Each of the servers lives a life of its own, as described by C48, whatever happens to the others. -/
theorem C61_each (n : Nat) (es : List CEv) (c : CompObj) (h : CompAfter n es c) (i : Nat) : ∃ es, ServerAfter es (c.servers i) :=
  (compAfter_inv h).each i

theorem comp_n {c c' : CompObj} {e : CEv} (he : compStep c e = some c') : c'.n = c.n := by
  cases e with
  | callStart => simp only [compStep] at he; split at he <;> cases he; rfl
  | callStop => simp only [compStep] at he; split at he <;> cases he; rfl
  | control =>
    simp only [compStep, compControl] at he
    split at he
    · cases he
    · split at he
      · split at he <;> cases he; rfl
      · cases he; rfl
    · split at he
      · cases he
      · split at he
        · split at he <;> cases he <;> rfl
        · cases he; rfl
  | server i t ok =>
    simp only [compStep] at he
    split at he <;> cases he; rfl

/-- the servers are quiet and nobody starts them -/
def CompQuiet (c : CompObj) : Prop := (∀ i, i < c.n → Silent (c.servers i)) ∧ ∀ i, c.caller ≠ .next true i ∧ c.caller ≠ .inside true i

theorem compQuiet_step {c c' : CompObj} {e : CEv} (h : CInv c) (hq : CompQuiet c) (hn : e ≠ .callStart) (he : compStep c e = some c') :
    CompQuiet c' ∧ ∀ i, i < c.n → served (c'.servers i).log = served (c.servers i).log := by
  obtain ⟨hs, hc⟩ := hq
  -- one server makes a step that is not `callStart`
  have one : ∀ i (s : ServerObj) (e : SEv), e ≠ .callStart → serverStep (c.servers i) e = some s →
      (∀ j, j < c.n → Silent (Function.update c.servers i s j)) ∧
      ∀ j, j < c.n → served (Function.update c.servers i s j).log = served (c.servers j).log := by
    intro i s e hne hst
    have hnot : NotStarting (c.servers i).caller := by
      by_cases hin : ∃ up, c.caller = .inside up i
      · obtain ⟨up, hup⟩ := hin
        cases up with
        | true => exact absurd hup (hc i).2
        | false => exact (h.here i hup).1
      · rw [h.others i (fun up hup => hin ⟨up, hup⟩)]
        exact ⟨by simp, by simp, by simp, by simp⟩
    refine ⟨fun j hj => ?_, fun j hj => ?_⟩
    · by_cases hji : j = i
      · subst hji; rw [Function.update_self]; exact (silent_step (hs j hj) hnot hne hst).1
      · rw [Function.update_of_ne hji]; exact hs j hj
    · by_cases hji : j = i
      · subst hji; rw [Function.update_self]; exact (silent_step (hs j hj) hnot hne hst).2.2
      · rw [Function.update_of_ne hji]
  cases e with
  | callStart => exact absurd rfl hn
  | callStop =>
    simp only [compStep] at he
    split at he <;> cases he
    exact ⟨⟨hs, fun i => ⟨by simp, by simp⟩⟩, fun _ _ => rfl⟩
  | server i t ok =>
    simp only [compStep] at he
    cases hst : serverAct (c.servers i) t ok with
    | none => rw [hst] at he; cases he
    | some s =>
      rw [hst] at he; cases he
      obtain ⟨h1, h2⟩ := one i s (.server t ok) (by simp) hst
      exact ⟨⟨h1, hc⟩, h2⟩
  | control =>
    simp only [compStep, compControl] at he
    cases hcc : c.caller with
    | idle => rw [hcc] at he; cases he
    | next up i =>
      rw [hcc] at he
      dsimp only at he
      cases up with
      | true => exact absurd hcc (hc i).1
      | false =>
        by_cases hi : i < c.n
        · rw [if_pos hi] at he
          cases hst : serverStep (c.servers i) (if false = true then .callStart else .callStop) with
          | none => rw [hst] at he; cases he
          | some s =>
            rw [hst] at he; cases he
            obtain ⟨h1, h2⟩ := one i s _ (by simp) hst
            exact ⟨⟨h1, fun j => ⟨by simp, by simp⟩⟩, h2⟩
        · rw [if_neg hi] at he
          cases he
          exact ⟨⟨hs, fun j => ⟨by simp, by simp⟩⟩, fun _ _ => rfl⟩
    | inside up i =>
      rw [hcc] at he
      dsimp only at he
      cases up with
      | true => exact absurd hcc (hc i).2
      | false =>
        cases hst : controlAct (c.servers i) with
        | none => rw [hst] at he; cases he
        | some s =>
          rw [hst] at he
          dsimp only at he
          obtain ⟨h1, h2⟩ := one i s .control (by simp) hst
          split at he
          · split at he
            · cases he; exact ⟨⟨h1, fun j => ⟨by simp, by simp⟩⟩, h2⟩
            · cases he; exact ⟨⟨h1, fun j => ⟨by simp, by simp⟩⟩, h2⟩
          · cases he; exact ⟨⟨h1, fun j => ⟨by simp, by simp⟩⟩, h2⟩

/-- **C61.** When `CompositeServer.stop()` returns normally, all of its servers have stopped: whatever happens afterwards, none of them calls
    `_do_init`, `_do_run` or `_do_exit` before `start` is called again.  For every history, every behaviour of the methods and every
    schedule. -/
theorem C61_stopped (n : Nat) (es es' : List CEv) (e : CEv) (c c1 c2 : CompObj) (h : CompAfter n es c) (he : compStep c e = some c1)
    (hlog : c1.log = c.log ++ [.stopDone]) (hno : .callStart ∉ es') (h2 : compRun c1 es' = some c2) :
    ∀ i, i < n → Silent (c2.servers i) ∧ served (c2.servers i).log = served (c.servers i).log := by
  have hinv := compAfter_inv h
  have hn : c.n = n := compRun_inv (P := fun c => c.n = n) (fun c c' e hc hs => by rw [comp_n hs]; exact hc) es _ _ rfl h
  -- the step is the end of the loop
  have hend : c1.servers = c.servers ∧ CompQuiet c1 := by
    have hne : ∀ l : List CObs, l = l ++ [.stopDone] → False := fun l h => by
      have := congrArg List.length h
      simp at this
    cases e with
    | callStart => simp only [compStep] at he; split at he <;> cases he; exact (hne _ hlog).elim
    | callStop => simp only [compStep] at he; split at he <;> cases he; exact (hne _ hlog).elim
    | server i t ok =>
      simp only [compStep] at he
      split at he <;> cases he
      exact (hne _ hlog).elim
    | control =>
      simp only [compStep, compControl] at he
      cases hc : c.caller with
      | idle => rw [hc] at he; cases he
      | next up i =>
        rw [hc] at he
        dsimp only at he
        by_cases hi : i < c.n
        · rw [if_pos hi] at he
          split at he <;> cases he
          exact (hne _ hlog).elim
        · rw [if_neg hi] at he
          cases he
          cases up with
          | true => simp at hlog
          | false => exact ⟨rfl, fun j hj => hinv.done i j (.inl hc) (by have : j < c.n := hj; omega), fun j => ⟨by simp, by simp⟩⟩
      | inside up i =>
        rw [hc] at he
        dsimp only at he
        split at he
        · cases he
        · split at he
          · split at he
            · cases he
              cases up <;> simp at hlog
            · cases he; exact (hne _ hlog).elim
          · cases he; exact (hne _ hlog).elim
  have key : ∀ (es : List CEv) (c c' : CompObj), CInv c → CompQuiet c → CEv.callStart ∉ es → compRun c es = some c' →
      CompQuiet c' ∧ c'.n = c.n ∧ ∀ i, i < c.n → served (c'.servers i).log = served (c.servers i).log := by
    intro es
    induction es with
    | nil => intro c c' _ hq _ hr; cases hr; exact ⟨hq, rfl, fun _ _ => rfl⟩
    | cons e es ih =>
      intro c c' hi hq hnc hr
      simp only [compRun] at hr
      cases hs : compStep c e with
      | none => rw [hs] at hr; cases hr
      | some c1 =>
        rw [hs] at hr
        obtain ⟨g1, g2⟩ := compQuiet_step hi hq (fun hc => hnc (hc ▸ List.mem_cons_self)) hs
        obtain ⟨g3, g4, g5⟩ := ih c1 c' (cInv_step hi hs) g1 (fun hc => hnc (List.mem_cons_of_mem _ hc)) hr
        have hcn := comp_n hs
        exact ⟨g3, g4.trans hcn, fun i hi' => (g5 i (by omega)).trans (g2 i hi')⟩
  obtain ⟨k1, k2, k3⟩ := key es' c1 c2 (cInv_step hinv he) hend.2 hno h2
  have hcn := comp_n he
  intro i hi
  exact ⟨k1.1 i (by omega), (k3 i (by omega)).trans (by rw [hend.1])⟩

/-! ### Which servers are started and stopped -/

/-- the calls of `start` (`true`) and `stop` (`false`) of one server that have ended, and whether they returned normally -/
def controls (log : List SObs) : List (Bool × Bool) :=
  log.filterMap fun
    | .startDone => some (true, true)
    | .startRaised => some (true, false)
    | .stopDone _ => some (false, true)
    | .stopRaised => some (false, false)
    | .call _ _ _ => none

/-- what a call of `start` or `stop` of the composite server means for server `i`: the calls are made one after the other in the order of the
    servers, and an exception ends the loop -/
def meansFor (i : Nat) : CObs → List (Bool × Bool)
  | .startDone => [(true, true)]
  | .stopDone => [(false, true)]
  | .startRaised j => if i < j then [(true, true)] else if i = j then [(true, false)] else []
  | .stopRaised j => if i < j then [(false, true)] else if i = j then [(false, false)] else []

/-- the part of the loop that has been done -/
def pending (i : Nat) : CCaller → List (Bool × Bool)
  | .idle => []
  | .next up k => if i < k then [(up, true)] else []
  | .inside up k => if i < k then [(up, true)] else []

structure KInv (c : CompObj) : Prop where
  starting : ∀ i, c.caller = .inside true i → ¬ NotStarting (c.servers i).caller
  made : ∀ i, i < c.n → controls (c.servers i).log = c.log.flatMap (meansFor i) ++ pending i c.caller

theorem controls_snoc (log : List SObs) (o : SObs) : controls (log ++ [o]) = controls log ++ controls [o] := by
  unfold controls; rw [List.filterMap_append]

theorem starting_ends {s s' : ServerObj} (h : ¬ NotStarting s.caller) (he : controlAct s = some s') :
    (¬ NotStarting s'.caller ∧ s'.caller ≠ .idle ∧ s'.log = s.log) ∨
    (s'.caller = .idle ∧ ∃ b : Bool, s'.log = s.log ++ [if b then .startDone else .startRaised]) := by
  have hns : ∀ c, (c = .idle ∨ c = .stopLoadThread ∨ (∃ t, c = .stopAlive t) ∨ c = .stopLoadGo ∨ (∃ e, c = .stopClear e) ∨ c = .stopLoadJoin ∨
      ∃ t, c = .stopJoin t) → NotStarting c := by
    rintro c (rfl | rfl | ⟨t, rfl⟩ | rfl | ⟨t, rfl⟩ | rfl | ⟨t, rfl⟩) <;> exact ⟨by simp, by simp, by simp, by simp⟩
  simp only [controlAct] at he
  split at he
  · cases he
  · cases he; left; simp [NotStarting, ServerObj.ctl]
  · cases he; left; simp [NotStarting, ServerObj.ctl]
  · cases he; left; simp [NotStarting, ServerObj.ctl]
  · split at he
    · cases he; right; exact ⟨rfl, true, rfl⟩
    · cases he; right; exact ⟨rfl, false, rfl⟩
  all_goals (rename_i hc; exact absurd (hns _ (by simp [hc])) h)

theorem stopping_ends' {s s' : ServerObj} (h : Stopping s.caller) (he : controlAct s = some s') :
    (s'.caller ≠ .idle ∧ s'.log = s.log) ∨ (s'.caller = .idle ∧ ∃ o, s'.log = s.log ++ [o] ∧ (o = .stopRaised ∨ ∃ b, o = .stopDone b)) := by
  obtain ⟨⟨n1, n2, n3, n4⟩, n5⟩ := h
  simp only [controlAct] at he
  split at he
  · rename_i hc; exact absurd hc n5
  · rename_i hc; exact absurd hc n1
  · rename_i hc; exact absurd hc (n2 _)
  · rename_i hc; exact absurd hc n3
  · rename_i hc; exact absurd hc (n4 _)
  all_goals try (split at he)
  all_goals try (split at he)
  all_goals first
    | (cases he; done)
    | (cases he; left; simp [ServerObj.ctl]; done)
    | (cases he; right; exact ⟨rfl, _, rfl, by simp⟩)

theorem serverAct_controls {s s' : ServerObj} {t : Nat} {ok : Bool} (he : serverAct s t ok = some s') :
    controls s'.log = controls s.log ∧ s'.caller = s.caller := by
  simp only [serverAct] at he
  split at he
  all_goals first
    | (cases he; done)
    | (cases he; exact ⟨rfl, rfl⟩)
    | (cases he; refine ⟨?_, rfl⟩; simp only [ServerObj.see, ServerObj.to]; rw [controls_snoc]; simp [controls])

theorem kInv_step {c c' : CompObj} {e : CEv} (hi : CInv c) (h : KInv c) (he : compStep c e = some c') : KInv c' := by
  obtain ⟨hst, hmade⟩ := h
  cases e with
  | callStart =>
    simp only [compStep] at he
    split at he <;> cases he
    rename_i hc
    rw [hc] at hmade
    exact ⟨fun _ h => (by cases h), fun i hi => by simpa [pending] using hmade i hi⟩
  | callStop =>
    simp only [compStep] at he
    split at he <;> cases he
    rename_i hc
    rw [hc] at hmade
    exact ⟨fun _ h => (by cases h), fun i hi => by simpa [pending] using hmade i hi⟩
  | server k t ok =>
    simp only [compStep] at he
    cases hs : serverAct (c.servers k) t ok with
    | none => rw [hs] at he; cases he
    | some s =>
      rw [hs] at he; cases he
      obtain ⟨g1, g2⟩ := serverAct_controls hs
      refine ⟨fun i hc => ?_, fun i hi => ?_⟩
      · show ¬ NotStarting (Function.update c.servers k s i).caller
        by_cases hik : i = k
        · subst hik; rw [Function.update_self, g2]; exact hst i hc
        · rw [Function.update_of_ne hik]; exact hst i hc
      · show controls (Function.update c.servers k s i).log = _
        by_cases hik : i = k
        · subst hik; rw [Function.update_self, g1]; exact hmade i hi
        · rw [Function.update_of_ne hik]; exact hmade i hi
  | control =>
    simp only [compStep, compControl] at he
    cases hc : c.caller with
    | idle => rw [hc] at he; cases he
    | next up k =>
      rw [hc] at he hmade
      dsimp only at he
      have hidle : ∀ j, (c.servers j).caller = .idle := fun j => hi.others j (by rw [hc]; simp)
      by_cases hk : k < c.n
      · rw [if_pos hk] at he
        cases hs : serverStep (c.servers k) (if up then .callStart else .callStop) with
        | none => rw [hs] at he; cases he
        | some s =>
          rw [hs] at he; cases he
          have hlog : s.log = (c.servers k).log := by
            cases up <;> simp only [Bool.false_eq_true, if_false, if_true, serverStep, hidle k] at hs <;> cases hs <;> rfl
          refine ⟨fun i hi' => ?_, fun i hi' => ?_⟩
          · cases hi'
            show ¬ NotStarting (Function.update c.servers k s k).caller
            rw [Function.update_self]
            simp only [if_true, serverStep, hidle k] at hs
            cases hs
            simp [NotStarting, ServerObj.ctl]
          · show controls (Function.update c.servers k s i).log = _
            have : controls (Function.update c.servers k s i).log = controls (c.servers i).log := by
              by_cases hik : i = k
              · subst hik; rw [Function.update_self, hlog]
              · rw [Function.update_of_ne hik]
            rw [this]; exact hmade i hi'
      · rw [if_neg hk] at he
        cases he
        refine ⟨fun _ h => (by cases h), fun i hi' => ?_⟩
        have hi' : i < c.n := hi'
        have := hmade i hi'
        show controls (c.servers i).log = _
        rw [this]
        simp only [pending, if_pos (show i < k by omega), List.flatMap_append]
        cases up <;> simp [meansFor]
    | inside up k =>
      rw [hc] at he hmade
      dsimp only at he
      cases hs : controlAct (c.servers k) with
      | none => rw [hs] at he; cases he
      | some s =>
        rw [hs] at he
        dsimp only at he
        -- either the method goes on, or it ends with one observation
        have hends : (s.caller ≠ .idle ∧ s.log = (c.servers k).log ∧ (up = true → ¬ NotStarting s.caller)) ∨
            (s.caller = .idle ∧ ∃ o, s.log = (c.servers k).log ++ [o] ∧ controls [o] = [(up, !s.lastRaised)]) := by
          cases up with
          | true =>
            rcases starting_ends (hst k hc) hs with ⟨a, b, d⟩ | ⟨a, b, d⟩
            · exact .inl ⟨b, d, fun _ => a⟩
            · refine .inr ⟨a, _, d, ?_⟩
              unfold ServerObj.lastRaised
              rw [d]
              cases b <;> simp [controls]
          | false =>
            rcases stopping_ends' (hi.here k hc) hs with ⟨a, b⟩ | ⟨a, o, d, ho⟩
            · exact .inl ⟨a, b, fun h => by cases h⟩
            · refine .inr ⟨a, o, d, ?_⟩
              unfold ServerObj.lastRaised
              rw [d]
              rcases ho with rfl | ⟨b, rfl⟩ <;> simp [controls]
        rcases hends with ⟨a, b, d⟩ | ⟨a, o, d, ho⟩
        · rw [if_neg a] at he
          cases he
          refine ⟨fun i hi' => ?_, fun i hi' => ?_⟩
          · cases hi'
            show ¬ NotStarting (Function.update c.servers k s k).caller
            rw [Function.update_self]; exact d rfl
          · show controls (Function.update c.servers k s i).log = _
            have : controls (Function.update c.servers k s i).log = controls (c.servers i).log := by
              by_cases hik : i = k
              · subst hik; rw [Function.update_self, b]
              · rw [Function.update_of_ne hik]
            rw [this]; exact hmade i hi'
        · rw [if_pos a] at he
          have hlog : ∀ i, i < c.n → controls (Function.update c.servers k s i).log =
              c.log.flatMap (meansFor i) ++ (if i < k then [(up, true)] else if i = k then [(up, !s.lastRaised)] else []) := by
            intro i hi'
            have hm := hmade i hi'
            simp only [pending] at hm
            by_cases hik : i = k
            · subst hik
              rw [if_neg (by omega), List.append_nil] at hm
              rw [Function.update_self, d, controls_snoc, hm, ho, if_neg (by omega), if_pos rfl]
            · rw [Function.update_of_ne hik, hm, if_neg hik]
          cases hlr : s.lastRaised with
          | true =>
            rw [hlr, if_pos rfl] at he
            cases he
            refine ⟨fun _ h => (by cases h), fun i hi' => ?_⟩
            show controls (Function.update c.servers k s i).log = _
            rw [hlog i hi', hlr]
            simp only [List.flatMap_append, pending, List.append_nil]
            cases up <;> simp [meansFor]
          | false =>
            rw [hlr, if_neg (by simp)] at he
            cases he
            refine ⟨fun _ h => (by cases h), fun i hi' => ?_⟩
            show controls (Function.update c.servers k s i).log = _
            rw [hlog i hi', hlr]
            simp only [pending]
            congr 1
            by_cases h1 : i < k
            · rw [if_pos h1, if_pos (by omega)]
            · rw [if_neg h1]
              by_cases h2 : i = k
              · rw [if_pos h2, if_pos (by omega)]; rfl
              · rw [if_neg h2, if_neg (by omega)]

/-- **C61.** What happens to each server: `start` and `stop` of the composite server call the method of every server once, in the order of the
    list, as long as none raises; an exception in server `j` ends the loop, the servers after it are neither started nor stopped. -/
theorem C61_calls (n : Nat) (es : List CEv) (c : CompObj) (h : CompAfter n es c) (hc : c.caller = .idle) (i : Nat) (hi : i < n) :
    controls (c.servers i).log = c.log.flatMap (meansFor i) := by
  have hk : CInv c ∧ KInv c ∧ c.n = n :=
    compRun_inv (P := fun c => CInv c ∧ KInv c ∧ c.n = n)
      (fun c c' e hc hs => ⟨cInv_step hc.1 hs, kInv_step hc.1 hc.2.1 hs, (comp_n hs).trans hc.2.2⟩) es _ _
      ⟨cInv_new n, ⟨fun _ h => (by cases h), fun i _ => rfl⟩, rfl⟩ h
  have := hk.2.1.made i (by rw [hk.2.2]; exact hi)
  rw [hc] at this
  simpa [pending] using this

-- two servers are started, serve and are stopped
def exBoth : List CEv :=
  [.callStart, .control, .control, .control, .control, .control, .control, .control, .control, .control, .control, .control,
   .server 0 0 true, .server 1 0 true, .server 1 0 true, .server 1 0 true, .server 1 0 true,
   .callStop, .control, .control, .control, .control, .control, .control,
   .server 0 0 true, .server 0 0 true, .server 0 0 true, .server 0 0 true, .server 0 0 true, .control,
   .control, .control, .control, .control, .control, .control,
   .server 1 0 true, .server 1 0 true, .server 1 0 true, .server 1 0 true, .server 1 0 true, .control, .control]
example : ∃ c, CompAfter 2 exBoth c ∧ c.log = [.startDone, .stopDone] ∧ c.caller = .idle ∧
    (c.servers 1).log = [.startDone, .call 0 .init true, .call 0 .run true, .call 0 .exit true, .stopDone true] := by
  have h : (compRun { n := 2 } exBoth).map (fun c => (c.log, c.caller, (c.servers 1).log)) =
      some ([.startDone, .stopDone], .idle, [.startDone, .call 0 .init true, .call 0 .run true, .call 0 .exit true, .stopDone true]) := by
    decide +kernel
  obtain ⟨c, h1, h2⟩ := Option.map_eq_some_iff.mp h
  simp only [Prod.mk.injEq] at h2
  exact ⟨c, h1, h2.1, h2.2.1, h2.2.2⟩

/-- the thread of the first server ends (its `_do_run` raises) while `stop` looks at it -/
def exRace : List CEv :=
  [.callStart, .control, .control, .control, .control, .control, .control, .control, .control, .control, .control, .control,
   .server 0 0 true, .server 0 0 true, .server 0 0 true, .server 0 0 false, .server 1 0 true,
   .callStop, .control, .control, .control, .server 0 0 true, .server 0 0 true, .control, .control, .control, .control]

/-- **C61: what a user may expect and does not get**: `stop` raises because of the first server (`RuntimeError: cannot join thread before it is
    started`, see `C48_false_stop_raises`), and the second server goes on serving. -/
theorem C61_false_stop_raises : ∃ c, CompAfter 2 exRace c ∧ c.log = [.startDone, .stopRaised 0] ∧ c.caller = .idle ∧
    ((c.servers 1).phase 0).serving = true ∧ controls (c.servers 1).log = [(true, true)] := by
  have h : (compRun { n := 2 } exRace).map (fun c => (c.log, c.caller, ((c.servers 1).phase 0).serving, controls (c.servers 1).log)) =
      some ([.startDone, .stopRaised 0], .idle, true, [(true, true)]) := by
    decide +kernel
  obtain ⟨c, h1, h2⟩ := Option.map_eq_some_iff.mp h
  simp only [Prod.mk.injEq] at h2
  exact ⟨c, h1, h2.1, h2.2.1, h2.2.2.1, h2.2.2.2⟩

/-! ## Construction -/

/-- server class `c.1`, a subclass of `Server` or not (`c.2`), in a world that records the calls of constructors -/
def recordingClass {A : Type} (c : Nat × Bool) : ServerClass (List (Nat × A × Nat)) A :=
  ⟨c.2, fun a d log => (.ok log.length, log ++ [(c.1, a, d)])⟩

theorem recording_make {A : Type} (c : Nat × Bool) (a : A) (db : Nat) (log : List (Nat × A × Nat)) :
    (recordingClass c).make a db log = (.ok log.length, log ++ [(c.1, a, db)]) := rfl

/-- **C61.** The constructors that are called, with which arguments and which databank: those of the classes that are servers, in order, each with
    the arguments at its place in the list, and all with the databank of the composite server; the arguments of classes that are not servers are
    skipped with them, what is left over in the longer list is ignored.  (`log`: a world that records the calls of constructors; class number `k`
    is the server class `k` of the list.) -/
theorem C61_constructors {A : Type} (classes : List (Nat × Bool)) (args : List A) (db : Nat) (log : List (Nat × A × Nat)) :
    makeServers db (classes.map recordingClass) args log =
    (.ok (List.range' log.length ((classes.zip args).filter (·.1.2)).length),
      log ++ ((classes.zip args).filter (·.1.2)).map fun ca => (ca.1.1, ca.2, db)) := by
  induction classes generalizing args log with
  | nil => simp [makeServers]
  | cons c cs ih =>
    cases args with
    | nil => simp [makeServers]
    | cons a as =>
      obtain ⟨k, b⟩ := c
      simp only [List.map_cons, makeServers, List.zip_cons_cons]
      cases b with
      | false => simpa [recordingClass] using ih as log
      | true =>
        rw [if_pos (show (recordingClass (A := A) (k, true)).isServer = true from rfl), PyM.bind_apply, recording_make]
        dsimp only
        rw [PyM.bind_apply, ih]
        simp [List.range'_succ]

/-- making a databank, in this world -/
def newRecorded {A : Type} (new : Nat) (extra : List (Nat × A × Nat)) : PyM (List (Nat × A × Nat)) Nat := fun w => (.ok new, w ++ extra)

/-- **C61.** The databank of the composite server, and of all its servers, is the one given to the constructor; when none is given, a new one (`new`)
    which is made first. -/
theorem C61_databank {A : Type} (classes : List (Nat × Bool)) (args : List A) (databank : Option Nat) (new : Nat) (extra log : List (Nat × A × Nat)) :
    let log' := if databank = none then log ++ extra else log
    compositeNew (newRecorded new extra) (classes.map recordingClass) args databank log =
    (.ok (databank.getD new, List.range' log'.length ((classes.zip args).filter (·.1.2)).length),
      log' ++ ((classes.zip args).filter (·.1.2)).map fun ca => (ca.1.1, ca.2, databank.getD new)) := by
  cases databank with
  | none => simp only [compositeNew, PyM.bind_apply, newRecorded, C61_constructors, if_true]; rfl
  | some d => simp only [compositeNew, PyM.bind_apply, PyM.pure_apply, C61_constructors, reduceCtorEq, if_false]; rfl

/-- **C61.** An exception raised by one constructor is raised by the composite server's. -/
theorem C61_constructor_raises {σ A : Type} (db : Nat) (c : ServerClass σ A) (cs : List (ServerClass σ A)) (a : A) (as : List A) (s s' : σ) (e : PyErr)
    (hc : c.isServer = true) (hm : c.make a db s = (.error e, s')) : makeServers db (c :: cs) (a :: as) s = (.error e, s') := by
  simp only [makeServers, hc, if_true, PyM.bind_apply, hm]

end Modbus
