import Verif.Lemmas.Locks
import Verif.Model.Threads
/-
# Properties C28 (threads), C41, C42, C43: locks
-/
namespace Modbus

variable {L σ α : Type} [DecidableEq L] {Op Res : Type}

/-! ## Operations under a common lock: the general facts -/

theorem lin_code {body : Op → Prog L σ Res} (hb : ∀ op, (body op).Balanced) (D : L) (op : Op) :
    ∃ p, Prog.withLock D (body op) = .acq D p ∧ p.Held D 1 ∧ ∀ x, p.run x = (body op).run x :=
  ⟨_, rfl, (hb op).held D, fun x => Prog.run_withLock D (body op) x⟩

theorem lin_init (code : Op → Prog L σ Res) (D : L) (spec : Op → σ → Res × σ) (x0 : σ) :
    LinInv code D spec x0 (Calls.init x0) [] x0 :=
  ⟨rfl, rfl, fun _ => .inl ⟨rfl, rfl⟩⟩

theorem lin_reach {code : Op → Prog L σ Res} {D : L} {spec : Op → σ → Res × σ} {x0 : σ} {s s' : Calls L σ Op Res}
    {log : List (Nat × Op × Res)} {y : σ} (hcode : ∀ op, ∃ p, code op = .acq D p ∧ p.Held D 1 ∧ ∀ x, p.run x = spec op x)
    (h : LinInv code D spec x0 s log y) (hr : Calls.Reach code s s') :
    ∃ log' y', LinInv code D spec x0 s' (log ++ log') y' := by
  induction hr with
  | refl => exact ⟨[], y, by simpa using h⟩
  | step _ hs ih =>
    obtain ⟨log1, y1, h1⟩ := ih
    obtain ⟨log2, y2, h2⟩ := h1.step hcode hs
    exact ⟨log1 ++ log2, y2, by rw [← List.append_assoc]; exact h2⟩

/-- The calls of a thread that have returned, and the one whose effect has happened but has not returned yet, if any. -/
def Recorded (log : List (Nat × Op × Res)) (s : Calls L σ Op Res) (t : Nat) : Prop :=
  byThread t log = s.hist t ∨ ∃ op p r, s.cur t = some (op, p) ∧ byThread t log = s.hist t ++ [(op, r)]

theorem LinInv.recorded {code : Op → Prog L σ Res} {D : L} {spec : Op → σ → Res × σ} {x0 : σ} {s : Calls L σ Op Res}
    {log : List (Nat × Op × Res)} {y : σ} (h : LinInv code D spec x0 s log y) (t : Nat) : Recorded log s t := by
  have hout : ∀ t, Outside code log s t → Recorded log s t := by
    intro t ho
    rcases ho with ⟨_, h2⟩ | ⟨op, h1, h2⟩ | ⟨op, r, h1, h2⟩
    · exact .inl h2
    · exact .inl h2
    · exact .inr ⟨op, _, r, h1, h2⟩
  have hl := h.lock
  cases ho : s.owners D with
  | none => rw [ho] at hl; exact hout t (hl.2 t)
  | some tn =>
    obtain ⟨t1, n⟩ := tn
    rw [ho] at hl
    obtain ⟨_, ⟨op, p, r, h2, _, _, h5⟩, h6⟩ := hl
    by_cases ht : t = t1
    · subst ht; exact .inr ⟨op, p, r, h2, h5⟩
    · exact hout t (h6 t ht)

/-- Linearizability: any number of threads call operations whose code is `with D: body`, at any times, interleaved in any
    way.  There is a sequential history - a total order of the calls, each returning what it returns when run alone, `log` - that
    contains the calls of each thread in the order the thread made them, with the results it got. -/
theorem linearizable (D : L) (body : Op → Prog L σ Res) (hb : ∀ op, (body op).Balanced) (x0 : σ) (s : Calls L σ Op Res)
    (hr : Calls.Reach (fun op => (body op).withLock D) (Calls.init x0) s) :
    ∃ log y, Legal (fun op => (body op).run) x0 log y ∧ (∀ t, Recorded log s t) ∧ (s.owners D = none → s.shared = y) := by
  obtain ⟨log, y, h⟩ := lin_reach (lin_code hb D) (lin_init _ D _ x0) hr
  refine ⟨log, y, by simpa using h.legal, fun t => by simpa using h.recorded t, ?_⟩
  intro ho
  have := h.lock
  rw [ho] at this
  exact this.1

/-- Real time: the sequential history at a later moment extends the one at an earlier moment.  So a call that returned before
    another one was made precedes it. -/
theorem linearizable_realtime (D : L) (body : Op → Prog L σ Res) (hb : ∀ op, (body op).Balanced) (x0 : σ) (s s' : Calls L σ Op Res)
    (hr : Calls.Reach (fun op => (body op).withLock D) (Calls.init x0) s)
    (hr' : Calls.Reach (fun op => (body op).withLock D) s s') :
    ∃ log log' y y', Legal (fun op => (body op).run) x0 log y ∧ Legal (fun op => (body op).run) x0 (log ++ log') y' ∧
      (∀ t, Recorded log s t) ∧ (∀ t, Recorded (log ++ log') s' t) := by
  obtain ⟨log, y, h⟩ := lin_reach (lin_code hb D) (lin_init _ D _ x0) hr
  obtain ⟨log', y', h'⟩ := lin_reach (lin_code hb D) h hr'
  exact ⟨log, log', y, y', by simpa using h.legal, by simpa using h'.legal, fun t => by simpa using h.recorded t,
    fun t => by simpa using h'.recorded t⟩

omit [DecidableEq L] in
theorem byThread_mem {t : Nat} {log : List (Nat × Op × Res)} {op : Op} {r : Res} (h : (op, r) ∈ byThread t log) : (t, op, r) ∈ log := by
  simp only [byThread, List.mem_map, List.mem_filter, decide_eq_true_eq] at h
  obtain ⟨e, ⟨h1, h2⟩, h3⟩ := h
  obtain ⟨t', op', r'⟩ := e
  simp only at h2 h3
  subst h2; cases h3; exact h1

/-- What holds for the results of all sequential executions holds for all results of concurrent ones. -/
theorem concurrent_results (D : L) (body : Op → Prog L σ Res) (hb : ∀ op, (body op).Balanced) (I : σ → Prop) (Q : Op → Res → Prop)
    (hI : ∀ op x, I x → I ((body op).run x).2 ∧ Q op ((body op).run x).1) (x0 : σ) (h0 : I x0) (s : Calls L σ Op Res)
    (hr : Calls.Reach (fun op => (body op).withLock D) (Calls.init x0) s) (t : Nat) (op : Op) (r : Res) (h : (op, r) ∈ s.hist t) :
    Q op r := by
  obtain ⟨log, y, h1, h2, _⟩ := linearizable D body hb x0 s hr
  have hmem : (op, r) ∈ byThread t log := by
    rcases h2 t with he | ⟨op', p, r', _, he⟩
    · rw [he]; exact h
    · rw [he]; exact List.mem_append_left _ h
  have hmem := byThread_mem hmem
  have key : ∀ (log : List (Nat × Op × Res)) (x y : σ), I x → Legal (fun op => (body op).run) x log y → ∀ e ∈ log, Q e.2.1 e.2.2 := by
    intro log
    induction log with
    | nil => intro x y _ _ e he; cases he
    | cons e log ih =>
      intro x y hx hl e' he'
      obtain ⟨t', op', r'⟩ := e
      rcases List.mem_cons.mp he' with rfl | he'
      · have := (hI op' x hx).2
        rw [hl.1] at this; exact this
      · exact ih _ y (hI op' x hx).1 hl.2 e' he'
  exact key log x0 y h0 h1 _ hmem

/-! ## C41: `execute` -/

/-- Thread `t` has entered the operation it called (it has acquired the lock) and has not left it. -/
def Calls.Inside (code : Op → Prog L σ Res) (s : Calls L σ Op Res) (t : Nat) : Prop :=
  ∃ op p, s.cur t = some (op, p) ∧ p ≠ code op ∧ p.isRet = false

/-- **C41.** Whatever threads call `execute` (on whatever masters: the lock belongs to the function), at most one of them is
    between acquiring and releasing, in every reachable state; the bodies are arbitrary: they may raise (that is a result) and
    may call `execute` again, e.g. from a hook. -/
theorem C41_serialized (E : L) (body : Op → Prog L σ Res) (hb : ∀ op, (body op).Balanced) (x0 : σ) (s : Calls L σ Op Res)
    (hr : Calls.Reach (executeCode E body fun _ => true) (Calls.init x0) s) (t t' : Nat)
    (h : s.Inside (executeCode E body fun _ => true) t) (h' : s.Inside (executeCode E body fun _ => true) t') : t = t' := by
  have hcode : (executeCode E body fun _ => true) = fun op => (body op).withLock E := rfl
  rw [hcode] at hr h h'
  obtain ⟨log, y, hi⟩ := lin_reach (lin_code hb E) (lin_init _ E _ x0) hr
  have hl := hi.lock
  have hnot : ∀ t, s.Inside (fun op => (body op).withLock E) t → ¬ Outside (fun op => (body op).withLock E) ([] ++ log) s t := by
    rintro t ⟨op, p, h1, h2, h3⟩ ho
    rcases ho with ⟨g1, _⟩ | ⟨op', g1, _⟩ | ⟨op', r, g1, _⟩
    · rw [h1] at g1; cases g1
    · rw [h1] at g1; cases g1; exact h2 rfl
    · rw [h1] at g1; cases g1; cases h3
  cases ho : s.owners E with
  | none => rw [ho] at hl; exact absurd (hl.2 t) (hnot t h)
  | some tn =>
    obtain ⟨t1, n⟩ := tn
    rw [ho] at hl
    have e1 : t = t1 := by by_contra hne; exact hnot t h (hl.2.2 t hne)
    have e2 : t' = t1 := by by_contra hne; exact hnot t' h' (hl.2.2 t' hne)
    rw [e1, e2]

/-- **C41.** Threads running any programs with matching acquisitions and releases - also those that call with
    `threadsafe=False` - : two threads never hold the same lock.  (`Owes d`: the rest of the program releases lock `l`
    `d l` times more often than it acquires it.) -/
theorem C41_mutual_exclusion (x0 : σ) (ps : Nat → Prog L σ α) (hb : ∀ t, (ps t).Balanced) (s : Sys L σ α)
    (hr : Sys.Reach (Sys.init x0 ps) s) (l : L) (t t' : Nat) (d d' : L → Nat) (h : (s.progs t).Owes d) (hd : 0 < d l)
    (h' : (s.progs t').Owes d') (hd' : 0 < d' l) : t = t' := by
  obtain ⟨e, he⟩ := (LockInv.init (x := x0) hb).reach hr
  rw [(h.unique s.shared (he.owes t))] at hd
  rw [(h'.unique s.shared (he.owes t'))] at hd'
  have hl := he.locks l
  cases ho : s.owners l with
  | none => rw [ho] at hl; rw [hl t] at hd; omega
  | some tn =>
    obtain ⟨t1, n⟩ := tn
    rw [ho] at hl
    have e1 : t = t1 := by by_contra hne; rw [hl.2.2 t hne] at hd; omega
    have e2 : t' = t1 := by by_contra hne; rw [hl.2.2 t' hne] at hd'; omega
    rw [e1, e2]

/-- **C41.** No thread waits for a lock nobody holds, no release fails: a thread that cannot go on has finished, or waits for
    a lock that another thread, which has not finished, owns. -/
theorem C41_no_orphan (x0 : σ) (ps : Nat → Prog L σ α) (hb : ∀ t, (ps t).Balanced) (s : Sys L σ α)
    (hr : Sys.Reach (Sys.init x0 ps) s) (t : Nat) (hn : s.next t = none) :
    (s.progs t).isRet = true ∨
    ∃ l k t' n, s.progs t = .acq l k ∧ s.owners l = some (t', n) ∧ t' ≠ t ∧ (s.progs t').isRet = false := by
  obtain ⟨e, he⟩ := (LockInv.init (x := x0) hb).reach hr
  rcases he.blocked hn with h | ⟨l, k, t', n, h1, h2, h3, h4, _⟩
  · exact .inl h
  · exact .inr ⟨l, k, t', n, h1, h2, h3, h4⟩

/-- **C41.** When all threads have finished, every lock is free. -/
theorem C41_all_released (x0 : σ) (ps : Nat → Prog L σ α) (hb : ∀ t, (ps t).Balanced) (s : Sys L σ α)
    (hr : Sys.Reach (Sys.init x0 ps) s) (hf : ∀ t, (s.progs t).isRet = true) (l : L) : s.owners l = none := by
  obtain ⟨e, he⟩ := (LockInv.init (x := x0) hb).reach hr
  have hl := he.locks l
  cases ho : s.owners l with
  | none => rfl
  | some tn =>
    obtain ⟨t1, n⟩ := tn
    rw [ho] at hl
    have := he.owes t1
    match hp : s.progs t1 with
    | .ret a => rw [hp] at this; have h0 := this l; rw [hl.2.1] at h0; have := hl.1; omega
    | .acq _ _ => have := hf t1; rw [hp] at this; cases this
    | .rel _ _ => have := hf t1; rw [hp] at this; cases this
    | .step _ _ => have := hf t1; rw [hp] at this; cases this

/-- the decorator keeps programs balanced, whatever `threadsafe` is -/
theorem threadsafe_balanced {p : Prog L σ α} (hp : p.Balanced) (l : L) (b : Bool) : (Prog.threadsafe l b p).Balanced := by
  unfold Prog.threadsafe
  split
  · exact hp.withLock l
  · exact hp

/-- several masters and the transaction counter they share: `masters i` is a master's state but for the counter -/
structure Masters (τ : Type) where
  isOpened : Nat → Bool
  link : Nat → τ
  lastTid : Int

/-- `masters[i].execute(a)` -/
def executeOn {τ : Type} (R : Registry) (mac : Nat → Mac) (ch : Nat → Chan τ) (i : Nat) (a : ExecArgs) (m : Masters τ) :
    Except PyErr ExecResult × Masters τ :=
  let r := execute R (mac i) (ch i) a ⟨m.isOpened i, m.link i, m.lastTid⟩
  (r.1, ⟨Function.update m.isOpened i r.2.isOpened, Function.update m.link i r.2.link, r.2.lastTid⟩)

/-- **C41.** Concurrent `execute` calls on any masters, in atomic steps of any size, have the effects and results of some
    sequential order. -/
theorem C41_atomic {τ : Type} (R : Registry) (mac : Nat → Mac) (ch : Nat → Chan τ) (E : L)
    (body : Nat × ExecArgs → Prog L (Masters τ) (Except PyErr ExecResult)) (hb : ∀ op, (body op).Balanced)
    (hexec : ∀ op m, (body op).run m = executeOn R mac ch op.1 op.2 m) (m0 : Masters τ) (s : Calls L (Masters τ) (Nat × ExecArgs) _)
    (hr : Calls.Reach (executeCode E body fun _ => true) (Calls.init m0) s) :
    ∃ log m, Legal (fun op => executeOn R mac ch op.1 op.2) m0 log m ∧ (∀ t, Recorded log s t) ∧ (s.owners E = none → s.shared = m) := by
  have := linearizable E body hb m0 s (show Calls.Reach (fun op => (body op).withLock E) _ _ from hr)
  have he : (fun op => (body op).run) = fun op => executeOn R mac ch op.1 op.2 := by funext op m; exact hexec op m
  rw [he] at this
  exact this

/-! ## C28: transaction ids -/

omit [DecidableEq L] in
theorem getTransactionIdBody_run (last : Int) :
    (getTransactionIdBody (L := L)).run last = (nextTransactionId last, nextTransactionId last) := by
  unfold getTransactionIdBody nextTransactionId
  simp only [Prog.run, id]
  split <;> rfl

theorem getTransactionIdBody_balanced : (getTransactionIdBody (L := L)).Balanced := by
  intro s
  show Prog.Owes (if s < 0xffff then _ else _) _
  split
  · intro _ _ _ _; rfl
  · intro _ _ _; rfl

/-- **C28.** Threads calling `_get_transaction_id` at any times, the accesses to the class variable interleaved in any way: the
    ids they get are those of one sequence, `last + 1 + k` modulo 65536 for `k` = 0, 1, ..., each thread getting its own in
    order. -/
theorem C28_concurrent (l : L) (last : Int) (hl : 0 ≤ last ∧ last ≤ 65535) (s : Calls L Int Unit Int)
    (hr : Calls.Reach (fun _ => getTransactionIdCode l) (Calls.init last) s) :
    ∃ log : List (Nat × Unit × Int), (∀ t, Recorded log s t) ∧
      ∀ (k : Nat) e, log[k]? = some e → e.2.2 = (last + 1 + k) % 65536 := by
  obtain ⟨log, y, h1, h2, _⟩ := linearizable l (fun _ => getTransactionIdBody) (fun _ => getTransactionIdBody_balanced) last s hr
  refine ⟨log, h2, ?_⟩
  have key : ∀ (log : List (Nat × Unit × Int)) (last y : Int), 0 ≤ last ∧ last ≤ 65535 →
      Legal (fun _ : Unit => (getTransactionIdBody (L := L)).run) last log y →
      ∀ (k : Nat) e, log[k]? = some e → e.2.2 = (last + 1 + k) % 65536 := by
    intro log
    induction log with
    | nil => intro _ _ _ _ k e he; simp at he
    | cons e log ih =>
      intro last y hl hleg k e' he
      obtain ⟨t, u, r⟩ := e
      obtain ⟨g1, g2⟩ := hleg
      simp only [getTransactionIdBody_run] at g1 g2
      have hn : nextTransactionId last = (last + 1) % 65536 := by unfold nextTransactionId; split <;> omega
      cases k with
      | zero =>
        simp only [List.getElem?_cons_zero, Option.some.injEq] at he
        subst he
        simp only at g1 ⊢
        rw [← g1, hn]; simp
      | succ k =>
        simp only [List.getElem?_cons_succ] at he
        have := ih (nextTransactionId last) y (by rw [hn]; omega) g2 k e' he
        rw [this, hn]; push_cast; omega
  exact key log last y hl h1

/-- **C28.** ... so two ids, given to whatever threads, are different as long as not more than 65536 were given. -/
theorem C28_concurrent_distinct (l : L) (last : Int) (hl : 0 ≤ last ∧ last ≤ 65535) (s : Calls L Int Unit Int)
    (hr : Calls.Reach (fun _ => getTransactionIdCode l) (Calls.init last) s) :
    ∃ log : List (Nat × Unit × Int), (∀ t, Recorded log s t) ∧ (log.length ≤ 65536 → (log.map (·.2.2)).Nodup) := by
  obtain ⟨log, h1, h2⟩ := C28_concurrent l last hl s hr
  refine ⟨log, h1, fun hlen => ?_⟩
  rw [List.Nodup, List.pairwise_iff_getElem]
  intro i j hi hj hij he
  rw [List.length_map] at hi hj
  simp only [List.getElem_map] at he
  rw [h2 i _ (List.getElem?_eq_getElem hi), h2 j _ (List.getElem?_eq_getElem hj)] at he
  omega

/-! ## C42: slaves -/

theorem slaveCode_eq {L : Type} (D : L) (body : SlaveCall → Prog L SlaveSt SlaveRes) :
    slaveCode D body = fun op => (body op).withLock D := by funext op; cases op <;> rfl

/-- The sequential calls of C42 are the methods of a slave as they are modelled in `Model/Slave.lean` (C01-C19): result and effect. -/
theorem C42_alone (R : Registry) (s : SlaveSt) :
    (∀ pdu b, SlaveCall.run R (.handle pdu b) s = ((handleRequest R s.sl pdu b s.heap).1 |> .response, { s with heap := (handleRequest R s.sl pdu b s.heap).2 })) ∧
    (∀ n bt st sz, SlaveCall.run R (.addBlock n bt st sz) s = (.done (addBlock n bt st sz s).1, (addBlock n bt st sz s).2)) ∧
    (∀ n, SlaveCall.run R (.removeBlock n) s = (.done (removeBlock n s).1, (removeBlock n s).2)) ∧
    SlaveCall.run R .removeAllBlocks s = (.done (removeAllBlocks s).1, (removeAllBlocks s).2) ∧
    (∀ n a v, SlaveCall.run R (.setValues n a v) s = (.done (setValues R n a v s.sl s.heap).1, { s with heap := (setValues R n a v s.sl s.heap).2 })) ∧
    (∀ n a k, SlaveCall.run R (.getValues n a k) s = (.values (getValues n a k s.sl s.heap).1, { s with heap := (getValues n a k s.sl s.heap).2 })) :=
  ⟨fun _ _ => rfl, fun _ _ _ _ => rfl, fun _ => rfl, rfl, fun _ _ _ => rfl, fun _ _ _ => rfl⟩

/-- **C42.** Any number of threads call methods of a slave at any times.  The methods are `with self._data_lock: body`, the
    bodies consist of atomic steps of any size and may use other locks (hooks).  The results are those of a sequential history
    which respects the order of the calls of each thread; when nobody is inside, the slave is in the state this history leads
    to. -/
theorem C42_linearizable (R : Registry) (D : L) (body : SlaveCall → Prog L SlaveSt SlaveRes) (hb : ∀ op, (body op).Balanced)
    (hspec : ∀ op x, (body op).run x = op.run R x) (x0 : SlaveSt) (s : Calls L SlaveSt SlaveCall SlaveRes)
    (hr : Calls.Reach (slaveCode D body) (Calls.init x0) s) :
    ∃ log y, Legal (SlaveCall.run R) x0 log y ∧ (∀ t, Recorded log s t) ∧ (s.owners D = none → s.shared = y) := by
  have he : (fun op => (body op).run) = SlaveCall.run R := by funext op m; exact hspec op m
  rw [slaveCode_eq] at hr
  have := linearizable D body hb x0 s hr
  rw [he] at this
  exact this

/-- **C42.** The sequential histories at two moments of one execution are one a prefix of the other: a call that returned
    before another one was made comes first. -/
theorem C42_realtime (R : Registry) (D : L) (body : SlaveCall → Prog L SlaveSt SlaveRes) (hb : ∀ op, (body op).Balanced)
    (hspec : ∀ op x, (body op).run x = op.run R x) (x0 : SlaveSt) (s s' : Calls L SlaveSt SlaveCall SlaveRes)
    (hr : Calls.Reach (slaveCode D body) (Calls.init x0) s)
    (hr' : Calls.Reach (slaveCode D body) s s') :
    ∃ log log' y y', Legal (SlaveCall.run R) x0 log y ∧ Legal (SlaveCall.run R) x0 (log ++ log') y' ∧
      (∀ t, Recorded log s t) ∧ (∀ t, Recorded (log ++ log') s' t) := by
  have he : (fun op => (body op).run) = SlaveCall.run R := by funext op m; exact hspec op m
  rw [slaveCode_eq] at hr hr'
  have := linearizable_realtime D body hb x0 s s' hr hr'
  rw [he] at this
  exact this

/-- **C42.** Whatever is true of the results of all sequential uses of the slave is true of all concurrent ones. -/
theorem C42_results (R : Registry) (D : L) (body : SlaveCall → Prog L SlaveSt SlaveRes) (hb : ∀ op, (body op).Balanced)
    (hspec : ∀ op x, (body op).run x = op.run R x) (I : SlaveSt → Prop) (Q : SlaveCall → SlaveRes → Prop)
    (hI : ∀ op x, I x → I (op.run R x).2 ∧ Q op (op.run R x).1) (x0 : SlaveSt) (h0 : I x0)
    (s : Calls L SlaveSt SlaveCall SlaveRes) (hr : Calls.Reach (slaveCode D body) (Calls.init x0) s)
    (t : Nat) (op : SlaveCall) (r : SlaveRes) (h : (op, r) ∈ s.hist t) : Q op r := by
  rw [slaveCode_eq] at hr
  exact concurrent_results D body hb I Q (fun op x hx => by rw [hspec]; exact hI op x hx) x0 h0 s hr t op r h

/-! ## C43: deadlocks -/

/-- the locks of the library -/
inductive Lk where
  /-- of `Master.execute` -/
  | execute
  /-- of `_get_transaction_id` -/
  | tid
  /-- `hooks._LOCK` -/
  | hooks
  /-- `_data_lock` of a slave -/
  | data (slave : Nat)
  /-- `_lock` of a databank -/
  | bank (db : Nat)
  deriving DecidableEq

/-- what kind of code a program is -/
inductive Level where
  /-- library code that uses no locks -/
  | plain
  /-- hook functions -/
  | hook
  /-- code inside a method of a slave -/
  | slave
  /-- code inside `execute` -/
  | exec
  /-- user and server threads -/
  | client
  deriving DecidableEq

/-- Programs that use the locks as the library does.  All the rest is left open: any atomic steps, any number of calls, any
    control flow. -/
inductive Lib : Level → {α : Type} → Prog Lk σ α → Prop
  | ret (v : Level) {α : Type} (a : α) : Lib v (.ret a)
  | step (v : Level) {α : Type} (f : σ → σ) (k : σ → Prog Lk σ α) : (∀ x, Lib v (k x)) → Lib v (.step f k)
  | seq (v : Level) {α β : Type} (p : Prog Lk σ β) (k : β → Prog Lk σ α) : Lib v p → (∀ b, Lib v (k b)) → Lib v (p.bind k)
  /-- `_get_transaction_id`, modbus_tcp.py:107-114: no calls inside; called from `build_request` in `execute` -/
  | tid (v : Level) {α : Type} (body : Prog Lk σ α) : v ≠ .plain → Lib .plain body → Lib v (body.withLock .tid)
  /-- `add_slave`, `get_slave`, `remove_slave`, `remove_all_slaves`, modbus.py:908-938: no locks inside -/
  | bank (v : Level) {α : Type} (db : Nat) (body : Prog Lk σ α) : v ≠ .plain → Lib .plain body → Lib v (body.withLock (.bank db))
  /-- `install_hook`, `uninstall_hook`, `call_hooks`, hooks.py:83-109: hook functions run inside -/
  | hooks (v : Level) {α : Type} (body : Prog Lk σ α) : v ≠ .plain → Lib .hook body → Lib v (body.withLock .hooks)
  /-- the methods of a slave, modbus.py:737-894: hooks are called inside -/
  | data {α : Type} (i : Nat) (body : Prog Lk σ α) : Lib .slave body → Lib .client (body.withLock (.data i))
  /-- `execute`, modbus.py:137-417: hooks are called and transaction ids are made inside -/
  | execute {α : Type} (body : Prog Lk σ α) : Lib .exec body → Lib .client (body.withLock .execute)

/-- the order of the locks -/
def Lk.rank : Lk → Nat
  | .execute => 0
  | .data _ => 0
  | .hooks => 1
  | .tid => 2
  | .bank _ => 2

theorem Lib.balanced {v : Level} {β : Type} {p : Prog Lk σ β} (h : Lib v p) : p.Balanced := by
  induction h with
  | ret v a => intro l; rfl
  | step v f k _ ih => exact fun x => ih x
  | seq v p k _ _ ih1 ih2 => exact ih1.bind (fun b => ih2 b)
  | tid v body _ _ ih => exact ih.withLock _
  | bank v db body _ _ ih => exact ih.withLock _
  | hooks v body _ _ ih => exact ih.withLock _
  | data i body _ ih => exact ih.withLock _
  | execute body _ ih => exact ih.withLock _

theorem Prog.Ordered.bind {α β : Type} {rank : L → Nat} {p : Prog L σ α} {g : α → Prog L σ β} {e d : L → Nat} (hp : p.Owes e)
    (ho : p.Ordered rank (fun l => e l + d l)) (hg : ∀ a, (g a).Ordered rank d) : (p.bind g).Ordered rank (fun l => e l + d l) := by
  induction p generalizing e with
  | ret a =>
    have : (fun l => e l + d l) = d := by funext l; rw [hp l]; simp
    rw [this]; exact hg a
  | acq l k ih =>
    have he := Prog.update_add e d l (e l + 1) (e l + d l + 1) (by omega)
    have := ih (e := Function.update e l (e l + 1)) hp (by rw [he]; exact ho.2)
    rw [he] at this
    exact ⟨ho.1, this⟩
  | rel l k ih =>
    obtain ⟨h1, h2⟩ := hp
    have he := Prog.update_add e d l (e l - 1) (e l + d l - 1) (by omega)
    have := ih (e := Function.update e l (e l - 1)) h2 (by rw [he]; exact ho)
    rw [he] at this
    exact this
  | step f k ih => exact fun s => ih s (hp s) (ho s)

/-- the locks that may be held when code of a level runs -/
def Level.May : Level → (Lk → Nat) → Prop
  | .plain, _ => True
  | .hook, d => 0 < d .hooks ∧ ∀ l, 0 < d l → l.rank ≤ 1
  | .slave, d => ∀ l, 0 < d l → l.rank = 0 ∨ l = .hooks
  | .exec, d => ∀ l, 0 < d l → l.rank = 0 ∨ l = .hooks
  | .client, d => ∀ l, d l = 0

theorem ordered_withLock {α : Type} {l : Lk} {p : Prog Lk σ α} {d : Lk → Nat} (hp : p.Balanced)
    (hl : 0 < d l ∨ ∀ l', 0 < d l' → l'.rank < l.rank)
    (ho : p.Ordered Lk.rank (Function.update d l (d l + 1))) : (p.withLock l).Ordered Lk.rank d := by
  refine ⟨hl, ?_⟩
  have := Prog.Ordered.bind (e := fun _ => 0) (d := Function.update d l (d l + 1)) (g := fun a => Prog.rel l (Prog.ret a)) hp
    (by simpa using ho) (fun a => trivial)
  simpa using this

theorem Lib.ordered {v : Level} {β : Type} {p : Prog Lk σ β} (h : Lib v p) : ∀ d, v.May d → p.Ordered Lk.rank d := by
  have hrank : ∀ l : Lk, l.rank ≤ 2 := by intro l; cases l <;> simp [Lk.rank]
  -- what may be held ranks below the leaves
  have hlow : ∀ (v : Level) (d : Lk → Nat), v ≠ .plain → v.May d → ∀ l, 0 < d l → l.rank ≤ 1 := by
    intro v d hv hm l hl
    cases v with
    | plain => exact absurd rfl hv
    | hook => exact hm.2 l hl
    | slave => rcases hm l hl with h | rfl; omega; simp [Lk.rank]
    | exec => rcases hm l hl with h | rfl; omega; simp [Lk.rank]
    | client => have := hm l; omega
  induction h with
  | ret v a => intro d _; trivial
  | step v f k _ ih => intro d hm x; exact ih x d hm
  | seq v p k h1 h2 ih1 ih2 =>
    intro d hm
    have := Prog.Ordered.bind (e := fun _ => 0) (d := d) h1.balanced (by simpa using ih1 d hm) (fun b => ih2 b d hm)
    simpa using this
  | tid v body hv hp ih =>
    intro d hm
    refine ordered_withLock hp.balanced (.inr fun l hl => ?_) (ih _ trivial)
    have := hlow v d hv hm l hl
    show l.rank < 2
    omega
  | bank v db body hv hp ih =>
    intro d hm
    refine ordered_withLock hp.balanced (.inr fun l hl => ?_) (ih _ trivial)
    have := hlow v d hv hm l hl
    show l.rank < 2
    omega
  | hooks v body hv hp ih =>
    intro d hm
    refine ordered_withLock hp.balanced ?_ (ih _ ⟨by simp, ?_⟩)
    · by_cases hh : 0 < d .hooks
      · exact .inl hh
      · right
        intro l hl
        show l.rank < 1
        cases v with
        | plain => exact absurd rfl hv
        | hook => exact absurd hm.1 hh
        | slave => rcases hm l hl with h | rfl; omega; exact absurd hl hh
        | exec => rcases hm l hl with h | rfl; omega; exact absurd hl hh
        | client => have := hm l; omega
    · intro l hl
      by_cases hlh : l = .hooks
      · subst hlh; simp [Lk.rank]
      · rw [Function.update_of_ne hlh] at hl
        exact hlow v d hv hm l hl
  | data i body hp ih =>
    intro d hm
    refine ordered_withLock hp.balanced (.inr fun l hl => ?_) (ih _ ?_)
    · have := hm l; omega
    · intro l hl
      by_cases hli : l = .data i
      · subst hli; exact .inl rfl
      · rw [Function.update_of_ne hli] at hl; have := hm l; omega
  | execute body hp ih =>
    intro d hm
    refine ordered_withLock hp.balanced (.inr fun l hl => ?_) (ih _ ?_)
    · have := hm l; omega
    · intro l hl
      by_cases hli : l = .execute
      · subst hli; exact .inl rfl
      · rw [Function.update_of_ne hli] at hl; have := hm l; omega

/-- **C43 (part).** Any number of threads use masters, servers, slaves, databanks and hooks, provided hook functions call no
    methods of slaves and no `execute`: as long as a thread has not finished, some thread can go on. -/
theorem C43_no_deadlock_partial (x0 : σ) (ps : Nat → Prog Lk σ α) (hps : ∀ t, Lib .client (ps t)) (s : Sys Lk σ α)
    (hr : Sys.Reach (Sys.init x0 ps) s) (t : Nat) (ht : (s.progs t).isRet = false) : ∃ t' s', s.next t' = some s' := by
  have h0 : OrderInv Lk.rank (Sys.init x0 ps) (fun _ _ => 0) :=
    ⟨LockInv.init (fun t => (hps t).balanced), fun t => (hps t).ordered _ (fun _ => rfl)⟩
  obtain ⟨d, hd⟩ := h0.reach hr
  exact hd.progress (N := 2) (by intro l; cases l <;> simp [Lk.rank]) ht

/-- **C43 (part).** ... and with finitely many threads every execution, under every schedule, comes to an end, where all threads
    have finished and all locks are free. -/
theorem C43_completes_partial (x0 : σ) (ps : Nat → Prog Lk σ α) (hps : ∀ t, Lib .client (ps t)) (n : Nat)
    (hfin : ∀ t, n ≤ t → (ps t).isRet = true) :
    (¬ ∃ run : Nat → Sys Lk σ α, run 0 = Sys.init x0 ps ∧ ∀ i, ∃ t, (run i).next t = some (run (i+1))) ∧
    (∀ s, Sys.Reach (Sys.init x0 ps) s → (∀ t, s.next t = none) → (∀ t, (s.progs t).isRet = true) ∧ ∀ l, s.owners l = none) := by
  constructor
  · rintro ⟨run, h0, hrun⟩
    have hacc := sys_terminates n (Sys.init x0 ps) hfin
    rw [← h0] at hacc
    have key : ∀ s, Acc (fun s' s : Sys Lk σ α => ∃ t, s.next t = some s') s → ∀ i, run i = s → False := by
      intro s hs
      induction hs with
      | intro s _ ih => intro i hi; exact ih (run (i+1)) (by rw [← hi]; exact hrun i) (i+1) rfl
    exact key _ hacc 0 rfl
  · intro s hr hn
    have hall : ∀ t, (s.progs t).isRet = true := by
      intro t
      by_contra hne
      obtain ⟨t', s', h⟩ := C43_no_deadlock_partial x0 ps hps s hr t (by simpa using hne)
      rw [hn t'] at h; cases h
    exact ⟨hall, C41_all_released x0 ps (fun t => (hps t).balanced) s hr hall⟩

/-- a schedule - the list of the threads that move, in order - gives an execution -/
theorem reach_of_schedule (ts : List Nat) (s0 s : Sys L σ α)
    (h : ts.foldl (fun o t => o.bind fun x => x.next t) (some s0) = some s) : Sys.Reach s0 s := by
  have hnone : ∀ ts : List Nat, ts.foldl (fun o t => o.bind fun x : Sys L σ α => x.next t) none = none := by
    intro ts; induction ts with
    | nil => rfl
    | cons t ts ih => exact ih
  have key : ∀ (ts : List Nat) (s1 : Sys L σ α), Sys.Reach s0 s1 →
      ts.foldl (fun o t => o.bind fun x => x.next t) (some s1) = some s → Sys.Reach s0 s := by
    intro ts
    induction ts with
    | nil => intro s1 h1 h; cases h; exact h1
    | cons t ts ih =>
      intro s1 h1 h
      rw [List.foldl_cons] at h
      cases hx : s1.next t with
      | none => simp only [Option.bind_some, hx] at h; rw [hnone] at h; cases h
      | some x => simp only [Option.bind_some, hx] at h; exact ih x (.step t h1 hx) h
  exact key ts s0 .refl h

/-! ## What is false, and why the locks are needed -/

/-- a method of slave 1: acquires its lock and calls a hook (modbus.py:737-740) -/
def exHandle : Prog Lk Unit Unit := Prog.withLock (.data 1) (Prog.withLock .hooks (.ret ()))

/-- a hook function that uses slave 1, e.g. on `modbus.Master.after_recv` -/
def exHook : Prog Lk Unit Unit := Prog.withLock .hooks (Prog.withLock (.data 1) (.ret ()))

/-- **C43 fails** when a hook function uses a slave: the server thread handling a request for this slave and the thread
    calling the hook wait for each other for ever. -/
theorem C43_false_deadlock :
    ∃ s, Sys.Reach (Sys.init () fun t => if t = 0 then exHandle else if t = 1 then exHook else .ret ()) s ∧
      (∀ t, s.next t = none) ∧ (s.progs 0).isRet = false ∧ (s.progs 1).isRet = false := by
  let s1 : Sys Lk Unit Unit := ⟨(), Function.update (fun _ => none) (Lk.data 1) (some (0, 1)),
    Function.update (fun t => if t = 0 then exHandle else if t = 1 then exHook else .ret ()) 0
      (.acq .hooks (.rel .hooks (.rel (.data 1) (.ret ()))))⟩
  let s2 : Sys Lk Unit Unit := ⟨(), Function.update s1.owners Lk.hooks (some (1, 1)),
    Function.update s1.progs 1 (.acq (.data 1) (.rel (.data 1) (.rel .hooks (.ret ()))))⟩
  have h1 : Sys.next (Sys.init () fun t => if t = 0 then exHandle else if t = 1 then exHook else .ret ()) 0 = some s1 := rfl
  have h2 : Sys.next s1 1 = some s2 := rfl
  refine ⟨s2, .step 1 (.step 0 .refl h1) h2, ?_, rfl, rfl⟩
  intro t
  by_cases ht1 : t = 1
  · subst ht1; rfl
  · by_cases ht0 : t = 0
    · subst ht0; rfl
    · have : s2.progs t = .ret () := by
        show Function.update s1.progs 1 _ t = _
        rw [Function.update_of_ne ht1]
        simp only [s1]
        rw [Function.update_of_ne ht0]
        simp [ht0, ht1]
      unfold Sys.next
      rw [this]; rfl

-- the first thread alone is a library program, the second is not allowed by `Lib` (a hook function that uses a slave)
example : Lib .client exHandle := .data 1 _ (.hooks _ _ (by decide) (.ret _ _))
-- a client program with everything: execute with hooks and a transaction id, a hook function that looks up a slave, a request
example : Lib (σ := Int) .client ((Prog.withLock .execute (Prog.bind (Prog.withLock .tid getTransactionIdBody) fun _ =>
      Prog.withLock .hooks (Prog.withLock (.bank 0) (.ret ())))).bind fun _ => Prog.withLock (.data 3) (Prog.withLock .hooks (.ret ()))) := by
  refine .seq _ _ _ (.execute _ (.seq _ _ _ (.tid _ _ (by decide) ?_) (fun _ => .hooks _ _ (by decide) (.bank _ _ _ (by decide) (.ret _ _)))))
    (fun _ => .data _ _ (.hooks _ _ (by decide) (.ret _ _)))
  unfold getTransactionIdBody
  refine .step _ _ _ fun x => ?_
  split
  · exact .step _ _ _ fun _ => .step _ _ _ fun _ => .step _ _ _ fun _ => .ret _ _
  · exact .step _ _ _ fun _ => .step _ _ _ fun _ => .ret _ _

/-- two registers written one after the other, as `_write_multiple_registers` does (modbus.py:665-666) -/
def exWrite (D : Lk) : Prog Lk (Int × Int) (Int × Int) :=
  Prog.withLock D (.step (fun m => (1, m.2)) fun _ => .step (fun m => (m.1, 1)) fun _ => .ret (1, 1))

/-- the two registers read -/
def exRead (D : Lk) : Prog Lk (Int × Int) (Int × Int) := Prog.withLock D (.step id fun m => .ret m)

/-- **Outside C42**: two slaves that share their memory (`Slave(..., memory)`, `add_slave(..., memory=...)`) have a lock each.  A
    read on one of them can see half of a write on the other one. -/
theorem C42_false_shared_memory :
    ∃ s, Sys.Reach (Sys.init ((0, 0) : Int × Int) fun t => if t = 0 then exWrite (.data 1) else if t = 1 then exRead (.data 2) else .ret (0, 0)) s ∧
      s.progs 1 = .ret (1, 0) := by
  exact ⟨_, reach_of_schedule [0, 0, 1, 1, 1] _ _ rfl, rfl⟩

/-! ## Non-vacuity -/

/-- the bodies of the operations in one step each: the simplest choice satisfying the hypotheses of the theorems above -/
def oneStep (spec : Op → σ → Res × σ) (op : Op) : Prog L σ Res := .step (fun x => (spec op x).2) fun x => .ret (spec op x).1

example (R : Registry) : (∀ op, (oneStep (L := Lk) (SlaveCall.run R) op).Balanced) ∧
    ∀ op x, (oneStep (L := Lk) (SlaveCall.run R) op).run x = op.run R x :=
  ⟨fun _ _ _ => rfl, fun _ _ => rfl⟩

-- bodies in two steps with a hook call (another lock) between them, and one that enters the lock again
example : ((.step (fun m => (1, m.2)) fun _ => (Prog.withLock .hooks (.ret ())).bind fun _ =>
    Prog.withLock (.data 1) (.step (fun m => (m.1, 1)) fun m => .ret m)) : Prog Lk (Int × Int) (Int × Int)).Balanced := by
  intro x
  refine Prog.Balanced.bind (Prog.Balanced.withLock ?_ _) (fun _ => Prog.Balanced.withLock ?_ _)
  · intro _; rfl
  · intro _ _; rfl

-- two threads get ids in an interleaved way; without the lock both would get the same
example : ∃ s : Sys Lk Int Int, Sys.Reach (Sys.init 7 fun t => if t < 2 then getTransactionIdBody else .ret 0) s ∧
    s.progs 0 = .ret 8 ∧ s.progs 1 = .ret 8 := by
  exact ⟨_, reach_of_schedule [0, 1, 0, 1, 0, 1, 0, 1] _ _ rfl, rfl, rfl⟩

end Modbus
