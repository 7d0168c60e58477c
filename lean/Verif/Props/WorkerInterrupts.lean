import Verif.Model.WorkerInterrupts
import Verif.Props.Worker
/-
# C111: interrupted `start` and `stop` of a `WorkerThread`
-/
namespace Modbus

/-- the state of a worker after the actions `es`, from its construction -/
def WorkerIntAfter (hasInit hasExit : Bool) (es : List WIEv) (s : Worker) : Prop :=
  workerIntRun (Worker.new hasInit hasExit) es = some s

theorem workerIntRun_inv {P : Worker → Prop} (hstep : ∀ s s' e, P s → workerIntStep s e = some s' → P s') :
    ∀ (es : List WIEv) (s s' : Worker), P s → workerIntRun s es = some s' → P s'
  | [], s, s', h, hr => by cases hr; exact h
  | e :: es, s, s', h, hr => by
    simp only [workerIntRun] at hr
    cases hs : workerIntStep s e with
    | none => rw [hs] at hr; cases hr
    | some s1 => rw [hs] at hr; exact workerIntRun_inv hstep es s1 s' (hstep _ _ _ h hs) hr

theorem phaseCalls_intStep {s s' : Worker} {e : WIEv} (h : PhaseCalls s) (he : workerIntStep s e = some s') :
    PhaseCalls s' ∧ s'.hasInit = s.hasInit ∧ s'.hasExit = s.hasExit := by
  cases e with
  | plain e => exact ⟨phaseCalls_step h he, workerStep_flags he⟩
  | cut c =>
    simp only [workerIntStep] at he
    split at he <;> cases he
    exact ⟨h, rfl, rfl⟩
  | cutStarted c =>
    simp only [workerIntStep] at he
    split at he
    · rename_i hc
      cases he
      refine ⟨?_, rfl, rfl⟩
      unfold PhaseCalls at h ⊢
      rw [hc.2] at h
      exact h
    · cases he

theorem workerIntAfter_phase {hi hx : Bool} {es : List WIEv} {s : Worker} (h : WorkerIntAfter hi hx es s) :
    PhaseCalls s ∧ s.hasInit = hi ∧ s.hasExit = hx :=
  workerIntRun_inv (P := fun s => PhaseCalls s ∧ s.hasInit = hi ∧ s.hasExit = hx)
    (fun _ _ _ h he => by
      obtain ⟨h1, h2, h3⟩ := phaseCalls_intStep h.1 he
      exact ⟨h1, h2.trans h.2.1, h3.trans h.2.2⟩)
    es (Worker.new hi hx) s ⟨(rfl : fctCalls [] = []), rfl, rfl⟩ h

/-- **C111.** However the calls of `start` and `stop` of any threads are interrupted: the functions called so far are `init` once (if given),
    then `main` until one of them raises, then `exit` (if given), not more than once and nothing after it; and as soon as the thread has ended,
    `exit` has been called. -/
theorem C111_calls (hasInit hasExit : Bool) (es : List WIEv) (s : Worker) (h : WorkerIntAfter hasInit hasExit es s) :
    ∃ raised before, WorkBefore hasInit raised before ∧
      (s.phase = .dead → ∃ b, fctCalls s.log = before ++ if hasExit then [(.exit, b)] else []) ∧
      (s.phase ≠ .dead → fctCalls s.log = before ∨ fctCalls s.log = []) := by
  obtain ⟨hp, rfl, rfl⟩ := workerIntAfter_phase h
  unfold PhaseCalls at hp
  cases hph : s.phase <;> rw [hph] at hp <;> dsimp only at hp
  · exact ⟨false, _, Or.inr ⟨0, rfl⟩, fun h => (by cases h), fun _ => Or.inr hp⟩
  · exact ⟨false, _, Or.inr ⟨0, rfl⟩, fun h => (by cases h), fun _ => Or.inr hp⟩
  · exact ⟨false, _, hp, fun h => (by cases h), fun _ => Or.inl rfl⟩
  · exact ⟨false, _, hp, fun h => (by cases h), fun _ => Or.inl rfl⟩
  · obtain ⟨r, hp⟩ := hp
    exact ⟨r, _, hp, fun h => (by cases h), fun _ => Or.inl rfl⟩
  · obtain ⟨r, l, b, hp, hl⟩ := hp
    exact ⟨r, l, hp, fun _ => ⟨b, hl⟩, fun h => absurd rfl h⟩

theorem dead_intLog_run : ∀ (es : List WIEv) (s s' : Worker), s.phase = .dead → workerIntRun s es = some s' →
    s'.phase = .dead ∧ fctCalls s'.log = fctCalls s.log
  | [], s, s', hd, hr => by cases hr; exact ⟨hd, rfl⟩
  | e :: es, s, s', hd, hr => by
    simp only [workerIntRun] at hr
    cases hs : workerIntStep s e with
    | none => rw [hs] at hr; cases hr
    | some s1 =>
      rw [hs] at hr
      have h1 : s1.phase = .dead ∧ fctCalls s1.log = fctCalls s.log := by
        cases e with
        | plain e =>
          obtain ⟨hd1, l1, hl1, hc1⟩ := dead_log hd hs
          refine ⟨hd1, ?_⟩
          rw [hl1]
          unfold fctCalls at *
          rw [List.filterMap_append, hc1, List.append_nil]
        | cut c =>
          simp only [workerIntStep] at hs
          split at hs <;> cases hs
          exact ⟨hd, rfl⟩
        | cutStarted c =>
          simp only [workerIntStep] at hs
          split at hs
          · rename_i hc
            rw [hd] at hc
            cases hc.2
          · cases hs
      obtain ⟨hd2, hc2⟩ := dead_intLog_run es s1 s' h1.1 hr
      exact ⟨hd2, hc2.trans h1.2⟩

/-- **C111.** Whatever was interrupted before: a `stop` that had found the thread alive returns only when the thread has ended, after the
    exit function, and no function is called any more. -/
theorem C111_stop_waits (hasInit hasExit : Bool) (es es' : List WIEv) (e : WEv) (c : Nat) (s s1 s2 : Worker)
    (h : WorkerIntAfter hasInit hasExit es s) (he : workerStep s e = some s1) (hlog : s1.log = s.log ++ [.stopDone c true])
    (h2 : workerIntRun s1 es' = some s2) :
    s.phase = .dead ∧ (∃ r before b, WorkBefore hasInit r before ∧ fctCalls s.log = before ++ if hasExit then [(.exit, b)] else []) ∧
      fctCalls s2.log = fctCalls s.log := by
  have hd := stop_dead he hlog
  obtain ⟨r, before, hb, hx, -⟩ := C111_calls _ _ _ _ h
  obtain ⟨b, hx⟩ := hx hd
  refine ⟨hd, ⟨r, before, b, hb, hx⟩, ?_⟩
  rw [(dead_intLog_run es' s1 s2 (dead_log hd he).1 h2).2, hlog]
  unfold fctCalls
  simp

/-- is it an action of the worker thread? -/
def WIEv.isWorker : WIEv → Bool
  | .plain (.worker _) => true
  | _ => false

theorem left_intStep {s s' : Worker} {e : WIEv} (hgo : s.go = false) (hs : NoStart s) (hnc : ∀ c, e ≠ .plain (.callStart c))
    (he : workerIntStep s e = some s') :
    s'.go = false ∧ NoStart s' ∧ (if e.isWorker then 1 else 0) + actionsLeft s'.phase ≤ actionsLeft s.phase ∧
      mainCalls s'.log + mainsLeft s'.phase ≤ mainCalls s.log + mainsLeft s.phase := by
  cases e with
  | plain e =>
    obtain ⟨h1, h2, h3⟩ := left_step hgo hs (fun c h => hnc c (by rw [h])) he
    refine ⟨h1, h2, ?_, mains_step hgo he⟩
    cases e <;> exact h3
  | cut c =>
    simp only [workerIntStep] at he
    split at he <;> cases he
    refine ⟨hgo, fun d => ?_, by simp [WIEv.isWorker, Worker.to], Nat.le_refl _⟩
    simp only [Worker.to, Function.update_apply]
    split
    · exact ⟨by decide, by decide⟩
    · exact hs d
  | cutStarted c =>
    simp only [workerIntStep] at he
    split at he
    · rename_i hc
      exact absurd hc.1 (hs c).2
    · cases he

/-- **C111.** A `stop` that has cleared the event stops the worker, even if it is interrupted afterwards (Ctrl-C during `join`): as long as
    nobody calls `start`, the worker thread does at most three more actions, at most one call of `main` among them, and as long as it has not
    ended, it can act. -/
theorem C111_stop_cut (es : List WIEv) (s s' : Worker) (c : Nat) (hc : s.callers c = .stopClear) (hs : ∀ d, s.callers d ≠ .startSet ∧ s.callers d ≠ .startThread)
    (hnc : ∀ d, WIEv.plain (.callStart d) ∉ es) (hr : workerIntRun s (.plain (.caller c) :: .cut c :: es) = some s') :
    (es.filter WIEv.isWorker).length ≤ 3 ∧ mainCalls s'.log ≤ mainCalls s.log + 1 ∧
      (s'.phase ≠ .fresh → s'.phase ≠ .dead → ∀ ok, workerIntStep s' (.plain (.worker ok)) ≠ none) := by
  have key : ∀ (es : List WIEv) (s s' : Worker), s.go = false → NoStart s → (∀ c, WIEv.plain (.callStart c) ∉ es) →
      workerIntRun s es = some s' →
      (es.filter WIEv.isWorker).length + actionsLeft s'.phase ≤ actionsLeft s.phase ∧
      mainCalls s'.log + mainsLeft s'.phase ≤ mainCalls s.log + mainsLeft s.phase := by
    intro es
    induction es with
    | nil => intro s s' _ _ _ hr; cases hr; simp
    | cons e es ih =>
      intro s s' hgo hs hnc hr
      simp only [workerIntRun] at hr
      cases he : workerIntStep s e with
      | none => rw [he] at hr; cases hr
      | some s1 =>
        rw [he] at hr
        obtain ⟨h1, h2, h3, h6⟩ := left_intStep hgo hs (fun c hc => hnc c (hc ▸ List.mem_cons_self)) he
        obtain ⟨h4, h5⟩ := ih s1 s' h1 h2 (fun c hc => hnc c (List.mem_cons_of_mem _ hc)) hr
        constructor
        · have : ((e :: es).filter WIEv.isWorker).length = (if e.isWorker then 1 else 0) + (es.filter WIEv.isWorker).length := by
            rw [List.filter_cons]
            split <;> simp [Nat.add_comm]
          omega
        · exact Nat.le_trans h5 h6
  simp only [workerIntRun, workerIntStep, workerStep, callerAct, hc, Worker.to, Function.update_self] at hr
  rw [if_neg (by decide)] at hr
  dsimp only at hr
  obtain ⟨h1, h2⟩ := key es _ s' rfl (fun d => by
    simp only [Function.update_apply]
    split
    · exact ⟨by decide, by decide⟩
    · exact hs d) hnc hr
  dsimp only at h1 h2
  refine ⟨?_, ?_, fun hf hd ok => ?_⟩
  · have : actionsLeft s.phase ≤ 3 := by cases s.phase <;> decide
    omega
  · have : mainsLeft s.phase ≤ 1 := by cases s.phase <;> decide
    omega
  · simp only [workerIntStep, workerStep, workerAct]
    cases hp : s'.phase
    · exact absurd hp hf
    · dsimp only; split <;> exact Option.some_ne_none _
    · exact Option.some_ne_none _
    · exact Option.some_ne_none _
    · dsimp only; split <;> exact Option.some_ne_none _
    · exact absurd hp hd

/-- **C111.** A `start` interrupted before it has started the thread can be repeated: the thread is still fresh, and the next `start` returns
    with the event set. -/
theorem C111_start_again (s : Worker) (c d k : Nat) (hk : k ≤ 1) (hc : s.callers c = .idle) (hd : s.callers d = .idle) (hp : s.phase = .fresh) :
    ∃ s1 s2, workerIntRun s (.plain (.callStart c) :: List.replicate k (.plain (.caller c)) ++ [.cut c]) = some s1 ∧ s1.phase = .fresh ∧ s1.log = s.log ∧
      workerRun s1 [.callStart d, .caller d, .caller d] = some s2 ∧ s2.phase = .init ∧ s2.go = true ∧ s2.log = s.log ++ [.startDone d] ∧
      s2.callers = s.callers := by
  have hupd : Function.update s.callers c .idle = s.callers := by rw [← hc, Function.update_eq_self]
  have hupd' : Function.update s.callers d .idle = s.callers := by rw [← hd, Function.update_eq_self]
  have hk : k = 0 ∨ k = 1 := by omega
  rcases hk with rfl | rfl
  · refine ⟨s, { s with phase := .init, go := true, log := s.log ++ [.startDone d] }, ?_, hp, rfl, ?_, rfl, rfl, rfl, rfl⟩
    · simp [workerIntRun, workerIntStep, workerStep, hc, Worker.to, hupd]
    · simp [workerRun, workerStep, hd, Worker.to, callerAct, hp, Worker.see, hupd']
  · refine ⟨{ s with go := true }, { s with phase := .init, go := true, log := s.log ++ [.startDone d] }, ?_, hp, rfl, ?_, rfl, rfl, rfl, rfl⟩
    · simp [workerIntRun, workerIntStep, workerStep, hc, Worker.to, callerAct, hupd]
    · simp [workerRun, workerStep, hd, Worker.to, callerAct, hp, Worker.see, hupd']

/-- **C111: false as one would expect it.** `stop` is interrupted while it waits for a call of `main`; then `start` raises `RuntimeError` (a
    `WorkerThread` cannot be started twice) and yet sets the event again, so the worker goes on. -/
theorem C111_false_restart (s : Worker) (c : Nat) (hc : s.callers c = .idle) (hp : s.phase = .main) :
    ∃ s1 s2, workerIntRun s [.plain (.callStop c), .plain (.caller c), .plain (.caller c), .cut c] = some s1 ∧ s1.go = false ∧
      workerIntRun s1 [.plain (.callStart c), .plain (.caller c), .plain (.caller c)] = some s2 ∧ s2.log = s.log ++ [.startRaised c] ∧
      s2.go = true ∧ s2.phase = .main ∧
      ∃ s3, workerIntRun s2 [.plain (.worker true), .plain (.worker true), .plain (.worker true)] = some s3 ∧
        s3.log = s2.log ++ [.call .main true, .call .main true] := by
  have hupd : Function.update s.callers c .idle = s.callers := by rw [← hc, Function.update_eq_self]
  refine ⟨{ s with go := false }, { s with go := true, log := s.log ++ [.startRaised c] }, ?_, rfl, ?_, rfl, rfl, hp,
    { s with go := true, phase := .test, log := s.log ++ [.startRaised c] ++ [.call .main true, .call .main true] }, ?_, rfl⟩
  · simp [workerIntRun, workerIntStep, workerStep, hc, Worker.to, callerAct, hp, hupd]
  · simp [workerIntRun, workerIntStep, workerStep, hc, Worker.to, callerAct, hp, Worker.see, hupd]
  · simp [workerIntRun, workerIntStep, workerStep, workerAct, hp, Worker.see]

/-! ### Example -/

/-- Ctrl-C during `start`, `start`, two rounds, Ctrl-C during `stop`; the worker ends -/
def exWorkerCut : List WIEv :=
  [.plain (.callStart 0), .plain (.caller 0), .cut 0, .plain (.callStart 0), .plain (.caller 0), .plain (.caller 0), .plain (.worker true),
   .plain (.worker true), .plain (.worker true), .plain (.worker true), .plain (.callStop 0), .plain (.caller 0), .plain (.caller 0), .cut 0,
   .plain (.worker true), .plain (.worker true), .plain (.worker true)]

example : (workerIntRun (.new true true) exWorkerCut).map (fun s => (s.log, s.phase)) =
    some ([.startDone 0, .call .init true, .call .main true, .call .main true, .call .exit true], .dead) := by
  decide

/-- the hypotheses of C111_stop_cut: the state before `stop` clears the event -/
example : ∃ s, WorkerIntAfter true true (exWorkerCut.take 12) s ∧ s.callers 0 = .stopClear ∧ ∀ d, s.callers d ≠ .startSet ∧ s.callers d ≠ .startThread := by
  refine ⟨_, rfl, rfl, fun d => ?_⟩
  simp only [Worker.to, Worker.see, Worker.new, Function.update_apply]
  split <;> simp_all

/-- the hypotheses of C111_false_restart -/
example : ∃ s, WorkerIntAfter true true (exWorkerCut.take 10) s ∧ s.callers 0 = .idle ∧ s.phase = .main := ⟨_, rfl, rfl, rfl⟩

end Modbus
