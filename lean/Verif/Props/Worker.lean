import Verif.Model.Worker
/-
# C54: WorkerThread always runs its exit function
-/
namespace Modbus

/-! ## Specification -/

/-- the calls of the three functions in a log, with their outcome -/
def fctCalls (log : List WObs) : List (WFct × Bool) :=
  log.filterMap fun | .call f ok => some (f, ok) | _ => none

/-- The calls before the exit function: `init` (if given) once, then `main` any number of times, and nothing after a call that raised.
    `raised`: the last one raised. -/
def WorkBefore (hasInit : Bool) (raised : Bool) (l : List (WFct × Bool)) : Prop :=
  (hasInit = true ∧ raised = true ∧ l = [(.init, false)]) ∨
  ∃ n, l = (if hasInit then [(.init, true)] else []) ++ List.replicate n (.main, true) ++
    (if raised then [(.main, false)] else [])

/-- the state of a worker after the actions `es`, from its construction -/
def WorkerAfter (hasInit hasExit : Bool) (es : List WEv) (s : Worker) : Prop :=
  workerRun (Worker.new hasInit hasExit) es = some s

/-! ## Invariant -/

/-- what the phase says about the calls made so far -/
def PhaseCalls (s : Worker) : Prop :=
  match s.phase with
  | .fresh | .init => fctCalls s.log = []
  | .test | .main => WorkBefore s.hasInit false (fctCalls s.log)
  | .exit => ∃ r, WorkBefore s.hasInit r (fctCalls s.log)
  | .dead => ∃ r l b, WorkBefore s.hasInit r l ∧ fctCalls s.log = l ++ if s.hasExit then [(.exit, b)] else []

theorem fctCalls_snoc (log : List WObs) (o : WObs) :
    fctCalls (log ++ [o]) = fctCalls log ++ match o with | .call f ok => [(f, ok)] | _ => [] := by
  unfold fctCalls
  rw [List.filterMap_append]
  cases o <;> rfl

theorem workBefore_main {hi : Bool} {l : List (WFct × Bool)} (ok : Bool) (h : WorkBefore hi false l) :
    WorkBefore hi (!ok) (l ++ [(.main, ok)]) := by
  rcases h with h | ⟨n, rfl⟩
  · exact absurd h.2.1 (by decide)
  · right
    cases ok
    · exact ⟨n, by simp⟩
    · exact ⟨n + 1, by simp [List.replicate_succ']⟩

theorem workerStep_flags {s s' : Worker} {e : WEv} (h : workerStep s e = some s') :
    s'.hasInit = s.hasInit ∧ s'.hasExit = s.hasExit := by
  cases e with
  | callStart c => simp only [workerStep] at h; split at h <;> simp_all; subst h; exact ⟨rfl, rfl⟩
  | callStop c => simp only [workerStep] at h; split at h <;> simp_all; subst h; exact ⟨rfl, rfl⟩
  | caller c =>
    simp only [workerStep, callerAct] at h
    split at h
    · cases h
    · cases h; exact ⟨rfl, rfl⟩
    · split at h <;> cases h <;> exact ⟨rfl, rfl⟩
    · split at h <;> cases h <;> exact ⟨rfl, rfl⟩
    · cases h; exact ⟨rfl, rfl⟩
    · split at h
      · cases h; exact ⟨rfl, rfl⟩
      · cases h
  | worker ok =>
    simp only [workerStep, workerAct] at h
    split at h
    · cases h
    · split at h <;> cases h <;> exact ⟨rfl, rfl⟩
    · cases h; exact ⟨rfl, rfl⟩
    · cases h; exact ⟨rfl, rfl⟩
    · split at h <;> cases h <;> exact ⟨rfl, rfl⟩
    · cases h

theorem phaseCalls_congr {s s' : Worker} (h : PhaseCalls s) (hp : s'.phase = s.phase) (hi : s'.hasInit = s.hasInit)
    (hx : s'.hasExit = s.hasExit) (hl : fctCalls s'.log = fctCalls s.log) : PhaseCalls s' := by
  unfold PhaseCalls at *
  rw [hp, hi, hx, hl]
  exact h

theorem phaseCalls_step {s s' : Worker} {e : WEv} (h : PhaseCalls s) (he : workerStep s e = some s') : PhaseCalls s' := by
  cases e with
  | callStart c =>
    simp only [workerStep] at he
    split at he
    · cases he; exact phaseCalls_congr h rfl rfl rfl rfl
    · cases he
  | callStop c =>
    simp only [workerStep] at he
    split at he
    · cases he; exact phaseCalls_congr h rfl rfl rfl rfl
    · cases he
  | caller c =>
    simp only [workerStep, callerAct] at he
    split at he
    · cases he
    · cases he; exact phaseCalls_congr h rfl rfl rfl rfl
    · split at he
      · rename_i hf
        cases he
        unfold PhaseCalls at h
        rw [hf] at h
        show fctCalls (s.log ++ [_]) = []
        rw [fctCalls_snoc, h]
        rfl
      · cases he
        exact phaseCalls_congr h rfl rfl rfl (by simp [Worker.see, Worker.to, fctCalls_snoc])
    · split at he
      · cases he
        exact phaseCalls_congr h rfl rfl rfl (by simp [Worker.see, Worker.to, fctCalls_snoc])
      · cases he; exact phaseCalls_congr h rfl rfl rfl rfl
    · cases he; exact phaseCalls_congr h rfl rfl rfl rfl
    · split at he
      · cases he
        exact phaseCalls_congr h rfl rfl rfl (by simp [Worker.see, Worker.to, fctCalls_snoc])
      · cases he
  | worker ok =>
    simp only [workerStep, workerAct] at he
    unfold PhaseCalls at h
    split at he
    · cases he
    · rename_i hp
      rw [hp] at h
      dsimp only at h
      split at he
      · rename_i hi
        cases he
        cases ok
        · refine (⟨true, Or.inl ⟨hi, rfl, ?_⟩⟩ : ∃ r, WorkBefore s.hasInit r (fctCalls (s.log ++ [_])))
          rw [fctCalls_snoc, h]; rfl
        · refine (Or.inr ⟨0, ?_⟩ : WorkBefore s.hasInit false (fctCalls (s.log ++ [_])))
          rw [fctCalls_snoc, h, hi]; rfl
      · rename_i hi
        cases he
        refine (Or.inr ⟨0, ?_⟩ : WorkBefore s.hasInit false (fctCalls s.log))
        rw [h]; simp [hi]
    · rename_i hp
      rw [hp] at h
      dsimp only at h
      cases he
      unfold PhaseCalls
      cases s.go
      · exact ⟨false, h⟩
      · exact h
    · rename_i hp
      rw [hp] at h
      dsimp only at h
      cases he
      cases ok
      · refine (⟨true, ?_⟩ : ∃ r, WorkBefore s.hasInit r (fctCalls (s.log ++ [_])))
        rw [fctCalls_snoc]; exact workBefore_main false h
      · refine (?_ : WorkBefore s.hasInit false (fctCalls (s.log ++ [_])))
        rw [fctCalls_snoc]; exact workBefore_main true h
    · rename_i hp
      rw [hp] at h
      dsimp only at h
      obtain ⟨r, h⟩ := h
      split at he
      · rename_i hx
        cases he
        refine (⟨r, _, ok, h, ?_⟩ : ∃ r l b, WorkBefore s.hasInit r l ∧ fctCalls (s.log ++ [_]) = l ++ if s.hasExit then [(.exit, b)] else [])
        rw [fctCalls_snoc, hx]; rfl
      · rename_i hx
        cases he
        exact (⟨r, _, true, h, by simp [hx]⟩ : ∃ r l b, WorkBefore s.hasInit r l ∧ fctCalls s.log = l ++ if s.hasExit then [(.exit, b)] else [])
    · cases he

/-- induction over executions -/
theorem workerRun_inv {P : Worker → Prop} (hstep : ∀ s s' e, P s → workerStep s e = some s' → P s') :
    ∀ (es : List WEv) (s s' : Worker), P s → workerRun s es = some s' → P s'
  | [], s, s', h, hr => by cases hr; exact h
  | e :: es, s, s', h, hr => by
    simp only [workerRun] at hr
    cases hs : workerStep s e with
    | none => rw [hs] at hr; cases hr
    | some s1 => rw [hs] at hr; exact workerRun_inv hstep es s1 s' (hstep _ _ _ h hs) hr

theorem workerAfter_phase {hi hx : Bool} {es : List WEv} {s : Worker} (h : WorkerAfter hi hx es s) :
    PhaseCalls s ∧ s.hasInit = hi ∧ s.hasExit = hx :=
  workerRun_inv (P := fun s => PhaseCalls s ∧ s.hasInit = hi ∧ s.hasExit = hx)
    (fun _ _ _ h he => ⟨phaseCalls_step h.1 he, (workerStep_flags he).1.trans h.2.1, (workerStep_flags he).2.trans h.2.2⟩)
    es (Worker.new hi hx) s ⟨(rfl : fctCalls [] = []), rfl, rfl⟩ h

/-! ## C54 -/

/-- **C54.** Whatever `start` and `stop` calls any threads make and however everything is scheduled: the functions called so far are
    `init` once (if given), then `main` until one of them raises, then `exit` (if given), not more than once and nothing after it;
    and as soon as the thread has ended, `exit` has been called. -/
theorem C54_calls (hasInit hasExit : Bool) (es : List WEv) (s : Worker) (h : WorkerAfter hasInit hasExit es s) :
    ∃ raised before, WorkBefore hasInit raised before ∧
      (s.phase = .dead → ∃ b, fctCalls s.log = before ++ if hasExit then [(.exit, b)] else []) ∧
      (s.phase ≠ .dead → fctCalls s.log = before ∨ fctCalls s.log = []) := by
  obtain ⟨hp, rfl, rfl⟩ := workerAfter_phase h
  unfold PhaseCalls at hp
  cases hph : s.phase <;> rw [hph] at hp <;> dsimp only at hp
  · exact ⟨false, _, Or.inr ⟨0, rfl⟩, fun h => (by cases h), fun _ => Or.inr hp⟩
  · exact ⟨false, _, Or.inr ⟨0, rfl⟩, fun h => (by cases h), fun _ => Or.inr hp⟩
  · exact ⟨false, _, hp, fun h => (by cases h), fun _ => Or.inl rfl⟩
  · exact ⟨false, _, hp, fun h => (by cases h), fun _ => Or.inl rfl⟩
  · obtain ⟨r, hp⟩ := hp
    exact ⟨r, _, hp, fun h => (by cases h), fun _ => Or.inl rfl⟩
  · obtain ⟨r, l, b, hp, hl⟩ := hp
    exact ⟨r, l, hp, fun _ => ⟨b, hl⟩, fun h => absurd rfl h⟩

theorem workBefore_noExit {hi r : Bool} {l : List (WFct × Bool)} (h : WorkBefore hi r l) : ∀ b, (WFct.exit, b) ∉ l := by
  intro b
  rcases h with ⟨_, _, rfl⟩ | ⟨n, rfl⟩
  · simp
  · cases hi <;> cases r <;> simp [List.mem_replicate]

/-- **C54.** The exit function is called at most once, and exactly once when the thread has ended. -/
theorem C54_exit_once (hasInit : Bool) (es : List WEv) (s : Worker) (h : WorkerAfter hasInit true es s) :
    ((fctCalls s.log).filter (fun c => c.1 = .exit)).length = if s.phase = .dead then 1 else 0 := by
  have hno : ∀ {r l}, WorkBefore hasInit r l → l.filter (fun c => c.1 = WFct.exit) = [] := by
    intro r l hl
    rw [List.filter_eq_nil_iff]
    rintro ⟨f, b⟩ hm hf
    simp only [decide_eq_true_eq] at hf
    subst hf
    exact workBefore_noExit hl b hm
  obtain ⟨r, before, hb, hd, hn⟩ := C54_calls _ _ _ _ h
  by_cases hp : s.phase = .dead
  · obtain ⟨b, hd⟩ := hd hp
    rw [hd, if_pos hp, List.filter_append, hno hb]
    rfl
  · rw [if_neg hp]
    rcases hn hp with hn | hn
    · rw [hn, hno hb]; rfl
    · rw [hn]; rfl

/-- the thread has gone, or will go, through its loop for the last time -/
def WorkerEnding (s : Worker) : Prop := s.phase = .exit ∨ s.phase = .dead

/-- `start` sets the event before it starts the thread; only `stop` clears it -/
theorem worker_ending {hi hx : Bool} {es : List WEv} {s : Worker} (h : WorkerAfter hi hx es s) :
    (∀ c, WEv.callStop c ∉ es) →
      (s.phase ≠ .fresh → s.go = true) ∧
      (∀ c, s.callers c = .startThread → s.go = true) ∧
      (∀ c, s.callers c ≠ .stopAlive ∧ s.callers c ≠ .stopClear ∧ s.callers c ≠ .stopJoin) ∧
      ((s.phase = .exit ∨ s.phase = .dead) → ∃ f, f ≠ .exit ∧ (f, false) ∈ fctCalls s.log) := by
  have key : ∀ (es : List WEv) (s s' : Worker),
      ((s.phase ≠ .fresh → s.go = true) ∧
      (∀ c, s.callers c = .startThread → s.go = true) ∧
      (∀ c, s.callers c ≠ .stopAlive ∧ s.callers c ≠ .stopClear ∧ s.callers c ≠ .stopJoin) ∧
      ((s.phase = .exit ∨ s.phase = .dead) → ∃ f, f ≠ .exit ∧ (f, false) ∈ fctCalls s.log)) →
      (∀ c, WEv.callStop c ∉ es) → workerRun s es = some s' →
      ((s'.phase ≠ .fresh → s'.go = true) ∧
      (∀ c, s'.callers c = .startThread → s'.go = true) ∧
      (∀ c, s'.callers c ≠ .stopAlive ∧ s'.callers c ≠ .stopClear ∧ s'.callers c ≠ .stopJoin) ∧
      ((s'.phase = .exit ∨ s'.phase = .dead) → ∃ f, f ≠ .exit ∧ (f, false) ∈ fctCalls s'.log)) := by
    intro es
    induction es with
    | nil => intro s s' h _ hr; cases hr; exact h
    | cons e es ih =>
      intro s s' h hno hr
      simp only [workerRun] at hr
      cases hs : workerStep s e with
      | none => rw [hs] at hr; cases hr
      | some s1 =>
        rw [hs] at hr
        refine ih s1 s' ?_ (fun c hc => hno c (List.mem_cons_of_mem _ hc)) hr
        obtain ⟨h1, h2, h3, h4⟩ := h
        cases e with
        | callStop c => exact absurd List.mem_cons_self (hno c)
        | callStart c =>
          simp only [workerStep] at hs
          split at hs
          · cases hs
            refine ⟨h1, fun d hd => ?_, fun d => ?_, h4⟩
            · simp only [Worker.to, Function.update_apply] at hd
              split at hd
              · cases hd
              · exact h2 d hd
            · simp only [Worker.to, Function.update_apply]
              split
              · simp
              · exact h3 d
          · cases hs
        | caller c =>
          simp only [workerStep, callerAct] at hs
          split at hs
          · cases hs
          · cases hs
            refine ⟨fun _ => rfl, fun _ _ => rfl, fun d => ?_, h4⟩
            simp only [Worker.to, Function.update_apply]
            split
            · simp
            · exact h3 d
          · rename_i hc
            split at hs
            · cases hs
              refine ⟨fun _ => h2 c hc, fun _ _ => h2 c hc, fun d => ?_, fun hp => ?_⟩
              · simp only [Worker.to, Worker.see, Function.update_apply]
                split
                · simp
                · exact h3 d
              · rcases hp with hp | hp <;> cases hp
            · cases hs
              refine ⟨h1, fun _ _ => h2 c hc, fun d => ?_, fun hp => ?_⟩
              · simp only [Worker.to, Worker.see, Function.update_apply]
                split
                · simp
                · exact h3 d
              · obtain ⟨f, hf⟩ := h4 hp
                exact ⟨f, hf.1, by simp only [Worker.see, Worker.to, fctCalls_snoc]; simpa using hf.2⟩
          · rename_i hc; exact absurd hc (h3 c).1
          · rename_i hc; exact absurd hc (h3 c).2.1
          · rename_i hc; exact absurd hc (h3 c).2.2
        | worker ok =>
          simp only [workerStep, workerAct] at hs
          split at hs
          · cases hs
          · rename_i hp
            have hg := h1 (by rw [hp]; decide)
            split at hs
            · cases hs
              refine ⟨fun _ => hg, h2, h3, fun hq => ?_⟩
              cases ok
              · exact ⟨.init, by decide, by simp [Worker.see, fctCalls_snoc]⟩
              · rcases hq with hq | hq <;> cases hq
            · cases hs
              refine ⟨fun _ => hg, h2, h3, fun hq => ?_⟩
              rcases hq with hq | hq <;> cases hq
          · rename_i hp
            have hg := h1 (by rw [hp]; decide)
            cases hs
            refine ⟨fun _ => hg, h2, h3, fun hq => ?_⟩
            simp only [hg, if_true] at hq
            rcases hq with hq | hq <;> cases hq
          · rename_i hp
            have hg := h1 (by rw [hp]; decide)
            cases hs
            refine ⟨fun _ => hg, h2, h3, fun hq => ?_⟩
            cases ok
            · exact ⟨.main, by decide, by simp [Worker.see, fctCalls_snoc]⟩
            · rcases hq with hq | hq <;> cases hq
          · rename_i hp
            have hg := h1 (by rw [hp]; decide)
            obtain ⟨f, hf⟩ := h4 (Or.inl hp)
            split at hs
            · cases hs
              refine ⟨fun _ => hg, h2, h3, fun _ => ⟨f, hf.1, ?_⟩⟩
              simp only [Worker.see, fctCalls_snoc]
              exact List.mem_append_left _ hf.2
            · cases hs
              exact ⟨fun _ => hg, h2, h3, fun _ => ⟨f, hf⟩⟩
          · cases hs
  intro hno
  exact key es _ s ⟨fun h => absurd rfl h, fun _ h => (by cases h), fun _ => ⟨by simp [Worker.new], by simp [Worker.new], by simp [Worker.new]⟩,
    fun h => by rcases h with h | h <;> cases h⟩ hno h

/-- **C54.** The loop ends only because a function raised or because `stop` was called: a worker that has ended although nobody called
    `stop` has seen `init` or `main` raise. -/
theorem C54_until_stop (hasInit hasExit : Bool) (es : List WEv) (s : Worker) (h : WorkerAfter hasInit hasExit es s)
    (hend : s.phase = .dead) (hno : ∀ c, WEv.callStop c ∉ es) : ∃ f, f ≠ .exit ∧ (f, false) ∈ fctCalls s.log :=
  (worker_ending h hno).2.2.2 (Or.inr hend)

/-- the observations after `stop` has returned -/
theorem dead_log {s s' : Worker} {e : WEv} (hd : s.phase = .dead) (he : workerStep s e = some s') :
    s'.phase = .dead ∧ ∃ l, s'.log = s.log ++ l ∧ fctCalls l = [] := by
  cases e with
  | callStart c =>
    simp only [workerStep] at he
    split at he
    · cases he; exact ⟨hd, [], by simp [Worker.to], rfl⟩
    · cases he
  | callStop c =>
    simp only [workerStep] at he
    split at he
    · cases he; exact ⟨hd, [], by simp [Worker.to], rfl⟩
    · cases he
  | caller c =>
    simp only [workerStep, callerAct] at he
    split at he
    · cases he
    · cases he; exact ⟨hd, [], by simp [Worker.to], rfl⟩
    · rw [if_neg (by rw [hd]; decide)] at he
      cases he; exact ⟨hd, _, rfl, rfl⟩
    · rw [if_pos (Or.inr hd)] at he
      cases he; exact ⟨hd, _, rfl, rfl⟩
    · cases he; exact ⟨hd, [], by simp [Worker.to], rfl⟩
    · rw [if_pos hd] at he
      cases he; exact ⟨hd, _, rfl, rfl⟩
  | worker ok =>
    simp only [workerStep, workerAct, hd] at he
    cases he

theorem dead_log_run : ∀ (es : List WEv) (s s' : Worker), s.phase = .dead → workerRun s es = some s' →
    s'.phase = .dead ∧ ∃ l, s'.log = s.log ++ l ∧ fctCalls l = []
  | [], s, s', hd, hr => by cases hr; exact ⟨hd, [], by simp, rfl⟩
  | e :: es, s, s', hd, hr => by
    simp only [workerRun] at hr
    cases hs : workerStep s e with
    | none => rw [hs] at hr; cases hr
    | some s1 =>
      rw [hs] at hr
      obtain ⟨hd1, l1, hl1, hc1⟩ := dead_log hd hs
      obtain ⟨hd2, l2, hl2, hc2⟩ := dead_log_run es s1 s' hd1 hr
      refine ⟨hd2, l1 ++ l2, by rw [hl2, hl1, List.append_assoc], ?_⟩
      unfold fctCalls at *
      rw [List.filterMap_append, hc1, hc2]; rfl

/-- a `stop` that had found the thread alive returns only when the thread has ended -/
theorem stop_dead {s s' : Worker} {e : WEv} {c : Nat} (he : workerStep s e = some s')
    (hlog : s'.log = s.log ++ [.stopDone c true]) : s.phase = .dead := by
  have hne : ∀ l : List WObs, l = l ++ [.stopDone c true] → False := fun l h => by
    have := congrArg List.length h
    simp at this
  have hone : ∀ (l : List WObs) (o : WObs), l ++ [o] = l ++ [.stopDone c true] → o = .stopDone c true := fun l o h => by
    simpa using List.append_cancel_left h
  cases e with
  | callStart c =>
    simp only [workerStep] at he
    split at he
    · cases he; exact (hne _ hlog).elim
    · cases he
  | callStop c =>
    simp only [workerStep] at he
    split at he
    · cases he; exact (hne _ hlog).elim
    · cases he
  | caller d =>
    simp only [workerStep, callerAct] at he
    split at he
    · cases he
    · cases he; exact (hne _ hlog).elim
    · split at he <;> cases he <;> cases (hone _ _ hlog)
    · split at he
      · cases he; cases (hone _ _ hlog)
      · cases he; exact (hne _ hlog).elim
    · cases he; exact (hne _ hlog).elim
    · split at he
      · assumption
      · cases he
  | worker ok =>
    simp only [workerStep, workerAct] at he
    split at he
    · cases he
    · split at he
      · cases he; cases (hone _ _ hlog)
      · cases he; exact (hne _ hlog).elim
    · cases he; exact (hne _ hlog).elim
    · cases he; cases (hone _ _ hlog)
    · split at he
      · cases he; cases (hone _ _ hlog)
      · cases he; exact (hne _ hlog).elim
    · cases he

/-- **C54.** `stop` on a running worker returns only after the exit function: when a `stop` that had found the thread alive returns
    (action `e`), the thread has ended and the exit function has been called exactly once; and whatever happens afterwards, no function
    is called any more. -/
theorem C54_stop_waits (hasInit : Bool) (es es' : List WEv) (e : WEv) (c : Nat) (s s1 s2 : Worker)
    (h : WorkerAfter hasInit true es s) (he : workerStep s e = some s1) (hlog : s1.log = s.log ++ [.stopDone c true])
    (h2 : workerRun s1 es' = some s2) :
    s.phase = .dead ∧ ((fctCalls s.log).filter (fun c => c.1 = .exit)).length = 1 ∧ fctCalls s2.log = fctCalls s.log := by
  have hd := stop_dead he hlog
  have h1 := dead_log hd he
  obtain ⟨_, l, hl, hc⟩ := dead_log_run es' s1 s2 h1.1 h2
  refine ⟨hd, by rw [C54_exit_once hasInit es s h, if_pos hd], ?_⟩
  rw [hl, hlog]
  unfold fctCalls at *
  simp [hc]

/-- the actions the worker thread can still do after the event was cleared -/
def actionsLeft : WPhase → Nat
  | .fresh => 0
  | .init => 3
  | .test => 2
  | .main => 3
  | .exit => 1
  | .dead => 0

/-- is it an action of the worker thread? -/
def WEv.isWorker : WEv → Bool
  | .worker _ => true
  | _ => false

/-- how often the worker thread acts -/
def workerActions (es : List WEv) : Nat := (es.filter WEv.isWorker).length

/-- no thread is about to set the event -/
def NoStart (s : Worker) : Prop := ∀ c, s.callers c ≠ .startSet ∧ s.callers c ≠ .startThread

theorem left_step {s s' : Worker} {e : WEv} (hgo : s.go = false) (hs : NoStart s) (hnc : ∀ c, e ≠ .callStart c)
    (he : workerStep s e = some s') :
    s'.go = false ∧ NoStart s' ∧ (if e.isWorker then 1 else 0) + actionsLeft s'.phase ≤ actionsLeft s.phase := by
  have hupd : ∀ (c : Nat) (p : WCaller), p ≠ .startSet → p ≠ .startThread → ∀ d,
      Function.update s.callers c p d ≠ .startSet ∧ Function.update s.callers c p d ≠ .startThread := by
    intro c p h1 h2 d
    simp only [Function.update_apply]
    split
    · exact ⟨h1, h2⟩
    · exact hs d
  cases e with
  | callStart c => exact absurd rfl (hnc c)
  | callStop c =>
    simp only [workerStep] at he
    split at he
    · cases he; exact ⟨hgo, hupd c _ (by decide) (by decide), by simp [Worker.to, WEv.isWorker]⟩
    · cases he
  | caller c =>
    simp only [workerStep, callerAct] at he
    split at he
    · cases he
    · rename_i hc; exact absurd hc (hs c).1
    · rename_i hc; exact absurd hc (hs c).2
    · split at he
      · cases he; exact ⟨hgo, hupd c _ (by decide) (by decide), by simp [Worker.to, Worker.see, WEv.isWorker]⟩
      · cases he; exact ⟨hgo, hupd c _ (by decide) (by decide), by simp [Worker.to, WEv.isWorker]⟩
    · cases he; exact ⟨rfl, hupd c _ (by decide) (by decide), by simp [Worker.to, WEv.isWorker]⟩
    · split at he
      · cases he; exact ⟨hgo, hupd c _ (by decide) (by decide), by simp [Worker.to, Worker.see, WEv.isWorker]⟩
      · cases he
  | worker ok =>
    simp only [workerStep, workerAct] at he
    split at he
    · cases he
    · rename_i hp
      split at he
      · cases he
        refine ⟨hgo, hs, ?_⟩
        cases ok <;> simp [Worker.see, hp, actionsLeft, WEv.isWorker]
      · cases he
        exact ⟨hgo, hs, by simp [hp, actionsLeft, WEv.isWorker]⟩
    · rename_i hp
      cases he
      exact ⟨hgo, hs, by simp [hp, hgo, actionsLeft, WEv.isWorker]⟩
    · rename_i hp
      cases he
      refine ⟨hgo, hs, ?_⟩
      cases ok <;> simp [Worker.see, hp, actionsLeft, WEv.isWorker]
    · rename_i hp
      split at he
      · cases he
        exact ⟨hgo, hs, by simp [Worker.see, hp, actionsLeft, WEv.isWorker]⟩
      · cases he
        exact ⟨hgo, hs, by simp [hp, actionsLeft, WEv.isWorker]⟩
    · cases he

/-- the calls of `main` in a log -/
def mainCalls (log : List WObs) : Nat := ((fctCalls log).filter (fun c => c.1 = .main)).length

/-- the calls of `main` still to come after the event was cleared -/
def mainsLeft : WPhase → Nat
  | .main => 1
  | _ => 0

theorem mains_step {s s' : Worker} {e : WEv} (hgo : s.go = false) (he : workerStep s e = some s') :
    mainCalls s'.log + mainsLeft s'.phase ≤ mainCalls s.log + mainsLeft s.phase := by
  cases e with
  | callStart c =>
    simp only [workerStep] at he
    split at he <;> cases he
    exact Nat.le_refl _
  | callStop c =>
    simp only [workerStep] at he
    split at he <;> cases he
    exact Nat.le_refl _
  | caller c =>
    simp only [workerStep, callerAct] at he
    split at he
    · cases he
    · cases he; exact Nat.le_refl _
    · split at he
      · rename_i hp; cases he; simp [Worker.to, Worker.see, mainCalls, fctCalls_snoc, mainsLeft]
      · cases he; simp [Worker.to, Worker.see, mainCalls, fctCalls_snoc]
    · split at he <;> cases he <;> simp [Worker.to, Worker.see, mainCalls, fctCalls_snoc]
    · cases he; exact Nat.le_refl _
    · split at he <;> cases he
      simp [Worker.to, Worker.see, mainCalls, fctCalls_snoc]
  | worker ok =>
    simp only [workerStep, workerAct] at he
    split at he
    · cases he
    · rename_i hp
      split at he <;> cases he
      · cases ok <;> simp [Worker.see, mainCalls, fctCalls_snoc, mainsLeft, hp]
      · simp [mainsLeft, hp]
    · rename_i hp
      cases he
      simp [hgo, mainsLeft, hp]
    · rename_i hp
      cases he
      cases ok <;> simp [Worker.see, mainCalls, fctCalls_snoc, mainsLeft, hp]
    · rename_i hp
      split at he <;> cases he <;> simp [Worker.see, mainCalls, fctCalls_snoc, mainsLeft, hp]
    · cases he

/-- **C54.** `stop` does not wait long: once the event is cleared and as long as nobody calls `start` again, the worker thread does at
    most three more actions (one call of `main` at most among them) whatever the outcome of the functions, and when it cannot act any
    more it has ended, so that `join` returns. -/
theorem C54_stop_bounded (es : List WEv) (s s' : Worker) (hgo : s.go = false) (hs : NoStart s)
    (hnc : ∀ c, WEv.callStart c ∉ es) (hr : workerRun s es = some s') :
    workerActions es ≤ 3 ∧ mainCalls s'.log ≤ mainCalls s.log + 1 ∧
      (s.phase ≠ .fresh → (∀ ok, workerStep s' (.worker ok) = none) → s'.phase = .dead) := by
  have key : ∀ (es : List WEv) (s s' : Worker), s.go = false → NoStart s → (∀ c, WEv.callStart c ∉ es) →
      workerRun s es = some s' →
      workerActions es + actionsLeft s'.phase ≤ actionsLeft s.phase ∧
      mainCalls s'.log + mainsLeft s'.phase ≤ mainCalls s.log + mainsLeft s.phase ∧ (s.phase ≠ .fresh → s'.phase ≠ .fresh) := by
    intro es
    induction es with
    | nil => intro s s' _ _ _ hr; cases hr; simp [workerActions]
    | cons e es ih =>
      intro s s' hgo hs hnc hr
      simp only [workerRun] at hr
      cases he : workerStep s e with
      | none => rw [he] at hr; cases hr
      | some s1 =>
        rw [he] at hr
        obtain ⟨h1, h2, h3⟩ := left_step hgo hs (fun c hc => hnc c (hc ▸ List.mem_cons_self)) he
        obtain ⟨h4, h6, h5⟩ := ih s1 s' h1 h2 (fun c hc => hnc c (List.mem_cons_of_mem _ hc)) hr
        constructor
        · have : workerActions (e :: es) = (if e.isWorker then 1 else 0) + workerActions es := by
            cases e <;> simp [workerActions, WEv.isWorker, List.filter_cons, Nat.add_comm]
          omega
        constructor
        · exact Nat.le_trans h6 (mains_step hgo he)
        · intro hf
          refine h5 ?_
          cases e with
          | callStart c => exact absurd List.mem_cons_self (hnc c)
          | callStop c =>
            simp only [workerStep] at he
            split at he <;> cases he
            exact hf
          | caller c =>
            simp only [workerStep, callerAct] at he
            split at he
            · cases he
            · cases he; exact hf
            · split at he <;> cases he
              · exact (by decide : WPhase.init ≠ .fresh)
              · exact hf
            · split at he <;> cases he <;> exact hf
            · cases he; exact hf
            · split at he <;> cases he
              exact hf
          | worker ok =>
            simp only [workerStep, workerAct] at he
            split at he
            · cases he
            · split at he <;> cases he
              · cases ok <;> simp [Worker.see]
              · exact (by decide : WPhase.test ≠ .fresh)
            · cases he
              show (if s.go then WPhase.main else .exit) ≠ .fresh
              cases s.go <;> decide
            · cases he
              cases ok <;> simp [Worker.see]
            · split at he <;> cases he <;> exact (by decide : WPhase.dead ≠ .fresh)
            · cases he
  obtain ⟨h1, h3, h2⟩ := key es s s' hgo hs hnc hr
  refine ⟨?_, ?_, fun hf hstuck => ?_⟩
  · have : actionsLeft s.phase ≤ 3 := by cases s.phase <;> decide
    omega
  · have : mainsLeft s.phase ≤ 1 := by cases s.phase <;> decide
    omega
  · have := hstuck true
    simp only [workerStep, workerAct] at this
    cases hp : s'.phase with
    | fresh => exact absurd hp (h2 hf)
    | dead => rfl
    | init => rw [hp] at this; dsimp only at this; split at this <;> cases this
    | test => rw [hp] at this; cases this
    | main => rw [hp] at this; cases this
    | exit => rw [hp] at this; dsimp only at this; split at this <;> cases this

/-- a `stop` on a worker that was not started, or has ended, does nothing and returns at once -/
theorem C54_stop_idle (s : Worker) (c : Nat) (hc : s.callers c = .idle) (hp : s.phase = .fresh ∨ s.phase = .dead) :
    workerRun s [.callStop c, .caller c] = some { s with log := s.log ++ [.stopDone c false] } := by
  simp only [workerRun, workerStep, hc, callerAct, Worker.to, Function.update_self, if_true, hp, Worker.see, Function.update_idem]
  congr 2
  rw [← hc, Function.update_eq_self]

/-! ### Examples -/

/-- started by thread 0, stopped by thread 1 after two rounds -/
def exWorker : List WEv :=
  [.callStart 0, .caller 0, .caller 0, .worker true, .worker true, .worker true, .callStop 1, .caller 1, .worker true, .worker true,
   .caller 1, .worker true, .worker true, .caller 1]

example : (workerRun (Worker.new true true) exWorker).map (fun s => (s.phase, s.log)) =
    some (.dead, [.startDone 0, .call .init true, .call .main true, .call .main true, .call .exit true, .stopDone 1 true]) := by
  decide

example : ∃ s, WorkerAfter true true exWorker s ∧ s.phase = .dead :=
  ⟨_, rfl, rfl⟩

/-- `main` raises: the exit function is still called -/
example : (workerRun (Worker.new false true) [.callStart 0, .caller 0, .caller 0, .worker true, .worker true, .worker false,
      .worker true]).map (fun s => (s.phase, s.log)) =
    some (.dead, [.startDone 0, .call .main false, .call .exit true]) := by
  decide

/-- `start` during a `stop`: thread 1 stops the worker, and thread 0 calls `start` again before the worker has looked at the event -/
def exRestarted : List WEv :=
  [.callStart 0, .caller 0, .caller 0, .worker true, .callStop 1, .caller 1, .caller 1, .callStart 0, .caller 0, .caller 0]

/-- (Not a part of C54.)  Calling `start` a second time raises, but only after it has set the event again: a `stop` in progress in
    another thread then waits for a worker that goes on for any number of rounds. -/
theorem C54_false_start_during_stop (n : Nat) :
    ∃ s, WorkerAfter true true (exRestarted ++ (List.replicate n [WEv.worker true, .worker true]).flatten) s ∧
      s.callers 1 = .stopJoin ∧ s.phase = .test ∧ WObs.startRaised 0 ∈ s.log ∧
      fctCalls s.log = (.init, true) :: List.replicate n (.main, true) := by
  have hrun : ∀ (es es' : List WEv) (s : Worker), workerRun s (es ++ es') = (workerRun s es).bind (workerRun · es') := by
    intro es
    induction es with
    | nil => intro es' s; rfl
    | cons e es ih =>
      intro es' s
      simp only [List.cons_append, workerRun]
      cases workerStep s e with
      | none => rfl
      | some s1 => exact ih es' s1
  induction n with
  | zero => exact ⟨_, rfl, rfl, rfl, by decide, rfl⟩
  | succ n ih =>
    obtain ⟨s, hs, h1, h2, h3, h4⟩ := ih
    have hgo : s.go = true := by
      have key : ∀ n (s : Worker), workerRun (Worker.new true true)
          (exRestarted ++ (List.replicate n [WEv.worker true, .worker true]).flatten) = some s → s.go = true ∧ s.phase = .test := by
        intro n
        induction n with
        | zero => intro s hs; cases hs; exact ⟨rfl, rfl⟩
        | succ n ih =>
          intro s hs
          rw [List.replicate_succ', List.flatten_append, ← List.append_assoc, hrun] at hs
          cases hp : workerRun (Worker.new true true) (exRestarted ++ (List.replicate n [WEv.worker true, .worker true]).flatten) with
          | none => rw [hp] at hs; cases hs
          | some s0 =>
            obtain ⟨hg, ht⟩ := ih s0 hp
            rw [hp] at hs
            simp only [Option.bind_some, List.flatten_cons, List.flatten_nil, List.append_nil, workerRun, workerStep, workerAct,
              ht, hg, if_true, Worker.see, Option.some.injEq] at hs
            subst hs
            exact ⟨rfl, rfl⟩
      exact (key n s hs).1
    refine ⟨{ s with log := s.log ++ [.call .main true] }, ?_, h1, h2, List.mem_append_left _ h3, ?_⟩
    · unfold WorkerAfter at *
      rw [List.replicate_succ', List.flatten_append, ← List.append_assoc, hrun, hs]
      simp only [Option.bind_some, List.flatten_cons, List.flatten_nil, List.append_nil, workerRun, workerStep, workerAct,
        h2, hgo, if_true, Worker.see]
    · rw [fctCalls_snoc, h4, List.replicate_succ']
      rfl

end Modbus
