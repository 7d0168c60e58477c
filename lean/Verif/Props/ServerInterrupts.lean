import Verif.Model.ServerInterrupts
import Verif.Props.ServerThread
/-
# C110: interrupted `start` and `stop`, and threads ended by `SystemExit`
-/
namespace Modbus

/-- the state of a server after the actions `es`, from its construction -/
def ServerIntAfter (es : List SIEv) (s : ServerObj) : Prop := serverIntRun .new es = some s

theorem serverIntRun_inv {P : ServerObj → Prop} (hstep : ∀ s s' e, P s → serverIntStep s e = some s' → P s') :
    ∀ (es : List SIEv) (s s' : ServerObj), P s → serverIntRun s es = some s' → P s'
  | [], s, s', h, hr => by cases hr; exact h
  | e :: es, s, s', h, hr => by
    simp only [serverIntRun] at hr
    cases hs : serverIntStep s e with
    | none => rw [hs] at hr; cases hr
    | some s1 => rw [hs] at hr; exact serverIntRun_inv hstep es s1 s' (hstep _ _ _ h hs) hr

theorem sInv_intStep {s s' : ServerObj} {e : SIEv} (h : SInv s) (he : serverIntStep s e = some s') : SInv s' := by
  cases e with
  | plain e => exact sInv_step h he
  | cut =>
    obtain ⟨h1, h2, h3, h4, h5, h6, h7, h8, h9, h10, h11, h12⟩ := h
    simp only [serverIntStep] at he
    split at he <;> cases he
    constructor <;> simp_all [ServerObj.ctl]
  | cutStarted =>
    obtain ⟨h1, h2, h3, h4, h5, h6, h7, h8, h9, h10, h11, h12⟩ := h
    simp only [serverIntStep, startCut] at he
    split at he
    · split at he
      · cases he
        constructor <;> simp only [ServerObj.ctl, ServerObj.to, Function.update_apply] <;> grind
      · cases he
    · cases he
  | exits t =>
    obtain ⟨h1, h2, h3, h4, h5, h6, h7, h8, h9, h10, h11, h12⟩ := h
    simp only [serverIntStep, serverExits] at he
    split at he
    all_goals first
      | (cases he; done)
      | (cases he; constructor <;> simp only [ServerObj.to, ServerObj.see, Function.update_apply] <;> grind)

theorem serverIntAfter_inv {es : List SIEv} {s : ServerObj} (h : ServerIntAfter es s) : SInv s :=
  serverIntRun_inv (fun _ _ _ => sInv_intStep) es _ _ sInv_new h

/-- **C110.** However `start` and `stop` are called and interrupted and whatever happens in the threads, at most one thread serves at any
    time. -/
theorem C110_one_server (es : List SIEv) (s : ServerObj) (h : ServerIntAfter es s) (t t' : Nat) (ht : (s.phase t).serving)
    (ht' : (s.phase t').serving) : t = t' := by
  have hi := serverIntAfter_inv h
  have key : ∀ t, (s.phase t).serving → t = s.thread := by
    intro t ht
    by_contra hne
    by_cases hl : t < s.nextThread
    · rcases hi.old t hl hne with h | h <;> rw [h] at ht <;> cases ht
    · rw [hi.new t (by omega)] at ht; cases ht
  rw [key t ht, key t' ht']

theorem phaseHasCalled_intStep {s s' : ServerObj} {e : SIEv} (h : ∀ t, PhaseHasCalled (s.phase t) (callsOf t s.log))
    (he : serverIntStep s e = some s') : ∀ t, PhaseHasCalled (s'.phase t) (callsOf t s'.log) := by
  cases e with
  | plain e => exact phaseHasCalled_step h he
  | cut =>
    simp only [serverIntStep] at he
    split at he <;> cases he
    exact h
  | cutStarted =>
    simp only [serverIntStep, startCut] at he
    split at he
    · rename_i t' _
      split at he
      · rename_i hf
        cases he
        intro t
        have ht := h t
        simp only [ServerObj.ctl, ServerObj.to, Function.update_apply]
        by_cases hk : t = t'
        · subst hk; rw [if_pos rfl]; rw [hf] at ht; exact ht
        · rw [if_neg hk]; exact ht
      · cases he
    · cases he
  | exits t' =>
    intro t
    have ht := h t
    simp only [serverIntStep, serverExits] at he
    by_cases hk : t = t'
    · subst hk
      split at he <;> rename_i hp <;> try (rw [hp] at ht)
      all_goals first
        | (cases he; done)
        | skip
      all_goals (cases he; simp only [ServerObj.to, ServerObj.see, callsOf_append, callsOf, if_true, Function.update_self])
      · simp only [PhaseHasCalled] at ht
        rw [ht]
        exact .inr (.inl rfl)
      · obtain ⟨k, hk⟩ := ht
        rw [hk]
        exact .inr (.inr ⟨k, _, rfl, .inr (.inl rfl)⟩)
      · obtain ⟨k, hk⟩ := ht
        rw [hk]
        exact .inr (.inr ⟨k, _, rfl, .inr (.inr ⟨_, rfl⟩)⟩)
      · exact ht
    · split at he
      all_goals first
        | (cases he; done)
        | (cases he
           simp only [ServerObj.to, ServerObj.see, callsOf_append, callsOf, Function.update_apply, if_neg hk, if_neg (Ne.symm hk), List.append_nil]
           exact ht)

/-- **C110.** Every thread still calls `_do_init` once, then `_do_run` as long as it returns, then `_do_exit` once, and makes no call after
    one that raised. -/
theorem C110_thread_calls (es : List SIEv) (s : ServerObj) (h : ServerIntAfter es s) (t : Nat) : ThreadCalls (callsOf t s.log) := by
  have hp := serverIntRun_inv (P := fun s => ∀ t, PhaseHasCalled (s.phase t) (callsOf t s.log)) (fun _ _ _ => phaseHasCalled_intStep) es
    .new s (fun _ => (rfl : callsOf _ [] = [])) h t
  cases hf : s.phase t <;> rw [hf] at hp <;> first
    | exact .inl hp
    | exact hp
    | (obtain ⟨k, hk⟩ := hp; exact .inr (.inr ⟨k, [], by rw [hk, List.append_nil], .inl rfl⟩))

/-! ## `stop` after interruptions -/

theorem notStarting_idle : NotStarting .idle := ⟨by simp, by simp, by simp, by simp⟩

theorem silent_intStep {s s' : ServerObj} {e : SIEv} (hs : Silent s) (hn : NotStarting s.caller) (hnc : e ≠ .plain .callStart)
    (he : serverIntStep s e = some s') : Silent s' ∧ NotStarting s'.caller ∧ served s'.log = served s.log := by
  cases e with
  | plain e => exact silent_step hs hn (fun h => hnc (by rw [h])) he
  | cut =>
    simp only [serverIntStep] at he
    split at he <;> cases he
    exact ⟨hs, notStarting_idle, rfl⟩
  | cutStarted =>
    simp only [serverIntStep, startCut] at he
    split at he
    · rename_i hc; exact absurd hc (hn.2.2.2 _)
    · cases he
  | exits t =>
    have ht := hs t
    simp only [serverIntStep, serverExits] at he
    split at he
    · rename_i hp; rw [hp] at ht; cases ht
    · rename_i hp; rw [hp] at ht; cases ht
    · rename_i hp; rw [hp] at ht; cases ht
    · cases he
      refine ⟨fun d => ?_, hn, rfl⟩
      simp only [ServerObj.to, Function.update_apply]
      split
      · rfl
      · exact hs d
    · cases he

/-- **C110.** Whatever was interrupted before: when a `stop` returns (or raises `RuntimeError`), the server has stopped, and none of its
    methods is called any more before `start` is called again. -/
theorem C110_stopped (es es' : List SIEv) (e : SEv) (o : SObs) (s s1 s2 : ServerObj) (h : ServerIntAfter es s)
    (he : serverStep s e = some s1) (hlog : s1.log = s.log ++ [o]) (ho : o = .stopRaised ∨ ∃ b, o = .stopDone b)
    (hno : .plain .callStart ∉ es') (h2 : serverIntRun s1 es' = some s2) : Silent s2 ∧ served s2.log = served s.log := by
  obtain ⟨hsil, hidle⟩ := stop_silent (serverIntAfter_inv h) he hlog ho
  have key : ∀ (es : List SIEv) (s s' : ServerObj), Silent s → NotStarting s.caller → SIEv.plain .callStart ∉ es →
      serverIntRun s es = some s' → Silent s' ∧ served s'.log = served s.log := by
    intro es
    induction es with
    | nil => intro s s' hs _ _ hr; cases hr; exact ⟨hs, rfl⟩
    | cons e es ih =>
      intro s s' hs hn hnc hr
      simp only [serverIntRun] at hr
      cases he : serverIntStep s e with
      | none => rw [he] at hr; cases hr
      | some s1 =>
        rw [he] at hr
        obtain ⟨h1, h2, h3⟩ := silent_intStep hs hn (fun hc => hnc (hc ▸ List.mem_cons_self)) he
        obtain ⟨h4, h5⟩ := ih s1 s' h1 h2 (fun hc => hnc (List.mem_cons_of_mem _ hc)) hr
        exact ⟨h4, h5.trans h3⟩
  obtain ⟨k1, k2⟩ := key es' s1 s2 hsil (by rw [hidle]; exact notStarting_idle) hno h2
  refine ⟨k1, k2.trans ?_⟩
  rw [hlog, served_snoc]
  rcases ho with rfl | ⟨b, rfl⟩ <;> simp

/-- is this an action of thread `t`? -/
def SIEv.by (t : Nat) : SIEv → Bool
  | .plain (.server t' _) => t' = t
  | .exits t' => t' = t
  | _ => false

theorem serverLeft_intStep {s s' : ServerObj} {e : SIEv} (hi : SInv s) (hgo : s.go s.event = false) (hn : NotStarting s.caller)
    (hnc : e ≠ .plain .callStart) (he : serverIntStep s e = some s') (t : Nat) :
    s'.go s'.event = false ∧ NotStarting s'.caller ∧ (if e.by t then 1 else 0) + serverLeft s' t ≤ serverLeft s t := by
  cases e with
  | plain e =>
    have h := serverLeft_step hi hgo hn (fun h => hnc (by rw [h])) he t
    cases e <;> exact h
  | cut =>
    simp only [serverIntStep] at he
    split at he <;> cases he
    have hl : serverLeft (s.ctl .idle) t = serverLeft s t := rfl
    exact ⟨hgo, notStarting_idle, by simp [SIEv.by, hl]⟩
  | cutStarted =>
    simp only [serverIntStep, startCut] at he
    split at he
    · rename_i hc; exact absurd hc (hn.2.2.2 _)
    · cases he
  | exits u =>
    simp only [serverIntStep, serverExits] at he
    split at he
    all_goals first
      | (cases he; done)
      | (cases he
         refine ⟨hgo, hn, ?_⟩
         simp only [ServerObj.to, ServerObj.see, SIEv.by, serverLeft, Function.update_apply]
         grind)

/-- **C110.** A `stop` that has cleared the event stops the server, even if it is interrupted afterwards (Ctrl-C during `join`): until
    `start` is called again, no thread does more than eight further actions; and while a thread is still serving or ending, it can act.
    And a `stop` that waits ends when its thread does. -/
theorem C110_stop_ends (es es' : List SIEv) (s s' : ServerObj) (h : ServerIntAfter es s) (hc : s.caller = .stopLoadJoin)
    (hno : .plain .callStart ∉ es') (hr : serverIntRun s es' = some s') :
    (∀ t, (es'.filter (SIEv.by t)).length ≤ 8) ∧
    (∀ t, (s'.phase t).alive → ∀ ok, serverIntStep s' (.plain (.server t ok)) ≠ none) ∧
    (∀ t, s'.caller = .stopJoin t → serverIntStep s' (.plain .control) = none → (s'.phase t).alive) := by
  have key : ∀ (es : List SIEv) (s s' : ServerObj) (t : Nat), SInv s → s.go s.event = false → NotStarting s.caller →
      SIEv.plain .callStart ∉ es → serverIntRun s es = some s' →
      (es.filter (SIEv.by t)).length + serverLeft s' t ≤ serverLeft s t := by
    intro es
    induction es with
    | nil => intro s s' t _ _ _ _ hr; cases hr; simp
    | cons e es ih =>
      intro s s' t hi hgo hn hnc hr
      simp only [serverIntRun] at hr
      cases he : serverIntStep s e with
      | none => rw [he] at hr; cases hr
      | some s1 =>
        rw [he] at hr
        obtain ⟨k1, k2, k3⟩ := serverLeft_intStep hi hgo hn (fun hc => hnc (hc ▸ List.mem_cons_self)) he t
        have k4 := ih s1 s' t (sInv_intStep hi he) k1 k2 (fun hc => hnc (List.mem_cons_of_mem _ hc)) hr
        have : ((e :: es).filter (SIEv.by t)).length = (if e.by t then 1 else 0) + (es.filter (SIEv.by t)).length := by
          rw [List.filter_cons]
          split <;> simp [Nat.add_comm]
        omega
  refine ⟨fun t => ?_, fun t ha ok => ?_, fun t hj hstuck => ?_⟩
  · have := key es' s s' t (serverIntAfter_inv h) ((serverIntAfter_inv h).cleared (Or.inl hc))
      (by rw [hc]; exact ⟨by simp, by simp, by simp, by simp⟩) hno hr
    have h8 : serverLeft s t ≤ 8 := by
      unfold serverLeft
      split <;> first | decide | (split <;> decide)
    omega
  · simp only [serverIntStep, serverStep, serverAct]
    cases hp : s'.phase t <;> simp_all [SPhase.alive]
  · simp only [serverIntStep, serverStep, controlAct, hj] at hstuck
    cases hp : s'.phase t <;> simp_all [SPhase.alive]

/-! ## An interrupted `start` -/

theorem silent_of_fresh {s : ServerObj} (hi : SInv s) (hf : s.phase s.thread = .fresh) : Silent s := by
  intro t
  by_cases ht : t = s.thread
  · rw [ht, hf]; rfl
  · by_cases hl : t < s.nextThread
    · rcases hi.old t hl ht with h | h <;> rw [h] <;> rfl
    · rw [hi.new t (by omega)]; rfl

/-- **C110.** A `start` of a stopped server that is interrupted before it has started the thread has no effect on the next one: the server
    is silent, and a complete `start` after it returns and leaves the same server as if there had been no interruption. -/
theorem C110_start_again (es : List SIEv) (s : ServerObj) (h : ServerIntAfter es s) (k : Nat) (hk : k ≤ 3) (hc : s.caller = .idle)
    (hs : Stopped s) :
    ∃ s1 s2, serverIntRun s (.plain .callStart :: List.replicate k (.plain .control) ++ [.cut]) = some s1 ∧ Silent s1 ∧ s1.log = s.log ∧
      serverRun s1 [.callStart, .control, .control, .control, .control] = some s2 ∧
      serverRun s [.callStart, .control, .control, .control, .control] = some s2 ∧
      Running s2 ∧ s2.log = s.log ++ [.startDone] ∧ s2.caller = .idle := by
  have hi := serverIntAfter_inv h
  have hsil := silent_of_fresh hi hs.1
  obtain ⟨phase, go, thread, event, nt, ne, caller, log⟩ := s
  dsimp only at hc
  subst hc
  obtain ⟨hf, ho, hg⟩ := hs
  dsimp only at hf ho hg
  have key : ∀ g : Nat → Bool, Function.update g event true = Function.update go event true →
      ∃ s2, serverRun ⟨phase, g, thread, event, nt, ne, .idle, log⟩ [.callStart, .control, .control, .control, .control] = some s2 ∧
      serverRun ⟨phase, go, thread, event, nt, ne, .idle, log⟩ [.callStart, .control, .control, .control, .control] = some s2 ∧
      Running s2 ∧ s2.log = log ++ [.startDone] ∧ s2.caller = .idle := by
    intro g hgu
    refine ⟨⟨Function.update phase thread .init, Function.update go event true, thread, event, nt, ne, .idle, log ++ [.startDone]⟩,
      ?_, ?_, ⟨.inl (Function.update_self ..), fun t ht hne => ?_, Function.update_self ..⟩, rfl, rfl⟩
    · simp only [serverRun, serverStep, if_true, controlAct, ServerObj.ctl, hf, ServerObj.see, ServerObj.to, hgu]
    · simp only [serverRun, serverStep, if_true, controlAct, ServerObj.ctl, hf, ServerObj.see, ServerObj.to]
    · simp only [Function.update_apply]
      rw [if_neg hne]
      exact ho t ht hne
  have hs1 : ∃ g : Nat → Bool, Function.update g event true = Function.update go event true ∧
      serverIntRun ⟨phase, go, thread, event, nt, ne, .idle, log⟩ (.plain .callStart :: List.replicate k (.plain .control) ++ [.cut]) = some ⟨phase, g, thread, event, nt, ne, .idle, log⟩ := by
    have hk : k = 0 ∨ k = 1 ∨ k = 2 ∨ k = 3 := by omega
    rcases hk with rfl | rfl | rfl | rfl
    · exact ⟨go, rfl, by
        simp [serverIntRun, serverIntStep, serverStep, ServerObj.ctl]⟩
    · exact ⟨go, rfl, by
        simp [serverIntRun, serverIntStep, serverStep, controlAct, ServerObj.ctl]⟩
    · exact ⟨Function.update go event true, Function.update_idem .., by
        simp [serverIntRun, serverIntStep, serverStep, controlAct, ServerObj.ctl]⟩
    · exact ⟨Function.update go event true, Function.update_idem .., by
        simp [serverIntRun, serverIntStep, serverStep, controlAct, ServerObj.ctl]⟩
  obtain ⟨g, hgu, hrun⟩ := hs1
  obtain ⟨s2, a1, a2, a3⟩ := key g hgu
  exact ⟨_, s2, hrun, hsil, rfl, a1, a2, a3⟩

/-- **C110.** A `start` interrupted after it has started the thread leaves a running server. -/
theorem C110_start_late (s : ServerObj) (hc : s.caller = .idle) (hs : Stopped s) :
    ∃ s1, serverIntRun s [.plain .callStart, .plain .control, .plain .control, .plain .control, .cutStarted] = some s1 ∧ Running s1 ∧
      s1.log = s.log ∧ s1.caller = .idle := by
  obtain ⟨phase, go, thread, event, nt, ne, caller, log⟩ := s
  dsimp only at hc
  subst hc
  obtain ⟨hf, ho, hg⟩ := hs
  dsimp only at hf ho hg
  refine ⟨⟨Function.update phase thread .init, Function.update go event true, thread, event, nt, ne, .idle, log⟩,
      ?_, ⟨.inl (Function.update_self ..), fun t ht hne => ?_, Function.update_self ..⟩, rfl, rfl⟩
  · simp [serverIntRun, serverIntStep, serverStep, startCut, controlAct, ServerObj.ctl, hf, ServerObj.to]
  · simp only [Function.update_apply]
    rw [if_neg hne]
    exact ho t ht hne

/-! ## Findings -/

/-- **C110: false as one would expect it.** `stop` is interrupted (Ctrl-C) while it waits for a round to end; then `start` raises
    `RuntimeError` and yet sets the event again, so the old thread goes on serving: the `start` that failed has started the server. -/
theorem C110_false_restart (s : ServerObj) (hc : s.caller = .idle) (hr : Running s) (hp : s.phase s.thread = .run) :
    ∃ s1 s2, serverIntRun s [.plain .callStop, .plain .control, .plain .control, .plain .control, .plain .control, .cut] = some s1 ∧
      s1.go s1.event = false ∧ s1.log = s.log ∧
      serverIntRun s1 [.plain .callStart, .plain .control, .plain .control, .plain .control, .plain .control] = some s2 ∧
      s2.log = s.log ++ [.startRaised] ∧ Running s2 := by
  obtain ⟨phase, go, thread, event, nt, ne, caller, log⟩ := s
  dsimp only at hc
  subst hc
  obtain ⟨-, ho, hg⟩ := hr
  dsimp only at hp ho hg
  refine ⟨⟨phase, Function.update go event false, thread, event, nt, ne, .idle, log⟩,
    ⟨phase, Function.update (Function.update go event false) event true, thread, event, nt, ne, .idle, log ++ [.startRaised]⟩,
    ?_, Function.update_self .., rfl, ?_, rfl, ⟨.inr (.inr (.inr hp)), ho, Function.update_self ..⟩⟩
  · simp [serverIntRun, serverIntStep, serverStep, controlAct, ServerObj.ctl, hp, SPhase.alive]
  · simp [serverIntRun, serverIntStep, serverStep, controlAct, ServerObj.ctl, hp, ServerObj.see]

theorem dead_forever_int {s s' : ServerObj} {e : SIEv} (hi : SInv s) (hd : s.phase s.thread = .dead)
    (he : serverIntStep s e = some s') :
    s'.phase s'.thread = .dead ∧ ∃ l, s'.log = s.log ++ l ∧ SObs.startDone ∉ l ∧ served l = [] := by
  have hall : ∀ t, t < s.nextThread → s.phase t = .dead ∨ s.phase t = .mkGo := fun t hl => by
    by_cases ht : t = s.thread
    · subst ht; exact Or.inl hd
    · exact (hi.old t hl ht).symm
  have hph : ∀ t, s.phase t = .dead ∨ s.phase t = .mkGo ∨ s.phase t = .fresh := fun t => by
    by_cases hl : t < s.nextThread
    · rcases hall t hl with h | h
      · exact .inl h
      · exact .inr (.inl h)
    · exact .inr (.inr (hi.new t (by omega)))
  have hnf : ∀ t, s.caller = .startThread t → s.phase t ≠ .fresh := fun t hc => by
    rcases hall t (hi.started t hc) with h | h <;> rw [h] <;> exact SPhase.noConfusion
  cases e with
  | plain e =>
    cases e with
    | callStart =>
      simp only [serverIntStep, serverStep] at he
      split at he <;> cases he
      exact ⟨hd, [], (List.append_nil _).symm, List.not_mem_nil, rfl⟩
    | callStop =>
      simp only [serverIntStep, serverStep] at he
      split at he <;> cases he
      exact ⟨hd, [], (List.append_nil _).symm, List.not_mem_nil, rfl⟩
    | control =>
      simp only [serverIntStep, serverStep, controlAct] at he
      split at he
      all_goals try (rename_i t hc; split at he)
      all_goals try (split at he)
      all_goals first
        | (cases he; done)
        | (exfalso; rename_i hf; exact hnf _ hc hf)
        | (cases he; exact ⟨hd, [.startRaised], rfl, by simp, rfl⟩)
        | (cases he; exact ⟨hd, [.stopRaised], rfl, by simp, rfl⟩)
        | (cases he; exact ⟨hd, [.stopDone true], rfl, by simp, rfl⟩)
        | (cases he; exact ⟨hd, [.stopDone false], rfl, by simp, rfl⟩)
        | (cases he; exact ⟨hd, [], (List.append_nil _).symm, List.not_mem_nil, rfl⟩)
    | server t ok =>
      simp only [serverIntStep, serverStep, serverAct] at he
      rcases hph t with h | h | h <;> rw [h] at he <;> cases he
      refine ⟨?_, [], (List.append_nil _).symm, List.not_mem_nil, rfl⟩
      simp only [ServerObj.to, Function.update_apply]
      split
      · rfl
      · exact hd
  | cut =>
    simp only [serverIntStep] at he
    split at he <;> cases he
    exact ⟨hd, [], (List.append_nil _).symm, List.not_mem_nil, rfl⟩
  | cutStarted =>
    simp only [serverIntStep, startCut] at he
    split at he
    · rename_i t hc
      split at he
      · rename_i hf
        exact absurd hf (hnf t hc)
      · cases he
    · cases he
  | exits t =>
    simp only [serverIntStep, serverExits] at he
    rcases hph t with h | h | h <;> rw [h] at he <;> cases he

theorem exits_current {s s' : ServerObj} {t : Nat} (hi : SInv s) (he : serverIntStep s (.exits t) = some s') :
    t = s.thread ∧ s'.phase s'.thread = .dead ∧ ∃ l, s'.log = s.log ++ l ∧ SObs.startDone ∉ l ∧
      (served l = [] ∨ ∃ f, served l = [(t, f, false)]) := by
  have ht : s.phase t ≠ .mkGo → s.phase t ≠ .dead → s.phase t ≠ .fresh → t = s.thread := by
    intro h1 h2 h3
    by_contra hne
    by_cases hl : t < s.nextThread
    · rcases hi.old t hl hne with h | h
      · exact h1 h
      · exact h2 h
    · exact h3 (hi.new t (by omega))
  simp only [serverIntStep, serverExits] at he
  split at he
  · rename_i hp
    have ht := ht (by simp [hp]) (by simp [hp]) (by simp [hp])
    cases he
    exact ⟨ht, by rw [ht]; exact Function.update_self .., [_], rfl, by simp, .inr ⟨_, rfl⟩⟩
  · rename_i hp
    have ht := ht (by simp [hp]) (by simp [hp]) (by simp [hp])
    cases he
    exact ⟨ht, by rw [ht]; exact Function.update_self .., [_], rfl, by simp, .inr ⟨_, rfl⟩⟩
  · rename_i hp
    have ht := ht (by simp [hp]) (by simp [hp]) (by simp [hp])
    cases he
    exact ⟨ht, by rw [ht]; exact Function.update_self .., [_], rfl, by simp, .inr ⟨_, rfl⟩⟩
  · rename_i hp
    have ht := ht (by simp [hp]) (by simp [hp]) (by simp [hp])
    cases he
    exact ⟨ht, by rw [ht]; exact Function.update_self .., [], (List.append_nil _).symm, List.not_mem_nil, .inl rfl⟩
  · cases he

/-- **C110: false as one would expect it.** When, in whatever history, a method or the hook called in the server thread raises `SystemExit`
    (for example in `_do_run`: in a hook function, or in the code of a slave), the thread ends at once, without `_do_exit`, and the server can
    never be started again: whatever is done afterwards, no `start` returns and no method is called. -/
theorem C110_false_exit (es es' : List SIEv) (s s1 s2 : ServerObj) (t : Nat) (h : ServerIntAfter es s)
    (he : serverIntStep s (.exits t) = some s1) (h2 : serverIntRun s1 es' = some s2) :
    s1.phase t = .dead ∧ s2.phase t = .dead ∧ Silent s2 ∧ ∃ l, s2.log = s1.log ++ l ∧ SObs.startDone ∉ l ∧ served l = [] := by
  have key : ∀ (es : List SIEv) (s s' : ServerObj), SInv s → s.phase s.thread = .dead → serverIntRun s es = some s' →
      Silent s' ∧ ∃ l, s'.log = s.log ++ l ∧ SObs.startDone ∉ l ∧ served l = [] := by
    intro es
    induction es with
    | nil =>
      intro s s' hi hd hr
      cases hr
      refine ⟨fun t => ?_, [], by simp, by simp, rfl⟩
      by_cases ht : t = s.thread
      · rw [ht, hd]; rfl
      · by_cases hl : t < s.nextThread
        · rcases hi.old t hl ht with h | h <;> rw [h] <;> rfl
        · rw [hi.new t (by omega)]; rfl
    | cons e es ih =>
      intro s s' hi hd hr
      simp only [serverIntRun] at hr
      cases he : serverIntStep s e with
      | none => rw [he] at hr; cases hr
      | some s1 =>
        rw [he] at hr
        obtain ⟨h2, l1, h3, h4, h5⟩ := dead_forever_int hi hd he
        obtain ⟨k, l2, h6, h7, h8⟩ := ih s1 s' (sInv_intStep hi he) h2 hr
        refine ⟨k, l1 ++ l2, by rw [h6, h3, List.append_assoc], by simp [h4, h7], ?_⟩
        unfold served at *
        rw [List.filterMap_append, h5, h8]; rfl
  have stay : ∀ (es : List SIEv) (s s' : ServerObj), SInv s → s.phase t = .dead → serverIntRun s es = some s' → s'.phase t = .dead := by
    intro es s s' hi hd hr
    refine (serverIntRun_inv (P := fun s => SInv s ∧ s.phase t = .dead) (fun s s' e hP he => ⟨sInv_intStep hP.1 he, ?_⟩) es s s' ⟨hi, hd⟩ hr).2
    obtain ⟨-, hd⟩ := hP
    cases e with
    | plain e =>
      cases e with
      | callStart => simp only [serverIntStep, serverStep] at he; split at he <;> cases he; exact hd
      | callStop => simp only [serverIntStep, serverStep] at he; split at he <;> cases he; exact hd
      | control =>
        simp only [serverIntStep, serverStep, controlAct] at he
        split at he
        all_goals try (split at he)
        all_goals try (split at he)
        all_goals first
          | (cases he; done)
          | (cases he; simp only [ServerObj.ctl, ServerObj.see, ServerObj.to, Function.update_apply]; grind)
      | server u ok =>
        simp only [serverIntStep, serverStep, serverAct] at he
        split at he
        all_goals first
          | (cases he; done)
          | (cases he; simp only [ServerObj.to, ServerObj.see, Function.update_apply]; grind)
    | cut => simp only [serverIntStep] at he; split at he <;> cases he; exact hd
    | cutStarted =>
      simp only [serverIntStep, startCut] at he
      split at he
      · split at he
        · cases he; simp only [ServerObj.ctl, ServerObj.to, Function.update_apply]; grind
        · cases he
      · cases he
    | exits u =>
      simp only [serverIntStep, serverExits] at he
      split at he
      all_goals first
        | (cases he; done)
        | (cases he; simp only [ServerObj.to, ServerObj.see, Function.update_apply]; grind)
  have hi := serverIntAfter_inv h
  obtain ⟨ht, hd, -⟩ := exits_current hi he
  have hi1 := sInv_intStep hi he
  have hd1 : s1.phase t = .dead := by
    have : s1.thread = s.thread := by
      simp only [serverIntStep, serverExits] at he
      split at he <;> cases he <;> rfl
    rw [ht, ← this]; exact hd
  obtain ⟨k1, k2⟩ := key es' s1 s2 hi1 hd h2
  exact ⟨hd1, stay es' s1 s2 hi1 hd1 h2, k1, k2⟩

/-- `_do_run` raises `SystemExit` -/
def exExit : List SIEv :=
  [.plain .callStart, .plain .control, .plain .control, .plain .control, .plain .control,
   .plain (.server 0 true), .plain (.server 0 true), .plain (.server 0 true), .exits 0]

/-- the hypotheses of C110_false_exit -/
example : ∃ s s1, ServerIntAfter (exExit.take 8) s ∧ serverIntStep s (.exits 0) = some s1 ∧
    s1.log = [.startDone, .call 0 .init true, .call 0 .run false] :=
  ⟨_, _, rfl, rfl, by decide⟩

/-! ### Examples -/

/-- start; Ctrl-C while `stop` waits; the server ends by itself; start again, one round -/
def exCut : List SIEv :=
  [.plain .callStart, .plain .control, .plain .control, .plain .control, .plain .control, .plain (.server 0 true),
   .plain .callStop, .plain .control, .plain .control, .plain .control, .plain .control, .plain .control, .cut,
   .plain (.server 0 true), .plain (.server 0 true), .plain (.server 0 true), .plain (.server 0 true), .plain (.server 0 true),
   .plain .callStart, .plain .control, .plain .control, .plain .control, .plain .control,
   .plain (.server 1 true), .plain (.server 1 true), .plain (.server 1 true), .plain (.server 1 true)]

example : (serverIntRun .new exCut).map (·.log) =
    some [.startDone, .call 0 .init true, .call 0 .exit true, .startDone, .call 1 .init true, .call 1 .run true] := by
  decide

/-- the hypotheses of C110_stop_ends after an interrupted `stop`: `stop` is called again -/
example : ∃ s, ServerIntAfter (exCut.take 13 ++ [.plain .callStop, .plain .control, .plain .control, .plain .control, .plain .control]) s ∧
    s.caller = .stopLoadJoin :=
  ⟨_, rfl, rfl⟩

/-- the hypotheses of C110_false_restart: a server in a round -/
example : ∃ s, ServerIntAfter (exExit.take 8) s ∧ s.caller = .idle ∧ Running s ∧ s.phase s.thread = .run :=
  ⟨_, rfl, rfl, ⟨.inr (.inr (.inr rfl)), fun t ht hne => by
    have ht : t < 1 := ht
    have hne : t ≠ 0 := hne
    omega, rfl⟩, rfl⟩

/-- the hypotheses of C110_start_again and C110_start_late: a server that has been started, stopped with an interrupted `stop`, and ended -/
example : ∃ s, ServerIntAfter (exCut.take 18) s ∧ s.caller = .idle ∧ Stopped s ∧ s.nextThread = 2 :=
  ⟨_, rfl, rfl, ⟨rfl, fun t ht hne => by
    have ht : t < 2 := ht
    have hne : t ≠ 1 := hne
    have : t = 0 := by omega
    subst this
    rfl, rfl⟩, rfl⟩

end Modbus
