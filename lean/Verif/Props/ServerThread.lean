import Verif.Model.ServerThread
/-
# C48: server start / stop / restart
-/
namespace Modbus

/-- the thread is between its start and the end of `_do_exit` -/
def SPhase.serving : SPhase → Bool
  | .init | .test | .testGo _ | .run | .exit => true
  | _ => false

/-- basic invariant -/
structure SInv (s : ServerObj) : Prop where
  cur : s.thread < s.nextThread
  new : ∀ t, s.nextThread ≤ t → s.phase t = .fresh
  old : ∀ t, t < s.nextThread → t ≠ s.thread → s.phase t = .mkGo ∨ s.phase t = .dead
  curGo : s.phase s.thread ≠ .mkGo
  ev : s.event < s.nextEvent
  newEv : ∀ e, s.nextEvent ≤ e → s.go e = false
  started : ∀ t, s.caller = .startThread t → t < s.nextThread
  alive : ∀ t, s.caller = .stopAlive t → t < s.nextThread ∧ (t ≠ s.thread → s.phase s.thread = .fresh)
  join : ∀ t, s.caller = .stopJoin t → t < s.nextThread ∧ (t ≠ s.thread → s.phase s.thread = .fresh)
  setting : ∀ e, s.caller = .startSet e → e < s.nextEvent
  clearing : ∀ e, s.caller = .stopClear e → e < s.nextEvent ∧ (e ≠ s.event → s.go s.event = false)
  cleared : s.caller = .stopLoadJoin ∨ (∃ t, s.caller = .stopJoin t) → s.go s.event = false

theorem sInv_new : SInv .new := by
  constructor <;> simp [ServerObj.new]

theorem sInv_step {s s' : ServerObj} {e : SEv} (h : SInv s) (he : serverStep s e = some s') : SInv s' := by
  obtain ⟨h1, h2, h3, h4, h5, h6, h7, h8, h9, h10, h11, h12⟩ := h
  cases e with
  | callStart =>
    simp only [serverStep] at he
    split at he <;> cases he
    constructor <;> simp_all [ServerObj.ctl]
  | callStop =>
    simp only [serverStep] at he
    split at he <;> cases he
    constructor <;> simp_all [ServerObj.ctl]
  | control =>
    simp only [serverStep, controlAct] at he
    split at he
    all_goals try (split at he)
    all_goals try (split at he)
    all_goals first
      | (cases he; done)
      | (cases he; constructor <;> simp only [ServerObj.ctl, ServerObj.see, ServerObj.to, Function.update_apply] <;> grind)
  | server t ok =>
    simp only [serverStep, serverAct] at he
    split at he
    all_goals first
      | (cases he; done)
      | (cases he; constructor <;> simp only [ServerObj.to, ServerObj.see, Function.update_apply] <;> grind)

/-- induction over executions -/
theorem serverRun_inv {P : ServerObj → Prop} (hstep : ∀ s s' e, P s → serverStep s e = some s' → P s') :
    ∀ (es : List SEv) (s s' : ServerObj), P s → serverRun s es = some s' → P s'
  | [], s, s', h, hr => by cases hr; exact h
  | e :: es, s, s', h, hr => by
    simp only [serverRun] at hr
    cases hs : serverStep s e with
    | none => rw [hs] at hr; cases hr
    | some s1 => rw [hs] at hr; exact serverRun_inv hstep es s1 s' (hstep _ _ _ h hs) hr

/-- the state of a server after the actions `es`, from its construction -/
def ServerAfter (es : List SEv) (s : ServerObj) : Prop := serverRun .new es = some s

theorem serverAfter_inv {es : List SEv} {s : ServerObj} (h : ServerAfter es s) : SInv s :=
  serverRun_inv (fun _ _ _ => sInv_step) es _ _ sInv_new h

/-- **C48.** However `start` and `stop` are called and whatever happens in the threads, at most one thread serves at any time. -/
theorem C48_one_server (es : List SEv) (s : ServerObj) (h : ServerAfter es s) (t t' : Nat) (ht : (s.phase t).serving)
    (ht' : (s.phase t').serving) : t = t' := by
  have hi := serverAfter_inv h
  have key : ∀ t, (s.phase t).serving → t = s.thread := by
    intro t ht
    by_contra hne
    by_cases hl : t < s.nextThread
    · rcases hi.old t hl hne with h | h <;> rw [h] at ht <;> cases ht
    · rw [hi.new t (by omega)] at ht; cases ht
  rw [key t ht, key t' ht']

/-! ## After `stop` the server is silent -/

/-- the methods called so far -/
def served (log : List SObs) : List (Nat × SFct × Bool) :=
  log.filterMap fun | .call t f ok => some (t, f, ok) | _ => none

theorem served_snoc (log : List SObs) (o : SObs) :
    served (log ++ [o]) = served log ++ match o with | .call t f ok => [(t, f, ok)] | _ => [] := by
  unfold served
  rw [List.filterMap_append]
  cases o <;> rfl

/-- no thread serves -/
def Silent (s : ServerObj) : Prop := ∀ t, (s.phase t).serving = false

theorem stop_silent {s s' : ServerObj} {e : SEv} {o : SObs} (h : SInv s) (he : serverStep s e = some s')
    (hlog : s'.log = s.log ++ [o]) (ho : o = .stopRaised ∨ ∃ b, o = .stopDone b) : Silent s' ∧ s'.caller = .idle := by
  have hne : ∀ l : List SObs, l = l ++ [o] → False := fun l h => by
    have := congrArg List.length h
    simp at this
  have hone : ∀ (l : List SObs) (o' : SObs), l ++ [o'] = l ++ [o] → o' = o := fun l o' h => by
    simpa using List.append_cancel_left h
  obtain ⟨h1, h2, h3, h4, h5, h6, h7, h8, h9, h10, h11, h12⟩ := h
  have hsil : (s.phase s.thread).serving = false → Silent s := by
    intro hs t
    by_cases ht : t = s.thread
    · rw [ht]; exact hs
    · by_cases hl : t < s.nextThread
      · rcases h3 t hl ht with h | h <;> rw [h] <;> rfl
      · rw [h2 t (by omega)]; rfl
  cases e with
  | callStart =>
    simp only [serverStep] at he
    split at he <;> cases he
    exact (hne _ hlog).elim
  | callStop =>
    simp only [serverStep] at he
    split at he <;> cases he
    exact (hne _ hlog).elim
  | control =>
    simp only [serverStep, controlAct] at he
    split at he
    · cases he
    · cases he; exact (hne _ hlog).elim
    · cases he; exact (hne _ hlog).elim
    · cases he; exact (hne _ hlog).elim
    · split at he
      · cases he; have := hone _ _ hlog; subst this; rcases ho with ho | ⟨b, ho⟩ <;> cases ho
      · cases he; have := hone _ _ hlog; subst this; rcases ho with ho | ⟨b, ho⟩ <;> cases ho
    · cases he; exact (hne _ hlog).elim
    · rename_i t hc
      split at he
      · cases he; exact (hne _ hlog).elim
      · rename_i hal
        cases he
        refine ⟨?_, rfl⟩
        refine hsil ?_
        by_cases ht : t = s.thread
        · rw [← ht]
          cases hp : s.phase t <;> simp_all [SPhase.alive, SPhase.serving]
        · rw [(h8 t hc).2 ht]; rfl
    · cases he; exact (hne _ hlog).elim
    · cases he; exact (hne _ hlog).elim
    · cases he; exact (hne _ hlog).elim
    · rename_i t hc
      split at he
      · rename_i hf
        cases he
        refine ⟨?_, rfl⟩
        refine hsil ?_
        by_cases ht : t = s.thread
        · rw [← ht, hf]; rfl
        · rw [(h9 t hc).2 ht]; rfl
      · split at he
        · rename_i hd
          cases he
          refine ⟨?_, rfl⟩
          refine hsil ?_
          by_cases ht : t = s.thread
          · rw [← ht, hd]; rfl
          · rw [(h9 t hc).2 ht]; rfl
        · cases he
  | server t ok =>
    simp only [serverStep, serverAct] at he
    split at he
    · cases he
    · cases he; have := hone _ _ hlog; subst this; rcases ho with ho | ⟨b, ho⟩ <;> cases ho
    · cases he; exact (hne _ hlog).elim
    · cases he; exact (hne _ hlog).elim
    · cases he; have := hone _ _ hlog; subst this; rcases ho with ho | ⟨b, ho⟩ <;> cases ho
    · cases he; have := hone _ _ hlog; subst this; rcases ho with ho | ⟨b, ho⟩ <;> cases ho
    · cases he; exact (hne _ hlog).elim
    · cases he; exact (hne _ hlog).elim
    · cases he; exact (hne _ hlog).elim
    · cases he

/-- the controlling thread is not starting the server -/
def NotStarting (c : SCaller) : Prop :=
  c ≠ .startLoadGo ∧ (∀ e, c ≠ .startSet e) ∧ c ≠ .startLoadThread ∧ ∀ t, c ≠ .startThread t

theorem silent_step {s s' : ServerObj} {e : SEv} (hs : Silent s) (hn : NotStarting s.caller) (hnc : e ≠ .callStart)
    (he : serverStep s e = some s') : Silent s' ∧ NotStarting s'.caller ∧ served s'.log = served s.log := by
  obtain ⟨n1, n2, n3, n4⟩ := hn
  have hidle : NotStarting .idle := ⟨by simp, by simp, by simp, by simp⟩
  cases e with
  | callStart => exact absurd rfl hnc
  | callStop =>
    simp only [serverStep] at he
    split at he <;> cases he
    exact ⟨hs, ⟨by simp [ServerObj.ctl], by simp [ServerObj.ctl], by simp [ServerObj.ctl], by simp [ServerObj.ctl]⟩, rfl⟩
  | control =>
    simp only [serverStep, controlAct] at he
    split at he
    · cases he
    · rename_i hc; exact absurd hc n1
    · rename_i hc; exact absurd hc (n2 _)
    · rename_i hc; exact absurd hc n3
    · rename_i hc; exact absurd hc (n4 _)
    · cases he
      exact ⟨hs, ⟨by simp [ServerObj.ctl], by simp [ServerObj.ctl], by simp [ServerObj.ctl], by simp [ServerObj.ctl]⟩, rfl⟩
    · split at he
      · cases he
        exact ⟨hs, ⟨by simp [ServerObj.ctl], by simp [ServerObj.ctl], by simp [ServerObj.ctl], by simp [ServerObj.ctl]⟩, rfl⟩
      · cases he
        exact ⟨hs, hidle, by simp [ServerObj.ctl, ServerObj.see, served_snoc]⟩
    · cases he
      exact ⟨hs, ⟨by simp [ServerObj.ctl], by simp [ServerObj.ctl], by simp [ServerObj.ctl], by simp [ServerObj.ctl]⟩, rfl⟩
    · cases he
      exact ⟨hs, ⟨by simp [ServerObj.ctl], by simp [ServerObj.ctl], by simp [ServerObj.ctl], by simp [ServerObj.ctl]⟩, rfl⟩
    · cases he
      exact ⟨hs, ⟨by simp [ServerObj.ctl], by simp [ServerObj.ctl], by simp [ServerObj.ctl], by simp [ServerObj.ctl]⟩, rfl⟩
    · split at he
      · cases he
        exact ⟨hs, hidle, by simp [ServerObj.ctl, ServerObj.see, served_snoc]⟩
      · split at he
        · cases he
          exact ⟨hs, hidle, by simp [ServerObj.ctl, ServerObj.see, served_snoc]⟩
        · cases he
  | server t ok =>
    have ht := hs t
    simp only [serverStep, serverAct] at he
    have hupd : ∀ p : SPhase, p.serving = false → ∀ d, (Function.update s.phase t p d).serving = false := by
      intro p hp d
      simp only [Function.update_apply]
      split
      · exact hp
      · exact hs d
    split at he
    · cases he
    · rename_i hp; rw [hp] at ht; cases ht
    · rename_i hp; rw [hp] at ht; cases ht
    · rename_i hp; rw [hp] at ht; cases ht
    · rename_i hp; rw [hp] at ht; cases ht
    · rename_i hp; rw [hp] at ht; cases ht
    · cases he
      exact ⟨hupd _ (by cases ok <;> rfl), ⟨n1, n2, n3, n4⟩, rfl⟩
    · cases he
      exact ⟨hupd _ rfl, ⟨n1, n2, n3, n4⟩, rfl⟩
    · cases he
      exact ⟨hupd _ rfl, ⟨n1, n2, n3, n4⟩, rfl⟩
    · cases he

/-- **C48.** When `stop` returns (or raises `RuntimeError`), the server has stopped: whatever happens afterwards, none of `_do_init`,
    `_do_run` and `_do_exit` is called any more before `start` is called again.  For every history of `start` and `stop` calls of one
    controlling thread, every behaviour of the methods and every schedule. -/
theorem C48_stopped (es es' : List SEv) (e : SEv) (o : SObs) (s s1 s2 : ServerObj) (h : ServerAfter es s)
    (he : serverStep s e = some s1) (hlog : s1.log = s.log ++ [o]) (ho : o = .stopRaised ∨ ∃ b, o = .stopDone b)
    (hno : .callStart ∉ es') (h2 : serverRun s1 es' = some s2) : Silent s2 ∧ served s2.log = served s.log := by
  obtain ⟨hsil, hidle⟩ := stop_silent (serverAfter_inv h) he hlog ho
  have key : ∀ (es : List SEv) (s s' : ServerObj), Silent s → NotStarting s.caller → SEv.callStart ∉ es → serverRun s es = some s' →
      Silent s' ∧ served s'.log = served s.log := by
    intro es
    induction es with
    | nil => intro s s' hs _ _ hr; cases hr; exact ⟨hs, rfl⟩
    | cons e es ih =>
      intro s s' hs hn hnc hr
      simp only [serverRun] at hr
      cases he : serverStep s e with
      | none => rw [he] at hr; cases hr
      | some s1 =>
        rw [he] at hr
        obtain ⟨h1, h2, h3⟩ := silent_step hs hn (fun hc => hnc (hc ▸ List.mem_cons_self)) he
        obtain ⟨h4, h5⟩ := ih s1 s' h1 h2 (fun hc => hnc (List.mem_cons_of_mem _ hc)) hr
        exact ⟨h4, h5.trans h3⟩
  obtain ⟨k1, k2⟩ := key es' s1 s2 hsil (by rw [hidle]; exact ⟨by simp, by simp, by simp, by simp⟩) hno h2
  refine ⟨k1, k2.trans ?_⟩
  rw [hlog, served_snoc]
  rcases ho with rfl | ⟨b, rfl⟩ <;> simp

/-! ## `stop` does not wait for ever -/

/-- the actions a thread can still do after the event was cleared -/
def serverLeft (s : ServerObj) (t : Nat) : Nat :=
  match s.phase t with
  | .fresh => 0
  | .init => 7
  | .test => 6
  | .testGo e => if s.go e then 8 else 5
  | .run => 7
  | .exit => 4
  | .hook => 3
  | .mkThread => 2
  | .mkGo => 1
  | .dead => 0

/-- how often thread `t` acts -/
def actionsOf (t : Nat) (es : List SEv) : Nat := (es.filter fun | .server t' _ => t' = t | _ => false).length

def SEv.by (t : Nat) : SEv → Bool
  | .server t' _ => t' = t
  | _ => false

theorem serverLeft_step {s s' : ServerObj} {e : SEv} (hi : SInv s) (hgo : s.go s.event = false) (hn : NotStarting s.caller)
    (hnc : e ≠ .callStart) (he : serverStep s e = some s') (t : Nat) :
    s'.go s'.event = false ∧ NotStarting s'.caller ∧ (if e.by t then 1 else 0) + serverLeft s' t ≤ serverLeft s t := by
  obtain ⟨h1, h2, h3, h4, h5, h6, h7, h8, h9, h10, h11, h12⟩ := hi
  obtain ⟨n1, n2, n3, n4⟩ := hn
  cases e with
  | callStart => exact absurd rfl hnc
  | callStop =>
    simp only [serverStep] at he
    split at he <;> cases he
    exact ⟨hgo, ⟨by simp [ServerObj.ctl], by simp [ServerObj.ctl], by simp [ServerObj.ctl], by simp [ServerObj.ctl]⟩,
      by have hl : serverLeft (s.ctl .stopLoadThread) t = serverLeft s t := rfl
         simp [SEv.by, hl]⟩
  | control =>
    simp only [serverStep, controlAct] at he
    split at he
    · cases he
    · rename_i hc; exact absurd hc n1
    · rename_i hc; exact absurd hc (n2 _)
    · rename_i hc; exact absurd hc n3
    · rename_i hc; exact absurd hc (n4 _)
    all_goals try (split at he)
    all_goals try (split at he)
    all_goals first
      | (cases he; done)
      | (cases he
         refine ⟨?_, ⟨?_, ?_, ?_, ?_⟩, ?_⟩ <;>
           simp only [ServerObj.ctl, ServerObj.see, SEv.by, serverLeft, Function.update_apply] <;> grind)
  | server u ok =>
    simp only [serverStep, serverAct] at he
    split at he
    all_goals first
      | (cases he; done)
      | (cases he
         refine ⟨?_, ⟨n1, n2, n3, n4⟩, ?_⟩ <;>
           simp only [ServerObj.to, ServerObj.see, SEv.by, serverLeft, Function.update_apply] <;> grind)

/-- **C48.** `stop` does not wait for ever: from the moment it has cleared the event (whatever happened before) and until `start` is called
    again, no thread does more than eight further actions, whether the methods return or raise; and as long as the thread `stop` waits for
    has not ended, that thread can act.  (So `stop` ends as soon as the method running in the thread does.) -/
theorem C48_stop_ends (es es' : List SEv) (s s' : ServerObj) (h : ServerAfter es s) (hc : s.caller = .stopLoadJoin)
    (hno : .callStart ∉ es') (hr : serverRun s es' = some s') :
    (∀ t, actionsOf t es' ≤ 8) ∧
    (∀ t, s'.caller = .stopJoin t → serverStep s' .control = none → ∀ ok, serverStep s' (.server t ok) ≠ none) := by
  have key : ∀ (es : List SEv) (s s' : ServerObj) (t : Nat), SInv s → s.go s.event = false → NotStarting s.caller →
      SEv.callStart ∉ es → serverRun s es = some s' → actionsOf t es + serverLeft s' t ≤ serverLeft s t := by
    intro es
    induction es with
    | nil => intro s s' t _ _ _ _ hr; cases hr; simp [actionsOf]
    | cons e es ih =>
      intro s s' t hi hgo hn hnc hr
      simp only [serverRun] at hr
      cases he : serverStep s e with
      | none => rw [he] at hr; cases hr
      | some s1 =>
        rw [he] at hr
        obtain ⟨k1, k2, k3⟩ := serverLeft_step hi hgo hn (fun hc => hnc (hc ▸ List.mem_cons_self)) he t
        have k4 := ih s1 s' t (sInv_step hi he) k1 k2 (fun hc => hnc (List.mem_cons_of_mem _ hc)) hr
        have : actionsOf t (e :: es) = (if e.by t then 1 else 0) + actionsOf t es := by
          unfold actionsOf
          cases e with
          | server t' ok => by_cases ht : t' = t <;> simp [SEv.by, ht, Nat.add_comm]
          | _ => simp [SEv.by]
        omega
  refine ⟨fun t => ?_, fun t hj hstuck ok => ?_⟩
  · have := key es' s s' t (serverAfter_inv h) ((serverAfter_inv h).cleared (Or.inl hc))
      (by rw [hc]; exact ⟨by simp, by simp, by simp, by simp⟩) hno hr
    have h8 : serverLeft s t ≤ 8 := by
      unfold serverLeft
      split <;> first | decide | (split <;> decide)
    omega
  · simp only [serverStep, controlAct, hj] at hstuck
    simp only [serverStep, serverAct]
    cases hp : s'.phase t <;> simp_all

/-! ## Restarting -/

/-- nothing went wrong: no method raised, and no `stop` raised -/
def Uneventful (log : List SObs) : Prop := (∀ t f, SObs.call t f false ∉ log) ∧ SObs.stopRaised ∉ log

/-- every thread but the current one has ended -/
def OthersDead (s : ServerObj) : Prop := ∀ t, t < s.nextThread → t ≠ s.thread → s.phase t = .dead

/-- ready to be started (again): `self._thread` has not been started, every other thread has ended -/
def Stopped (s : ServerObj) : Prop := s.phase s.thread = .fresh ∧ OthersDead s ∧ s.go s.event = false

/-- `self._thread` is in its loop or before it, its event is set, every other thread has ended -/
def Running (s : ServerObj) : Prop :=
  (s.phase s.thread = .init ∨ s.phase s.thread = .test ∨ s.phase s.thread = .testGo s.event ∨ s.phase s.thread = .run) ∧
  OthersDead s ∧ s.go s.event = true

/-- What the results of the calls should be: `up` - the server is running.  `start` succeeds on a stopped server and raises on a running
    one; `stop` always returns, finds the thread alive iff the server is running, and leaves it stopped. -/
def specLife : Bool → List SObs → Option Bool
  | up, [] => some up
  | up, .call _ _ _ :: l => specLife up l
  | false, .startDone :: l => specLife true l
  | true, .startRaised :: l => specLife true l
  | up, .stopDone found :: l => if found = up then specLife false l else none
  | _, _ => none

theorem specCalls_append : ∀ (l : List SObs) (up : Bool) (l' : List SObs),
    specLife up (l ++ l') = (specLife up l).bind (specLife · l')
  | [], _, _ => by simp [specLife]
  | o :: l, up, l' => by
    cases o with
    | call t f ok => simp only [List.cons_append, specLife]; exact specCalls_append l up l'
    | startDone => cases up <;> simp [specLife, specCalls_append l]
    | startRaised => cases up <;> simp [specLife, specCalls_append l]
    | stopDone b =>
      simp only [List.cons_append, specLife]
      split
      · exact specCalls_append l _ l'
      · rfl
    | stopRaised => cases up <;> simp [specLife]

/-- the invariant of uneventful executions -/
def Life (s : ServerObj) (up : Bool) : Prop :=
  match s.caller with
  | .idle | .startLoadGo | .stopLoadThread => (up = false ∧ Stopped s) ∨ (up = true ∧ Running s)
  | .startSet e => e = s.event ∧ ((up = false ∧ Stopped s) ∨ (up = true ∧ Running s))
  | .startLoadThread =>
      s.go s.event = true ∧ ((up = false ∧ s.phase s.thread = .fresh ∧ OthersDead s) ∨ (up = true ∧ Running s))
  | .startThread t => t = s.thread ∧
      s.go s.event = true ∧ ((up = false ∧ s.phase s.thread = .fresh ∧ OthersDead s) ∨ (up = true ∧ Running s))
  | .stopAlive t => t = s.thread ∧ ((up = false ∧ Stopped s) ∨ (up = true ∧ Running s))
  | .stopLoadGo => up = true ∧ Running s
  | .stopClear e => e = s.event ∧ up = true ∧ Running s
  | .stopLoadJoin => up = true ∧ s.go s.event = false ∧
      ((((s.phase s.thread).serving ∨ s.phase s.thread = .mkThread) ∧ OthersDead s) ∨ s.phase s.thread = .fresh)
  | .stopJoin t => up = true ∧ s.go s.event = false ∧
      ((t = s.thread ∧ ((s.phase t).serving ∨ s.phase t = .mkThread) ∧ OthersDead s) ∨
       (t ≠ s.thread ∧ s.phase s.thread = .fresh ∧ (s.phase t = .mkGo ∨ s.phase t = .dead) ∧
          ∀ u, u < s.nextThread → u ≠ s.thread → u ≠ t → s.phase u = .dead) ∨
       (t = s.thread ∧ s.phase t = .fresh))

theorem uneventful_snoc {l : List SObs} {o : SObs} (h : Uneventful (l ++ [o])) :
    Uneventful l ∧ (∀ t f, o ≠ .call t f false) ∧ o ≠ .stopRaised := by
  obtain ⟨h1, h2⟩ := h
  simp only [List.mem_append, List.mem_singleton, not_or] at h1 h2
  exact ⟨⟨fun t f => (h1 t f).1, h2.1⟩, fun t f he => (h1 t f).2 he.symm, fun he => h2.2 he.symm⟩

theorem life_step {s s' : ServerObj} {e : SEv} {up : Bool} (hi : SInv s) (hl : Life s up) (hs : specLife false s.log = some up)
    (he : serverStep s e = some s') (hu : Uneventful s'.log) : ∃ up', specLife false s'.log = some up' ∧ Life s' up' := by
  obtain ⟨h1, h2, h3, h4, h5, h6, h7, h8, h9, h10, h11, h12⟩ := hi
  have hsnoc : ∀ o, specLife false (s.log ++ [o]) = specLife up [o] := fun o => by rw [specCalls_append, hs]; rfl
  cases e with
  | callStart =>
    simp only [serverStep] at he
    split at he <;> cases he
    rename_i hc
    simp only [Life, hc] at hl
    exact ⟨up, hs, hl⟩
  | callStop =>
    simp only [serverStep] at he
    split at he <;> cases he
    rename_i hc
    simp only [Life, hc] at hl
    exact ⟨up, hs, hl⟩
  | control =>
    simp only [serverStep, controlAct] at he
    split at he
    · cases he
    · rename_i hc
      simp only [Life, hc] at hl
      cases he
      exact ⟨up, hs, rfl, hl⟩
    · rename_i e hc
      simp only [Life, hc] at hl
      cases he
      refine ⟨up, hs, ?_⟩
      simp only [Life, ServerObj.ctl, Stopped, Running, OthersDead, Function.update_apply] at hl ⊢
      grind
    · rename_i hc
      simp only [Life, hc] at hl
      cases he
      exact ⟨up, hs, rfl, hl⟩
    · rename_i t hc
      simp only [Life, hc] at hl
      obtain ⟨rfl, hg, hl⟩ := hl
      split at he
      · rename_i hf
        cases he
        have hup : up = false := by
          rcases hl with hl | hl
          · exact hl.1
          · have := hl.2.1; rw [hf] at this; simp at this
        subst hup
        refine ⟨true, hsnoc _, ?_⟩
        simp only [Life, ServerObj.ctl, ServerObj.see, ServerObj.to, Stopped, Running, OthersDead, Function.update_apply] at hl ⊢
        grind
      · rename_i hf
        cases he
        have hup : up = true := by
          rcases hl with hl | hl
          · exact absurd hl.2.1 hf
          · exact hl.1
        subst hup
        refine ⟨true, hsnoc _, ?_⟩
        simp only [Life, ServerObj.ctl, ServerObj.see, Stopped, Running, OthersDead] at hl ⊢
        grind
    · rename_i hc
      simp only [Life, hc] at hl
      cases he
      exact ⟨up, hs, rfl, hl⟩
    · rename_i t hc
      simp only [Life, hc] at hl
      obtain ⟨rfl, hl⟩ := hl
      split at he
      · rename_i ha
        cases he
        refine ⟨up, hs, ?_⟩
        rcases hl with hl | hl
        · have := hl.2.1; rw [this] at ha; simp [SPhase.alive] at ha
        · exact hl
      · rename_i ha
        cases he
        have hup : up = false := by
          rcases hl with hl | hl
          · exact hl.1
          · exfalso
            rcases hl.2.1 with h | h | h | h <;> simp [h, SPhase.alive] at ha
        subst hup
        refine ⟨false, hsnoc _, ?_⟩
        simp only [Life, ServerObj.ctl, ServerObj.see, Stopped, Running, OthersDead] at hl ⊢
        grind
    · rename_i hc
      simp only [Life, hc] at hl
      cases he
      exact ⟨up, hs, rfl, hl⟩
    · rename_i e hc
      simp only [Life, hc] at hl
      cases he
      refine ⟨up, hs, ?_⟩
      simp only [Life, ServerObj.ctl, Running, OthersDead, SPhase.serving, Function.update_apply] at hl ⊢
      grind
    · rename_i hc
      simp only [Life, hc] at hl
      cases he
      refine ⟨up, hs, ?_⟩
      simp only [Life, ServerObj.ctl, OthersDead] at hl ⊢
      grind
    · rename_i t hc
      simp only [Life, hc] at hl
      split at he
      · cases he
        exact absurd rfl (uneventful_snoc hu).2.2
      · split at he
        · rename_i hd
          cases he
          obtain ⟨hup, hl⟩ := hl
          subst hup
          refine ⟨false, hsnoc _, ?_⟩
          simp only [Life, ServerObj.ctl, ServerObj.see, Stopped, OthersDead, SPhase.serving] at hl ⊢
          grind
        · cases he
  | server t ok =>
    have hserv : ∀ f ok', s'.log = s.log ++ [.call t f ok'] → ok' = true ∧ specLife false s'.log = some up := by
      intro f ok' hlog
      rw [hlog] at hu ⊢
      refine ⟨?_, hsnoc _⟩
      cases ok'
      · exact absurd rfl ((uneventful_snoc hu).2.1 t f)
      · rfl
    simp only [serverStep, serverAct] at he
    split at he
    · cases he
    · rename_i hp
      cases he
      obtain ⟨rfl, hsp⟩ := hserv _ _ rfl
      refine ⟨up, hsp, ?_⟩
      simp only [Life, ServerObj.see, ServerObj.to, Stopped, Running, OthersDead, SPhase.serving, Function.update_apply] at hl ⊢
      grind
    · rename_i hp
      cases he
      refine ⟨up, hs, ?_⟩
      simp only [Life, ServerObj.to, Stopped, Running, OthersDead, SPhase.serving, Function.update_apply] at hl ⊢
      grind
    · rename_i e hp
      cases he
      refine ⟨up, hs, ?_⟩
      simp only [Life, ServerObj.to, Stopped, Running, OthersDead, SPhase.serving, Function.update_apply] at hl ⊢
      grind
    · rename_i hp
      cases he
      obtain ⟨rfl, hsp⟩ := hserv _ _ rfl
      refine ⟨up, hsp, ?_⟩
      simp only [Life, ServerObj.see, ServerObj.to, Stopped, Running, OthersDead, SPhase.serving, Function.update_apply] at hl ⊢
      grind
    · rename_i hp
      cases he
      obtain ⟨rfl, hsp⟩ := hserv _ _ rfl
      refine ⟨up, hsp, ?_⟩
      simp only [Life, ServerObj.see, ServerObj.to, Stopped, Running, OthersDead, SPhase.serving, Function.update_apply] at hl ⊢
      grind
    · rename_i hp
      cases he
      refine ⟨up, hs, ?_⟩
      simp only [Life, ServerObj.to, Stopped, Running, OthersDead, SPhase.serving, Function.update_apply] at hl ⊢
      grind
    · rename_i hp
      cases he
      refine ⟨up, hs, ?_⟩
      simp only [Life, ServerObj.to, Stopped, Running, OthersDead, SPhase.serving, Function.update_apply] at hl ⊢
      grind
    · rename_i hp
      cases he
      refine ⟨up, hs, ?_⟩
      clear hserv hu hsnoc hs
      simp only [Life, ServerObj.to, Stopped, Running, OthersDead, Function.update_apply] at hl ⊢
      cases hc : s.caller <;> simp only [hc] at hl ⊢ <;> grind
    · cases he

theorem uneventful_back {s s' : ServerObj} {e : SEv} (he : serverStep s e = some s') (hu : Uneventful s'.log) : Uneventful s.log := by
  have : ∃ l, s'.log = s.log ++ l := by
    cases e with
    | callStart => simp only [serverStep] at he; split at he <;> cases he; exact ⟨[], by simp [ServerObj.ctl]⟩
    | callStop => simp only [serverStep] at he; split at he <;> cases he; exact ⟨[], by simp [ServerObj.ctl]⟩
    | control =>
      simp only [serverStep, controlAct] at he
      split at he
      all_goals try (split at he)
      all_goals try (split at he)
      all_goals first
        | (cases he; done)
        | (cases he; exact ⟨[_], rfl⟩)
        | (cases he; exact ⟨[], by simp [ServerObj.ctl]⟩)
    | server t ok =>
      simp only [serverStep, serverAct] at he
      split at he
      all_goals first
        | (cases he; done)
        | (cases he; exact ⟨[_], rfl⟩)
        | (cases he; exact ⟨[], by simp [ServerObj.to]⟩)
  obtain ⟨l, hl⟩ := this
  rw [hl] at hu
  exact ⟨fun t f hm => hu.1 t f (List.mem_append_left _ hm), fun hm => hu.2 (List.mem_append_left _ hm)⟩

/-- **C48 (partial).** Start, stop, restart: in every execution in which no method has raised and no `stop` has raised, the results of the
    `start` and `stop` calls are the expected ones (`specLife`), and between calls the server is `Running` after a successful `start` and
    `Stopped` - ready to be started again - after `stop`.
    Missing: `stop` may raise when the server thread ends too fast (`C48_false_stop_raises`); after a method has raised a restart may be
    undone by the ending thread (`C48_false_restart`) and is impossible when the hook raised (`C48_false_hook`). -/
theorem C48_restart_partial (es : List SEv) (s : ServerObj) (h : ServerAfter es s) (hu : Uneventful s.log) :
    ∃ up, specLife false s.log = some up ∧ (s.caller = .idle → if up then Running s else Stopped s) := by
  have key : ∀ (es : List SEv) (s s' : ServerObj), SInv s → (Uneventful s.log → ∃ up, specLife false s.log = some up ∧ Life s up) →
      serverRun s es = some s' → Uneventful s'.log → ∃ up, specLife false s'.log = some up ∧ Life s' up := by
    intro es
    induction es with
    | nil => intro s s' _ hl hr hu; cases hr; exact hl hu
    | cons e es ih =>
      intro s s' hi hl hr hu
      simp only [serverRun] at hr
      cases he : serverStep s e with
      | none => rw [he] at hr; cases hr
      | some s1 =>
        rw [he] at hr
        refine ih s1 s' (sInv_step hi he) (fun hu1 => ?_) hr hu
        obtain ⟨up, h1, h2⟩ := hl (uneventful_back he hu1)
        exact life_step hi h2 h1 he hu1
  obtain ⟨up, h1, h2⟩ := key es _ s sInv_new (fun _ => ⟨false, rfl, Or.inl ⟨rfl, rfl, fun t ht hne => by
    simp only [ServerObj.new] at ht hne; omega, rfl⟩⟩) h hu
  refine ⟨up, h1, fun hc => ?_⟩
  simp only [Life, hc] at h2
  rcases h2 with ⟨rfl, h2⟩ | ⟨rfl, h2⟩
  · exact h2
  · exact h2

/-- **C48.** A running server serves: if its thread gets to act, `_do_run` is called after at most four actions (`_do_init`, the two of the
    loop condition, `_do_run`). -/
theorem C48_serves (s : ServerObj) (h : Running s) :
    ∃ n s', n ≤ 4 ∧ serverRun s (List.replicate n (.server s.thread true)) = some s' ∧
      .call s.thread .run true ∈ s'.log.drop s.log.length := by
  have hrun : ∀ (s : ServerObj) (t : Nat), s.phase t = .run → ∃ s', serverRun s (List.replicate 1 (.server t true)) = some s' ∧
      SObs.call t .run true ∈ s'.log.drop s.log.length := by
    intro s t hp
    refine ⟨(s.to t .test).see (.call t .run true), ?_, by simp [ServerObj.see, ServerObj.to]⟩
    simp [serverRun, serverStep, serverAct, hp]
  have hgo : ∀ (s : ServerObj) (t e : Nat), s.phase t = .testGo e → s.go e = true →
      ∃ s', serverRun s (List.replicate 2 (.server t true)) = some s' ∧ SObs.call t .run true ∈ s'.log.drop s.log.length := by
    intro s t e hp hg
    obtain ⟨s', h1, h2⟩ := hrun (s.to t .run) t (by simp [ServerObj.to])
    refine ⟨s', ?_, h2⟩
    rw [List.replicate_succ]
    simp only [serverRun, serverStep, serverAct, hp, hg, if_true]
    exact h1
  have htest : ∀ (s : ServerObj) (t : Nat), s.phase t = .test → s.go s.event = true →
      ∃ s', serverRun s (List.replicate 3 (.server t true)) = some s' ∧ SObs.call t .run true ∈ s'.log.drop s.log.length := by
    intro s t hp hg
    obtain ⟨s', h1, h2⟩ := hgo (s.to t (.testGo s.event)) t s.event (by simp [ServerObj.to]) hg
    refine ⟨s', ?_, h2⟩
    rw [List.replicate_succ]
    simp only [serverRun, serverStep, serverAct, hp]
    exact h1
  obtain ⟨hp, -, hg⟩ := h
  rcases hp with hp | hp | hp | hp
  · obtain ⟨s', h1, h2⟩ := htest ((s.to s.thread .test).see (.call s.thread .init true)) s.thread (by simp [ServerObj.to, ServerObj.see]) hg
    refine ⟨4, s', by omega, ?_, ?_⟩
    · rw [List.replicate_succ]
      simp only [serverRun, serverStep, serverAct, hp, if_true]
      exact h1
    · have hd : (s'.log.drop (s.log ++ [SObs.call s.thread .init true]).length) = (s'.log.drop s.log.length).drop 1 := by
        rw [List.drop_drop, List.length_append]; rfl
      have h2' : SObs.call s.thread .run true ∈ s'.log.drop (s.log ++ [SObs.call s.thread .init true]).length := h2
      rw [hd] at h2'
      exact List.mem_of_mem_drop h2'
  · obtain ⟨s', h1, h2⟩ := htest s s.thread hp hg
    exact ⟨3, s', by omega, h1, h2⟩
  · obtain ⟨s', h1, h2⟩ := hgo s s.thread _ hp hg
    exact ⟨2, s', by omega, h1, h2⟩
  · obtain ⟨s', h1, h2⟩ := hrun s s.thread hp
    exact ⟨1, s', by omega, h1, h2⟩

/-- **C48.** `stop` on a stopped server does nothing. -/
theorem C48_stop_idle (s : ServerObj) (hc : s.caller = .idle) (hs : Stopped s) :
    serverRun s [.callStop, .control, .control] = some { s with log := s.log ++ [.stopDone false] } := by
  simp only [serverRun, serverStep, hc, if_true, controlAct, ServerObj.ctl, hs.1, ServerObj.see]
  rw [if_neg (by decide), ← hc]

/-- the methods a given thread called, with their outcomes, in order -/
def callsOf (t : Nat) : List SObs → List (SFct × Bool)
  | [] => []
  | .call t' f ok :: rest => if t' = t then (f, ok) :: callsOf t rest else callsOf t rest
  | _ :: rest => callsOf t rest

theorem callsOf_append (t : Nat) : ∀ (l l' : List SObs), callsOf t (l ++ l') = callsOf t l ++ callsOf t l'
  | [], l' => rfl
  | o :: l, l' => by
    cases o <;> simp only [List.cons_append, callsOf, callsOf_append t l l']
    split <;> rfl

/-- What the thread of a server may call: nothing yet; an `_do_init` that raised; an `_do_init` and some rounds that all returned, possibly
    followed by one last call, either a round that raised or `_do_exit`. -/
def ThreadCalls (l : List (SFct × Bool)) : Prop :=
  l = [] ∨ l = [(.init, false)] ∨
    ∃ k last, l = (.init, true) :: List.replicate k (.run, true) ++ last ∧
      (last = [] ∨ last = [(.run, false)] ∨ ∃ b, last = [(.exit, b)])

/-- what a thread has called, depending on what it is about to do -/
def PhaseHasCalled (p : SPhase) (l : List (SFct × Bool)) : Prop :=
  match p with
  | .fresh | .init => l = []
  | .test | .testGo _ | .run | .exit => ∃ k, l = (.init, true) :: List.replicate k (.run, true)
  | .hook | .mkThread | .mkGo | .dead => ThreadCalls l

theorem phaseHasCalled_step {s s' : ServerObj} {e : SEv} (h : ∀ t, PhaseHasCalled (s.phase t) (callsOf t s.log)) (he : serverStep s e = some s') :
    ∀ t, PhaseHasCalled (s'.phase t) (callsOf t s'.log) := by
  intro t
  have ht := h t
  cases e with
  | callStart =>
    simp only [serverStep] at he
    split at he <;> cases he
    exact ht
  | callStop =>
    simp only [serverStep] at he
    split at he <;> cases he
    exact ht
  | control =>
    simp only [serverStep, controlAct] at he
    split at he
    all_goals try (split at he)
    all_goals try (split at he)
    all_goals first
      | (cases he; done)
      | (cases he; simpa only [ServerObj.ctl, ServerObj.see, callsOf_append, callsOf, List.append_nil] using ht)
      | skip
    rename_i t' _ hf
    cases he
    simp only [ServerObj.ctl, ServerObj.see, ServerObj.to, callsOf_append, callsOf, List.append_nil, Function.update_apply]
    by_cases hk : t = t'
    · subst hk; rw [if_pos rfl]; rw [hf] at ht; exact ht
    · rw [if_neg hk]; exact ht
  | server t' ok =>
    by_cases hk : t = t'
    · subst hk
      simp only [serverStep, serverAct] at he
      split at he <;> rename_i hp <;> rw [hp] at ht
      all_goals first
        | (cases he; done)
        | skip
      all_goals (cases he; simp only [ServerObj.to, ServerObj.see, callsOf_append, callsOf, if_true, Function.update_self])
      · simp only [PhaseHasCalled] at ht
        rw [ht]
        cases ok
        · exact .inr (.inl rfl)
        · exact ⟨0, rfl⟩
      · exact ht
      · split <;> exact ht
      · obtain ⟨k, hk⟩ := ht
        rw [hk]
        cases ok
        · exact .inr (.inr ⟨k, _, rfl, .inr (.inl rfl)⟩)
        · exact ⟨k + 1, by rw [List.replicate_succ']; rfl⟩
      · obtain ⟨k, hk⟩ := ht
        rw [hk]
        cases ok
        · exact .inr (.inr ⟨k, _, rfl, .inr (.inr ⟨_, rfl⟩)⟩)
        · exact .inr (.inr ⟨k, _, rfl, .inr (.inr ⟨_, rfl⟩)⟩)
      · cases ok <;> exact ht
      · exact ht
      · exact ht
    · simp only [serverStep, serverAct] at he
      split at he
      all_goals first
        | (cases he; done)
        | (cases he
           simp only [ServerObj.to, ServerObj.see, callsOf_append, callsOf, Function.update_apply, if_neg hk, if_neg (Ne.symm hk), List.append_nil]
           exact ht)

/-- **C48.** Whatever happens, every thread of a server calls `_do_init` once, then `_do_run` as long as it returns, then `_do_exit` once;
    after a call that raised it makes no further call: not `_do_exit`, either. -/
theorem C48_thread_calls (es : List SEv) (s : ServerObj) (h : ServerAfter es s) (t : Nat) : ThreadCalls (callsOf t s.log) := by
  have hp := serverRun_inv (P := fun s => ∀ t, PhaseHasCalled (s.phase t) (callsOf t s.log)) (fun _ _ _ => phaseHasCalled_step) es
    .new s (fun _ => (rfl : callsOf _ [] = [])) h t
  cases hf : s.phase t <;> rw [hf] at hp <;> first
    | exact .inl hp
    | exact hp
    | (obtain ⟨k, hk⟩ := hp; exact .inr (.inr ⟨k, [], by rw [hk, List.append_nil], .inl rfl⟩))

/-- a round raises: the thread ends, without `_do_exit` -/
example : ∃ s, ServerAfter [.callStart, .control, .control, .control, .control, .server 0 true, .server 0 true, .server 0 true, .server 0 true,
    .server 0 true, .server 0 true, .server 0 false, .server 0 true, .server 0 true, .server 0 true] s ∧
    callsOf 0 s.log = [(.init, true), (.run, true), (.run, false)] ∧ s.phase 0 = .dead :=
  ⟨_, rfl, by decide, rfl⟩

/-! ### Examples -/

/-- start, one round, stop, start again, one round -/
def exLife : List SEv :=
  [.callStart, .control, .control, .control, .control, .server 0 true, .server 0 true, .server 0 true, .server 0 true,
   .callStop, .control, .control, .control, .control, .control, .server 0 true, .server 0 true, .server 0 true, .server 0 true, .server 0 true,
   .control, .callStart, .control, .control, .control, .control, .server 1 true, .server 1 true, .server 1 true, .server 1 true]

example : (serverRun .new exLife).map (·.log) =
    some [.startDone, .call 0 .init true, .call 0 .run true, .call 0 .exit true, .stopDone true, .startDone, .call 1 .init true,
      .call 1 .run true] := by
  decide

example : ∃ s, ServerAfter exLife s ∧ Uneventful s.log ∧ s.caller = .idle ∧ specLife false s.log = some true := by
  refine ⟨_, rfl, ?_, rfl, rfl⟩
  constructor
  · intro t f hm
    simp [ServerObj.see, ServerObj.to, ServerObj.ctl, ServerObj.new, Function.update] at hm
  · simp [ServerObj.see, ServerObj.to, ServerObj.ctl, ServerObj.new, Function.update]

/-- The thread ends between `self._go.clear()` and the evaluation of `self._thread` in `self._thread.join()`: by then `self._thread` is the
    next, unstarted, thread. -/
def exTooFast : List SEv :=
  [.callStart, .control, .control, .control, .control, .server 0 true, .callStop, .control, .control, .control, .control,
   .server 0 true, .server 0 true, .server 0 true, .server 0 true, .control, .control]

/-- **C48 is false as stated**: `stop` on a running server whose methods all return may raise RuntimeError. -/
theorem C48_false_stop_raises : ∃ s, ServerAfter exTooFast s ∧
    s.log = [.startDone, .call 0 .init true, .call 0 .exit true, .stopRaised] :=
  ⟨_, rfl, by decide⟩

/-- `_do_init` raises (e.g. the address is in use); the thread has assigned `self._thread` but not yet `self._go` when the user calls `stop`
    and `start` -/
def exUndone : List SEv :=
  [.callStart, .control, .control, .control, .control, .server 0 false, .server 0 true, .server 0 true,
   .callStop, .control, .control, .callStart, .control, .control, .control, .control,
   .server 0 true, .server 1 true, .server 1 true, .server 1 true, .server 1 true]

/-- **C48 is false as stated**: `stop` and then `start` return normally, no method raises afterwards and nobody calls `stop`, but the new
    thread ends at once without a single call of `_do_run`, because the old thread has replaced the event. -/
theorem C48_false_restart : ∃ s, ServerAfter exUndone s ∧
    s.log = [.startDone, .call 0 .init false, .stopDone false, .startDone, .call 1 .init true, .call 1 .exit true] :=
  ⟨_, rfl, by decide⟩

theorem dead_forever {s s' : ServerObj} {e : SEv} (hi : SInv s) (hn : s.nextThread = 1) (hd : s.phase 0 = .dead)
    (he : serverStep s e = some s') :
    s'.nextThread = 1 ∧ s'.phase 0 = .dead ∧ ∃ l, s'.log = s.log ++ l ∧ SObs.startDone ∉ l ∧ served l = [] := by
  have h0 : s.thread = 0 := by have := hi.cur; omega
  have hall : ∀ t, s.phase t = .dead ∨ s.phase t = .fresh := fun t => by
    by_cases ht : t = 0
    · subst ht; exact Or.inl hd
    · exact Or.inr (hi.new t (by omega))
  cases e with
  | callStart =>
    simp only [serverStep] at he
    split at he <;> cases he
    exact ⟨hn, hd, [], by simp [ServerObj.ctl], by simp, rfl⟩
  | callStop =>
    simp only [serverStep] at he
    split at he <;> cases he
    exact ⟨hn, hd, [], by simp [ServerObj.ctl], by simp, rfl⟩
  | control =>
    simp only [serverStep, controlAct] at he
    split at he
    all_goals try (rename_i t hc; split at he)
    all_goals try (split at he)
    all_goals first
      | (cases he; done)
      | (cases he; exact ⟨hn, hd, [.startRaised], rfl, by simp, rfl⟩)
      | (cases he; exact ⟨hn, hd, [.stopRaised], rfl, by simp, rfl⟩)
      | (cases he; exact ⟨hn, hd, [.stopDone true], rfl, by simp, rfl⟩)
      | (cases he; exact ⟨hn, hd, [.stopDone false], rfl, by simp, rfl⟩)
      | (cases he; exact ⟨hn, hd, [], (List.append_nil _).symm, List.not_mem_nil, rfl⟩)
      | (exfalso
         rename_i hf
         have := hi.started t hc
         have ht : t = 0 := by omega
         rw [ht, hd] at hf
         cases hf)
  | server t ok =>
    simp only [serverStep, serverAct] at he
    rcases hall t with h | h <;> rw [h] at he <;> cases he

/-- **C48 is false as stated**: when a method and then the hook `modbus.Server.on_exception` raise, the server cannot be started again:
    whatever is done afterwards, every `start` raises and no method is called. -/
theorem C48_false_hook : ∃ s, ServerAfter [.callStart, .control, .control, .control, .control, .server 0 false, .server 0 false] s ∧
    s.log = [.startDone, .call 0 .init false] ∧ s.caller = .idle ∧
    ∀ es s', serverRun s es = some s' → ∃ l, s'.log = s.log ++ l ∧ SObs.startDone ∉ l ∧ served l = [] := by
  refine ⟨_, rfl, by decide, rfl, ?_⟩
  have key : ∀ (es : List SEv) (s s' : ServerObj), SInv s → s.nextThread = 1 → s.phase 0 = .dead → serverRun s es = some s' →
      ∃ l, s'.log = s.log ++ l ∧ SObs.startDone ∉ l ∧ served l = [] := by
    intro es
    induction es with
    | nil => intro s s' _ _ _ hr; cases hr; exact ⟨[], by simp, by simp, rfl⟩
    | cons e es ih =>
      intro s s' hi hn hd hr
      simp only [serverRun] at hr
      cases he : serverStep s e with
      | none => rw [he] at hr; cases hr
      | some s1 =>
        rw [he] at hr
        obtain ⟨h1, h2, l1, h3, h4, h5⟩ := dead_forever hi hn hd he
        obtain ⟨l2, h6, h7, h8⟩ := ih s1 s' (sInv_step hi he) h1 h2 hr
        refine ⟨l1 ++ l2, by rw [h6, h3, List.append_assoc], by simp [h4, h7], ?_⟩
        unfold served at *
        rw [List.filterMap_append, h5, h8]; rfl
  intro es s' hr
  exact key es _ s' (serverAfter_inv (es := [.callStart, .control, .control, .control, .control, .server 0 false, .server 0 false]) rfl)
    rfl rfl hr

end Modbus
