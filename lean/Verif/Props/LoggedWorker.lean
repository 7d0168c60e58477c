import Verif.Model.LoggedWorker
import Verif.Props.Worker
import Verif.Props.Verbose
import Verif.Props.Logged
/-
# C107: the log of a `WorkerThread`, and of the constructors of `RtuMaster` and `RtuServer`
-/
namespace Modbus

/-- the same event without the exceptions -/
def LWEv.plain : LWEv → WEv
  | .callStart c => .callStart c
  | .callStop c => .callStop c
  | .caller c => .caller c
  | .worker r => .worker r.isNone

/-- a new `WorkerThread` and an empty log -/
def LWorker.new (hasInit hasExit : Bool) : LWorker := { w := Worker.new hasInit hasExit }

/-! ## the log decides nothing -/

theorem lWorker_except_w (lg : Logger) (txt : PyErr → Text) (e : PyErr) (s : LWorker) : (s.except lg txt e).w = s.w := by
  unfold LWorker.except
  cases lg s.lines (workerLine txt e) <;> rfl

theorem lWorkerStep_w (lg : Logger) (txt : PyErr → Text) (s : LWorker) (e : LWEv) : (lWorkerStep lg txt s e).map LWorker.w = workerStep s.w e.plain := by
  have hmap : ∀ o : Option Worker, (o.map fun w => { s with w := w }).map LWorker.w = o := by intro o; cases o <;> rfl
  cases e with
  | callStart c => exact hmap _
  | callStop c => exact hmap _
  | caller c => exact hmap _
  | worker r =>
    show (lWorkerAct lg txt s r).map LWorker.w = workerAct s.w r.isNone
    unfold lWorkerAct workerAct
    cases hp : s.w.phase with
    | fresh => rfl
    | dead => rfl
    | test => rfl
    | init =>
      dsimp only
      split
      · cases r with
        | none => rfl
        | some e => exact congrArg some (lWorker_except_w lg txt e _)
      · rfl
    | main =>
      cases r with
      | none => rfl
      | some e => exact congrArg some (lWorker_except_w lg txt e _)
    | exit =>
      dsimp only
      split
      · cases r <;> rfl
      · rfl

/-- **C107.** Whatever the handler of the log does - it may raise at every line -, the threads, the calls of the three functions and the answers of `start` and `stop`
    are those of a `WorkerThread` without a log: every execution with a log is one without, and the other way round.  So all of C54 holds. -/
theorem C107_worker (lg : Logger) (txt : PyErr → Text) (es : List LWEv) (s : LWorker) :
    (lWorkerRun lg txt s es).map LWorker.w = workerRun s.w (es.map LWEv.plain) := by
  induction es generalizing s with
  | nil => rfl
  | cons e es ih =>
    have h := lWorkerStep_w lg txt s e
    rw [lWorkerRun, List.map_cons, workerRun, ← h]
    cases lWorkerStep lg txt s e with
    | none => rfl
    | some s' => exact ih s'

/-- **C107.** In particular the exit function is called exactly once when the thread ends, and never before, whatever the handler does. -/
theorem C107_exit_once (lg : Logger) (txt : PyErr → Text) (hasInit : Bool) (es : List LWEv) (s : LWorker) (h : lWorkerRun lg txt (LWorker.new hasInit true) es = some s) :
    ((fctCalls s.w.log).filter (fun c => c.1 = .exit)).length = if s.w.phase = .dead then 1 else 0 := by
  have hw := C107_worker lg txt es (LWorker.new hasInit true)
  rw [h] at hw
  exact C54_exit_once hasInit (es.map LWEv.plain) s.w hw.symm

/-! ## what is written -/

/-- what is known in every phase -/
structure LWInv (lg : Logger) (txt : PyErr → Text) (s : LWorker) : Prop where
  /-- what was caught has been written, or the handler raised -/
  wrote : (s.caught = none ∧ s.lines = [] ∧ s.pending = none) ∨
    (∃ e, s.caught = some e ∧ ((lg [] (workerLine txt e) = none ∧ s.lines = [workerLine txt e] ∧ s.pending = none) ∨
      (∃ x, lg [] (workerLine txt e) = some x ∧ s.lines = [] ∧ s.pending = some x)))
  /-- an exception is caught only at the end -/
  late : s.w.phase ≠ .exit → s.w.phase ≠ .dead → s.caught = none
  /-- nothing leaves the thread before it ends -/
  inside : s.w.phase ≠ .dead → s.escaped = none
  /-- something was caught exactly if the first two functions raised -/
  raised : s.caught ≠ none ↔ ∃ f, f ≠ .exit ∧ (f, false) ∈ fctCalls s.w.log
  /-- how the thread ends -/
  ends : s.w.phase = .dead → (s.escaped = s.pending ∧ (.exit, false) ∉ fctCalls s.w.log) ∨ (s.escaped ≠ none ∧ (.exit, false) ∈ fctCalls s.w.log)
  /-- the exit function has not been called before the end -/
  first : s.w.phase ≠ .dead → ∀ b, (.exit, b) ∉ fctCalls s.w.log

theorem fctCalls_append (a b : List WObs) : fctCalls (a ++ b) = fctCalls a ++ fctCalls b := by
  unfold fctCalls
  rw [List.filterMap_append]

/-- what a calling thread does -/
theorem caller_step {s s' : Worker} {e : WEv} (he : ∀ ok, e ≠ .worker ok) (h : workerStep s e = some s') :
    (s'.phase = s.phase ∨ (s.phase = .fresh ∧ s'.phase = .init)) ∧ fctCalls s'.log = fctCalls s.log := by
  cases e with
  | worker ok => exact absurd rfl (he ok)
  | callStart c => simp only [workerStep] at h; split at h <;> cases h; exact ⟨.inl rfl, rfl⟩
  | callStop c => simp only [workerStep] at h; split at h <;> cases h; exact ⟨.inl rfl, rfl⟩
  | caller c =>
    simp only [workerStep, callerAct] at h
    split at h
    · cases h
    · cases h; exact ⟨.inl rfl, rfl⟩
    · split at h
      · rename_i hf
        cases h
        exact ⟨.inr ⟨hf, rfl⟩, by show fctCalls (s.log ++ [.startDone c]) = _; rw [fctCalls_append]; exact List.append_nil _⟩
      · cases h
        exact ⟨.inl rfl, by show fctCalls (s.log ++ [.startRaised c]) = _; rw [fctCalls_append]; exact List.append_nil _⟩
    · split at h
      · cases h
        exact ⟨.inl rfl, by show fctCalls (s.log ++ [.stopDone c false]) = _; rw [fctCalls_append]; exact List.append_nil _⟩
      · cases h; exact ⟨.inl rfl, rfl⟩
    · cases h; exact ⟨.inl rfl, rfl⟩
    · split at h
      · cases h
        exact ⟨.inl rfl, by show fctCalls (s.log ++ [.stopDone c true]) = _; rw [fctCalls_append]; exact List.append_nil _⟩
      · cases h

variable {lg : Logger} {txt : PyErr → Text} {s s' : LWorker}

theorem lw_caller {w : Worker} (hi : LWInv lg txt s) (h1 : w.phase = s.w.phase ∨ (s.w.phase = .fresh ∧ w.phase = .init)) (h2 : fctCalls w.log = fctCalls s.w.log) :
    LWInv lg txt { s with w := w } := by
  have hd : w.phase = .dead → s.w.phase = .dead := fun h => by
    rcases h1 with h1 | ⟨_, h1⟩
    · rw [← h1]; exact h
    · rw [h1] at h; cases h
  have hnd : w.phase ≠ .dead → s.w.phase ≠ .dead := fun h => by
    rcases h1 with h1 | ⟨h1, _⟩
    · rw [← h1]; exact h
    · rw [h1]; nofun
  refine ⟨hi.wrote, fun a b => ?_, fun a => hi.inside (hnd a), ?_, fun a => ?_, fun a b => ?_⟩
  · refine hi.late ?_ (hnd b)
    rcases h1 with h1 | ⟨h1, _⟩
    · rw [← h1]; exact a
    · rw [h1]; nofun
  · show s.caught ≠ none ↔ ∃ f, f ≠ .exit ∧ (f, false) ∈ fctCalls w.log
    rw [h2]
    exact hi.raised
  · show (_ ∧ (.exit, false) ∉ fctCalls w.log) ∨ (_ ∧ (.exit, false) ∈ fctCalls w.log)
    rw [h2]
    exact hi.ends (hd a)
  · show (.exit, b) ∉ fctCalls w.log
    rw [h2]
    exact hi.first (hnd a) b

/-- a function returned or raised -/
theorem lw_after (hi : LWInv lg txt s) (r : Option PyErr) {f : WFct} (hf : f ≠ .exit) (hp : s.w.phase = .init ∨ s.w.phase = .main) :
    LWInv lg txt (s.after lg txt r f) ∧ ∀ e, (s.after lg txt r f).caught = some e → r = some e := by
  have hne : s.w.phase ≠ .exit := by rcases hp with hp | hp <;> rw [hp] <;> nofun
  have hnd : s.w.phase ≠ .dead := by rcases hp with hp | hp <;> rw [hp] <;> nofun
  have hc := hi.late hne hnd
  have hesc := hi.inside hnd
  have hfirst := hi.first hnd
  have hno : ¬ ∃ f, f ≠ WFct.exit ∧ (f, false) ∈ fctCalls s.w.log := fun h => hi.raised.mpr h hc
  obtain ⟨hl, hpend⟩ : s.lines = [] ∧ s.pending = none := by
    rcases hi.wrote with ⟨_, h⟩ | ⟨e, h, _⟩
    · exact h
    · rw [hc] at h; cases h
  have hcalls : ∀ ok, fctCalls (s.w.log ++ [.call f ok]) = fctCalls s.w.log ++ [(f, ok)] := fun ok => by rw [fctCalls_append]; rfl
  cases r with
  | none =>
    refine ⟨⟨.inl ⟨hc, hl, hpend⟩, fun _ _ => hc, fun _ => hesc, ⟨fun h => absurd hc h, fun ⟨g, hg, h⟩ => ?_⟩, nofun, fun _ b h => ?_⟩, fun e h => ?_⟩
    · replace h : (g, false) ∈ fctCalls (s.w.log ++ [.call f true]) := h
      rw [hcalls] at h
      rcases List.mem_append.mp h with h | h
      · exact absurd ⟨g, hg, h⟩ hno
      · simp at h
    · replace h : (WFct.exit, b) ∈ fctCalls (s.w.log ++ [.call f true]) := h
      rw [hcalls] at h
      rcases List.mem_append.mp h with h | h
      · exact hfirst b h
      · simp only [List.mem_singleton, Prod.mk.injEq] at h
        exact hf h.1.symm
    · replace h : s.caught = some e := h
      rw [hc] at h
      cases h
  | some e =>
    have hstate : ∃ ls pend, s.after lg txt (some e) f =
        { s with w := { s.w with phase := .exit }.see (.call f false), caught := some e, lines := ls, pending := pend } ∧
        ((lg [] (workerLine txt e) = none ∧ ls = [workerLine txt e] ∧ pend = none) ∨ (∃ x, lg [] (workerLine txt e) = some x ∧ ls = [] ∧ pend = some x)) := by
      unfold LWorker.after LWorker.except
      dsimp only
      rw [hl]
      cases hx : lg [] (workerLine txt e) with
      | none => exact ⟨_, _, rfl, .inl ⟨rfl, rfl, hpend⟩⟩
      | some x => exact ⟨_, _, rfl, .inr ⟨x, rfl, rfl, rfl⟩⟩
    obtain ⟨ls, pend, heq, hw⟩ := hstate
    rw [heq]
    refine ⟨⟨.inr ⟨e, rfl, hw⟩, fun h => absurd rfl h, fun _ => hesc, ⟨fun _ => ⟨f, hf, ?_⟩, fun _ => nofun⟩, nofun, fun _ b h => ?_⟩, fun e' h => h⟩
    · show (f, false) ∈ fctCalls (s.w.log ++ [.call f false])
      rw [hcalls]
      simp
    · replace h : (WFct.exit, b) ∈ fctCalls (s.w.log ++ [.call f false]) := h
      rw [hcalls] at h
      rcases List.mem_append.mp h with h | h
      · exact hfirst b h
      · simp only [List.mem_singleton, Prod.mk.injEq] at h
        exact hf h.1.symm

theorem lw_step (hi : LWInv lg txt s) {e : LWEv} (h : lWorkerStep lg txt s e = some s') :
    LWInv lg txt s' ∧ ∀ x, s'.caught = some x → s.caught = some x ∨ e = .worker (some x) := by
  have callers : ∀ (w : Option Worker) (ev : WEv), (∀ ok, ev ≠ .worker ok) → workerStep s.w ev = w → w.map (fun w => { s with w := w }) = some s' →
      LWInv lg txt s' ∧ ∀ x, s'.caught = some x → s.caught = some x ∨ e = .worker (some x) := by
    intro w ev hev hw hm
    cases w with
    | none => cases hm
    | some w =>
      cases hm
      obtain ⟨h1, h2⟩ := caller_step hev hw
      exact ⟨lw_caller hi h1 h2, fun x hx => .inl hx⟩
  cases e with
  | callStart c => exact callers _ (.callStart c) (fun ok h => by cases h) rfl h
  | callStop c => exact callers _ (.callStop c) (fun ok h => by cases h) rfl h
  | caller c => exact callers _ (.caller c) (fun ok h => by cases h) rfl h
  | worker r =>
    replace h : lWorkerAct lg txt s r = some s' := h
    unfold lWorkerAct at h
    cases hp : s.w.phase with
    | fresh => rw [hp] at h; cases h
    | dead => rw [hp] at h; cases h
    | test =>
      rw [hp] at h
      cases h
      have hc := hi.late (by rw [hp]; nofun) (by rw [hp]; nofun)
      refine ⟨⟨hi.wrote, fun _ _ => hc, fun _ => hi.inside (by rw [hp]; nofun), hi.raised, fun h => ?_, fun _ => hi.first (by rw [hp]; nofun)⟩, fun x hx => .inl hx⟩
      replace h : (if s.w.go then WPhase.main else .exit) = .dead := h
      split at h <;> cases h
    | init =>
      rw [hp] at h
      dsimp only at h
      split at h
      · cases h
        obtain ⟨h1, h2⟩ := lw_after hi r (f := .init) nofun (.inl hp)
        exact ⟨h1, fun x hx => .inr (by rw [h2 x hx])⟩
      · cases h
        have hc := hi.late (by rw [hp]; nofun) (by rw [hp]; nofun)
        exact ⟨⟨hi.wrote, fun _ _ => hc, fun _ => hi.inside (by rw [hp]; nofun), hi.raised, nofun, fun _ => hi.first (by rw [hp]; nofun)⟩, fun x hx => .inl hx⟩
    | main =>
      rw [hp] at h
      cases h
      obtain ⟨h1, h2⟩ := lw_after hi r (f := .main) nofun (.inr hp)
      exact ⟨h1, fun x hx => .inr (by rw [h2 x hx])⟩
    | exit =>
      rw [hp] at h
      dsimp only at h
      have hfirst := hi.first (by rw [hp]; nofun)
      have hcalls : ∀ ok, fctCalls (s.w.log ++ [.call .exit ok]) = fctCalls s.w.log ++ [(.exit, ok)] := fun ok => by rw [fctCalls_append]; rfl
      have hraised : ∀ ok, s.caught ≠ none ↔ ∃ f, f ≠ .exit ∧ (f, false) ∈ fctCalls (s.w.log ++ [.call .exit ok]) := fun ok => by
        rw [hcalls, hi.raised]
        refine ⟨fun ⟨f, hf, h⟩ => ⟨f, hf, List.mem_append_left _ h⟩, fun ⟨f, hf, h⟩ => ⟨f, hf, ?_⟩⟩
        rcases List.mem_append.mp h with h | h
        · exact h
        · simp only [List.mem_singleton, Prod.mk.injEq] at h
          exact absurd h.1 hf
      split at h
      · cases r with
        | none =>
          cases h
          refine ⟨⟨hi.wrote, fun _ h => absurd rfl h, fun h => absurd rfl h, hraised true, fun _ => .inl ⟨rfl, ?_⟩, fun h => absurd rfl h⟩, fun x hx => .inl hx⟩
          show (.exit, false) ∉ fctCalls (s.w.log ++ [.call .exit true])
          rw [hcalls]
          intro hm
          rcases List.mem_append.mp hm with hm | hm
          · exact hfirst false hm
          · simp at hm
        | some e =>
          cases h
          refine ⟨⟨hi.wrote, fun _ h => absurd rfl h, fun h => absurd rfl h, hraised false, fun _ => .inr ⟨nofun, ?_⟩, fun h => absurd rfl h⟩, fun x hx => .inl hx⟩
          show (.exit, false) ∈ fctCalls (s.w.log ++ [.call .exit false])
          rw [hcalls]
          simp
      · cases h
        exact ⟨⟨hi.wrote, fun _ h => absurd rfl h, fun h => absurd rfl h, hi.raised, fun _ => .inl ⟨rfl, hfirst false⟩, fun h => absurd rfl h⟩, fun x hx => .inl hx⟩

theorem lw_run (lg : Logger) (txt : PyErr → Text) (es : List LWEv) (s s' : LWorker) (hi : LWInv lg txt s) (h : lWorkerRun lg txt s es = some s') :
    LWInv lg txt s' ∧ ∀ x, s'.caught = some x → s.caught = some x ∨ .worker (some x) ∈ es := by
  induction es generalizing s with
  | nil => cases h; exact ⟨hi, fun x hx => .inl hx⟩
  | cons e es ih =>
    rw [lWorkerRun] at h
    cases hs : lWorkerStep lg txt s e with
    | none => rw [hs] at h; cases h
    | some s1 =>
      rw [hs] at h
      obtain ⟨h1, h2⟩ := lw_step hi hs
      obtain ⟨g1, g2⟩ := ih s1 h1 h
      refine ⟨g1, fun x hx => ?_⟩
      rcases g2 x hx with g | g
      · rcases h2 x g with k | k
        · exact .inl k
        · exact .inr (k ▸ List.mem_cons_self)
      · exact .inr (List.mem_cons_of_mem _ g)

/-- **C107 (the line).** If neither the init function nor the main function has raised nothing is in the log.  Otherwise one of them has raised, once, some `e`: the log is the one
    line `error: e`, or empty if the handler raised.  The thread ends with an exception exactly if the exit function raised, or the handler did. -/
theorem C107_lines (lg : Logger) (txt : PyErr → Text) (hasInit hasExit : Bool) (es : List LWEv) (s : LWorker)
    (h : lWorkerRun lg txt (LWorker.new hasInit hasExit) es = some s) :
    ((¬ ∃ f, f ≠ .exit ∧ (f, false) ∈ fctCalls s.w.log) ∧ s.lines = [] ∧ (s.w.phase = .dead → (s.escaped ≠ none ↔ (.exit, false) ∈ fctCalls s.w.log))) ∨
    ((∃ f, f ≠ .exit ∧ (f, false) ∈ fctCalls s.w.log) ∧ ∃ e, LWEv.worker (some e) ∈ es ∧
      ((lg [] ("error: ".toList ++ txt e) = none ∧ s.lines = ["error: ".toList ++ txt e] ∧ (s.w.phase = .dead → (s.escaped ≠ none ↔ (.exit, false) ∈ fctCalls s.w.log))) ∨
       (∃ x, lg [] ("error: ".toList ++ txt e) = some x ∧ s.lines = [] ∧
          (s.w.phase = .dead → s.escaped ≠ none ∧ ((.exit, false) ∉ fctCalls s.w.log → s.escaped = some x))))) := by
  have hnew : LWInv lg txt (LWorker.new hasInit hasExit) :=
    ⟨.inl ⟨rfl, rfl, rfl⟩, fun _ _ => rfl, fun _ => rfl, ⟨fun h => absurd rfl h, fun ⟨f, _, h⟩ => by cases h⟩, nofun, fun _ b h => by cases h⟩
  obtain ⟨hi, hc⟩ := lw_run lg txt es _ s hnew h
  have ends : s.pending = none → s.w.phase = .dead → (s.escaped ≠ none ↔ (.exit, false) ∈ fctCalls s.w.log) := fun hp hd => by
    rcases hi.ends hd with ⟨h1, h2⟩ | ⟨h1, h2⟩
    · rw [h1, hp]; exact ⟨fun h => absurd rfl h, fun h => absurd h h2⟩
    · exact ⟨fun _ => h2, fun _ => h1⟩
  rcases hi.wrote with ⟨h1, h2, h3⟩ | ⟨e, h1, h2⟩
  · exact .inl ⟨fun h => hi.raised.mpr h h1, h2, ends h3⟩
  · refine .inr ⟨hi.raised.mp (by rw [h1]; nofun), e, ?_, ?_⟩
    · rcases hc e h1 with h | h
      · cases h
      · exact h
    · rcases h2 with ⟨a, b, c⟩ | ⟨x, a, b, c⟩
      · exact .inl ⟨a, b, ends c⟩
      · refine .inr ⟨x, a, b, fun hd => ?_⟩
        rcases hi.ends hd with ⟨h1, h2⟩ | ⟨h1, h2⟩
        · rw [h1, c]; exact ⟨nofun, fun _ => rfl⟩
        · exact ⟨h1, fun h => absurd h2 h⟩

/-! ## the constructors -/

/-- **C107 (constructors).** With a handler that writes, `RtuMaster(...)` does what it does without a log and writes one line, which says whether the port is open; with one that raises
    there is no new master, and the port and the other masters are as before. -/
theorem C107_master (lg : Logger) (name : Text) (i t : Nat) (s : SharedLine) (log : List Text) :
    (lg log (portLine "RtuMaster ".toList name s.port) = none → lRtuMasterNew lg name i t (s, log) =
      ((rtuMasterNew i t s).1, ((rtuMasterNew i t s).2, log ++ ["RtuMaster ".toList ++ name ++ (if s.port.isOpen then " is opened".toList else " is closed".toList)]))) ∧
    ∀ x, lg log (portLine "RtuMaster ".toList name s.port) = some x → lRtuMasterNew lg name i t (s, log) = (.error x, (s, log)) := by
  have hl : "RtuMaster ".toList ++ name ++ (if s.port.isOpen then " is opened".toList else " is closed".toList) = portLine "RtuMaster ".toList name s.port := rfl
  rw [hl]
  unfold lRtuMasterNew
  simp only [PyM.bind_apply, logLine_apply]
  generalize portLine "RtuMaster ".toList name s.port = line
  cases hx : lg log line with
  | none => exact ⟨fun _ => rfl, nofun⟩
  | some e => exact ⟨nofun, fun x h => by cases h; rfl⟩

/-- **C107 (constructors).** The same for `RtuServer(...)`: with a handler that writes there is a new server with the given databank, whose port has the new time-out, and one line; with one that
    raises there is no server and the port is as before. -/
theorem C107_server (lg : Logger) (name : Text) (h : Heap) (t : Nat) (p : Port) (log : List Text) :
    (lg log (portLine "RtuServer ".toList name p) = none → lRtuServerNew lg name h t (p, log) =
      (.ok ⟨h, { p with timeout := some t }, t, false⟩, ({ p with timeout := some t }, log ++ ["RtuServer ".toList ++ name ++ (if p.isOpen then " is opened".toList else " is closed".toList)]))) ∧
    ∀ x, lg log (portLine "RtuServer ".toList name p) = some x → lRtuServerNew lg name h t (p, log) = (.error x, (p, log)) := by
  have hl : "RtuServer ".toList ++ name ++ (if p.isOpen then " is opened".toList else " is closed".toList) = portLine "RtuServer ".toList name p := rfl
  rw [hl]
  unfold lRtuServerNew
  simp only [PyM.bind_apply, logLine_apply]
  generalize portLine "RtuServer ".toList name p = line
  cases hx : lg log line with
  | none => exact ⟨fun _ => rfl, nofun⟩
  | some e => exact ⟨nofun, fun x h => by cases h; rfl⟩

/-! ## an execution -/

/-- `start()`, the init function returns, the main function is called twice and raises the second time, the exit function returns -/
def exLWorker : List LWEv :=
  [.callStart 0, .caller 0, .caller 0, .worker none, .worker none, .worker none, .worker none, .worker (some .valueError), .worker none]

/-- with a handler that writes: one line, and the thread ends normally; with one that raises: no line, the exit function is still called, and the thread ends with that exception -/
theorem C107_example :
    (lWorkerRun (fun _ _ => none) (fun _ => "bad".toList) (LWorker.new true true) exLWorker).map (fun s => (s.w.phase, fctCalls s.w.log, s.lines, s.escaped)) =
      some (.dead, [(.init, true), (.main, true), (.main, false), (.exit, true)], ["error: bad".toList], none) ∧
    (lWorkerRun (fun _ _ => some .typeError) (fun _ => "bad".toList) (LWorker.new true true) exLWorker).map (fun s => (s.w.phase, fctCalls s.w.log, s.lines, s.escaped)) =
      some (.dead, [(.init, true), (.main, true), (.main, false), (.exit, true)], [], some .typeError) := by
  exact ⟨by rfl, by rfl⟩

end Modbus
