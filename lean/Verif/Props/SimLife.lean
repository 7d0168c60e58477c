import Verif.Model.SimLife
import Verif.Props.Simulator
/-
# C89: the life of the simulator
-/
namespace Modbus

section
variable {py2 : Bool} {cmds : List (Text × SimCmd)} {errText : PyErr → Text}

theorem lifeRun_append (es es' : List LifeEv) (s : LifeSt) : lifeRun py2 cmds errText s (es ++ es') = (lifeRun py2 cmds errText s es).bind (lifeRun py2 cmds errText · es') := by
  induction es generalizing s with
  | nil => rfl
  | cons e es ih =>
    rw [List.cons_append, lifeRun, lifeRun]
    cases lifeStep py2 cmds errText s e with
    | none => rfl
    | some s' => exact ih s'

/-- what holds at the start and is kept by every step holds after every execution -/
theorem lifeRun_inv (P : LifeSt → Prop) (Q : LifeEv → Prop) (hstep : ∀ s e s', P s → Q e → lifeStep py2 cmds errText s e = some s' → P s') (es : List LifeEv) (hq : ∀ e ∈ es, Q e)
    (s s' : LifeSt) (h0 : P s) (hr : lifeRun py2 cmds errText s es = some s') : P s' := by
  induction es generalizing s with
  | nil => cases hr; exact h0
  | cons e es ih =>
    rw [lifeRun] at hr
    cases h : lifeStep py2 cmds errText s e with
    | none => rw [h] at hr; cases hr
    | some s1 =>
      rw [h] at hr
      exact ih (fun e' h' => hq e' (by simp [h'])) s1 (hstep s e s1 h0 (hq e (by simp)) h) hr

theorem simRun_snoc {h : List Text} {s s' : SimSt} {a : List Text} (c : Text) (hr : simRun cmds errText h s = (a, s', [], false)) :
    simRun cmds errText (h ++ [c]) s = (a ++ [(simStep cmds errText c s').1], (simStep cmds errText c s').2.2, [], (simStep cmds errText c s').2.1) := by
  induction h generalizing s a with
  | nil =>
    cases hr
    rw [List.nil_append, simRun]
    rcases hx : simStep cmds errText c s' with ⟨x, b, t⟩
    cases b <;> rfl
  | cons l ls ih =>
    rw [simRun] at hr
    rw [List.cons_append, simRun]
    rcases hx : simStep cmds errText l s with ⟨x, b, t⟩
    rw [hx] at hr
    cases b with
    | true => simp only [Prod.mk.injEq] at hr; simp at hr
    | false =>
      dsimp only at hr ⊢
      rcases hy : simRun cmds errText ls t with ⟨a', r⟩
      rw [hy] at hr
      simp only [Prod.mk.injEq] at hr
      obtain ⟨rfl, rfl⟩ := hr
      rw [ih hy]
      rfl

/-- the texts of a queue -/
def strs (q : List QItem) : List Text := q.filterMap fun | .str t => some t | .bytes _ => none

/-- the main thread has not left its loop -/
def MainPh.Early (m : MainPh) : Prop := m = .startServer ∨ m = .startConsole ∨ m = .startRpc ∨ m = .loop

/-- the main invariant -/
structure SimLifeInv (cmds : List (Text × SimCmd)) (errText : PyErr → Text) (s0 : SimSt) (s : LifeSt) : Prop where
  session : ∃ b, simRun cmds errText s.handled s0 = (s.answers, s.sim, [], b) ∧ (s.main.Early → b = false)
  taken : ∃ gone, s.answers = gone ++ s.outq ∧ s.printed.Sublist gone ∧ s.sent.Sublist gone
  server : s.server = false ↔ s.main = .startServer ∨ s.main = .done
  notYet : s.main = .startServer ∨ s.main = .startConsole → s.console = .notStarted
  rpcNotYet : s.main = .startServer ∨ s.main = .startConsole ∨ s.main = .startRpc → s.rpc = .notStarted
  going : s.main = .closeRpc ∨ s.main = .waitRpc ∨ s.main = .stopServer ∨ s.main = .done ∨ s.main = .crashed → s.go = false
  flag : s.main = .waitRpc ∨ s.main = .stopServer ∨ s.main = .done → s.shutdown = true
  over : s.main = .stopServer ∨ s.main = .done → s.rpc = .ended

theorem SimLifeInv.init (s0 : SimSt) : SimLifeInv cmds errText s0 (.init s0) := by
  refine ⟨⟨false, rfl, fun _ => rfl⟩, ⟨[], rfl, .refl _, .refl _⟩, ?_, ?_, ?_, ?_, ?_, ?_⟩ <;> simp [LifeSt.init]

theorem SimLifeInv.step {s0 : SimSt} {s s' : LifeSt} {e : LifeEv} (hi : SimLifeInv cmds errText s0 s) (h : lifeStep py2 cmds errText s e = some s') : SimLifeInv cmds errText s0 s' := by
  obtain ⟨⟨b, h1, h1'⟩, ⟨gone, h2, h3, h4⟩, h5, h6, h7, h8, h9, h10⟩ := hi
  cases e with
  | main =>
    simp only [lifeStep, mainStep] at h
    cases hm : s.main with
    | loop =>
      rw [hm] at h
      dsimp only at h
      cases hq : s.inq with
      | nil => rw [hq] at h; cases h
      | cons i rest =>
        rw [hq] at h
        cases i with
        | bytes t =>
          cases h
          exact ⟨⟨b, h1, fun h => by simp [MainPh.Early] at h⟩, ⟨gone, h2, h3, h4⟩, by simp; grind, by simp, by simp, by simp, by simp, by simp⟩
        | str c =>
          have hb : b = false := h1' (by simp [MainPh.Early, hm])
          subst hb
          have hs := simRun_snoc c h1
          cases h
          refine ⟨⟨_, hs, ?_⟩, ⟨gone, ?_, h3, h4⟩, ?_, ?_, ?_, ?_, ?_, ?_⟩
          · intro he
            cases hx : (simStep cmds errText c s.sim).2.1 with
            | false => rfl
            | true => rw [hx] at he; simp [MainPh.Early] at he
          · show s.answers ++ _ = gone ++ (s.outq ++ _)
            rw [h2, List.append_assoc]
          all_goals (cases hx : (simStep cmds errText c s.sim).2.1 <;> simp only <;> grind)
    | startServer => rw [hm] at h; cases h; exact ⟨⟨b, h1, fun _ => h1' (by simp [MainPh.Early, hm])⟩, ⟨gone, h2, h3, h4⟩, by simp, by grind, by grind, by simp, by simp, by simp⟩
    | startConsole => rw [hm] at h; cases h; exact ⟨⟨b, h1, fun _ => h1' (by simp [MainPh.Early, hm])⟩, ⟨gone, h2, h3, h4⟩, by simp; grind, by simp, by grind, by simp, by simp, by simp⟩
    | startRpc => rw [hm] at h; cases h; exact ⟨⟨b, h1, fun _ => h1' (by simp [MainPh.Early, hm])⟩, ⟨gone, h2, h3, h4⟩, by simp; grind, by simp, by simp, by simp, by simp, by simp⟩
    | closeConsole =>
      rw [hm] at h
      cases h
      refine ⟨⟨b, h1, ?_⟩, ⟨gone, h2, h3, h4⟩, ?_, ?_, ?_, ?_, ?_, ?_⟩
      · intro he
        exfalso
        dsimp only [MainPh.Early] at he
        split at he <;> simp at he
      all_goals (dsimp only; split <;> grind)
    | closeRpc => rw [hm] at h; cases h; exact ⟨⟨b, h1, fun h => by simp [MainPh.Early] at h⟩, ⟨gone, h2, h3, h4⟩, by simp; grind, by simp, by simp, by grind, by simp, by simp⟩
    | waitRpc =>
      rw [hm] at h
      dsimp only at h
      split at h
      · cases h; exact ⟨⟨b, h1, fun h => by simp [MainPh.Early] at h⟩, ⟨gone, h2, h3, h4⟩, by simp; grind, by simp, by simp, by grind, by grind, by grind⟩
      · cases h
    | stopServer => rw [hm] at h; cases h; exact ⟨⟨b, h1, fun h => by simp [MainPh.Early] at h⟩, ⟨gone, h2, h3, h4⟩, by simp, by simp, by simp, by grind, by grind, by grind⟩
    | done => rw [hm] at h; cases h
    | crashed => rw [hm] at h; cases h
  | mainFails =>
    simp only [lifeStep] at h
    cases hm : s.main <;> rw [hm] at h <;> cases h <;>
      exact ⟨⟨b, h1, fun h => by simp [MainPh.Early] at h⟩, ⟨gone, h2, h3, h4⟩, by simp; try grind, by simp, by simp, by simp, by simp, by simp⟩
  | consolePoll => simp only [lifeStep] at h; split at h <;> cases h; exact ⟨⟨b, h1, h1'⟩, ⟨gone, h2, h3, h4⟩, h5, by grind, h7, h8, h9, h10⟩
  | consoleNothing => simp only [lifeStep] at h; split at h <;> cases h; exact ⟨⟨b, h1, h1'⟩, ⟨gone, h2, h3, h4⟩, h5, by grind, h7, h8, h9, h10⟩
  | consoleLine t => simp only [lifeStep] at h; split at h <;> cases h; exact ⟨⟨b, h1, h1'⟩, ⟨gone, h2, h3, h4⟩, h5, by grind, h7, h8, h9, h10⟩
  | consoleGet =>
    simp only [lifeStep] at h
    cases hc : s.console <;> cases ho : s.outq <;> rw [hc, ho] at h <;> cases h
    rename_i a rest
    exact ⟨⟨b, h1, h1'⟩, ⟨gone ++ [a], by rw [h2, ho]; simp, h3.append_right _ |>.trans (List.Sublist.refl _), h4.trans (List.sublist_append_left _ _)⟩, h5, by grind, h7, h8, h9, h10⟩
  | consoleEmpty =>
    simp only [lifeStep] at h
    cases hc : s.console <;> cases ho : s.outq <;> rw [hc, ho] at h <;> cases h
    exact ⟨⟨b, h1, h1'⟩, ⟨gone, by rw [h2, ho], h3, h4⟩, h5, by grind, h7, h8, h9, h10⟩
  | rpcConnect => simp only [lifeStep] at h; split at h <;> cases h; exact ⟨⟨b, h1, h1'⟩, ⟨gone, h2, h3, h4⟩, h5, h6, by grind, h8, h9, by grind⟩
  | rpcRecv t => simp only [lifeStep] at h; split at h <;> cases h; exact ⟨⟨b, h1, h1'⟩, ⟨gone, h2, h3, h4⟩, h5, h6, by grind, h8, h9, by grind⟩
  | rpcRecvFails => simp only [lifeStep] at h; split at h <;> cases h; exact ⟨⟨b, h1, h1'⟩, ⟨gone, h2, h3, h4⟩, h5, h6, by grind, h8, h9, by grind⟩
  | rpcGet =>
    simp only [lifeStep] at h
    cases hc : s.rpc <;> cases ho : s.outq <;> rw [hc, ho] at h <;> cases h
    rename_i a rest
    refine ⟨⟨b, h1, h1'⟩, ⟨gone ++ [a], by rw [h2, ho]; simp, h3.trans (List.sublist_append_left _ _), ?_⟩, h5, h6, by grind, h8, h9, by grind⟩
    dsimp only
    split
    · exact h4.append_right _
    · exact h4.trans (List.sublist_append_left _ _)
  | rpcEmpty =>
    simp only [lifeStep] at h
    cases hc : s.rpc <;> cases ho : s.outq <;> rw [hc, ho] at h <;> cases h
    exact ⟨⟨b, h1, h1'⟩, ⟨gone, by rw [h2, ho], h3, h4⟩, h5, h6, by grind, h8, h9, by grind⟩
  | rpcLeaves => simp only [lifeStep] at h; split at h <;> cases h; exact ⟨⟨b, h1, h1'⟩, ⟨gone, h2, h3, h4⟩, h5, h6, by grind, h8, h9, by grind⟩

theorem SimLifeInv.run {s0 : SimSt} {s : LifeSt} {es : List LifeEv} (h : lifeRun py2 cmds errText (.init s0) es = some s) : SimLifeInv cmds errText s0 s :=
  lifeRun_inv (SimLifeInv cmds errText s0) (fun _ => True) (fun _ _ _ hi _ h => hi.step h) es (fun _ _ => trivial) _ _ (.init s0) h

/-- **C89 (answers).** Whatever the console, the clients and the scheduler do: the commands taken from the queue are executed one after the other as `C51`/`C52` describe (`simRun`), each with one
    answer; the console writes some of these answers, in order, each at most once, and so for the answers sent to RPC clients. -/
theorem C89_answers (s0 : SimSt) (es : List LifeEv) (s : LifeSt) (h : lifeRun py2 cmds errText (.init s0) es = some s) :
    (∃ b, simRun cmds errText s.handled s0 = (s.answers, s.sim, [], b)) ∧ s.printed.Sublist s.answers ∧ s.sent.Sublist s.answers := by
  obtain ⟨⟨b, h1, -⟩, ⟨gone, h2, h3, h4⟩, -⟩ := SimLifeInv.run h
  rw [h2]
  exact ⟨⟨b, by rw [h1, h2]⟩, h3.trans (List.sublist_append_left _ _), h4.trans (List.sublist_append_left _ _)⟩

/-- **C89 (closing).** When `close` has returned, the Modbus server was stopped, the RPC server has ended and the console was told to end; while commands are executed, the server runs. -/
theorem C89_closed (s0 : SimSt) (es : List LifeEv) (s : LifeSt) (h : lifeRun py2 cmds errText (.init s0) es = some s) :
    (s.main = .done → s.server = false ∧ s.rpc = .ended ∧ s.go = false) ∧ (s.main = .loop → s.server = true) := by
  obtain ⟨-, -, h5, -, -, h8, -, h10⟩ := SimLifeInv.run h
  refine ⟨fun hm => ⟨h5.mpr (.inr hm), h10 (.inr hm), h8 (by simp [hm])⟩, fun hm => ?_⟩
  cases hx : s.server with
  | true => rfl
  | false => rcases h5.mp hx with h | h <;> rw [hm] at h <;> cases h

/-- **C89 (closing ends).** Once the three threads have started, `close` comes to its end, by steps of the main and the RPC thread only, unless the RPC thread is reading from a client. -/
theorem C89_close_returns (s : LifeSt) (hm : s.main = .closeConsole ∨ s.main = .closeRpc) (hc : s.console ≠ .notStarted) (hr : s.rpc = .idle ∨ s.rpc = .waiting ∨ s.rpc = .ended) :
    ∃ es s', (∀ e ∈ es, e = .main ∨ e = .rpcGet ∨ e = .rpcEmpty ∨ e = .rpcLeaves) ∧ lifeRun py2 cmds errText s es = some s' ∧ s'.main = .done ∧ s'.server = false := by
  have key : ∀ s : LifeSt, s.main = .waitRpc → s.shutdown = true → (s.rpc = .idle ∨ s.rpc = .waiting ∨ s.rpc = .ended) →
      ∃ es s', (∀ e ∈ es, e = .main ∨ e = .rpcGet ∨ e = .rpcEmpty ∨ e = .rpcLeaves) ∧ lifeRun py2 cmds errText s es = some s' ∧ s'.main = .done ∧ s'.server = false := by
    intro s hm hf hr
    obtain ⟨inq, outq, sim, main, console, rpc, go, shutdown, server, printed, sent, handled, answers, lines⟩ := s
    dsimp only at hm hf hr
    subst hm hf
    rcases hr with rfl | rfl | rfl
    · exact ⟨[.rpcLeaves, .main, .main], _, by simp, rfl, rfl, rfl⟩
    · cases outq with
      | nil => exact ⟨[.rpcEmpty, .rpcLeaves, .main, .main], _, by simp, rfl, rfl, rfl⟩
      | cons a rest => exact ⟨[.rpcGet, .rpcLeaves, .main, .main], _, by simp, rfl, rfl, rfl⟩
    · exact ⟨[.main, .main], _, by simp, rfl, rfl, rfl⟩
  have key2 : ∀ s : LifeSt, s.main = .closeRpc → (s.rpc = .idle ∨ s.rpc = .waiting ∨ s.rpc = .ended) →
      ∃ es s', (∀ e ∈ es, e = .main ∨ e = .rpcGet ∨ e = .rpcEmpty ∨ e = .rpcLeaves) ∧ lifeRun py2 cmds errText s es = some s' ∧ s'.main = .done ∧ s'.server = false := by
    intro s hm hr
    obtain ⟨es, s', h1, h2, h3⟩ := key { s with shutdown := true, main := .waitRpc } rfl rfl hr
    refine ⟨.main :: es, s', by simpa using h1, ?_, h3⟩
    rw [lifeRun]
    have : lifeStep py2 cmds errText s .main = some { s with shutdown := true, main := .waitRpc } := by simp only [lifeStep, mainStep, hm]
    rw [this]
    exact h2
  rcases hm with hm | hm
  · obtain ⟨es, s', h1, h2, h3⟩ := key2 { s with go := false, main := .closeRpc } rfl hr
    refine ⟨.main :: es, s', by simpa using h1, ?_, h3⟩
    rw [lifeRun]
    have : lifeStep py2 cmds errText s .main = some { s with go := false, main := .closeRpc } := by simp only [lifeStep, mainStep, hm, if_neg hc]
    rw [this]
    exact h2
  · exact key2 s hm hr

theorem reading_stuck (es : List LifeEv) (hes : ∀ e ∈ es, e ≠ .rpcRecvFails ∧ ∀ t, e ≠ .rpcRecv t) (s s' : LifeSt) (hr : s.rpc = .reading)
    (hm : s.main = .loop ∨ s.main = .closeConsole ∨ s.main = .closeRpc ∨ s.main = .waitRpc) (hs : s.server = true) (hc : s.console ≠ .notStarted) (h : lifeRun py2 cmds errText s es = some s') :
    s'.rpc = .reading ∧ (s'.main = .loop ∨ s'.main = .closeConsole ∨ s'.main = .closeRpc ∨ s'.main = .waitRpc) ∧ s'.server = true ∧ s'.console ≠ .notStarted := by
  refine lifeRun_inv (py2 := py2) (cmds := cmds) (errText := errText)
    (fun s => s.rpc = .reading ∧ (s.main = .loop ∨ s.main = .closeConsole ∨ s.main = .closeRpc ∨ s.main = .waitRpc) ∧ s.server = true ∧ s.console ≠ .notStarted)
    (fun e => e ≠ .rpcRecvFails ∧ ∀ t, e ≠ .rpcRecv t) ?_ es hes s s' ⟨hr, hm, hs, hc⟩ h
  rintro s e s' ⟨a1, a2, a3, a4⟩ ⟨q1, q2⟩ h
  cases e with
  | rpcRecv t => exact absurd rfl (q2 t)
  | rpcRecvFails => exact absurd rfl q1
  | main =>
    simp only [lifeStep, mainStep] at h
    rcases a2 with hm | hm | hm | hm <;> rw [hm] at h <;> dsimp only at h
    · split at h <;> cases h
      · exact ⟨a1, by simp, a3, a4⟩
      · exact ⟨a1, by dsimp only; split <;> simp, a3, a4⟩
    · cases h; exact ⟨a1, by simp [a4], a3, a4⟩
    · cases h; exact ⟨a1, by simp, a3, a4⟩
    · rw [a1] at h; simp at h
  | mainFails => simp only [lifeStep] at h; rcases a2 with hm | hm | hm | hm <;> rw [hm] at h <;> cases h
  | consolePoll => simp only [lifeStep] at h; split at h <;> cases h; exact ⟨a1, a2, a3, by dsimp only; split <;> simp⟩
  | consoleNothing => simp only [lifeStep] at h; split at h <;> cases h; exact ⟨a1, a2, a3, by simp⟩
  | consoleLine t => simp only [lifeStep] at h; split at h <;> cases h; exact ⟨a1, a2, a3, by simp⟩
  | consoleGet => simp only [lifeStep] at h; split at h <;> cases h; exact ⟨a1, a2, a3, by simp⟩
  | consoleEmpty => simp only [lifeStep] at h; split at h <;> cases h; exact ⟨a1, a2, a3, by simp⟩
  | rpcConnect => simp only [lifeStep] at h; rw [a1] at h; simp at h
  | rpcGet => simp only [lifeStep] at h; rw [a1] at h; cases h
  | rpcEmpty => simp only [lifeStep] at h; rw [a1] at h; cases h
  | rpcLeaves => simp only [lifeStep] at h; rw [a1] at h; simp at h

/-- **C89 (silent clients).** A client that has connected to the RPC port and neither sends nor closes keeps `close` from returning, for as long as it likes: whatever else happens, the Modbus
    server is not stopped. -/
theorem C89_silent_client (s : LifeSt) (es : List LifeEv) (hes : ∀ e ∈ es, e ≠ .rpcRecvFails ∧ ∀ t, e ≠ .rpcRecv t) (s' : LifeSt) (hr : s.rpc = .reading) (hm : s.main = .loop)
    (hs : s.server = true) (hc : s.console ≠ .notStarted) (h : lifeRun py2 cmds errText s es = some s') : s'.main ≠ .done ∧ s'.server = true := by
  obtain ⟨-, h2, h3, -⟩ := reading_stuck es hes s s' hr (.inl hm) hs hc h
  exact ⟨by rcases h2 with h | h | h | h <;> rw [h] <;> simp, h3⟩

/-- the loop ends only because of a command, or of bytes -/
theorem ends_inv (es : List LifeEv) (hes : ∀ e ∈ es, e ≠ .mainFails) (hb : py2 = true ∨ ∀ e ∈ es, ∀ t, e ≠ .rpcRecv t) (s0 : SimSt) (s : LifeSt)
    (h : lifeRun py2 cmds errText (.init s0) es = some s) :
    (∀ t, QItem.bytes t ∉ s.inq) ∧ (s.main.Early ∨ ∃ before l, s.handled = before ++ [l] ∧ IsQuit l) := by
  refine lifeRun_inv (py2 := py2) (cmds := cmds) (errText := errText)
    (fun s => (∀ t, QItem.bytes t ∉ s.inq) ∧ (s.main.Early ∨ ∃ before l, s.handled = before ++ [l] ∧ IsQuit l))
    (fun e => e ≠ .mainFails ∧ (py2 = true ∨ ∀ t, e ≠ .rpcRecv t)) ?_ es ?_ (.init s0) s ?_ h
  · rintro s e s' ⟨a1, a2⟩ ⟨q1, q2⟩ h
    cases e with
    | mainFails => exact absurd rfl q1
    | main =>
      simp only [lifeStep, mainStep] at h
      cases hm : s.main with
      | loop =>
        rw [hm] at h
        dsimp only at h
        cases hq : s.inq with
        | nil => rw [hq] at h; cases h
        | cons i rest =>
          rw [hq] at h a1
          cases i with
          | bytes t => exact absurd (List.mem_cons_self ..) (a1 t)
          | str c =>
            cases h
            refine ⟨fun t ht => a1 t (List.mem_cons_of_mem _ ht), ?_⟩
            by_cases hq : IsQuit c
            · exact .inr ⟨s.handled, c, rfl, hq⟩
            · obtain ⟨a, s1, hx, -⟩ := simStep_answer cmds errText hq s.sim
              left
              simp [hx, MainPh.Early]
      | startServer => rw [hm] at h; cases h; exact ⟨a1, .inl (by simp [MainPh.Early])⟩
      | startConsole => rw [hm] at h; cases h; exact ⟨a1, .inl (by simp [MainPh.Early])⟩
      | startRpc => rw [hm] at h; cases h; exact ⟨a1, .inl (by simp [MainPh.Early])⟩
      | closeConsole => rw [hm] at h; cases h; exact ⟨a1, .inr (a2.resolve_left (by simp [MainPh.Early, hm]))⟩
      | closeRpc => rw [hm] at h; cases h; exact ⟨a1, .inr (a2.resolve_left (by simp [MainPh.Early, hm]))⟩
      | waitRpc =>
        rw [hm] at h
        dsimp only at h
        split at h <;> cases h
        exact ⟨a1, .inr (a2.resolve_left (by simp [MainPh.Early, hm]))⟩
      | stopServer => rw [hm] at h; cases h; exact ⟨a1, .inr (a2.resolve_left (by simp [MainPh.Early, hm]))⟩
      | done => rw [hm] at h; cases h
      | crashed => rw [hm] at h; cases h
    | rpcRecv t =>
      simp only [lifeStep] at h
      split at h <;> cases h
      rcases q2 with rfl | q2
      · exact ⟨fun t' ht => by simp at ht; exact a1 t' ht, a2⟩
      · exact absurd rfl (q2 t)
    | consolePoll => simp only [lifeStep] at h; split at h <;> cases h; exact ⟨a1, a2⟩
    | consoleNothing => simp only [lifeStep] at h; split at h <;> cases h; exact ⟨a1, a2⟩
    | consoleLine t => simp only [lifeStep] at h; split at h <;> cases h; exact ⟨fun t' ht => by simp at ht; exact a1 t' ht, a2⟩
    | consoleGet => simp only [lifeStep] at h; split at h <;> cases h; exact ⟨a1, a2⟩
    | consoleEmpty => simp only [lifeStep] at h; split at h <;> cases h; exact ⟨a1, a2⟩
    | rpcConnect => simp only [lifeStep] at h; split at h <;> cases h; exact ⟨a1, a2⟩
    | rpcRecvFails => simp only [lifeStep] at h; split at h <;> cases h; exact ⟨a1, a2⟩
    | rpcGet => simp only [lifeStep] at h; split at h <;> cases h; exact ⟨a1, a2⟩
    | rpcEmpty => simp only [lifeStep] at h; split at h <;> cases h; exact ⟨a1, a2⟩
    | rpcLeaves => simp only [lifeStep] at h; split at h <;> cases h; exact ⟨a1, a2⟩
  · intro e he
    exact ⟨hes e he, hb.imp_right (fun h => h e he)⟩
  · exact ⟨fun t h => by simp [LifeSt.init] at h, .inl (by simp [LifeSt.init, MainPh.Early])⟩

/-- **C89 (only quit ends it).** In Python 2, and in Python 3 without RPC requests: a simulator that has started goes on until a command starting with `quit` is executed. -/
theorem C89_only_quit (es : List LifeEv) (hes : ∀ e ∈ es, e ≠ .mainFails) (hb : py2 = true ∨ ∀ e ∈ es, ∀ t, e ≠ .rpcRecv t) (s0 : SimSt) (s : LifeSt)
    (h : lifeRun py2 cmds errText (.init s0) es = some s) (hd : s.main = .done) : ∃ before l, s.handled = before ++ [l] ∧ IsQuit l :=
  (ends_inv es hes hb s0 s h).2.resolve_left (by simp [MainPh.Early, hd])

/-! ### Python 3 -/

/-- **C89 (Python 3: no answers).** No RPC client ever gets an answer. -/
theorem C89_py3_no_answer (s0 : SimSt) (es : List LifeEv) (s : LifeSt) (h : lifeRun false cmds errText (.init s0) es = some s) : s.sent = [] := by
  refine lifeRun_inv (py2 := false) (cmds := cmds) (errText := errText) (fun s => s.sent = []) (fun _ => True) ?_ es (fun _ _ => trivial) (.init s0) s rfl h
  intro s e s' hs _ h
  cases e <;> simp only [lifeStep, mainStep] at h <;> split at h <;> (try split at h) <;> cases h <;> first | exact hs | simp_all

/-- in Python 3 the commands executed and the texts in the queue are the lines typed -/
theorem py3_lines (s0 : SimSt) (es : List LifeEv) (s : LifeSt) (h : lifeRun false cmds errText (.init s0) es = some s) : s.handled ++ strs s.inq = s.lines := by
  refine lifeRun_inv (py2 := false) (cmds := cmds) (errText := errText) (fun s => s.handled ++ strs s.inq = s.lines) (fun _ => True) ?_ es (fun _ _ => trivial) (.init s0) s rfl h
  intro s e s' hs _ h
  cases e with
  | main =>
    simp only [lifeStep, mainStep] at h
    split at h
    case h_4 =>
      split at h
      · cases h
      · rename_i hq; cases h; rw [hq] at hs; simpa [strs] using hs
      · rename_i hq; cases h; rw [hq] at hs; simpa [strs] using hs
    all_goals ((try split at h) <;> cases h <;> exact hs)
  | consoleLine t => simp only [lifeStep] at h; split at h <;> cases h; rw [← hs]; simp [strs]
  | rpcRecv t => simp only [lifeStep] at h; split at h <;> cases h; rw [← hs]; simp [strs]
  | _ => simp only [lifeStep] at h; split at h <;> cases h <;> exact hs

/-- a queue with bytes in it: the texts before the first bytes -/
theorem first_bytes (q : List QItem) (t : Text) : ∃ (pre : List Text) (t' : Text) (rest : List QItem), q ++ [.bytes t] = pre.map .str ++ .bytes t' :: rest ∧ ∃ more, strs q = pre ++ more := by
  induction q with
  | nil => exact ⟨[], t, [], rfl, [], rfl⟩
  | cons i q ih =>
    cases i with
    | bytes t' => exact ⟨[], t', q ++ [.bytes t], rfl, _, rfl⟩
    | str c =>
      obtain ⟨pre, t', rest, h1, more, h2⟩ := ih
      exact ⟨c :: pre, t', rest, by rw [List.cons_append, h1]; rfl, more, by show c :: strs q = _; rw [h2]; rfl⟩

/-- **C89 (Python 3: a request ends the simulator).** No line typed after a request has arrived at the RPC port - whatever the request is - is ever executed. -/
theorem C89_py3_ends (s0 : SimSt) (es es' : List LifeEv) (t : Text) (s s' : LifeSt) (h : lifeRun false cmds errText (.init s0) es = some s)
    (h' : lifeRun false cmds errText s (.rpcRecv t :: es') = some s') : s'.handled <+: s.lines := by
  have hl := py3_lines s0 es s h
  rw [lifeRun] at h'
  cases hs : lifeStep false cmds errText s (.rpcRecv t) with
  | none => rw [hs] at h'; cases h'
  | some s1 =>
    rw [hs] at h'
    have h1 : (∃ pre t' rest, s1.inq = pre.map .str ++ .bytes t' :: rest ∧ s1.handled ++ pre <+: s.lines) := by
      simp only [lifeStep] at hs
      split at hs <;> cases hs
      obtain ⟨pre, t', rest, e1, more, e2⟩ := first_bytes s.inq (stripChars isSpace (recv1024 t))
      refine ⟨pre, t', rest, e1, more, ?_⟩
      rw [← hl, e2, List.append_assoc]
    have key := lifeRun_inv (py2 := false) (cmds := cmds) (errText := errText)
      (fun x => (∃ pre t' rest, x.inq = pre.map .str ++ .bytes t' :: rest ∧ x.handled ++ pre <+: s.lines) ∨ (x.handled <+: s.lines ∧ ¬ x.main.Early))
      (fun _ => True) ?_ es' (fun _ _ => trivial) s1 s' (.inl h1) h'
    · rcases key with ⟨pre, _, _, _, hk⟩ | ⟨hk, -⟩
      · exact (List.prefix_append ..).trans hk
      · exact hk
    · intro x e x' hx _ hstep
      rcases hx with ⟨pre, t', rest, e1, e2⟩ | ⟨e1, e2⟩
      · cases e with
        | main =>
          simp only [lifeStep, mainStep] at hstep
          split at hstep
          case h_4 =>
            rw [e1] at hstep
            cases pre with
            | nil => cases hstep; exact .inr ⟨by simpa using e2, by simp [MainPh.Early]⟩
            | cons c pre => cases hstep; exact .inl ⟨pre, t', rest, rfl, by simpa using e2⟩
          all_goals ((try split at hstep) <;> cases hstep <;> exact .inl ⟨pre, t', rest, e1, e2⟩)
        | consoleLine c => simp only [lifeStep] at hstep; split at hstep <;> cases hstep; exact .inl ⟨pre, t', rest ++ [.str c], by simp [e1], e2⟩
        | rpcRecv c => simp only [lifeStep] at hstep; split at hstep <;> cases hstep; exact .inl ⟨pre, t', rest ++ [.bytes (stripChars isSpace (recv1024 c))], by simp [e1], e2⟩
        | _ => simp only [lifeStep] at hstep; split at hstep <;> cases hstep <;> exact .inl ⟨pre, t', rest, e1, e2⟩
      · cases e with
        | main =>
          simp only [lifeStep, mainStep] at hstep
          have hE : ∀ m, x.main = m → ¬ m.Early := fun m hm => hm ▸ e2
          cases hm : x.main with
          | startServer => exact absurd (by simp [MainPh.Early]) (hE _ hm)
          | startConsole => exact absurd (by simp [MainPh.Early]) (hE _ hm)
          | startRpc => exact absurd (by simp [MainPh.Early]) (hE _ hm)
          | loop => exact absurd (by simp [MainPh.Early]) (hE _ hm)
          | closeConsole => rw [hm] at hstep; cases hstep; refine .inr ⟨e1, ?_⟩; dsimp only [MainPh.Early]; split <;> simp
          | closeRpc => rw [hm] at hstep; cases hstep; exact .inr ⟨e1, by simp [MainPh.Early]⟩
          | waitRpc => rw [hm] at hstep; dsimp only at hstep; split at hstep <;> cases hstep; exact .inr ⟨e1, by simp [MainPh.Early]⟩
          | stopServer => rw [hm] at hstep; cases hstep; exact .inr ⟨e1, by simp [MainPh.Early]⟩
          | done => rw [hm] at hstep; cases hstep
          | crashed => rw [hm] at hstep; cases hstep
        | mainFails => simp only [lifeStep] at hstep; split at hstep <;> cases hstep <;> exact .inr ⟨e1, by simp [MainPh.Early]⟩
        | _ => simp only [lifeStep] at hstep; split at hstep <;> cases hstep <;> exact .inr ⟨e1, e2⟩

/-- **C89 (console alone).** Without RPC clients, the answers the console writes are those to the lines typed, in order: the k-th to the k-th. -/
theorem C89_console (s0 : SimSt) (es : List LifeEv) (hes : .rpcConnect ∉ es) (s : LifeSt) (h : lifeRun py2 cmds errText (.init s0) es = some s) :
    ∃ rest b, s.handled <+: s.lines ∧ simRun cmds errText s.handled s0 = (s.printed ++ rest, s.sim, [], b) := by
  have key := lifeRun_inv (py2 := py2) (cmds := cmds) (errText := errText) (fun s => (s.rpc = .notStarted ∨ s.rpc = .idle ∨ s.rpc = .ended) ∧ s.printed ++ s.outq = s.answers ∧
      (∃ q, s.inq = q.map .str ∧ s.handled ++ q = s.lines)) (fun e => e ≠ .rpcConnect) ?_ es (fun e he hh => hes (hh ▸ he)) (.init s0) s ⟨.inl rfl, rfl, [], rfl, rfl⟩ h
  · obtain ⟨-, h2, q, -, h4⟩ := key
    obtain ⟨⟨b, h1, -⟩, -⟩ := SimLifeInv.run h
    exact ⟨s.outq, b, ⟨q, h4⟩, by rw [h1, h2]⟩
  · rintro s e s' ⟨h1, h2, q, h3, h4⟩ hq h
    cases e with
    | rpcConnect => exact absurd rfl hq
    | main =>
      simp only [lifeStep, mainStep] at h
      split at h
      case h_4 =>
        rw [h3] at h
        cases q with
        | nil => cases h
        | cons c q => cases h; exact ⟨h1, by rw [← h2]; simp, q, rfl, by simpa using h4⟩
      case h_3 => cases h; exact ⟨.inr (.inl rfl), h2, q, h3, h4⟩
      all_goals ((try split at h) <;> cases h <;> exact ⟨h1, h2, q, h3, h4⟩)
    | consoleLine t => simp only [lifeStep] at h; split at h <;> cases h; exact ⟨h1, h2, q ++ [t], by simp [h3], by rw [← h4]; simp⟩
    | consoleGet =>
      simp only [lifeStep] at h
      split at h <;> cases h
      rename_i ho
      exact ⟨h1, by rw [← h2, ho]; simp, q, h3, h4⟩
    | rpcRecv t => simp only [lifeStep] at h; split at h <;> cases h; rename_i hr; rw [hr] at h1; simp at h1
    | rpcRecvFails => simp only [lifeStep] at h; split at h <;> cases h; rename_i hr; rw [hr] at h1; simp at h1
    | rpcGet => simp only [lifeStep] at h; split at h <;> cases h; rename_i hr _; rw [hr] at h1; simp at h1
    | rpcEmpty => simp only [lifeStep] at h; split at h <;> cases h; rename_i hr _; rw [hr] at h1; simp at h1
    | rpcLeaves => simp only [lifeStep] at h; split at h <;> cases h; exact ⟨.inr (.inr rfl), h2, q, h3, h4⟩
    | _ => simp only [lifeStep] at h; split at h <;> cases h <;> exact ⟨h1, h2, q, h3, h4⟩

/-- the console and the RPC server as they stand -/
structure AliveInv (s : LifeSt) : Prop where
  early : s.main.Early ∨ s.main = .closeConsole → s.shutdown = false
  ended : s.rpc = .ended → s.shutdown = true
  going : s.main.Early → s.go = true
  rpcStarted : s.main = .loop → s.rpc ≠ .notStarted
  started : s.main = .startRpc ∨ s.main = .loop → s.console ≠ .notStarted
  notYet : s.main = .startServer ∨ s.main = .startConsole → s.console = .notStarted
  counts : s.lines.length = s.printed.length ∧ (s.console ≠ .waiting ∧ (s.console = .dead → s.go = false)) ∨ s.lines.length = s.printed.length + 1 ∧ (s.console = .waiting ∨ s.console = .dead)

theorem AliveInv.step {s s' : LifeSt} {e : LifeEv} (hi : AliveInv s) (h : lifeStep py2 cmds errText s e = some s') : AliveInv s' := by
  obtain ⟨h1, h2, h3, h4, h5, h7, h6⟩ := hi
  unfold MainPh.Early at *
  cases e with
  | main =>
    simp only [lifeStep, mainStep] at h
    split at h
    case h_4 =>
      split at h
      · cases h
      · cases h; exact ⟨by grind, by grind, by grind, by grind, by grind, by grind, by grind⟩
      · cases h
        refine ⟨?_, h2, ?_, ?_, ?_, ?_, h6⟩ <;> dsimp only [MainPh.Early] <;> split <;> grind
    case h_5 => cases h; refine ⟨?_, h2, ?_, ?_, ?_, ?_, ?_⟩ <;> dsimp only [MainPh.Early] <;> (try split) <;> grind
    case h_7 => split at h <;> cases h; exact ⟨by grind [MainPh.Early], by grind [MainPh.Early], by grind [MainPh.Early], by grind [MainPh.Early], by grind [MainPh.Early], by grind [MainPh.Early], by grind [MainPh.Early]⟩
    all_goals (cases h; try exact ⟨by grind [MainPh.Early], by grind [MainPh.Early], by grind [MainPh.Early], by grind [MainPh.Early], by grind [MainPh.Early], by grind [MainPh.Early], by grind [MainPh.Early]⟩)
  | mainFails => simp only [lifeStep] at h; split at h <;> cases h <;> exact ⟨by grind [MainPh.Early], by grind [MainPh.Early], by grind [MainPh.Early], by grind [MainPh.Early], by grind [MainPh.Early], by grind [MainPh.Early], by grind [MainPh.Early]⟩
  | _ => simp only [lifeStep] at h; split at h <;> cases h <;> exact ⟨by grind [MainPh.Early], by grind [MainPh.Early], by grind [MainPh.Early], by grind [MainPh.Early], by grind [MainPh.Early], by grind [MainPh.Early], by grind [MainPh.Early]⟩

theorem AliveInv.run {s0 : SimSt} {s : LifeSt} {es : List LifeEv} (h : lifeRun py2 cmds errText (.init s0) es = some s) : AliveInv s :=
  lifeRun_inv AliveInv (fun _ => True) (fun _ _ _ hi _ h => hi.step h) es (fun _ _ => trivial) _ _
    ⟨by simp [LifeSt.init], by simp [LifeSt.init], by simp [LifeSt.init], by simp [LifeSt.init], by simp [LifeSt.init], by simp [LifeSt.init], .inl ⟨rfl, by simp [LifeSt.init]⟩⟩ h

/-- **C89 (interfaces).** The console reads a line only when the one before it has been answered. While commands are executed, the RPC server is up, and so is the console unless the answer to its
    last line has not come in time. After `close` has asked the RPC server to end, no client is let in. -/
theorem C89_interfaces (s0 : SimSt) (es : List LifeEv) (s : LifeSt) (h : lifeRun py2 cmds errText (.init s0) es = some s) :
    s.lines.length ≤ s.printed.length + 1 ∧
    (s.main = .loop → (s.rpc = .idle ∨ s.rpc = .reading ∨ s.rpc = .waiting) ∧ (s.console = .idle ∨ s.console = .polled ∨ s.lines.length = s.printed.length + 1)) ∧
    (s.shutdown = true → ∀ e s', lifeStep py2 cmds errText s e = some s' → e ≠ .rpcConnect) := by
  obtain ⟨h1, h2, h3, h4, h5, h7, h6⟩ := AliveInv.run h
  refine ⟨by rcases h6 with h | h <;> omega, fun hm => ?_, ?_⟩
  · have hE : s.main.Early := by simp [MainPh.Early, hm]
    have := h1 (.inl hE)
    have := h3 hE
    have := h4 hm
    have := h5 (.inr hm)
    refine ⟨?_, ?_⟩
    · cases hr : s.rpc <;> simp_all
    · cases hc : s.console <;> simp_all
  · rintro hs e s' hstep rfl
    simp [lifeStep, hs] at hstep

/-- **C89 (end of input).** At the end of stdin every round reads an empty line: it is answered as an unknown command and changes nothing. -/
theorem C89_end_of_input (cmds : List (Text × SimCmd)) (errText : PyErr → Text) (s : SimSt) (h : Dict.get? cmds [] = none) :
    simStep cmds errText [] s = ("error: unknown command \r\n".toList, false, s) := by
  unfold simStep
  simp [stripChars, splitOn, h]

end

/-! ## False expectations -/

/-- Python 3: the third of three commands is not executed, because a client has connected and closed again -/
theorem C89_false_rpc_py3 (s0 : SimSt) : ∃ s, lifeRun false [] (fun _ => []) (.init s0)
      [.main, .main, .main, .consolePoll, .consoleLine "a".toList, .main, .consoleGet, .rpcConnect, .rpcRecv [], .consolePoll, .consoleLine "b".toList, .main, .main, .main, .rpcEmpty, .rpcLeaves, .main, .main]
      = some s ∧ s.main = .done ∧ s.printed = ["error: unknown command a\r\n".toList] ∧ s.inq = [.str "b".toList] := by
  exact ⟨_, rfl, rfl, rfl, rfl⟩

/-- a client that says nothing keeps the simulator from closing -/
theorem C89_false_silent (s0 : SimSt) : ∃ s, lifeRun true [] (fun _ => []) (.init s0) [.main, .main, .main, .rpcConnect, .consolePoll, .consoleLine "quit".toList, .main, .consoleGet] = some s ∧
    s.main = .closeConsole ∧ ∀ es, (∀ e ∈ es, e ≠ .rpcRecvFails ∧ ∀ t, e ≠ .rpcRecv t) → ∀ s', lifeRun true [] (fun _ => []) s es = some s' → s'.main ≠ .done ∧ s'.server = true := by
  refine ⟨_, rfl, rfl, fun es hes s' h => ?_⟩
  obtain ⟨-, h2, h3, -⟩ := reading_stuck es hes _ s' rfl (.inr (.inl rfl)) rfl (by simp) h
  exact ⟨by rcases h2 with h | h | h | h <;> rw [h] <;> simp, h3⟩

/-- when the console thread cannot be started, `close` raises and the server goes on running -/
theorem C89_false_start (s0 : SimSt) : ∃ s, lifeRun true [] (fun _ => []) (.init s0) [.main, .mainFails, .main] = some s ∧ s.main = .crashed ∧ s.server = true ∧
    ∀ es s', lifeRun true [] (fun _ => []) s es = some s' → s'.main = .crashed ∧ s'.server = true := by
  refine ⟨_, rfl, rfl, rfl, fun es s' h => ?_⟩
  refine lifeRun_inv (py2 := true) (cmds := []) (errText := fun _ => []) (fun s => s.main = .crashed ∧ s.server = true) (fun _ => True) ?_ es (fun _ _ => trivial) _ s' ⟨rfl, rfl⟩ h
  rintro s e s' ⟨h1, h2⟩ _ h
  cases e with
  | main => simp only [lifeStep, mainStep, h1] at h; cases h
  | mainFails => simp only [lifeStep, h1] at h; cases h
  | _ => simp only [lifeStep] at h; split at h <;> cases h <;> exact ⟨h1, h2⟩

-- a whole life in Python 2: two interfaces in turn, quit; the hypotheses of the theorems are met
example (s0 : SimSt) : ∃ s, lifeRun true [] (fun _ => []) (.init s0)
      [.main, .main, .main, .rpcConnect, .rpcRecv "b ".toList, .main, .rpcGet, .consolePoll, .consoleNothing, .consolePoll, .consoleLine "quit\n".toList, .main, .consoleGet, .consolePoll, .main, .main,
       .rpcLeaves, .main, .main] = some s ∧ s.main = .done ∧ s.server = false ∧ s.sent = ["error: unknown command b\r\n".toList] ∧ s.printed = ["bye-bye\r\n".toList] ∧ s.handled = ["b".toList, "quit\n".toList] := by
  exact ⟨_, rfl, rfl, rfl, rfl, rfl, rfl⟩

example (s : SimSt) : simStep simCmds (fun _ => []) [] s = ("error: unknown command \r\n".toList, false, s) := C89_end_of_input _ _ _ (by decide)

end Modbus
