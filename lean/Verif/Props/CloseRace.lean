import Verif.Model.CloseRace
import Mathlib.Tactic.Common
/-
# C103: closing a master from another thread
-/
namespace Modbus

/-! ## RtuMaster: one thread closes, nobody calls `open` -/

/-- the places of `execute` after taking the lock -/
def RtuPlace.inCall : RtuPlace → Bool
  | .openTest true | .portTest true | .portOpen true | .setOpened true | .send | .recv => true
  | _ => false

/-- the places of a `close` that has found the master open -/
def RtuPlace.closing : RtuPlace → Bool
  | .closePortTest | .closePort | .clearOpened => true
  | _ => false

/-- the places of `open` after the master was found not open -/
def RtuPlace.opening : RtuPlace → Bool
  | .portTest _ | .portOpen _ | .setOpened _ => true
  | _ => false

/-- the places of an `open` called by the user -/
def RtuPlace.byUser : RtuPlace → Bool
  | .openTest false | .portTest false | .portOpen false | .setOpened false => true
  | _ => false

/-- the invariant of programs in which only thread `c` closes and nobody calls `open` -/
structure RtuRace.Tidy (p0 : Bool) (c : Nat) (s : RtuRace) : Prop where
  lock : ∀ t, (s.place t).inCall = true → s.owner = some t
  closer : ∀ t, (s.place t = .closeTest ∨ (s.place t).closing = true) → t = c
  noUser : ∀ t, (s.place t).byUser = false
  opening : ∀ t, (s.place t).opening = true → s.opened = false
  closing : (s.place c).closing = true → s.opened = true
  before : s.place c = .closePortTest ∨ s.place c = .closePort → s.portOpen = true
  after : s.place c = .clearOpened → s.portOpen = false
  flag : s.opened = true → s.place c ≠ .clearOpened → s.portOpen = true
  set : ∀ t, s.place t = .setOpened true → s.portOpen = true
  unset : ∀ t, s.place t = .portOpen true → s.portOpen = false
  port : p0 = false → s.portOpen = true → s.opened = false → s.owner ≠ none ∧ ∀ t, s.owner = some t → s.place t = .setOpened true

@[local grind =] theorem rr_goto_place (s : RtuRace) (t : Nat) (p : RtuPlace) (u : Nat) : (s.goto t p).place u = if u = t then p else s.place u := by
  unfold RtuRace.goto; exact Function.update_apply ..
@[local grind =] theorem rr_goto_opened (s : RtuRace) (t : Nat) (p : RtuPlace) : (s.goto t p).opened = s.opened := rfl
@[local grind =] theorem rr_goto_portOpen (s : RtuRace) (t : Nat) (p : RtuPlace) : (s.goto t p).portOpen = s.portOpen := rfl
@[local grind =] theorem rr_goto_owner (s : RtuRace) (t : Nat) (p : RtuPlace) : (s.goto t p).owner = s.owner := rfl
@[local grind =] theorem rr_done_place (s : RtuRace) (t : Nat) (o : RaceObs) (u : Nat) : (s.done t o).place u = if u = t then .idle else s.place u := by
  unfold RtuRace.done; exact Function.update_apply ..
@[local grind =] theorem rr_done_opened (s : RtuRace) (t : Nat) (o : RaceObs) : (s.done t o).opened = s.opened := rfl
@[local grind =] theorem rr_done_portOpen (s : RtuRace) (t : Nat) (o : RaceObs) : (s.done t o).portOpen = s.portOpen := rfl
@[local grind =] theorem rr_done_owner (s : RtuRace) (t : Nat) (o : RaceObs) : (s.done t o).owner = if s.owner = some t then none else s.owner := rfl

theorem race_inCall_true {p : RtuPlace} {o : Prop} (h3 : p.byUser = false) (h1 : p.inCall = true → o) :
    (∀ a, p = .openTest a → a = true ∧ o) ∧ (∀ a, p = .portTest a → a = true ∧ o) ∧ (∀ a, p = .portOpen a → a = true ∧ o) ∧
      (∀ a, p = .setOpened a → a = true ∧ o) := by
  refine ⟨?_, ?_, ?_, ?_⟩ <;> (rintro a rfl; cases a; · cases h3) <;> exact ⟨rfl, h1 rfl⟩

theorem race_opening_inCall {p : RtuPlace} (h : p.opening = true) (h3 : p.byUser = false) : p.inCall = true := by
  cases p with
  | portTest c | portOpen c | setOpened c => cases c <;> [cases h3; rfl]
  | _ => cases h

set_option maxHeartbeats 800000 in
theorem race_tidy_step {p0 : Bool} {c : Nat} {s s' : RtuRace} {e : RaceEv} (h : s.Tidy p0 c) (ho : ∀ t, e ≠ .callOpen t) (hc : ∀ t, e = .callClose t → t = c)
    (he : rtuRaceStep s e = some s') : s'.Tidy p0 c := by
  obtain ⟨h1, h2, h3, h4, h5, h6, h7, h8, h9, h10, h11⟩ := h
  cases e with
  | callOpen t => exact absurd rfl (ho t)
  | callClose t =>
    have := hc t rfl
    subst this
    simp only [rtuRaceStep] at he
    split at he
    · cases he
      constructor <;> grind [RtuPlace.inCall, RtuPlace.closing, RtuPlace.opening, RtuPlace.byUser]
    · cases he
  | callExecute t =>
    simp only [rtuRaceStep] at he
    split at he
    · cases he
      constructor <;> grind [RtuPlace.inCall, RtuPlace.closing, RtuPlace.opening, RtuPlace.byUser]
    · cases he
  | act t ok =>
    simp only [rtuRaceStep] at he
    have h3t := h3 t
    have h1t := h1 t
    have h2t := h2 t
    obtain ⟨k1, k2, k3, k4⟩ := race_inCall_true h3t h1t
    have k5 : ∀ u, (s.place u).opening = true → s.owner = some u := fun u hu => h1 u (race_opening_inCall hu (h3 u))
    unfold rtuAct at he
    split at he
    all_goals
      (constructor <;> grind [RtuPlace.inCall, RtuPlace.closing, RtuPlace.opening, RtuPlace.byUser])


/-- the program: nobody calls `open` (`execute` does it), and only thread `c` calls `close` -/
def OneCloser (c : Nat) (es : List RaceEv) : Prop :=
  (∀ t, RaceEv.callOpen t ∉ es) ∧ ∀ t, RaceEv.callClose t ∈ es → t = c

theorem race_tidy_run {p0 : Bool} {c : Nat} (es : List RaceEv) {s s' : RtuRace} (h : s.Tidy p0 c) (hc : OneCloser c es)
    (hr : rtuRaceRun s es = some s') : s'.Tidy p0 c := by
  induction es generalizing s with
  | nil => cases hr; exact h
  | cons e es ih =>
    unfold rtuRaceRun at hr
    cases he : rtuRaceStep s e with
    | none => rw [he] at hr; cases hr
    | some s1 =>
      rw [he] at hr
      refine ih (race_tidy_step h (fun t ht => hc.1 t (ht ▸ List.mem_cons_self)) (fun t ht => hc.2 t (ht ▸ List.mem_cons_self)) he)
        ⟨fun t ht => hc.1 t (List.mem_cons_of_mem _ ht), fun t ht => hc.2 t (List.mem_cons_of_mem _ ht)⟩ hr

theorem race_tidy_init (p0 : Bool) (c : Nat) : RtuRace.Tidy p0 c { portOpen := p0 } where
  lock _ h := by cases h
  closer _ h := by rcases h with h | h <;> cases h
  noUser _ := rfl
  opening _ h := by cases h
  closing h := by cases h
  before h := by rcases h with h | h <;> cases h
  after h := by cases h
  flag h := by cases h
  set _ h := by cases h
  unset _ h := by cases h
  port h1 h2 := by rw [show p0 = true from h2] at h1; cases h1

/-- **C103.** An `RtuMaster` that only one thread ever closes and that nobody opens by hand, any number of threads calling `execute`, any
    schedule: whenever no `close` is in progress, a master that believes to be open has an open port.  (If the port was closed at
    first: exactly then, when no method is in progress.) -/
theorem C103_rtu (p0 : Bool) (c : Nat) (es : List RaceEv) (hc : OneCloser c es) (s : RtuRace)
    (hr : rtuRaceRun { portOpen := p0 } es = some s) :
    ((s.place c).closing = false → s.opened = true → s.portOpen = true) ∧
    (p0 = false → s.owner = none → (s.place c).closing = false → s.opened = s.portOpen) := by
  have h := race_tidy_run es (race_tidy_init p0 c) hc hr
  have h1 : (s.place c).closing = false → s.opened = true → s.portOpen = true := fun hcl ho =>
    h.flag ho (fun hp => by rw [hp] at hcl; cases hcl)
  refine ⟨h1, fun hp0 hn hcl => ?_⟩
  cases ho : s.opened with
  | true => exact (h1 hcl ho).symm
  | false =>
    cases hp : s.portOpen with
    | false => rfl
    | true => exact absurd hn (h.port hp0 hp ho).1

/-- **C103.** Then the next call works: alone, on a device that does what it is asked, it opens the port if it must and returns. -/
theorem C103_rtu_works (s : RtuRace) (t : Nat) (hidle : s.place t = .idle) (hlock : s.owner = none)
    (hopen : s.opened = true → s.portOpen = true) :
    ∃ n, n ≤ 7 ∧ ∃ s', rtuRaceRun s (.callExecute t :: List.replicate n (.act t true)) = some s' ∧
      s'.log = s.log ++ [.returned t .execute] ∧ s'.opened = true ∧ s'.portOpen = true ∧ s'.owner = none := by
  obtain ⟨opened, portOpen, owner, place, log⟩ := s
  dsimp only at hidle hlock hopen ⊢
  subst hlock
  cases opened with
  | true =>
    have := hopen rfl
    subst this
    refine ⟨4, by omega, _, by
      simp [rtuRaceRun, rtuRaceStep, rtuAct, hidle, RtuRace.goto, RtuRace.done, List.replicate]; rfl, ?_⟩
    exact ⟨rfl, rfl, rfl, rfl⟩
  | false =>
    cases portOpen with
    | true =>
      refine ⟨6, by omega, _, by
        simp [rtuRaceRun, rtuRaceStep, rtuAct, hidle, RtuRace.goto, RtuRace.done, List.replicate]; rfl, ?_⟩
      exact ⟨rfl, rfl, rfl, rfl⟩
    | false =>
      refine ⟨7, by omega, _, by
        simp [rtuRaceRun, rtuRaceStep, rtuAct, hidle, RtuRace.goto, RtuRace.done, List.replicate]; rfl, ?_⟩
      exact ⟨rfl, rfl, rfl, rfl⟩

/-! ## RtuMaster: what may go wrong -/

/-- the master believes to be open, the port is closed, and nobody is about to change that -/
def RtuRace.Bricked (s : RtuRace) : Prop :=
  s.opened = true ∧ s.portOpen = false ∧
  ∀ t, s.place t = .idle ∨ s.place t = .lock ∨ (∃ c, s.place t = .openTest c) ∨ s.place t = .send ∨ s.place t = .closeTest ∨ s.place t = .closePortTest

theorem race_bricked_goto {s : RtuRace} (h : s.Bricked) (t : Nat) (p : RtuPlace)
    (hp : p = .idle ∨ p = .lock ∨ (∃ c, p = .openTest c) ∨ p = .send ∨ p = .closeTest ∨ p = .closePortTest) : (s.goto t p).Bricked := by
  refine ⟨h.1, h.2.1, fun u => ?_⟩
  rw [rr_goto_place]
  split
  · exact hp
  · exact h.2.2 u

theorem race_bricked_done {s : RtuRace} (h : s.Bricked) (t : Nat) (o : RaceObs) : (s.done t o).Bricked := by
  refine ⟨h.1, h.2.1, fun u => ?_⟩
  rw [rr_done_place]
  split
  · exact .inl rfl
  · exact h.2.2 u

theorem race_bricked_step {s s' : RtuRace} {e : RaceEv} (h : s.Bricked) (he : rtuRaceStep s e = some s') :
    s'.Bricked ∧ ∃ more, s'.log = s.log ++ more ∧ ∀ t, RaceObs.returned t .execute ∉ more := by
  have stay : ∀ (t : Nat) (p : RtuPlace), (p = .idle ∨ p = .lock ∨ (∃ c, p = .openTest c) ∨ p = .send ∨ p = .closeTest ∨ p = .closePortTest) →
      (s.goto t p).Bricked ∧ ∃ more, (s.goto t p).log = s.log ++ more ∧ ∀ t, RaceObs.returned t .execute ∉ more :=
    fun t p hp => ⟨race_bricked_goto h t p hp, [], (List.append_nil _).symm, fun _ h => by cases h⟩
  have fin : ∀ (t : Nat) (o : RaceObs), (∀ u, o ≠ .returned u .execute) →
      (s.done t o).Bricked ∧ ∃ more, (s.done t o).log = s.log ++ more ∧ ∀ t, RaceObs.returned t .execute ∉ more :=
    fun t o ho => ⟨race_bricked_done h t o, [o], rfl, fun u hu => ho u (List.mem_singleton.mp hu).symm⟩
  obtain ⟨ho, hp, hpl⟩ := h
  cases e with
  | callOpen t =>
    simp only [rtuRaceStep] at he
    split at he <;> cases he
    exact stay t _ (.inr (.inr (.inl ⟨_, rfl⟩)))
  | callClose t =>
    simp only [rtuRaceStep] at he
    split at he <;> cases he
    exact stay t _ (.inr (.inr (.inr (.inr (.inl rfl)))))
  | callExecute t =>
    simp only [rtuRaceStep] at he
    split at he <;> cases he
    exact stay t _ (.inr (.inl rfl))
  | act t ok =>
    simp only [rtuRaceStep, rtuAct] at he
    rcases hpl t with hq | hq | ⟨c, hq⟩ | hq | hq | hq
    · rw [hq] at he; cases he
    · rw [hq] at he
      dsimp only at he
      split at he <;> cases he
      exact ⟨race_bricked_goto (s := { s with owner := some t }) ⟨ho, hp, hpl⟩ t _ (.inr (.inr (.inl ⟨_, rfl⟩))), [], (List.append_nil _).symm, fun _ h => by cases h⟩
    · rw [hq] at he
      dsimp only at he
      rw [if_pos ho] at he
      cases he
      cases c with
      | true => exact stay t _ (.inr (.inr (.inr (.inl rfl))))
      | false => exact fin t _ (fun u h => by cases h)
    · rw [hq] at he
      dsimp only at he
      rw [if_neg (by simp [hp])] at he
      cases he
      exact fin t _ (fun u h => by cases h)
    · rw [hq] at he
      dsimp only at he
      rw [if_pos ho] at he
      cases he
      exact stay t _ (.inr (.inr (.inr (.inr (.inr rfl)))))
    · rw [hq] at he
      dsimp only at he
      rw [if_neg (by simp [hp])] at he
      cases he
      exact fin t _ (fun u h => by cases h)

/-- Once in this state, an `RtuMaster` is useless for ever: whatever any number of threads do with it - `execute`, `open`, `close` -, no `execute`
    ever returns. -/
theorem C103_rtu_bricked (es : List RaceEv) (s s' : RtuRace) (h : s.Bricked) (hr : rtuRaceRun s es = some s') :
    s'.Bricked ∧ ∃ more, s'.log = s.log ++ more ∧ ∀ t, RaceObs.returned t .execute ∉ more := by
  induction es generalizing s with
  | nil => cases hr; exact ⟨h, [], (List.append_nil _).symm, fun _ h => by cases h⟩
  | cons e es ih =>
    unfold rtuRaceRun at hr
    cases he : rtuRaceStep s e with
    | none => rw [he] at hr; cases hr
    | some s1 =>
      rw [he] at hr
      obtain ⟨h1, m1, hm1, hn1⟩ := race_bricked_step h he
      obtain ⟨h2, m2, hm2, hn2⟩ := ih s1 h1 hr
      refine ⟨h2, m1 ++ m2, by rw [hm2, hm1, List.append_assoc], fun t ht => ?_⟩
      rcases List.mem_append.mp ht with ht | ht
      · exact hn1 t ht
      · exact hn2 t ht

/-- the thread an event concerns -/
def RaceEv.thread : RaceEv → Nat
  | .callOpen t => t
  | .callClose t => t
  | .callExecute t => t
  | .act t _ => t

theorem race_place_step {s s' : RtuRace} {e : RaceEv} {u : Nat} (hu : u ≠ e.thread) (he : rtuRaceStep s e = some s') : s'.place u = s.place u := by
  cases e with
  | callOpen t | callClose t | callExecute t =>
    have hu' : u ≠ t := hu
    simp only [rtuRaceStep] at he
    split at he <;> cases he
    rw [rr_goto_place, if_neg hu']
  | act t ok =>
    have hu' : u ≠ t := hu
    simp only [rtuRaceStep] at he
    unfold rtuAct at he
    split at he <;> grind

theorem race_place_run (es : List RaceEv) {s s' : RtuRace} {u : Nat} (hu : ∀ e ∈ es, u ≠ e.thread) (hr : rtuRaceRun s es = some s') :
    s'.place u = s.place u := by
  induction es generalizing s with
  | nil => cases hr; rfl
  | cons e es ih =>
    unfold rtuRaceRun at hr
    cases he : rtuRaceStep s e with
    | none => rw [he] at hr; cases hr
    | some s1 =>
      rw [he] at hr
      rw [ih (fun e he => hu e (List.mem_cons_of_mem _ he)) hr, race_place_step (hu e List.mem_cons_self) he]

/-- `n` successful actions of thread `t` -/
def rtuActs (t n : Nat) : List RaceEv := List.replicate n (.act t true)

/-- two threads call `open` by hand, a third one closes -/
def exTwoOpen : List RaceEv :=
  [.callOpen 1] ++ rtuActs 1 3 ++ [.callOpen 2] ++ rtuActs 2 3 ++ [.callClose 3] ++ rtuActs 3 4 ++ rtuActs 1 1

/-- **C103 is false when `open` is called by hand**: thread 1 has opened the port but not yet noted it; thread 2 notes it; thread 3 closes; thread 1
    notes that the master is open.  No method has raised, and the master is useless from then on. -/
theorem C103_false_open :
    ∃ s, rtuRaceRun {} exTwoOpen = some s ∧ s.Bricked ∧ (∀ t, s.place t = .idle) ∧
      s.log = [.returned 2 .open, .returned 3 .close, .returned 1 .open] := by
  have hp : ∀ (s : RtuRace), rtuRaceRun {} exTwoOpen = some s → ∀ t, s.place t = .idle := by
    intro s hs t
    by_cases h1 : t = 1
    · subst h1; rw [← Option.some.inj hs]; rfl
    by_cases h2 : t = 2
    · subst h2; rw [← Option.some.inj hs]; rfl
    by_cases h3 : t = 3
    · subst h3; rw [← Option.some.inj hs]; rfl
    refine race_place_run exTwoOpen (fun e he => ?_) hs
    have : ∀ e ∈ exTwoOpen, e.thread = 1 ∨ e.thread = 2 ∨ e.thread = 3 := by decide
    rcases this e he with h | h | h <;> rw [h] <;> assumption
  refine ⟨_, rfl, ⟨rfl, rfl, fun t => .inl (hp _ rfl t)⟩, hp _ rfl, rfl⟩

/-- one call, two threads that close, another call -/
def exTwoClose : List RaceEv :=
  [.callExecute 3] ++ rtuActs 3 7 ++ [.callClose 1] ++ rtuActs 1 1 ++ [.callClose 2] ++ rtuActs 2 4 ++ [.callExecute 3] ++ rtuActs 3 4 ++ rtuActs 1 3 ++ rtuActs 3 2

/-- **C103 is false when two threads close**: thread 1 has found the master open; thread 2 closes it; thread 3 calls `execute`, which opens the port
    again; thread 1 goes on and closes it; thread 3 notes that the master is open. -/
theorem C103_false_close :
    ∃ s, rtuRaceRun {} exTwoClose = some s ∧ s.Bricked ∧ (∀ t, s.place t = .idle) ∧
      s.log = [.returned 3 .execute, .returned 2 .close, .returned 1 .close, .raised 3 .execute] := by
  have hp : ∀ (s : RtuRace), rtuRaceRun {} exTwoClose = some s → ∀ t, s.place t = .idle := by
    intro s hs t
    by_cases h1 : t = 1
    · subst h1; rw [← Option.some.inj hs]; rfl
    by_cases h2 : t = 2
    · subst h2; rw [← Option.some.inj hs]; rfl
    by_cases h3 : t = 3
    · subst h3; rw [← Option.some.inj hs]; rfl
    refine race_place_run exTwoClose (fun e he => ?_) hs
    have : ∀ e ∈ exTwoClose, e.thread = 1 ∨ e.thread = 2 ∨ e.thread = 3 := by decide
    rcases this e he with h | h | h <;> rw [h] <;> assumption
  refine ⟨_, rfl, ⟨rfl, rfl, fun t => .inl (hp _ rfl t)⟩, hp _ rfl, rfl⟩

/-! ## RtuMaster: any number of threads, all closing -/

/-- the program: all threads only call `close` -/
def OnlyClose (es : List RaceEv) : Prop := (∀ t, RaceEv.callOpen t ∉ es) ∧ ∀ t, RaceEv.callExecute t ∉ es

/-- the invariant of programs that only close; `ended`: some `close` has ended -/
structure RtuRace.Closers (l0 : List RaceObs) (s : RtuRace) : Prop where
  places : ∀ t, s.place t = .idle ∨ s.place t = .closeTest ∨ s.place t = .closePortTest ∨ s.place t = .closePort ∨ s.place t = .clearOpened
  cleared : ∀ t, s.place t = .clearOpened → s.portOpen = false
  flag : s.opened = false → s.portOpen = false
  ended : s.log ≠ l0 → s.portOpen = false
  pending : s.portOpen = false → s.opened = true → ∃ t, s.place t = .clearOpened
  sub : ∃ more, s.log = l0 ++ more ∧ ∀ o ∈ more, ∃ t, o = .returned t .close

@[local grind =] theorem rr_goto_log (s : RtuRace) (t : Nat) (p : RtuPlace) : (s.goto t p).log = s.log := rfl
@[local grind =] theorem rr_done_log (s : RtuRace) (t : Nat) (o : RaceObs) : (s.done t o).log = s.log ++ [o] := rfl

theorem closers_goto {l0 : List RaceObs} {s : RtuRace} (h : s.Closers l0) (t : Nat) (p : RtuPlace) (hq : s.place t ≠ .clearOpened)
    (hp : p = .closeTest ∨ p = .closePortTest ∨ p = .closePort) : (s.goto t p).Closers l0 := by
  obtain ⟨h1, h2, h3, h4, h5, h6⟩ := h
  refine ⟨?_, ?_, h3, h4, fun a b => ?_, h6⟩
  · intro u
    rw [rr_goto_place]
    split
    · rcases hp with hp | hp | hp <;> rw [hp] <;> simp
    · exact h1 u
  · intro u
    rw [rr_goto_place]
    split
    · rcases hp with hp | hp | hp <;> rw [hp] <;> nofun
    · exact h2 u
  · obtain ⟨u, hu⟩ := h5 a b
    exact ⟨u, by grind⟩

theorem closers_done {l0 : List RaceObs} {s : RtuRace} (h : s.Closers l0) (t : Nat) (hq : s.place t ≠ .clearOpened) (hp : s.portOpen = false) :
    (s.done t (.returned t .close)).Closers l0 := by
  obtain ⟨h1, h2, h3, h4, h5, h6⟩ := h
  refine ⟨?_, ?_, h3, fun _ => hp, fun a b => ?_, ?_⟩
  · intro u
    rw [rr_done_place]
    split
    · exact .inl rfl
    · exact h1 u
  · intro u
    rw [rr_done_place]
    split
    · nofun
    · exact h2 u
  · obtain ⟨u, hu⟩ := h5 a b
    exact ⟨u, by grind⟩
  · obtain ⟨m, hm, hm'⟩ := h6
    refine ⟨m ++ [.returned t .close], by rw [rr_done_log, hm, List.append_assoc], fun o ho => ?_⟩
    rcases List.mem_append.mp ho with ho | ho
    · exact hm' o ho
    · exact ⟨t, List.mem_singleton.mp ho⟩

theorem closers_step {l0 : List RaceObs} {s s' : RtuRace} {e : RaceEv} (h : s.Closers l0) (ho : ∀ t, e ≠ .callOpen t) (hx : ∀ t, e ≠ .callExecute t)
    (he : rtuRaceStep s e = some s') : s'.Closers l0 := by
  cases e with
  | callOpen t => exact absurd rfl (ho t)
  | callExecute t => exact absurd rfl (hx t)
  | callClose t =>
    simp only [rtuRaceStep] at he
    split at he <;> cases he
    rename_i hq
    exact closers_goto h t _ (by rw [hq]; nofun) (.inl rfl)
  | act t ok =>
    simp only [rtuRaceStep, rtuAct] at he
    rcases h.places t with hq | hq | hq | hq | hq
    · rw [hq] at he; cases he
    · rw [hq] at he
      dsimp only at he
      have hne : s.place t ≠ .clearOpened := by rw [hq]; nofun
      split at he <;> cases he
      · exact closers_goto h t _ hne (.inr (.inl rfl))
      · rename_i hf
        exact closers_done h t hne (h.flag (by simpa using hf))
    · rw [hq] at he
      dsimp only at he
      have hne : s.place t ≠ .clearOpened := by rw [hq]; nofun
      split at he <;> cases he
      · exact closers_goto h t _ hne (.inr (.inr rfl))
      · rename_i hf
        exact closers_done h t hne (by simpa using hf)
    · rw [hq] at he
      cases he
      obtain ⟨h1, h2, h3, h4, h5, h6⟩ := h
      refine ⟨?_, fun _ _ => rfl, fun _ => rfl, fun _ => rfl, fun _ _ => ⟨t, by rw [rr_goto_place, if_pos rfl]⟩, h6⟩
      intro u
      rw [rr_goto_place]
      split
      · exact .inr (.inr (.inr (.inr rfl)))
      · exact h1 u
    · rw [hq] at he
      cases he
      obtain ⟨h1, h2, h3, h4, h5, h6⟩ := h
      have hp := h2 t hq
      refine ⟨?_, fun _ _ => hp, fun _ => hp, fun _ => hp, fun _ b => (by cases b), ?_⟩
      · intro u
        rw [rr_done_place]
        split
        · exact .inl rfl
        · exact h1 u
      · obtain ⟨m, hm, hm'⟩ := h6
        refine ⟨m ++ [.returned t .close], by rw [rr_done_log, ← List.append_assoc, ← hm], fun o ho => ?_⟩
        rcases List.mem_append.mp ho with ho | ho
        · exact hm' o ho
        · exact ⟨t, List.mem_singleton.mp ho⟩

/-- **C103.** Any number of threads that close the same open `RtuMaster`, from a state in which nothing is in progress: none of them raises; once one
    has returned, the port is closed; and when all have, the master is not open. -/
theorem C103_rtu_closers (es : List RaceEv) (s s' : RtuRace) (h : OnlyClose es) (hidle : ∀ t, s.place t = .idle) (ho : s.opened = true)
    (hp : s.portOpen = true) (hr : rtuRaceRun s es = some s') :
    (∃ more, s'.log = s.log ++ more ∧ ∀ o ∈ more, ∃ t, o = .returned t .close) ∧
    (s'.log ≠ s.log → s'.portOpen = false) ∧
    (s'.log ≠ s.log → (∀ t, s'.place t = .idle) → s'.opened = false) := by
  have main : ∀ (es : List RaceEv) (s1 s' : RtuRace), OnlyClose es → s1.Closers s.log → rtuRaceRun s1 es = some s' → s'.Closers s.log := by
    intro es
    induction es with
    | nil => intro s1 s' _ h1 hr; cases hr; exact h1
    | cons e es ih =>
      intro s1 s' h h1 hr
      unfold rtuRaceRun at hr
      cases he : rtuRaceStep s1 e with
      | none => rw [he] at hr; cases hr
      | some s2 =>
        rw [he] at hr
        exact ih s2 s' ⟨fun t ht => h.1 t (List.mem_cons_of_mem _ ht), fun t ht => h.2 t (List.mem_cons_of_mem _ ht)⟩
          (closers_step h1 (fun t ht => h.1 t (ht ▸ List.mem_cons_self)) (fun t ht => h.2 t (ht ▸ List.mem_cons_self)) he) hr
  have h0 : s.Closers s.log := {
    places := fun t => .inl (hidle t)
    cleared := fun t ht => by rw [hidle t] at ht; cases ht
    flag := fun hf => by rw [ho] at hf; cases hf
    ended := fun hne => absurd rfl hne
    pending := fun hf => by rw [hp] at hf; cases hf
    sub := ⟨[], (List.append_nil _).symm, fun _ h => by cases h⟩ }
  have hfin := main es s s' h h0 hr
  refine ⟨hfin.sub, hfin.ended, fun hne hi => ?_⟩
  cases hop : s'.opened with
  | false => rfl
  | true =>
    obtain ⟨t, ht⟩ := hfin.pending (hfin.ended hne) hop
    rw [hi t] at ht
    cases ht

/-! ## TcpMaster -/

/-- **C103.** A `TcpMaster` always recovers: from every state it can be in - open or not, with or without a socket, the socket connected, closed or
    never connected - a call of `execute`, alone on a network that does what it is asked, sends its request on a connected socket and returns,
    and the master is open. -/
theorem C103_tcp_works (s : TcpRace) (t : Nat) (hidle : s.place t = .idle) (hlock : s.owner = none) :
    ∃ n, n ≤ 16 ∧ ∃ s', tcpRaceRun s (.callExecute t :: List.replicate n (.act t true false)) = some s' ∧
      s'.log = s.log ++ [.returned t .execute] ∧ s'.opened = true ∧ s'.owner = none ∧
      ∃ k, s'.sock = some k ∧ s'.socks k = .connected ∧ s'.sent = s.sent ++ [(t, k)] := by
  obtain ⟨opened, sock, next, socks, owner, place, log, sent⟩ := s
  dsimp only at hidle hlock ⊢
  subst hlock
  cases opened with
  | true =>
    cases sock with
    | none =>
      refine ⟨11, by omega, _, by
        simp [tcpRaceRun, tcpRaceStep, tcpAct, hidle, TcpRace.goto, TcpRace.done, TcpRace.setSock, TcpRace.afterOpen, List.replicate]; rfl, ?_⟩
      exact ⟨rfl, rfl, rfl, _, rfl, by simp, rfl⟩
    | some k =>
      by_cases hk : socks k = .connected
      · refine ⟨6, by omega, _, by
          simp [tcpRaceRun, tcpRaceStep, tcpAct, hidle, hk, TcpRace.goto, TcpRace.done, TcpRace.setSock, TcpRace.afterOpen, List.replicate]; rfl, ?_⟩
        exact ⟨rfl, rfl, rfl, _, rfl, hk, rfl⟩
      · refine ⟨12, by omega, _, by
          simp [tcpRaceRun, tcpRaceStep, tcpAct, hidle, hk, TcpRace.goto, TcpRace.done, TcpRace.setSock, TcpRace.afterOpen, List.replicate]; rfl, ?_⟩
        exact ⟨rfl, rfl, rfl, _, rfl, by simp, rfl⟩
  | false =>
    cases sock with
    | none =>
      refine ⟨12, by omega, _, by
        simp [tcpRaceRun, tcpRaceStep, tcpAct, hidle, TcpRace.goto, TcpRace.done, TcpRace.setSock, TcpRace.afterOpen, List.replicate]; rfl, ?_⟩
      exact ⟨rfl, rfl, rfl, _, rfl, by simp, rfl⟩
    | some k =>
      refine ⟨13, by omega, _, by
        simp [tcpRaceRun, tcpRaceStep, tcpAct, hidle, TcpRace.goto, TcpRace.done, TcpRace.setSock, TcpRace.afterOpen, List.replicate]; rfl, ?_⟩
      exact ⟨rfl, rfl, rfl, _, rfl, by simp, rfl⟩

/-- `n` successful actions of thread `t`; `recv` is satisfied with one byte -/
def tcpActs (t n : Nat) : List TcpRaceEv := List.replicate n (.act t true false)

/-- the thread an event concerns -/
def TcpRaceEv.thread : TcpRaceEv → Nat
  | .callOpen t => t
  | .callClose t => t
  | .callExecute t => t
  | .act t _ _ => t

@[local grind =] theorem tr_goto_place (s : TcpRace) (t : Nat) (p : TcpPlace) (u : Nat) : (s.goto t p).place u = if u = t then p else s.place u := by
  unfold TcpRace.goto; exact Function.update_apply ..
@[local grind =] theorem tr_done_place (s : TcpRace) (t : Nat) (o : RaceObs) (u : Nat) : (s.done t o).place u = if u = t then .idle else s.place u := by
  unfold TcpRace.done; exact Function.update_apply ..

theorem tr_afterOpen_place (s : TcpRace) (t : Nat) (w : OpenFor) (u : Nat) (hu : u ≠ t) : (s.afterOpen t w).place u = s.place u := by
  cases w <;> unfold TcpRace.afterOpen <;> simp only [tr_goto_place, tr_done_place, if_neg hu]

theorem tr_place_step {s s' : TcpRace} {e : TcpRaceEv} {u : Nat} (hu : u ≠ e.thread) (he : tcpRaceStep s e = some s') : s'.place u = s.place u := by
  cases e with
  | callOpen t | callClose t | callExecute t =>
    have hu' : u ≠ t := hu
    simp only [tcpRaceStep] at he
    split at he <;> cases he
    rw [tr_goto_place, if_neg hu']
  | act t ok more =>
    have hu' : u ≠ t := hu
    simp only [tcpRaceStep] at he
    unfold tcpAct at he
    split at he
    all_goals (try split at he) <;> (try split at he) <;> (try split at he) <;> (try split at he) <;> cases he <;>
      first
        | rw [tr_goto_place, if_neg hu']; rfl
        | rw [tr_goto_place, if_neg hu']
        | rw [tr_done_place, if_neg hu']; rfl
        | rw [tr_done_place, if_neg hu']
        | rw [tr_afterOpen_place _ _ _ _ hu']

theorem tr_place_run (es : List TcpRaceEv) {s s' : TcpRace} {u : Nat} (hu : ∀ e ∈ es, u ≠ e.thread) (hr : tcpRaceRun s es = some s') :
    s'.place u = s.place u := by
  induction es generalizing s with
  | nil => cases hr; rfl
  | cons e es ih =>
    unfold tcpRaceRun at hr
    cases he : tcpRaceStep s e with
    | none => rw [he] at hr; cases hr
    | some s1 =>
      rw [he] at hr
      rw [ih (fun e he => hu e (List.mem_cons_of_mem _ he)) hr, tr_place_step (hu e List.mem_cons_self) he]

/-- one call, then a second one during which another thread closes -/
def exCloseDuring : List TcpRaceEv :=
  [.callExecute 1] ++ tcpActs 1 12 ++ [.callExecute 1] ++ tcpActs 1 2 ++ [.callClose 2] ++ tcpActs 2 5 ++ tcpActs 1 9

/-- **A `close` that returns need not close a `TcpMaster`**: nobody calls `open`, one thread closes once, while another one is about to send.  `_send`
    takes the closed socket for a lost connection and connects again: both methods return, nothing is in progress, the master counts as closed - and
    the connection is up.  A further `close` returns and leaves it so. -/
theorem C103_tcp_false_close :
    ∃ s, tcpRaceRun {} exCloseDuring = some s ∧ (∀ t, s.place t = .idle) ∧
      s.log = [.returned 1 .execute, .returned 2 .close, .returned 1 .execute] ∧
      s.opened = false ∧ s.sock = some 1 ∧ s.socks 1 = .connected ∧
      ∃ s', tcpRaceRun s (.callClose 2 :: tcpActs 2 1) = some s' ∧ s'.log = s.log ++ [.returned 2 .close] ∧ s'.socks 1 = .connected := by
  have hp : ∀ (s : TcpRace), tcpRaceRun {} exCloseDuring = some s → ∀ t, s.place t = .idle := by
    intro s hs t
    by_cases h1 : t = 1
    · subst h1; rw [← Option.some.inj hs]; rfl
    by_cases h2 : t = 2
    · subst h2; rw [← Option.some.inj hs]; rfl
    refine tr_place_run exCloseDuring (fun e he => ?_) hs
    have : ∀ e ∈ exCloseDuring, e.thread = 1 ∨ e.thread = 2 := by decide
    rcases this e he with h | h <;> rw [h] <;> assumption
  exact ⟨_, rfl, hp _ rfl, rfl, rfl, rfl, rfl, _, rfl, rfl, rfl⟩

/-! ## TcpMaster: any number of threads, all closing -/

/-- the invariant of programs that only close a master whose socket is `k` -/
structure TcpRace.Closers (k : Nat) (l0 : List RaceObs) (s : TcpRace) : Prop where
  places : ∀ t, s.place t = .idle ∨ s.place t = .closeTest ∨ s.place t = .closeSockTest ∨ s.place t = .closeSock ∨ s.place t = .clearSock ∨
    s.place t = .clearOpened
  sock : s.sock = some k ∨ (s.sock = none ∧ s.socks k = .closed)
  closedAt : ∀ t, s.place t = .clearSock → s.socks k = .closed
  cleared : ∀ t, s.place t = .clearOpened → s.sock = none
  flag : s.opened = false → s.sock = none
  ended : s.log ≠ l0 → s.sock = none
  pending : s.sock = none → s.opened = true → ∃ t, s.place t = .clearOpened
  sub : ∃ more, s.log = l0 ++ more ∧ ∀ o ∈ more, ∃ t, o = .returned t .close ∨ o = .raised t .close

theorem tclosers_goto {k : Nat} {l0 : List RaceObs} {s : TcpRace} (h : s.Closers k l0) (t : Nat) (p : TcpPlace) (hq : s.place t ≠ .clearOpened)
    (hp : p = .closeTest ∨ p = .closeSockTest ∨ p = .closeSock) : (s.goto t p).Closers k l0 := by
  obtain ⟨h1, h2, h3, h4, h5, h6, h7, h8⟩ := h
  refine ⟨?_, h2, ?_, ?_, h5, h6, fun a b => ?_, h8⟩
  · intro u
    rw [tr_goto_place]
    split
    · rcases hp with hp | hp | hp <;> rw [hp] <;> simp
    · exact h1 u
  · intro u
    rw [tr_goto_place]
    split
    · rcases hp with hp | hp | hp <;> rw [hp] <;> nofun
    · exact h3 u
  · intro u
    rw [tr_goto_place]
    split
    · rcases hp with hp | hp | hp <;> rw [hp] <;> nofun
    · exact h4 u
  · obtain ⟨u, hu⟩ := h7 a b
    exact ⟨u, by grind⟩

theorem tclosers_done {k : Nat} {l0 : List RaceObs} {s : TcpRace} (h : s.Closers k l0) (t : Nat) (o : RaceObs) (hq : s.place t ≠ .clearOpened)
    (hn : s.sock = none) (hoo : o = .returned t .close ∨ o = .raised t .close) : (s.done t o).Closers k l0 := by
  obtain ⟨h1, h2, h3, h4, h5, h6, h7, h8⟩ := h
  refine ⟨?_, h2, ?_, ?_, h5, fun _ => hn, fun a b => ?_, ?_⟩
  · intro u
    rw [tr_done_place]
    split
    · exact .inl rfl
    · exact h1 u
  · intro u
    rw [tr_done_place]
    split
    · nofun
    · exact h3 u
  · intro u
    rw [tr_done_place]
    split
    · nofun
    · exact h4 u
  · obtain ⟨u, hu⟩ := h7 a b
    exact ⟨u, by grind⟩
  · obtain ⟨m, hm, hm'⟩ := h8
    refine ⟨m ++ [o], by rw [← List.append_assoc, ← hm]; rfl, fun o' ho => ?_⟩
    rcases List.mem_append.mp ho with ho | ho
    · exact hm' o' ho
    · rw [List.mem_singleton.mp ho]; exact ⟨t, hoo⟩

theorem tclosers_step {k : Nat} {l0 : List RaceObs} {s s' : TcpRace} {e : TcpRaceEv} (h : s.Closers k l0) (ho : ∀ t, e ≠ .callOpen t)
    (hx : ∀ t, e ≠ .callExecute t) (he : tcpRaceStep s e = some s') : s'.Closers k l0 := by
  cases e with
  | callOpen t => exact absurd rfl (ho t)
  | callExecute t => exact absurd rfl (hx t)
  | callClose t =>
    simp only [tcpRaceStep] at he
    split at he <;> cases he
    rename_i hq
    exact tclosers_goto h t _ (by rw [hq]; nofun) (.inl rfl)
  | act t ok more =>
    simp only [tcpRaceStep, tcpAct] at he
    rcases h.places t with hq | hq | hq | hq | hq | hq
    · rw [hq] at he; cases he
    · rw [hq] at he
      dsimp only at he
      have hne : s.place t ≠ .clearOpened := by rw [hq]; nofun
      split at he <;> cases he
      · exact tclosers_goto h t _ hne (.inr (.inl rfl))
      · rename_i hf
        exact tclosers_done h t _ hne (h.flag (by simpa using hf)) (.inl rfl)
    · rw [hq] at he
      dsimp only at he
      have hne : s.place t ≠ .clearOpened := by rw [hq]; nofun
      split at he <;> cases he
      · exact tclosers_goto h t _ hne (.inr (.inr rfl))
      · rename_i hf
        exact tclosers_done h t _ hne (by simpa using hf) (.inl rfl)
    · rw [hq] at he
      dsimp only at he
      have hne : s.place t ≠ .clearOpened := by rw [hq]; nofun
      rcases h.sock with hs | ⟨hs, hc⟩
      · rw [hs] at he
        cases he
        obtain ⟨h1, h2, h3, h4, h5, h6, h7, h8⟩ := h
        have hck : ((s.setSock k .closed).goto t .clearSock).socks k = .closed := Function.update_self ..
        refine ⟨?_, .inl hs, fun _ _ => hck, ?_, h5, h6, fun a => ?_, h8⟩
        · intro u
          rw [tr_goto_place]
          split
          · simp
          · exact h1 u
        · intro u
          rw [tr_goto_place]
          split
          · nofun
          · exact h4 u
        · rw [show ((s.setSock k .closed).goto t .clearSock).sock = s.sock from rfl, hs] at a
          cases a
      · rw [hs] at he
        cases he
        exact tclosers_done h t _ hne hs (.inr rfl)
    · rw [hq] at he
      cases he
      obtain ⟨h1, h2, h3, h4, h5, h6, h7, h8⟩ := h
      have hc := h3 t hq
      refine ⟨?_, .inr ⟨rfl, hc⟩, fun _ _ => hc, fun _ _ => rfl, fun _ => rfl, fun _ => rfl, fun _ _ => ⟨t, by rw [tr_goto_place, if_pos rfl]⟩, h8⟩
      intro u
      rw [tr_goto_place]
      split
      · simp
      · exact h1 u
    · rw [hq] at he
      cases he
      obtain ⟨h1, h2, h3, h4, h5, h6, h7, h8⟩ := h
      have hn := h4 t hq
      refine ⟨?_, h2, ?_, fun _ _ => hn, fun _ => hn, fun _ => hn, fun _ b => (by cases b), ?_⟩
      · intro u
        rw [tr_done_place]
        split
        · exact .inl rfl
        · exact h1 u
      · intro u
        rw [tr_done_place]
        split
        · nofun
        · exact h3 u
      · obtain ⟨m, hm, hm'⟩ := h8
        refine ⟨m ++ [.returned t .close], by rw [← List.append_assoc, ← hm]; rfl, fun o' ho => ?_⟩
        rcases List.mem_append.mp ho with ho | ho
        · exact hm' o' ho
        · rw [List.mem_singleton.mp ho]; exact ⟨t, .inl rfl⟩

/-- the program: all threads only call `close` -/
def TcpOnlyClose (es : List TcpRaceEv) : Prop := (∀ t, TcpRaceEv.callOpen t ∉ es) ∧ ∀ t, TcpRaceEv.callExecute t ∉ es

/-- **C103.** Any number of threads that close the same open `TcpMaster`, from a state in which nothing is in progress: once one of them has returned or
    raised, the connection is closed and given up; and when all have, the master is not open. -/
theorem C103_tcp_closers (es : List TcpRaceEv) (s s' : TcpRace) (k : Nat) (h : TcpOnlyClose es) (hidle : ∀ t, s.place t = .idle) (ho : s.opened = true)
    (hs : s.sock = some k) (hr : tcpRaceRun s es = some s') :
    (∃ more, s'.log = s.log ++ more ∧ ∀ o ∈ more, ∃ t, o = .returned t .close ∨ o = .raised t .close) ∧
    (s'.log ≠ s.log → s'.sock = none ∧ s'.socks k = .closed) ∧
    (s'.log ≠ s.log → (∀ t, s'.place t = .idle) → s'.opened = false) := by
  have main : ∀ (es : List TcpRaceEv) (s1 s' : TcpRace), TcpOnlyClose es → s1.Closers k s.log → tcpRaceRun s1 es = some s' → s'.Closers k s.log := by
    intro es
    induction es with
    | nil => intro s1 s' _ h1 hr; cases hr; exact h1
    | cons e es ih =>
      intro s1 s' h h1 hr
      unfold tcpRaceRun at hr
      cases he : tcpRaceStep s1 e with
      | none => rw [he] at hr; cases hr
      | some s2 =>
        rw [he] at hr
        exact ih s2 s' ⟨fun t ht => h.1 t (List.mem_cons_of_mem _ ht), fun t ht => h.2 t (List.mem_cons_of_mem _ ht)⟩
          (tclosers_step h1 (fun t ht => h.1 t (ht ▸ List.mem_cons_self)) (fun t ht => h.2 t (ht ▸ List.mem_cons_self)) he) hr
  have h0 : s.Closers k s.log := {
    places := fun t => .inl (hidle t)
    sock := .inl hs
    closedAt := fun t ht => by rw [hidle t] at ht; cases ht
    cleared := fun t ht => by rw [hidle t] at ht; cases ht
    flag := fun hf => by rw [ho] at hf; cases hf
    ended := fun hne => absurd rfl hne
    pending := fun hf => by rw [hs] at hf; cases hf
    sub := ⟨[], (List.append_nil _).symm, fun _ h => by cases h⟩ }
  have hfin := main es s s' h h0 hr
  refine ⟨hfin.sub, fun hne => ?_, fun hne hi => ?_⟩
  · rcases hfin.sock with h | ⟨h, h'⟩
    · rw [hfin.ended hne] at h; cases h
    · exact ⟨h, h'⟩
  · cases hop : s'.opened with
    | false => rfl
    | true =>
      obtain ⟨t, ht⟩ := hfin.pending (hfin.ended hne) hop
      rw [hi t] at ht
      cases ht

/-- the master after one call -/
def exTcpOpen : TcpRace := ((tcpRaceRun {} (.callExecute 1 :: tcpActs 1 12))).getD {}

/-- two threads close: the second one finds the socket given up between its test and its `close` -/
def exTwoClosers : List TcpRaceEv :=
  [.callClose 1, .callClose 2] ++ tcpActs 1 2 ++ tcpActs 2 2 ++ tcpActs 1 2 ++ tcpActs 2 1 ++ tcpActs 1 1

/-- ...and raises AttributeError. -/
theorem C103_tcp_closer_raises :
    exTcpOpen.opened = true ∧ exTcpOpen.sock = some 0 ∧ TcpOnlyClose exTwoClosers ∧
    ∃ s, tcpRaceRun exTcpOpen exTwoClosers = some s ∧ s.log = exTcpOpen.log ++ [.raised 2 .close, .returned 1 .close] ∧ s.opened = false ∧
      s.socks 0 = .closed := by
  refine ⟨rfl, rfl, ⟨fun t h => ?_, fun t h => ?_⟩, _, rfl, rfl, rfl, rfl⟩
  · simp [exTwoClosers, tcpActs] at h
  · simp [exTwoClosers, tcpActs] at h

/-- a call and a `close` that overlap -/
def exRaceOverlap : List RaceEv := [.callExecute 1, .callClose 2] ++ rtuActs 1 5 ++ rtuActs 2 2

/-- the hypothesis of `C103_rtu` is met by this program, and its conclusion says nothing yet: the `close` is in progress -/
example : OneCloser 2 exRaceOverlap ∧ ∃ s, rtuRaceRun {} exRaceOverlap = some s ∧ s.place 2 = .closePort ∧ s.place 1 = .send ∧ s.opened = true ∧
    ∃ s', rtuRaceRun s (rtuActs 2 1 ++ rtuActs 1 1 ++ rtuActs 2 1) = some s' ∧ s'.log = [.raised 1 .execute, .returned 2 .close] ∧
      (s'.place 2).closing = false ∧ s'.owner = none ∧ s'.opened = false ∧ s'.portOpen = false := by
  refine ⟨⟨fun t h => ?_, fun t h => ?_⟩, _, rfl, rfl, rfl, rfl, _, rfl, rfl, rfl, rfl, rfl, rfl⟩
  · simp [exRaceOverlap, rtuActs] at h
  · simpa [exRaceOverlap, rtuActs] using h

end Modbus
