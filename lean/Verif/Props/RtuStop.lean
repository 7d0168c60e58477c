import Verif.Model.RtuStop
/-
# Property C59: `RtuServer.stop` ends a server that is waiting for a byte
-/
namespace Modbus

/-- an execution of a server just started (the port may be open or not), on a platform where `cancel_read` is sticky or not -/
def RtuAfter (sticky : Bool) (es : List REv) (s : RtuLife) : Prop := ∃ o, rtuLifeRun sticky { isOpen := o } es = some s

/-- the actions of the server thread during which bytes arrived -/
def dataCount (es : List REv) : Nat := es.count (.thread .data)

/-- the actions of the server thread -/
def threadCount : List REv → Nat
  | [] => 0
  | .thread _ :: es => threadCount es + 1
  | _ :: es => threadCount es

/-- what holds in every execution with sticky cancellation -/
structure RInv (s : RtuLife) : Prop where
  waitOpen : s.pc = .firstWait ∨ s.pc = .restWait → s.isOpen = true
  timed : s.reopenFailed = false → s.timed = false →
    s.pc = .first ∨ s.pc = .firstWait ∨ s.pc = .firstClose ∨ s.pc = .firstOpen ∨ s.pc = .setTimed
  untimed : s.pc = .first ∨ s.pc = .firstWait ∨ s.pc = .firstClose ∨ s.pc = .firstOpen ∨ s.pc = .setTimed → s.timed = false
  block : s.ctl ≠ .idle → s.ctl ≠ .block → s.block = false
  cancelled : s.ctl = .alive ∨ s.ctl = .clear ∨ s.ctl = .join ∨ s.ctl = .returned → s.pc = .setNone ∨ s.pc = .first ∨ s.pc = .firstWait →
    s.cancelled = true ∨ s.isOpen = false
  go : s.ctl = .join → s.go = false
  dead : s.pc = .dead → s.isOpen = false
  opening : s.pc = .firstOpen ∨ s.pc = .restOpen → s.isOpen = false
  returned : s.ctl = .returned → s.pc = .dead

theorem rInv_step {s s' : RtuLife} {e : REv} (hi : RInv s) (he : rtuLifeStep true s e = some s') : RInv s' := by
  obtain ⟨h1, h2, h3, h4, h5, h6, h7, h8, h9⟩ := hi
  cases e with
  | callStop =>
    simp only [rtuLifeStep] at he
    constructor <;> grind
  | control =>
    simp only [rtuLifeStep, rtuStopAct, RPc.waiting] at he
    cases hc : s.ctl <;> simp only [hc] at he <;> constructor <;> grind
  | thread line =>
    simp only [rtuLifeStep, rtuThreadAct] at he
    cases hc : s.pc <;> simp only [hc] at he <;> cases line <;> constructor <;> grind

theorem rInv_run {es : List REv} {s s' : RtuLife} (hi : RInv s) (h : rtuLifeRun true s es = some s') : RInv s' := by
  induction es generalizing s with
  | nil => cases h; exact hi
  | cons e es ih =>
    simp only [rtuLifeRun] at h
    cases he : rtuLifeStep true s e with
    | none => rw [he] at h; cases h
    | some s1 => rw [he] at h; exact ih (rInv_step hi he) h

theorem rInv_after {es : List REv} {s : RtuLife} (h : RtuAfter true es s) : RInv s := by
  obtain ⟨o, h⟩ := h
  refine rInv_run ?_ h
  constructor <;> simp

theorem quiet_act {s : RtuLife} (hi : RInv s) (hf : s.reopenFailed = false) (hc : s.ctl = .alive ∨ s.ctl = .clear ∨ s.ctl = .join)
    (hd : s.pc ≠ .dead) : ∃ s', rtuLifeStep true s (.thread .quiet) = some s' ∧ s'.reopenFailed = false ∧ s'.ctl = s.ctl := by
  obtain ⟨h1, h2, h3, h4, h5, h6, h7, h8, h9⟩ := hi
  have hsome : (rtuLifeStep true s (.thread .quiet)).isSome = true := by
    simp only [rtuLifeStep, rtuThreadAct]
    cases hp : s.pc <;> simp only [hp] <;> grind
  obtain ⟨s', hs'⟩ := Option.isSome_iff_exists.mp hsome
  refine ⟨s', hs', ?_⟩
  simp only [rtuLifeStep, rtuThreadAct] at hs'
  cases hp : s.pc <;> simp only [hp] at hs' <;> grind

/-- **C59 (part).** With sticky cancellation (POSIX) and as long as reopening the port never failed: from the moment `stop` has cancelled
    the reading, however the threads are scheduled and whatever the line does, the server thread never waits for the line: it has ended or
    it can do its next action although nothing arrives.
    Missing: on a platform where `cancel_read` only ends a pending `read` this is false (`C59_false_not_sticky`), and so it is when
    reopening a failed port raised (`C59_false_reopen`). -/
theorem C59_never_waits_partial (es : List REv) (s : RtuLife) (h : RtuAfter true es s) (hf : s.reopenFailed = false)
    (hc : s.ctl = .alive ∨ s.ctl = .clear ∨ s.ctl = .join) : s.pc = .dead ∨ ∃ s', rtuLifeStep true s (.thread .quiet) = some s' := by
  by_cases hd : s.pc = .dead
  · exact .inl hd
  · obtain ⟨s', h', -⟩ := quiet_act (rInv_after h) hf hc hd
    exact .inr ⟨s', h'⟩

/-- actions the server thread can still do, when `_go` is cleared and nothing arrives -/
def RPc.rank : RPc → Nat
  | .dead => 0
  | .exit => 1
  | .init => 3
  | .test => 2
  | .answer => 3
  | .restOpen => 4
  | .restClose => 5
  | .restWait => 6
  | .rest => 7
  | .setTimed => 8
  | .firstOpen => 9
  | .firstClose => 10
  | .firstWait => 11
  | .first => 12
  | .setNone => 13
  | .loadBlock => 14

theorem rank_step {s s' : RtuLife} {e : REv} (hg : s.go = false) (he : rtuLifeStep true s e = some s') :
    s'.go = false ∧ s'.pc.rank + threadCount [e] ≤ s.pc.rank + 2 * dataCount [e] := by
  cases e with
  | callStop => simp only [rtuLifeStep] at he; simp [threadCount, dataCount]; grind
  | control =>
    simp only [rtuLifeStep, rtuStopAct] at he
    simp [threadCount, dataCount]
    cases hc : s.ctl <;> simp only [hc] at he <;> grind
  | thread line =>
    simp only [rtuLifeStep, rtuThreadAct] at he
    cases hc : s.pc <;> simp only [hc] at he <;> cases line <;> simp [threadCount, dataCount] <;> grind [RPc.rank]

theorem threadCount_cons (e : REv) (es : List REv) : threadCount (e :: es) = threadCount [e] + threadCount es := by
  cases e <;> simp [threadCount]; omega

theorem dataCount_cons (e : REv) (es : List REv) : dataCount (e :: es) = dataCount [e] + dataCount es := by
  simp [dataCount, List.count_cons]; omega

theorem rank_run {es : List REv} {s s' : RtuLife} (hg : s.go = false) (h : rtuLifeRun true s es = some s') :
    s'.pc.rank + threadCount es ≤ s.pc.rank + 2 * dataCount es := by
  induction es generalizing s with
  | nil => cases h; simp [threadCount, dataCount]
  | cons e es ih =>
    simp only [rtuLifeRun] at h
    cases he : rtuLifeStep true s e with
    | none => rw [he] at h; cases h
    | some s1 =>
      rw [he] at h
      obtain ⟨a, b⟩ := rank_step hg he
      have := ih a h
      rw [threadCount_cons, dataCount_cons]
      omega

/-- **C59 (part).** When `stop` waits for the thread, the thread does at most 14 more actions, and two for every time bytes arrive. -/
theorem C59_bounded_partial (es es' : List REv) (s s' : RtuLife) (h : RtuAfter true es s) (hc : s.ctl = .join)
    (h' : rtuLifeRun true s es' = some s') : threadCount es' ≤ 14 + 2 * dataCount es' := by
  have hr := rank_run ((rInv_after h).go hc) h'
  have : s.pc.rank ≤ 14 := by cases s.pc <;> decide
  omega

/-- **C59 (part).** So on a line that stays silent `stop` returns: the thread alone needs at most 14 actions to end, then `join` returns,
    and the port is closed. -/
theorem C59_stop_returns_partial (es : List REv) (s : RtuLife) (h : RtuAfter true es s) (hf : s.reopenFailed = false) (hc : s.ctl = .join) :
    ∃ n s', n ≤ 14 ∧ rtuLifeRun true s (List.replicate n (.thread .quiet) ++ [.control]) = some s' ∧ s'.ctl = .returned ∧ s'.pc = .dead ∧
      s'.isOpen = false := by
  have key : ∀ (k : Nat) (s : RtuLife), s.pc.rank ≤ k → RInv s → s.reopenFailed = false → s.ctl = .join →
      ∃ n s', n ≤ k ∧ rtuLifeRun true s (List.replicate n (.thread .quiet) ++ [.control]) = some s' ∧ s'.ctl = .returned ∧ s'.pc = .dead ∧
        s'.isOpen = false := by
    intro k
    induction k with
    | zero =>
      intro s hr hi hf hc
      have hd : s.pc = .dead := by cases hp : s.pc <;> rw [hp] at hr <;> simp [RPc.rank] at hr ⊢
      exact ⟨0, { s with ctl := .returned }, by omega, by simp [rtuLifeRun, rtuLifeStep, rtuStopAct, hc, hd], rfl, hd, hi.dead hd⟩
    | succ k ih =>
      intro s hr hi hf hc
      by_cases hd : s.pc = .dead
      · exact ⟨0, { s with ctl := .returned }, by omega, by simp [rtuLifeRun, rtuLifeStep, rtuStopAct, hc, hd], rfl, hd, hi.dead hd⟩
      · obtain ⟨s1, e1, f1, c1⟩ := quiet_act hi hf (.inr (.inr hc)) hd
        rw [hc] at c1
        have hrk := (rank_step (hi.go hc) e1).2
        simp [threadCount, dataCount] at hrk
        obtain ⟨n, s', a1, a2, a3⟩ := ih s1 (by omega) (rInv_step hi e1) f1 c1
        refine ⟨n + 1, s', by omega, ?_, a3⟩
        rw [List.replicate_succ, List.cons_append, rtuLifeRun, e1]
        exact a2
  exact key 14 s (by cases s.pc <;> decide) (rInv_after h) hf hc

/-- the places where the port is not yet, no longer or just not open: before `_do_init`, between `close()` and `open()`, and after the end -/
def RPc.portClosed (p : RPc) : Prop := p = .init ∨ p = .firstOpen ∨ p = .restOpen ∨ p = .dead

structure PInv (s : RtuLife) : Prop where
  opened : s.reopenFailed = false → ¬ s.pc.portClosed → s.isOpen = true
  closed : s.pc = .dead → s.isOpen = false
  waits : s.pc.waiting → s.isOpen = true
  returned : s.ctl = .returned → s.pc = .dead

theorem pInv_step {sticky : Bool} {s s' : RtuLife} {e : REv} (hi : PInv s) (he : rtuLifeStep sticky s e = some s') : PInv s' := by
  obtain ⟨h1, h2, h3, h4⟩ := hi
  simp only [RPc.portClosed, RPc.waiting] at h1 h3
  cases e with
  | callStop =>
    simp only [rtuLifeStep] at he
    constructor <;> (try simp only [RPc.portClosed, RPc.waiting]) <;> grind
  | control =>
    simp only [rtuLifeStep, rtuStopAct, RPc.waiting] at he
    cases hc : s.ctl <;> simp only [hc] at he <;> constructor <;> (try simp only [RPc.portClosed, RPc.waiting]) <;> grind
  | thread line =>
    simp only [rtuLifeStep, rtuThreadAct] at he
    cases hc : s.pc <;> simp only [hc] at he <;> cases line <;> constructor <;> (try simp only [RPc.portClosed, RPc.waiting]) <;> grind

theorem pInv_after {sticky : Bool} {es : List REv} {s : RtuLife} (h : RtuAfter sticky es s) : PInv s := by
  obtain ⟨o, h⟩ := h
  have key : ∀ (es : List REv) (s s' : RtuLife), PInv s → rtuLifeRun sticky s es = some s' → PInv s' := by
    intro es
    induction es with
    | nil => intro s s' hi h; cases h; exact hi
    | cons e es ih =>
      intro s s' hi h
      simp only [rtuLifeRun] at h
      cases he : rtuLifeStep sticky s e with
      | none => rw [he] at h; cases h
      | some s1 => rw [he] at h; exact ih _ _ (pInv_step hi he) h
  refine key es _ s ?_ h
  constructor <;> simp [RPc.portClosed, RPc.waiting]

/-- **C59.** Meanwhile, on both platforms, the port is open at every place of the loop of the server except between a `close()` and its
    `open()`, unless an `open()` has failed: the thread waits only for an open port, and a failed device is open again before it is read. -/
theorem C59_port_open (sticky : Bool) (es : List REv) (s : RtuLife) (h : RtuAfter sticky es s) :
    (s.pc.waiting → s.isOpen = true) ∧ (s.reopenFailed = false → ¬ s.pc.portClosed → s.isOpen = true) :=
  ⟨(pInv_after h).waits, (pInv_after h).opened⟩

/-- **C59.** When `stop` has returned the thread has ended and the port is closed; on both platforms, and whether or not a reopening failed. -/
theorem C59_closed (sticky : Bool) (es : List REv) (s : RtuLife) (h : RtuAfter sticky es s) (hc : s.ctl = .returned) :
    s.pc = .dead ∧ s.isOpen = false := by
  have hi := pInv_after h
  exact ⟨hi.returned hc, hi.closed (hi.returned hc)⟩

/-! ### Concrete cases -/

/-- a server waiting for a byte on a silent line, then `stop` -/
def exStopWaiting : List REv :=
  [.thread .quiet, .thread .quiet, .thread .quiet, .thread .quiet, .thread .quiet, .callStop, .control, .control, .control, .control, .control]

example : ∃ s, RtuAfter true exStopWaiting s ∧ s.pc = .firstWait ∧ s.ctl = .join ∧ s.reopenFailed = false :=
  ⟨_, ⟨true, rfl⟩, rfl, rfl, rfl⟩

-- a device that fails is open again before the next reading
example : ∃ s, RtuAfter false (exStopWaiting.take 5 ++ [.thread .fail, .thread .quiet, .thread .quiet]) s ∧ s.pc = .setTimed ∧
    s.reopenFailed = false ∧ s.isOpen = true := ⟨_, ⟨false, rfl⟩, rfl, rfl, rfl⟩

-- without `cancel_read` that thread has to wait
example : rtuLifeStep true { pc := .firstWait, timed := false, isOpen := true } (.thread .quiet) = none := rfl

/-- the thread is about to call `read(1)`; `stop` runs up to `join`; the thread calls `read(1)` -/
def exNotSticky : List REv :=
  [.thread .quiet, .thread .quiet, .thread .quiet, .thread .quiet, .callStop, .control, .control, .control, .control, .control, .thread .quiet]

/-- a `stop` that waits for ever: as long as nothing arrives and the device does not fail, neither thread can do anything -/
def Stuck (sticky : Bool) (s : RtuLife) : Prop :=
  s.ctl = .join ∧ s.pc ≠ .dead ∧ ∀ e, e ≠ .thread .data → e ≠ .thread .fail → rtuLifeStep sticky s e = none

/-- **C59 is false** where `cancel_read` only ends a pending `read`: the flag `_block_on_first_byte` is read long before the call. -/
theorem C59_false_not_sticky : ∃ s, RtuAfter false exNotSticky s ∧ s.reopenFailed = false ∧ Stuck false s := by
  refine ⟨_, ⟨true, rfl⟩, rfl, rfl, by decide, ?_⟩
  intro e h1 h2
  match e with
  | .callStop => rfl
  | .control => rfl
  | .thread .quiet => rfl
  | .thread .data => exact absurd rfl h1
  | .thread .fail => exact absurd rfl h2

/-- The device fails and cannot be reopened at once, which leaves `serial.timeout` at None; `stop` finds the port closed and does not cancel
    anything; the port is reopened, and `read(128)` waits without time-out. -/
def exReopen : List REv :=
  [.thread .quiet, .thread .quiet, .thread .quiet, .thread .quiet, .thread .quiet, .thread .fail, .thread .quiet, .thread .fail,
   .callStop, .control, .control, .thread .quiet, .thread .quiet, .thread .quiet, .thread .quiet, .thread .quiet, .thread .quiet,
   .thread .quiet, .thread .quiet, .thread .quiet, .control, .control]

/-- **C59 is false** when reopening the port has failed once. -/
theorem C59_false_reopen : ∃ s, RtuAfter true exReopen s ∧ Stuck true s := by
  refine ⟨_, ⟨true, rfl⟩, rfl, by decide, ?_⟩
  intro e h1 h2
  match e with
  | .callStop => rfl
  | .control => rfl
  | .thread .quiet => rfl
  | .thread .data => exact absurd rfl h1
  | .thread .fail => exact absurd rfl h2

end Modbus
