import Verif.Model.Interrupts
import Verif.Props.CloseRace
/-
# C104: interrupted calls of a master
-/
namespace Modbus

/-! ## the lock -/

/-- the owner of the lock is a thread inside `execute` -/
def RtuRace.LockHeld (s : RtuRace) : Prop := ∀ t, s.owner = some t → (s.place t).inCall = true

theorem lockHeld_goto {s : RtuRace} (h : s.LockHeld) (t : Nat) (p : RtuPlace) (hp : p.inCall = true ∨ s.owner ≠ some t) : (s.goto t p).LockHeld := by
  intro u hu
  rw [rr_goto_place]
  split
  · rename_i he
    rcases hp with hp | hp
    · exact hp
    · exact absurd (he ▸ hu) hp
  · exact h u hu

theorem lockHeld_done {s : RtuRace} (h : s.LockHeld) (t : Nat) (o : RaceObs) : (s.done t o).LockHeld := by
  intro u hu
  rw [rr_done_owner] at hu
  rw [rr_done_place]
  split at hu
  · cases hu
  · rename_i hne
    split
    · rename_i he
      exact absurd (he ▸ hu) hne
    · exact h u hu

theorem lockHeld_step {s s' : RtuRace} {e : RtuIntEv} (h : s.LockHeld) (he : rtuIntStep s e = some s') : s'.LockHeld := by
  have notOwner : ∀ t, (s.place t).inCall = false → s.owner ≠ some t := fun t hf ho => by rw [h t ho] at hf; cases hf
  cases e with
  | interrupt t =>
    simp only [rtuIntStep] at he
    cases ho : (s.place t).op with
    | none => rw [ho] at he; cases he
    | some o => rw [ho] at he; cases he; exact lockHeld_done h t _
  | ev e =>
    cases e with
    | callOpen t | callClose t | callExecute t =>
      simp only [rtuIntStep, rtuRaceStep] at he
      split at he <;> cases he
      rename_i hi
      exact lockHeld_goto h t _ (.inr (notOwner t (by rw [hi]; rfl)))
    | act t ok =>
      simp only [rtuIntStep, rtuRaceStep] at he
      unfold rtuAct at he
      have hno := notOwner t
      split at he
      all_goals (rename_i hq; rw [hq] at hno)
      · cases he
      · split at he <;> cases he
        intro u hu
        rw [rr_goto_place]
        split
        · rfl
        · rename_i hne
          exact absurd (Option.some.inj hu).symm hne
      · rename_i c
        split at he <;> cases he
        · cases c
          · exact lockHeld_done h t _
          · exact lockHeld_goto h t _ (.inl rfl)
        · cases c
          · exact lockHeld_goto h t _ (.inr (hno rfl))
          · exact lockHeld_goto h t _ (.inl rfl)
      · rename_i c
        cases he
        cases c
        · exact lockHeld_goto h t _ (.inr (hno rfl))
        · split <;> exact lockHeld_goto h t _ (.inl rfl)
      · rename_i c
        split at he
        · cases he; exact lockHeld_done h t _
        · split at he <;> cases he
          · cases c
            · exact lockHeld_goto (s := { s with portOpen := true }) h t _ (.inr (hno rfl))
            · exact lockHeld_goto (s := { s with portOpen := true }) h t _ (.inl rfl)
          · exact lockHeld_done h t _
      · rename_i c
        cases he
        cases c
        · exact lockHeld_done (s := { s with opened := true }) h t _
        · exact lockHeld_goto (s := { s with opened := true }) h t _ (.inl rfl)
      · split at he <;> cases he
        · exact lockHeld_goto h t _ (.inl rfl)
        · exact lockHeld_done h t _
      · cases he; exact lockHeld_done h t _
      · split at he <;> cases he
        · exact lockHeld_goto h t _ (.inr (hno rfl))
        · exact lockHeld_done h t _
      · split at he <;> cases he
        · exact lockHeld_goto h t _ (.inr (hno rfl))
        · exact lockHeld_done h t _
      · cases he
        exact lockHeld_goto (s := { s with portOpen := false }) h t _ (.inr (hno rfl))
      · cases he
        exact lockHeld_done (s := { s with opened := false }) h t _

/-- **C104.** Whatever any number of threads do with an `RtuMaster` and wherever they are interrupted: the lock of `execute` belongs to a thread that is
    inside `execute`, so it is free when no `execute` is in progress. -/
theorem C104_rtu_lock (es : List RtuIntEv) (s s' : RtuRace) (h0 : s.owner = none) (hr : rtuIntRun s es = some s') (t : Nat)
    (ht : s'.owner = some t) : s'.place t ≠ .idle := by
  have main : ∀ (es : List RtuIntEv) (s1 s' : RtuRace), s1.LockHeld → rtuIntRun s1 es = some s' → s'.LockHeld := by
    intro es
    induction es with
    | nil => intro s1 s' h1 hr; cases hr; exact h1
    | cons e es ih =>
      intro s1 s' h1 hr
      unfold rtuIntRun at hr
      cases he : rtuIntStep s1 e with
      | none => rw [he] at hr; cases hr
      | some s2 => rw [he] at hr; exact ih s2 s' (lockHeld_step h1 he) hr
  have := main es s s' (fun u hu => by rw [h0] at hu; cases hu) hr t ht
  intro hi
  rw [hi] at this
  cases this

/-! ## RtuMaster: interrupted calls -/

theorem tidy_interrupt {c t : Nat} {s : RtuRace} {o : RaceObs} (h : s.Tidy true c) (ht : t ≠ c) : (s.done t o).Tidy true c := by
  obtain ⟨h1, h2, h3, h4, h5, h6, h7, h8, h9, h10, h11⟩ := h
  have hp : (s.done t o).place c = s.place c := by rw [rr_done_place, if_neg (Ne.symm ht)]
  refine ⟨?_, ?_, ?_, ?_, ?_, ?_, ?_, ?_, ?_, ?_, fun h => by cases h⟩
  · intro u hu
    rw [rr_done_place] at hu
    split at hu
    · cases hu
    · rename_i hne
      rw [rr_done_owner, if_neg (by rw [h1 u hu]; exact fun h => hne (Option.some.inj h))]
      exact h1 u hu
  · intro u hu
    rw [rr_done_place] at hu
    split at hu
    · rcases hu with hu | hu <;> cases hu
    · exact h2 u hu
  · intro u
    rw [rr_done_place]
    split
    · rfl
    · exact h3 u
  · intro u hu
    rw [rr_done_place] at hu
    split at hu
    · cases hu
    · exact h4 u hu
  · rw [hp]; exact h5
  · rw [hp]; exact h6
  · rw [hp]; exact h7
  · rw [hp]; exact h8
  · intro u hu
    rw [rr_done_place] at hu
    split at hu
    · cases hu
    · exact h9 u hu
  · intro u hu
    rw [rr_done_place] at hu
    split at hu
    · cases hu
    · exact h10 u hu

/-- the program: nobody calls `open`, only thread `c` calls `close`, and is not interrupted -/
def OneSafeCloser (c : Nat) (es : List RtuIntEv) : Prop :=
  (∀ t, .ev (.callOpen t) ∉ es) ∧ (∀ t, .ev (.callClose t) ∈ es → t = c) ∧ .interrupt c ∉ es

/-- **C104.** An `RtuMaster` nobody opens by hand and one thread - that is not interrupted - closes: however often and wherever `execute` is interrupted, in any
    number of threads: whenever no `close` is in progress, a master that counts as open has an open port.  Then the next call works (`C103_rtu_works`). -/
theorem C104_rtu (p0 : Bool) (c : Nat) (es : List RtuIntEv) (hc : OneSafeCloser c es) (s : RtuRace)
    (hr : rtuIntRun { portOpen := p0 } es = some s) (hcl : (s.place c).closing = false) (ho : s.opened = true) : s.portOpen = true := by
  have main : ∀ (es : List RtuIntEv) (s1 s' : RtuRace), OneSafeCloser c es → s1.Tidy true c → rtuIntRun s1 es = some s' → s'.Tidy true c := by
    intro es
    induction es with
    | nil => intro s1 s' _ h1 hr; cases hr; exact h1
    | cons e es ih =>
      intro s1 s' h h1 hr
      unfold rtuIntRun at hr
      cases he : rtuIntStep s1 e with
      | none => rw [he] at hr; cases hr
      | some s2 =>
        rw [he] at hr
        refine ih s2 s' ⟨fun t ht => h.1 t (List.mem_cons_of_mem _ ht), fun t ht => h.2.1 t (List.mem_cons_of_mem _ ht),
          fun ht => h.2.2 (List.mem_cons_of_mem _ ht)⟩ ?_ hr
        cases e with
        | ev e =>
          exact race_tidy_step h1 (fun t ht => h.1 t (ht ▸ List.mem_cons_self)) (fun t ht => h.2.1 t (ht ▸ List.mem_cons_self)) he
        | interrupt t =>
          simp only [rtuIntStep] at he
          cases hop : (s1.place t).op with
          | none => rw [hop] at he; cases he
          | some o =>
            rw [hop] at he
            cases he
            exact tidy_interrupt h1 (fun ht => h.2.2 (ht ▸ List.mem_cons_self))
  have h0 : RtuRace.Tidy true c { portOpen := p0 } := by
    obtain ⟨h1, h2, h3, h4, h5, h6, h7, h8, h9, h10, _⟩ := race_tidy_init p0 c
    exact ⟨h1, h2, h3, h4, h5, h6, h7, h8, h9, h10, fun h => by cases h⟩
  exact (main es _ s hc h0 hr).flag ho (fun hp => by rw [hp] at hcl; cases hcl)

/-- the thread an event concerns -/
def RtuIntEv.thread : RtuIntEv → Nat
  | .ev e => e.thread
  | .interrupt t => t

theorem int_place_run (es : List RtuIntEv) {s s' : RtuRace} {u : Nat} (hu : ∀ e ∈ es, u ≠ e.thread) (hr : rtuIntRun s es = some s') :
    s'.place u = s.place u := by
  induction es generalizing s with
  | nil => cases hr; rfl
  | cons e es ih =>
    unfold rtuIntRun at hr
    cases he : rtuIntStep s e with
    | none => rw [he] at hr; cases hr
    | some s1 =>
      rw [he] at hr
      rw [ih (fun e he => hu e (List.mem_cons_of_mem _ he)) hr]
      have hue := hu e List.mem_cons_self
      cases e with
      | ev e => exact race_place_step hue he
      | interrupt t =>
        have hut : u ≠ t := hue
        simp only [rtuIntStep] at he
        cases ho : (s.place t).op with
        | none => rw [ho] at he; cases he
        | some o => rw [ho] at he; cases he; rw [rr_done_place, if_neg hut]

/-- one thread: a call, and a `close` that is interrupted after closing the port -/
def exIntClose : List RtuIntEv :=
  (.ev (.callExecute 1) :: (rtuActs 1 7).map .ev) ++ (.ev (.callClose 1) :: (rtuActs 1 3).map .ev) ++ [.interrupt 1]

/-- **An interrupted `close` may end an `RtuMaster`**: one thread, no `open` by hand; the interrupt falls between `self._serial.close()` and
    `self._is_opened = False`.  The master counts as open, its port is closed, and (`C103_rtu_bricked`) no call will ever return. -/
theorem C104_rtu_false_close :
    ∃ s, rtuIntRun {} exIntClose = some s ∧ s.Bricked ∧ s.place 1 = .idle ∧ s.owner = none ∧
      s.log = [.returned 1 .execute, .raised 1 .close] := by
  have hp : ∀ t s, rtuIntRun {} exIntClose = some s → s.place t = .idle := by
    intro t s hs
    by_cases h1 : t = 1
    · subst h1; rw [← Option.some.inj hs]; rfl
    · refine int_place_run exIntClose (fun e he => ?_) hs
      have : ∀ e ∈ exIntClose, e.thread = 1 := by decide
      rw [this e he]
      exact h1
  exact ⟨_, rfl, ⟨rfl, rfl, fun t => .inl (hp t _ rfl)⟩, rfl, rfl, rfl⟩

/-! ## TcpMaster -/

/-- the places of `TcpMaster.execute` after taking the lock -/
def TcpPlace.inCall : TcpPlace → Bool
  | .openTest w | .oldTest w | .oldClose w | .create w | .options w | .connect w | .connecting w _ | .setOpened w => w ≠ .user
  | .flush | .send | .recv | .receiving _ => true
  | _ => false

/-- the places of `_do_open` after closing the old socket -/
def TcpPlace.creating : TcpPlace → Bool
  | .create _ => true
  | _ => false

/-- the invariant of programs that only call `execute` -/
structure TcpRace.NoLeak (s : TcpRace) : Prop where
  lock : ∀ t, s.place t ≠ .idle → s.place t ≠ .lock → (s.place t).inCall = true ∧ s.owner = some t
  held : ∀ t, s.owner = some t → s.place t ≠ .idle ∧ s.place t ≠ .lock
  bound : ∀ k, s.sock = some k → k < s.next
  others : ∀ k, k < s.next → s.sock ≠ some k → s.socks k = .closed
  old : ∀ t k, (s.place t).creating = true → s.sock = some k → s.socks k = .closed
  conn : ∀ t w k, s.place t = .connecting w k → s.sock = some k

theorem leak_done {s : TcpRace} (h : s.NoLeak) (t : Nat) (o : RaceObs) : (s.done t o).NoLeak := by
  obtain ⟨h1, h2, h3, h4, h5, h6⟩ := h
  refine ⟨?_, ?_, h3, h4, ?_, ?_⟩
  · intro u hu hl
    rw [tr_done_place] at hu hl ⊢
    split at hu
    · exact absurd rfl hu
    · rename_i hne
      rw [if_neg hne] at hl ⊢
      obtain ⟨a, b⟩ := h1 u hu hl
      refine ⟨a, ?_⟩
      show (if s.owner = some t then none else s.owner) = some u
      rw [if_neg (by rw [b]; exact fun h => hne (Option.some.inj h)), b]
  · intro u hu
    have hu' : (if s.owner = some t then none else s.owner) = some u := hu
    split at hu'
    · cases hu'
    · rename_i hne
      have : u ≠ t := fun he => hne (he ▸ hu')
      rw [tr_done_place, if_neg this]
      exact h2 u hu'
  · intro u k hu
    rw [tr_done_place] at hu
    split at hu
    · cases hu
    · exact h5 u k hu
  · intro u w k hu
    rw [tr_done_place] at hu
    split at hu
    · cases hu
    · exact h6 u w k hu

/-- thread `t` goes on inside `execute`; the others are outside -/
theorem leak_move {s s' : TcpRace} {t : Nat} {p : TcpPlace} (hout : ∀ u, u ≠ t → s.place u = .idle ∨ s.place u = .lock)
    (hown : s'.owner = some t) (hpl : s'.place = Function.update s.place t p) (hp : p.inCall = true)
    (hb : ∀ k, s'.sock = some k → k < s'.next) (ho : ∀ k, k < s'.next → s'.sock ≠ some k → s'.socks k = .closed)
    (hc : p.creating = true → ∀ k, s'.sock = some k → s'.socks k = .closed) (hk : ∀ w k, p = .connecting w k → s'.sock = some k) : s'.NoLeak := by
  have hpu : ∀ u, s'.place u = if u = t then p else s.place u := fun u => by rw [hpl]; exact Function.update_apply ..
  have hn : p ≠ .idle ∧ p ≠ .lock := ⟨(fun h => by rw [h] at hp; cases hp), (fun h => by rw [h] at hp; cases hp)⟩
  refine ⟨?_, ?_, hb, ho, ?_, ?_⟩
  · intro u hu hl
    rw [hpu] at hu hl ⊢
    split at hu
    · rename_i he; rw [if_pos he, he]; exact ⟨hp, hown⟩
    · rename_i hne
      rw [if_neg hne] at hl
      rcases hout u hne with h | h
      · exact absurd h hu
      · exact absurd h hl
  · intro u hu
    rw [hown] at hu
    rw [hpu, if_pos (Option.some.inj hu).symm]
    exact hn
  · intro u k hu
    rw [hpu] at hu
    split at hu
    · exact hc hu k
    · rename_i hne
      rcases hout u hne with h | h <;> (rw [h] at hu; cases hu)
  · intro u w k hu
    rw [hpu] at hu
    split at hu
    · exact hk w k hu
    · rename_i hne
      rcases hout u hne with h | h <;> (rw [h] at hu; cases hu)

theorem leak_step {s s' : TcpRace} {e : TcpIntEv} (h : s.NoLeak) (ho : ∀ t, e ≠ .ev (.callOpen t)) (hc : ∀ t, e ≠ .ev (.callClose t))
    (he : tcpIntStep s e = some s') : s'.NoLeak := by
  cases e with
  | interrupt t =>
    simp only [tcpIntStep] at he
    cases ho : (s.place t).op with
    | none => rw [ho] at he; cases he
    | some o => rw [ho] at he; cases he; exact leak_done h t _
  | ev e =>
    cases e with
    | callOpen t => exact absurd rfl (ho t)
    | callClose t => exact absurd rfl (hc t)
    | callExecute t =>
      simp only [tcpIntStep, tcpRaceStep] at he
      split at he <;> cases he
      rename_i hi
      obtain ⟨h1, h2, h3, h4, h5, h6⟩ := h
      refine ⟨?_, ?_, h3, h4, ?_, ?_⟩
      · intro u hu hl
        rw [tr_goto_place] at hu hl ⊢
        split at hu
        · rename_i he; rw [if_pos he] at hl; exact absurd rfl hl
        · rename_i hne
          rw [if_neg hne] at hl ⊢
          exact h1 u hu hl
      · intro u hu
        have : u ≠ t := fun he => (h2 u hu).1 (he ▸ hi)
        rw [tr_goto_place, if_neg this]
        exact h2 u hu
      · intro u k hu
        rw [tr_goto_place] at hu
        split at hu
        · cases hu
        · exact h5 u k hu
      · intro u w k hu
        rw [tr_goto_place] at hu
        split at hu
        · cases hu
        · exact h6 u w k hu
    | act t ok more =>
      simp only [tcpIntStep, tcpRaceStep] at he
      unfold tcpAct at he
      by_cases hidle : s.place t = .idle
      · rw [hidle] at he; cases he
      by_cases hlk : s.place t = .lock
      · rw [hlk] at he
        dsimp only at he
        split at he <;> cases he
        rename_i hn
        refine leak_move (fun u hu => ?_) rfl rfl rfl h.bound h.others (fun h => by cases h) (fun _ _ h => by cases h)
        by_cases h1 : s.place u = .idle
        · exact .inl h1
        by_cases h2 : s.place u = .lock
        · exact .inr h2
        have := (h.lock u h1 h2).2
        rw [hn] at this
        cases this
      obtain ⟨hin, hown⟩ := h.lock t hidle hlk
      have hout : ∀ u, u ≠ t → s.place u = .idle ∨ s.place u = .lock := fun u hu => by
        by_cases h1 : s.place u = .idle
        · exact .inl h1
        by_cases h2 : s.place u = .lock
        · exact .inr h2
        have := (h.lock u h1 h2).2
        rw [hown] at this
        exact absurd (Option.some.inj this).symm hu
      have move : ∀ p : TcpPlace, p.inCall = true → p.creating = false → (∀ w k, p = .connecting w k → s.sock = some k) → (s.goto t p).NoLeak :=
        fun p hp hc hk => leak_move hout hown rfl hp h.bound h.others (fun h => by rw [hc] at h; cases h) hk
      have after : ∀ (s1 : TcpRace) (w : OpenFor), s1.NoLeak → s1.owner = s.owner → s1.place = s.place → w ≠ .user → (s1.afterOpen t w).NoLeak := by
        intro s1 w hs1 ho1 hp1 hw
        have hout1 : ∀ u, u ≠ t → s1.place u = .idle ∨ s1.place u = .lock := by rw [hp1]; exact hout
        cases w with
        | user => exact absurd rfl hw
        | call => exact leak_move hout1 (ho1.trans hown) rfl rfl hs1.bound hs1.others (fun h => by cases h) (fun _ _ h => by cases h)
        | resend => exact leak_move hout1 (ho1.trans hown) rfl rfl hs1.bound hs1.others (fun h => by cases h) (fun _ _ h => by cases h)
      have hold := fun k => h.old t k
      have hconn := fun w k => h.conn t w k
      split at he
      all_goals rename_i hq
      · exact absurd hq hidle
      · exact absurd hq hlk
      all_goals (rw [hq] at hin; first | cases hin; done | skip)
      · -- openTest
        rename_i w
        have hw : w ≠ .user := of_decide_eq_true hin
        cases he
        split
        · exact after s w h rfl rfl hw
        · exact move _ hin rfl (fun _ _ h => by cases h)
      · -- oldTest
        rename_i w
        cases he
        split
        · exact move _ hin rfl (fun _ _ h => by cases h)
        · rename_i hs
          refine leak_move hout hown rfl hin h.bound h.others (fun _ k hk => ?_) (fun _ _ h => by cases h)
          have hk' : s.sock = some k := hk
          rw [hk'] at hs
          exact absurd rfl hs
      · -- oldClose
        rename_i w
        split at he
        · cases he; exact leak_done h t _
        · rename_i k hk
          cases he
          refine leak_move hout hown rfl hin h.bound (fun j hj hne => ?_) (fun _ j hj => ?_) (fun _ _ h => by cases h)
          · show Function.update s.socks k .closed j = .closed
            rw [Function.update_apply]
            split
            · rfl
            · exact h.others j hj hne
          · show Function.update s.socks k .closed j = .closed
            have hj' : s.sock = some j := hj
            rw [hk] at hj'
            rw [Function.update_apply, if_pos (Option.some.inj hj').symm]
      · -- create
        rename_i w
        cases he
        refine leak_move hout hown rfl hin (fun k hk => ?_) (fun k hk hne => ?_) (fun h => by cases h) (fun _ _ h => by cases h)
        · have hk' : some s.next = some k := hk
          show k < s.next + 1
          have := Option.some.inj hk'
          omega
        · have hk' : k < s.next + 1 := hk
          have hne' : some s.next ≠ some k := hne
          have hkn : k ≠ s.next := fun h => hne' (by rw [h])
          show Function.update s.socks s.next .fresh k = .closed
          rw [Function.update_apply, if_neg hkn]
          by_cases hs : s.sock = some k
          · exact hold k (by rw [hq]; rfl) hs
          · exact h.others k (by omega) hs
      · -- options
        rename_i w
        split at he
        · cases he; exact leak_done h t _
        · cases he
          split
          · exact leak_done h t _
          · exact move _ hin rfl (fun _ _ h => by cases h)
      · -- connect
        rename_i w
        split at he
        · cases he; exact leak_done h t _
        · rename_i k hk
          cases he
          exact move _ hin rfl (fun w' k' hh => by cases hh; exact hk)
      · -- connecting
        rename_i w k
        have hw : w ≠ .user := of_decide_eq_true hin
        have hsk := hconn w k hq
        split at he
        · cases he
          have hoth : ∀ j, j < s.next → s.sock ≠ some j → Function.update s.socks k SockState.connected j = .closed := fun j hj hne => by
            rw [Function.update_apply, if_neg (fun hjk : j = k => hne (hjk.symm ▸ hsk))]
            exact h.others j hj hne
          split
          · exact leak_move hout hown rfl rfl h.bound hoth (fun h => by cases h) (fun _ _ h => by cases h)
          · exact leak_move hout hown rfl hin h.bound hoth (fun h => by cases h) (fun _ _ h => by cases h)
        · cases he; exact leak_done h t _
      · -- setOpened
        rename_i w
        have hw : w ≠ .user := of_decide_eq_true hin
        cases he
        exact after { s with opened := true } w ⟨h.lock, h.held, h.bound, h.others, h.old, h.conn⟩ rfl rfl hw
      · -- flush
        split at he
        · cases he; exact move _ rfl rfl (fun _ _ h => by cases h)
        · cases he
          split
          · exact move _ rfl rfl (fun _ _ h => by cases h)
          · exact move _ rfl rfl (fun _ _ h => by cases h)
      · -- send
        split at he
        · cases he; exact leak_done h t _
        · cases he
          split
          · exact leak_move hout hown rfl rfl h.bound h.others (fun h => by cases h) (fun _ _ h => by cases h)
          · exact leak_done h t _
      · -- recv
        split at he
        · cases he; exact leak_done h t _
        · cases he; exact move _ rfl rfl (fun _ _ h => by cases h)
      · -- receiving
        cases he
        split
        · split
          · exact move _ rfl rfl (fun _ _ h => by cases h)
          · exact leak_done h t _
        · exact leak_done h t _

/-- the program: the threads only call `execute` -/
def OnlyExecute (es : List TcpIntEv) : Prop := (∀ t, .ev (.callOpen t) ∉ es) ∧ ∀ t, .ev (.callClose t) ∉ es

/-- **C104.** Any number of threads that call `execute` of a new `TcpMaster`, interrupted however often and wherever, whatever the network does: of all the
    sockets the master has made, every one but the last is closed; the lock is free when no `execute` is in progress. -/
theorem C104_tcp (es : List TcpIntEv) (h : OnlyExecute es) (s : TcpRace) (hr : tcpIntRun {} es = some s) :
    (∀ k, k < s.next → s.sock ≠ some k → s.socks k = .closed) ∧ (∀ t, s.owner = some t → s.place t ≠ .idle) := by
  have main : ∀ (es : List TcpIntEv) (s1 s' : TcpRace), OnlyExecute es → s1.NoLeak → tcpIntRun s1 es = some s' → s'.NoLeak := by
    intro es
    induction es with
    | nil => intro s1 s' _ h1 hr; cases hr; exact h1
    | cons e es ih =>
      intro s1 s' h h1 hr
      unfold tcpIntRun at hr
      cases he : tcpIntStep s1 e with
      | none => rw [he] at hr; cases hr
      | some s2 =>
        rw [he] at hr
        exact ih s2 s' ⟨fun t ht => h.1 t (List.mem_cons_of_mem _ ht), fun t ht => h.2 t (List.mem_cons_of_mem _ ht)⟩
          (leak_step h1 (fun t ht => h.1 t (ht ▸ List.mem_cons_self)) (fun t ht => h.2 t (ht ▸ List.mem_cons_self)) he) hr
  have h0 : TcpRace.NoLeak {} :=
    ⟨fun _ h => absurd rfl h, (fun _ h => by cases h), (fun _ h => by cases h), (fun _ h => absurd h (Nat.not_lt_zero _)), (fun _ _ h => by cases h),
      (fun _ _ _ h => by cases h)⟩
  have hf := main es _ s h h0 hr
  exact ⟨hf.others, fun t ht => (hf.held t ht).1⟩

/-- **C104.** And then the next call works: in the state the interrupted calls have left, when no `execute` is in progress, a call of any thread on a network that
    does what it is asked sends its request on a connected socket and returns. -/
theorem C104_tcp_works (es : List TcpIntEv) (h : OnlyExecute es) (s : TcpRace) (hr : tcpIntRun {} es = some s) (hidle : ∀ t, s.place t = .idle) (t : Nat) :
    ∃ n, n ≤ 16 ∧ ∃ s', tcpRaceRun s (.callExecute t :: List.replicate n (.act t true false)) = some s' ∧
      s'.log = s.log ++ [.returned t .execute] ∧ s'.opened = true ∧ s'.owner = none ∧
      ∃ k, s'.sock = some k ∧ s'.socks k = .connected ∧ s'.sent = s.sent ++ [(t, k)] := by
  refine C103_tcp_works s t (hidle t) ?_
  cases ho : s.owner with
  | none => rfl
  | some u => exact absurd (hidle u) ((C104_tcp es h s hr).2 u ho)

/-- **C104.** The same for an `RtuMaster`. -/
theorem C104_rtu_works (p0 : Bool) (c : Nat) (es : List RtuIntEv) (hc : OneSafeCloser c es) (s : RtuRace) (hr : rtuIntRun { portOpen := p0 } es = some s)
    (hidle : ∀ t, s.place t = .idle) (t : Nat) :
    ∃ n, n ≤ 7 ∧ ∃ s', rtuRaceRun s (.callExecute t :: List.replicate n (.act t true)) = some s' ∧
      s'.log = s.log ++ [.returned t .execute] ∧ s'.opened = true ∧ s'.portOpen = true ∧ s'.owner = none := by
  refine C103_rtu_works s t (hidle t) ?_ (C104_rtu p0 c es hc s hr (by rw [hidle c]; rfl))
  cases ho : s.owner with
  | none => rfl
  | some u => exact absurd (hidle u) (C104_rtu_lock es _ s rfl hr u ho)

/-- the thread an event concerns -/
def TcpIntEv.thread : TcpIntEv → Nat
  | .ev e => e.thread
  | .interrupt t => t

theorem tint_place_run (es : List TcpIntEv) {s s' : TcpRace} {u : Nat} (hu : ∀ e ∈ es, u ≠ e.thread) (hr : tcpIntRun s es = some s') :
    s'.place u = s.place u := by
  induction es generalizing s with
  | nil => cases hr; rfl
  | cons e es ih =>
    unfold tcpIntRun at hr
    cases he : tcpIntStep s e with
    | none => rw [he] at hr; cases hr
    | some s1 =>
      rw [he] at hr
      rw [ih (fun e he => hu e (List.mem_cons_of_mem _ he)) hr]
      have hue := hu e List.mem_cons_self
      cases e with
      | ev e => exact tr_place_step hue he
      | interrupt t =>
        have hut : u ≠ t := hue
        simp only [tcpIntStep] at he
        cases ho : (s.place t).op with
        | none => rw [ho] at he; cases he
        | some o => rw [ho] at he; cases he; rw [tr_done_place, if_neg hut]

/-- a call interrupted while it connects, a second one interrupted while it waits for the answer, by another thread -/
def exTcpInt : List TcpIntEv :=
  (.ev (.callExecute 1) :: (tcpActs 1 6).map .ev) ++ [.interrupt 1] ++ (.ev (.callExecute 2) :: (tcpActs 2 11).map .ev) ++ [.interrupt 2]

/-- the hypotheses of `C104_tcp_works` are met by this program; the first socket is closed, the second one connected -/
theorem C104_tcp_example :
    OnlyExecute exTcpInt ∧ ∃ s, tcpIntRun {} exTcpInt = some s ∧ (∀ t, s.place t = .idle) ∧ s.log = [.raised 1 .execute, .raised 2 .execute] ∧
      s.next = 2 ∧ s.sock = some 1 ∧ s.socks 0 = .closed ∧ s.socks 1 = .connected ∧ s.sent = [(2, 1)] := by
  have hp : ∀ t s, tcpIntRun {} exTcpInt = some s → s.place t = .idle := by
    intro t s hs
    by_cases h1 : t = 1
    · subst h1; rw [← Option.some.inj hs]; rfl
    by_cases h2 : t = 2
    · subst h2; rw [← Option.some.inj hs]; rfl
    refine tint_place_run exTcpInt (fun e he => ?_) hs
    have : ∀ e ∈ exTcpInt, e.thread = 1 ∨ e.thread = 2 := by decide
    rcases this e he with h | h <;> rw [h] <;> assumption
  refine ⟨⟨fun t h => ?_, fun t h => ?_⟩, _, rfl, fun t => hp t _ rfl, rfl, rfl, rfl, rfl, rfl, rfl⟩
  · simp [exTcpInt, tcpActs] at h
  · simp [exTcpInt, tcpActs] at h

/-- a call interrupted after opening the port, then a call and a `close` -/
def exRtuInt : List RtuIntEv :=
  (.ev (.callExecute 1) :: (rtuActs 1 4).map .ev) ++ [.interrupt 1] ++ (.ev (.callExecute 1) :: (rtuActs 1 6).map .ev) ++
    (.ev (.callClose 2) :: (rtuActs 2 4).map .ev)

/-- the hypotheses of `C104_rtu` are met by this program: the interrupt leaves an open port of a master that does not count as open, the next call
    works, `close` closes the port -/
theorem C104_rtu_example :
    OneSafeCloser 2 exRtuInt ∧
    (∃ s, rtuIntRun {} (exRtuInt.take 6) = some s ∧ s.place 1 = .idle ∧ s.opened = false ∧ s.portOpen = true ∧ s.owner = none) ∧
    ∃ s, rtuIntRun {} exRtuInt = some s ∧ s.log = [.raised 1 .execute, .returned 1 .execute, .returned 2 .close] ∧ s.portOpen = false ∧ s.opened = false := by
  refine ⟨⟨fun t h => ?_, fun t h => ?_, by decide⟩, ⟨_, rfl, rfl, rfl, rfl, rfl⟩, _, rfl, rfl, rfl, rfl⟩
  · simp [exRtuInt, rtuActs] at h
  · simpa [exRtuInt, rtuActs] using h

end Modbus
