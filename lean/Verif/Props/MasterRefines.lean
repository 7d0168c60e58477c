import Verif.Props.ServerRefines
import Verif.Model.TcpMaster
/-
# C80: TCP masters with a clock do what TCP masters without a clock can do

Every history of a `TcpMaster` or an `RtuOverTcpMaster` with a clock (`Model/Clocked.lean`) is a history of the model without one (`Model/TcpMaster.lean`) on connections on
which the same segments arrive, with silences between them.  Hooks are arbitrary.
-/
namespace Modbus

/-! ## Following a computation -/

/-- the same result; a time-out while connecting is an OSError without further detail in the model without a clock -/
def SameResult {α : Type} (r r' : Except PyErr α) : Prop := r = r' ∨ (r = .error .timeout ∧ r' = .error .osError)

theorem SameResult.of_ok {α : Type} {a : α} {r : Except PyErr α} (h : SameResult (.ok a) r) : r = .ok a := by
  rcases h with h | ⟨h, _⟩
  · exact h.symm
  · cases h

theorem SameResult.of_error {α : Type} {e : PyErr} {r : Except PyErr α} (h : SameResult (.error e) r) : ∃ e', r = .error e' ∧ ∀ β, SameResult (.error e : Except PyErr β) (.error e') := by
  rcases h with h | ⟨h, h'⟩
  · exact ⟨e, h.symm, fun _ => .inl rfl⟩
  · cases h
    exact ⟨_, h', fun _ => .inr ⟨rfl, rfl⟩⟩

/-- How states with a clock (`σ`) correspond to states without (`τ`): such a state is made of a part that is known (`ξ`) and of what the environment will do (`ω`). -/
structure Sim (σ ξ τ ω : Type) where
  fill : ξ → ω → τ
  inv : σ → ξ → Prop
  adm : σ → ξ → ω → Prop

/-- The computation `f` with a clock, begun in `c`, is the computation `g` without one; for every future there is a present. -/
def Sim.Fol {σ ξ τ ω α : Type} (S : Sim σ ξ τ ω) (f : PyM σ α) (g : PyM τ α) (c : σ) (x : ξ) (P : Except PyErr α → σ → ξ → Prop) : Prop :=
  ∃ x', S.inv (f c).2 x' ∧ P (f c).1 (f c).2 x' ∧
    ∀ W', S.adm (f c).2 x' W' → ∃ W r, S.adm c x W ∧ SameResult (f c).1 r ∧ g (S.fill x W) = (r, S.fill x' W')

section
variable {σ ξ τ ω α β : Type} {S : Sim σ ξ τ ω}

theorem Sim.Fol.mono {f : PyM σ α} {g : PyM τ α} {c : σ} {x : ξ} {P Q : Except PyErr α → σ → ξ → Prop} (h : S.Fol f g c x P)
    (hq : ∀ r c x, P r c x → Q r c x) : S.Fol f g c x Q := by
  obtain ⟨x', h1, h2, h3⟩ := h
  exact ⟨x', h1, hq _ _ _ h2, h3⟩

theorem Sim.Fol.bind {f : PyM σ α} {g : PyM τ α} {k : α → PyM σ β} {k' : α → PyM τ β} {c : σ} {x : ξ} {P : Except PyErr α → σ → ξ → Prop}
    {Q : Except PyErr β → σ → ξ → Prop} (h : S.Fol f g c x P) (herr : ∀ e c x, P (.error e) c x → Q (.error e) c x)
    (hk : ∀ a c1 x1, f c = (.ok a, c1) → S.inv c1 x1 → P (.ok a) c1 x1 → S.Fol (k a) (k' a) c1 x1 Q) : S.Fol (f >>= k) (g >>= k') c x Q := by
  obtain ⟨x1, i1, p1, r1⟩ := h
  cases hf : f c with
  | mk r c1 =>
    rw [hf] at i1 p1 r1
    dsimp only at i1 p1 r1
    cases r with
    | error e =>
      refine ⟨x1, ?_, ?_, fun W' hW => ?_⟩
      · simp only [PyM.bind_apply, hf]; exact i1
      · simp only [PyM.bind_apply, hf]; exact herr _ _ _ p1
      · simp only [PyM.bind_apply, hf] at hW ⊢
        obtain ⟨W, r, h1, h2, h3⟩ := r1 W' hW
        obtain ⟨e', rfl, h4⟩ := h2.of_error
        exact ⟨W, .error e', h1, h4 _, by rw [h3]⟩
    | ok a =>
      obtain ⟨x2, i2, p2, r2⟩ := hk a c1 x1 hf i1 p1
      refine ⟨x2, ?_, ?_, fun W' hW => ?_⟩
      · simp only [PyM.bind_apply, hf]; exact i2
      · simp only [PyM.bind_apply, hf]; exact p2
      · simp only [PyM.bind_apply, hf] at hW ⊢
        obtain ⟨W1, q, h1, h2, h3⟩ := r2 W' hW
        obtain ⟨W, r, g1, g2, g3⟩ := r1 W1 h1
        cases g2.of_ok
        exact ⟨W, q, g1, h2, by rw [g3]; exact h3⟩

theorem Sim.Fol.tryExcept {f : PyM σ α} {g : PyM τ α} {k : PyErr → PyM σ α} {k' : PyErr → PyM τ α} {c : σ} {x : ξ} {P Q : Except PyErr α → σ → ξ → Prop}
    (h : S.Fol f g c x P) (hok : ∀ a c x, P (.ok a) c x → Q (.ok a) c x)
    (hk : ∀ e c1 x1, f c = (.error e, c1) → S.inv c1 x1 → P (.error e) c1 x1 → S.Fol (k e) (k' e) c1 x1 Q)
    (hany : ∀ e e', k' e = k' e') : S.Fol (PyM.tryExcept f k) (PyM.tryExcept g k') c x Q := by
  obtain ⟨x1, i1, p1, r1⟩ := h
  cases hf : f c with
  | mk r c1 =>
    rw [hf] at i1 p1 r1
    dsimp only at i1 p1 r1
    cases r with
    | ok a =>
      refine ⟨x1, ?_, ?_, fun W' hW => ?_⟩
      · simp only [PyM.tryExcept_apply, hf]; exact i1
      · simp only [PyM.tryExcept_apply, hf]; exact hok _ _ _ p1
      · simp only [PyM.tryExcept_apply, hf] at hW ⊢
        obtain ⟨W, r, h1, h2, h3⟩ := r1 W' hW
        cases h2.of_ok
        exact ⟨W, _, h1, .inl rfl, by rw [h3]⟩
    | error e =>
      obtain ⟨x2, i2, p2, r2⟩ := hk e c1 x1 hf i1 p1
      refine ⟨x2, ?_, ?_, fun W' hW => ?_⟩
      · simp only [PyM.tryExcept_apply, hf]; exact i2
      · simp only [PyM.tryExcept_apply, hf]; exact p2
      · simp only [PyM.tryExcept_apply, hf] at hW ⊢
        obtain ⟨W1, q, h1, h2, h3⟩ := r2 W' hW
        obtain ⟨W, r, g1, g2, g3⟩ := r1 W1 h1
        obtain ⟨e', rfl, -⟩ := g2.of_error
        exact ⟨W, q, g1, h2, by rw [g3]; dsimp only; rw [hany e' e]; exact h3⟩

/-- something that changes only what is known -/
theorem Sim.Fol.still {f : PyM σ α} {g : PyM τ α} {c : σ} {x : ξ} {P : Except PyErr α → σ → ξ → Prop} (x' : ξ) (hi : S.inv (f c).2 x') (hp : P (f c).1 (f c).2 x')
    (ha : ∀ W, S.adm (f c).2 x' W → S.adm c x W) (hg : ∀ W, g (S.fill x W) = ((f c).1, S.fill x' W)) : S.Fol f g c x P :=
  ⟨x', hi, hp, fun W hW => ⟨W, _, ha W hW, .inl rfl, hg W⟩⟩

theorem Sim.Fol.lift {v : Except PyErr α} {c : σ} {x : ξ} {P : Except PyErr α → σ → ξ → Prop} (hi : S.inv c x) (hp : P v c x) :
    S.Fol (PyM.lift v) (PyM.lift v) c x P := .still x hi hp (fun _ h => h) fun _ => rfl

theorem Sim.Fol.pure {v : α} {c : σ} {x : ξ} {P : Except PyErr α → σ → ξ → Prop} (hi : S.inv c x) (hp : P (.ok v) c x) :
    S.Fol (Pure.pure v) (Pure.pure v) c x P := .still x hi hp (fun _ h => h) fun _ => rfl

end

/-- nothing else is claimed -/
def anyThing {α σ ξ : Type} : Except PyErr α → σ → ξ → Prop := fun _ _ _ => True

/-! ## Sockets -/

/-- an open socket without a clock, lagging behind one with a clock; the time-out is positive -/
structure MLag (p : Nat × CSock) (x : Sock × List CEvent) : Prop where
  lag : Lag p.1 p.2 x.1 x.2
  isOpen : p.2.closed = false
  sent : x.1.sent = p.2.sent
  timeout : ∃ t, p.2.timeout = some (t + 1)

/-- `ω`: events, and how many of them have happened at the next polls -/
def sockSim : Sim (Nat × CSock) (Sock × List CEvent) Sock (List NetEvent × List Nat) where
  fill x W := { x.1 with future := W.1, sched := W.2 }
  inv := MLag
  adm _ x W := reals W.1 = x.2.map CEvent.net

/-- not lagging -/
def Even (p : Nat × CSock) (x : Sock × List CEvent) : Prop := x.1.buf = (p.2.at p.1).buf ∧ x.1.ended = (p.2.at p.1).ended

theorem recvWait_sched (n : Nat) (sc : List Nat) : ∀ (ev : List NetEvent) (s : Sock),
    Sock.recvWait n { s with sched := sc } ev = ((Sock.recvWait n s ev).1, { (Sock.recvWait n s ev).2 with sched := sc })
  | [], _ => rfl
  | .data [] :: ev, s => recvWait_sched n sc ev s
  | .data (_ :: _) :: _, _ => rfl
  | .pause :: _, _ => rfl
  | .eof :: _, _ => rfl
  | .reset :: _, _ => rfl

theorem sockRecv_sched (n : Nat) (sc : List Nat) (s : Sock) : sockRecv n { s with sched := sc } = ((sockRecv n s).1, { (sockRecv n s).2 with sched := sc }) := by
  obtain ⟨buf, ended, future, sched, sent, closed⟩ := s
  cases closed with
  | true => rfl
  | false =>
    cases buf with
    | cons b bs => rfl
    | nil =>
      cases ended with
      | none => exact recvWait_sched n sc future ⟨[], none, future, sched, sent, false⟩
      | some e => cases e <;> rfl

theorem recvWait_sent (n : Nat) : ∀ (ev : List NetEvent) (s : Sock), (Sock.recvWait n s ev).2.sent = s.sent
  | [], _ => rfl
  | .data [] :: ev, s => recvWait_sent n ev s
  | .data (_ :: _) :: _, _ => rfl
  | .pause :: _, _ => rfl
  | .eof :: _, _ => rfl
  | .reset :: _, _ => rfl

theorem sockRecv_sent (n : Nat) (s : Sock) : (sockRecv n s).2.sent = s.sent := by
  obtain ⟨buf, ended, future, sched, sent, closed⟩ := s
  cases closed with
  | true => rfl
  | false =>
    cases buf with
    | cons b bs => rfl
    | nil =>
      cases ended with
      | none => exact recvWait_sent n future ⟨[], none, future, sched, sent, false⟩
      | some e => cases e <;> rfl

theorem ready_sent {n : Nat} {s : CSock} {r : Except PyErr Bytes × CSock} (h : s.ready n = some r) : r.2.sent = s.sent := by
  unfold CSock.ready at h
  split at h <;> cases h <;> rfl

theorem cRecv_sent (n : Nat) (p : Nat × CSock) : (cRecv n p).2.2.sent = p.2.sent := by
  obtain ⟨now, s⟩ := p
  unfold cRecv
  dsimp only
  have hs := at_sent now s
  split
  · rfl
  · split
    · rename_i r hr
      exact (ready_sent hr).trans hs
    · split
      · exact hs
      · split
        · split
          · rename_i r hr
            rw [ready_sent hr, at_sent]; exact hs
          · exact hs
        · exact hs
      · exact hs
      · split
        · rename_i r hr
          rw [ready_sent hr, at_sent]; exact hs
        · exact hs
      · exact hs

/-- reading a byte -/
theorem recv1_fol {p : Nat × CSock} {x : Sock × List CEvent} (h : MLag p x) : sockSim.Fol (cRecv 1) (sockRecv 1) p x anyThing := by
  obtain ⟨now, k⟩ := p
  obtain ⟨u, E⟩ := x
  obtain ⟨t, ht⟩ := h.timeout
  obtain ⟨pre, u', E', h1, h2, h3⟩ := cRecv_follows h.lag ht
  have hs := (cRecv_spec 1 (now, k)).1
  refine ⟨(u', E'), ⟨h3, hs.closed.trans h.isOpen, ?_, t, hs.mode.trans ht⟩, trivial, fun W' hW => ⟨(pre ++ W'.1, W'.2), _, ?_, .inl rfl, ?_⟩⟩
  · have e := h2 []
    have := sockRecv_sent 1 { u with future := pre ++ [] }
    rw [e] at this
    rw [cRecv_sent]
    exact (show u'.sent = u.sent from this).trans h.sent
  · show reals (pre ++ W'.1) = E.map CEvent.net
    rw [reals_append, h1]
    exact congrArg _ hW
  · have := sockRecv_sched 1 W'.2 { u with future := pre ++ W'.1 }
    rw [h2] at this
    exact this

/-- looking whether there is something -/
theorem poll_fol {p : Nat × CSock} {x : Sock × List CEvent} (h : MLag p x) :
    sockSim.Fol cPoll sockPoll p x (fun r p' x' => p'.2.at p'.1 = p'.2 ∧ Even p' x' ∧ ∀ b, r = .ok b → b = (p'.2.ready 1).isSome) := by
  obtain ⟨now, k⟩ := p
  obtain ⟨u, E⟩ := x
  have e : cPoll (now, k) = (.ok (((k.at now).ready 1).isSome), (now, k.at now)) := by
    unfold cPoll
    dsimp only
    rw [if_neg (by simp [show k.closed = false from h.isOpen, show k.connected = true from h.lag.connected])]
  have hkeep := at_keeps now k
  obtain ⟨A, h1, h2⟩ := h.lag.ahead
  dsimp only at h1 h2
  refine ⟨({ u with buf := (k.at now).buf, ended := (k.at now).ended }, (k.at now).future.map Prod.snd), ?_, ?_, fun W' hW => ?_⟩
  · rw [e]
    refine ⟨Lag.at.mpr ⟨h.lag.connected, h.lag.closed, ⟨[], rfl, rfl⟩, h.lag.sent, h.lag.whole⟩, hkeep.2.1.trans h.isOpen, ?_, ?_⟩
    · show u.sent = (k.at now).sent
      rw [at_sent]; exact h.sent
    · obtain ⟨t, ht⟩ := h.timeout
      exact ⟨t, hkeep.1.trans ht⟩
  · rw [e]
    refine ⟨at_at now k, ⟨?_, ?_⟩, fun b hb => by cases hb; rfl⟩
    · show (k.at now).buf = ((k.at now).at now).buf
      rw [at_at]
    · show (k.at now).ended = ((k.at now).at now).ended
      rw [at_at]
  · rw [e]
    refine ⟨(A.map CEvent.net ++ W'.1, A.length :: W'.2), _, ?_, .inl rfl, ?_⟩
    · show reals (A.map CEvent.net ++ W'.1) = E.map CEvent.net
      rw [reals_append, reals_net, h1, List.map_append]
      exact congrArg _ hW
    · have ha := arriveN_arrives A { u with sched := A.length :: W'.2 } _ W'.1 h2
      have hu : u.closed = false := h.lag.closed.trans h.isOpen
      show sockPoll { u with future := A.map CEvent.net ++ W'.1, sched := A.length :: W'.2 } = _
      unfold sockPoll
      dsimp only
      rw [if_neg (by simp [hu])]
      rw [List.headD_cons, List.tail_cons]
      have ha' : Sock.arriveN A.length { u with future := A.map CEvent.net ++ W'.1, sched := A.length :: W'.2 } = _ := ha
      rw [ha']
      simp only [Sock.readable, sockSim, Prod.mk.injEq, and_true, Except.ok.injEq]
      have := ready_isSome 1 (k.at now)
      by_cases hr : ((k.at now).ready 1).isSome = true
      · rw [hr]; simpa using this.mp hr
      · rw [Bool.not_eq_true] at hr
        rw [hr]
        rw [hr] at this
        simpa using this

/-- reading, when there is something and nothing lags -/
theorem recvMany_fol {p : Nat × CSock} {x : Sock × List CEvent} (h : MLag p x) (hs : p.2.at p.1 = p.2) (he : Even p x) (hr : (p.2.ready 1).isSome = true) (n : Nat) :
    sockSim.Fol (cRecv n) (sockRecv n) p x anyThing := by
  obtain ⟨now, k⟩ := p
  obtain ⟨u, E⟩ := x
  dsimp only at hs hr
  obtain ⟨e1, e2⟩ := he
  dsimp only at e1 e2
  rw [hs] at e1 e2
  have hu : u.closed = false := h.lag.closed.trans h.isOpen
  have hk : k.closed = false := h.isOpen
  have hcon : k.connected = true := h.lag.connected
  obtain ⟨t, ht⟩ := h.timeout
  obtain ⟨A, h1, h2⟩ := h.lag.ahead
  dsimp only at h1 h2
  rw [hs] at h1 h2
  have hA : A = [] ∨ k.buf ≠ u.buf ∨ k.ended ≠ u.ended := by
    cases A with
    | nil => exact .inl rfl
    | cons y A =>
      exfalso
      rw [e1, e2] at h2
      cases hke : k.ended with
      | some e => rw [hke] at h2; cases h2.ended.1
      | none =>
        rw [hke] at h2
        cases y with
        | data b bs =>
          have h2 : Arrives A (k.buf ++ b :: bs, none) _ := h2
          have := h2.prefix.length_le
          simp at this
          omega
        | eof =>
          have h2 : Arrives A (k.buf, some .eof) (k.buf, none) := h2
          cases h2.ended.2
        | reset =>
          have h2 : Arrives A (k.buf, some .reset) (k.buf, none) := h2
          cases h2.ended.2
  have hA : A = [] := by
    rcases hA with h | h | h
    · exact h
    · exact absurd e1.symm h
    · exact absurd e2.symm h
  subst hA
  have hrecv : ∀ r, k.ready n = some r → cRecv n (now, k) = (r.1, (now, r.2)) := by
    intro r hr
    unfold cRecv
    dsimp only
    rw [if_neg (by simp [hk, hcon]), hs, hr]
  cases hb : k.buf with
  | cons b bs =>
    have e : cRecv n (now, k) = (.ok ((b :: bs).take n), (now, { k with buf := (b :: bs).drop n })) := hrecv _ (by unfold CSock.ready; rw [hb])
    refine .still ({ u with buf := (b :: bs).drop n }, E) ?_ trivial (fun W hW => hW) fun W => ?_
    · rw [e]
      refine ⟨?_, hk, h.sent, t, ht⟩
      have hset : ({ k with buf := (b :: bs).drop n } : CSock).at now = { k with buf := (b :: bs).drop n } := by
        have := at_settled now k ((b :: bs).drop n)
        rw [hs] at this
        exact this
      refine ⟨hcon, hu.trans hk.symm, ⟨[], ?_, ?_⟩, h.lag.sent, fun hh => h.lag.whole ?_⟩
      · show E = _
        dsimp only
        rw [hset]; exact h1
      · dsimp only
        rw [hset]
        show Arrives [] _ _
        dsimp only
        rw [e2]
        rfl
      · dsimp only at hh ⊢
        rw [hset] at hh
        rw [hs]
        exact hh
    · rw [e]
      show sockRecv n { u with future := W.1, sched := W.2 } = _
      simp only [sockRecv, hu, e1, hb]
      rfl
  | nil =>
    cases hke : k.ended with
    | none => exfalso; unfold CSock.ready at hr; rw [hb, hke] at hr; cases hr
    | some en =>
      have e : cRecv n (now, k) = (en.result, (now, k)) := hrecv (en.result, k) (by unfold CSock.ready; rw [hb, hke]; cases en <;> rfl)
      refine .still (u, E) (by rw [e]; exact h) trivial (fun W hW => hW) fun W => ?_
      rw [e]
      show sockRecv n { u with future := W.1, sched := W.2 } = _
      cases en <;> simp [sockRecv, sockSim, Ending.result, hu, e1, hb, e2, hke]

/-- sending, when nothing lags -/
theorem send_fol {p : Nat × CSock} {x : Sock × List CEvent} (h : MLag p x) (he : Even p x) (m : Bytes) : sockSim.Fol (cSend m) (sockSend m) p x anyThing := by
  obtain ⟨now, k⟩ := p
  obtain ⟨u, E⟩ := x
  obtain ⟨e1, e2⟩ := he
  dsimp only at e1 e2
  have hu : u.closed = false := h.lag.closed.trans h.isOpen
  have hk : k.closed = false := h.isOpen
  have hcon : k.connected = true := h.lag.connected
  by_cases hr : (k.at now).ended = some .reset
  · have e : cSend m (now, k) = (.error .osError, (now, k)) := by
      unfold cSend; dsimp only; rw [if_pos (.inr (.inr hr))]
    refine .still (u, E) (by rw [e]; exact h) trivial (fun W hW => hW) fun W => ?_
    rw [e]
    show sockSend m { u with future := W.1, sched := W.2 } = _
    unfold sockSend
    rw [if_pos (.inr (e2.trans hr))]
    rfl
  · have e : cSend m (now, k) = (.ok (), (now, { k with sent := k.sent ++ [m] })) := by
      unfold cSend; dsimp only; rw [if_neg (by simp [hk, hcon, hr])]
    refine .still ({ u with sent := u.sent ++ [m] }, E) ?_ trivial (fun W hW => hW) fun W => ?_
    · rw [e]
      have ha := arrived_sent_any now k (k.sent ++ [m])
      obtain ⟨A, h1, h2⟩ := h.lag.ahead
      have hsent : u.sent = k.sent := h.sent
      refine ⟨⟨hcon, hu.trans hk.symm, ⟨A, ?_, ?_⟩, ?_, fun _ => ?_⟩, hk, ?_, h.timeout⟩
      · dsimp only; rw [ha]; exact h1
      · dsimp only; rw [ha]; exact h2
      · dsimp only; rw [hsent]
      · dsimp only; rw [hsent]
      · dsimp only; rw [hsent]
    · rw [e]
      show sockSend m { u with future := W.1, sched := W.2 } = _
      unfold sockSend
      rw [if_neg (by simp [hu, e2, hr])]
      rfl

/-- emptying the socket -/
theorem flush_fol (lim : Nat) : ∀ (fuel cnt : Nat) {p : Nat × CSock} {x : Sock × List CEvent}, MLag p x →
    sockSim.Fol (cFlush lim fuel cnt) (flushSocket lim fuel cnt) p x (fun r p' x' => r = .ok () → Even p' x')
  | 0, _, _, x, h => .still x h (fun hc => by cases hc) (fun _ h => h) fun _ => rfl
  | fuel+1, cnt, p, x, h => by
    unfold cFlush flushSocket
    refine Sim.Fol.bind (poll_fol h) (fun _ _ _ _ hc => by cases hc) fun b p1 x1 _ i1 h1 => ?_
    obtain ⟨hs, hev, hb⟩ := h1
    have hb := hb b rfl
    cases b with
    | false => exact .pure i1 fun _ => hev
    | true =>
      rw [if_pos rfl, if_pos rfl]
      refine Sim.Fol.bind (recvMany_fol i1 hs hev hb.symm 1024) (fun _ _ _ _ hc => by cases hc) fun _ p2 x2 _ i2 _ => ?_
      by_cases hl : lim > 0
      · rw [if_pos hl, if_pos hl]
        by_cases hc : cnt + 1 ≥ lim
        · rw [if_pos hc, if_pos hc]
          exact .still x2 i2 (fun hc => by cases hc) (fun _ h => h) fun _ => rfl
        · rw [if_neg hc, if_neg hc]
          exact flush_fol lim fuel (cnt + 1) i2
      · rw [if_neg hl, if_neg hl]
        exact flush_fol lim fuel cnt i2

/-- the loop of `TcpMaster._recv` -/
theorem recvLoop_fol : ∀ (fuel : Nat) (response : Bytes) (length : Int) {p : Nat × CSock} {x : Sock × List CEvent}, MLag p x →
    sockSim.Fol (cRecvLoop fuel response length) (tcpRecvLoop fuel response length) p x anyThing
  | 0, _, _, _, x, h => .still x h trivial (fun _ h => h) fun _ => rfl
  | fuel+1, response, length, p, x, h => by
    rw [cRecvLoop, tcpRecvLoop]
    by_cases hl : (response.length : Int) < length
    · rw [if_pos hl, if_pos hl]
      refine Sim.Fol.bind (recv1_fol h) (fun _ _ _ _ => trivial) fun b p1 x1 _ i1 _ => ?_
      by_cases hb : b ≠ []
      · rw [if_pos hb, if_pos hb]
        by_cases h6 : (response ++ b).length = 6
        · rw [if_pos h6, if_pos h6]
          refine Sim.Fol.bind (P := anyThing) (.lift i1 trivial) (fun _ _ _ _ => trivial) fun vs p2 x2 _ i2 _ => ?_
          exact recvLoop_fol fuel _ _ i2
        · rw [if_neg h6, if_neg h6]
          exact recvLoop_fol fuel _ _ i1
      · rw [if_neg hb, if_neg hb]
        exact .pure i1 trivial
    · rw [if_neg hl, if_neg hl]
      exact .pure h trivial

/-- the loop of `RtuOverTcpMaster._recv` -/
theorem rtuLoop_fol (L : Int) : ∀ (fuel : Nat) (response : Bytes) {p : Nat × CSock} {x : Sock × List CEvent}, MLag p x →
    sockSim.Fol (cRtuRecvLoop L fuel response) (rtuOverTcpRecvLoop L fuel response) p x anyThing
  | 0, _, _, x, h => .still x h trivial (fun _ h => h) fun _ => rfl
  | fuel+1, response, p, x, h => by
    rw [cRtuRecvLoop, rtuOverTcpRecvLoop]
    by_cases hl : response.length < 255
    · rw [if_pos hl, if_pos hl]
      refine Sim.Fol.bind (recv1_fol h) (fun _ _ _ _ => trivial) fun b p1 x1 _ i1 _ => ?_
      by_cases hb : L ≥ 0 ∧ ((response ++ b).length : Int) ≥ L
      · rw [if_pos hb, if_pos hb]
        exact .pure i1 trivial
      · rw [if_neg hb, if_neg hb]
        exact rtuLoop_fol L fuel _ i1
    · rw [if_neg hl, if_neg hl]
      exact .pure h trivial

/-! ## Connections -/

/-- what a connection request meets, without a clock: a connection on which the same segments arrive; some of them may be there at once.  A request that is accepted too late
    is one that fails. -/
def Meets : CPeer → Option Sock → Prop
  | .accept _ ev, some u => u.closed = false ∧ u.sent = [] ∧ ∃ A B, ev.map Prod.snd = A ++ B ∧ Arrives A ([], none) (u.buf, u.ended) ∧ reals u.future = B.map CEvent.net
  | .accept _ _, none => True
  | .refuse _, none => True
  | .refuse _, some _ => False

/-- a socket without a clock; nothing happens to a closed one -/
def fillSock (W : List NetEvent × List Nat) (u : Sock) : Sock := if u.closed then u else { u with future := W.1, sched := W.2 }

theorem MLag.notClosed {p : Nat × CSock} {x : Sock × List CEvent} (h : MLag p x) : x.1.closed = false := h.lag.closed.trans h.isOpen

theorem fillSock_open {W : List NetEvent × List Nat} {u : Sock} (h : u.closed = false) : fillSock W u = { u with future := W.1, sched := W.2 } := by
  unfold fillSock; rw [if_neg (by simp [h])]

/-- the link without a clock -/
def fillLink (x : TcpLink × List CEvent) (W : (List NetEvent × List Nat) × List (Option Sock)) : TcpLink :=
  ⟨x.1.sock.map (fillSock W.1), W.2, x.1.closedSocks⟩

/-- the sockets of a link: none; usable and lagging; unusable -/
def Alike (c : CLink) (x : TcpLink × List CEvent) : Prop :=
  match c.sock, x.1.sock with
  | none, none => True
  | some k, some u => u.sent = k.sent ∧ (MLag (c.now, k) (u, x.2) ∨ (k.closed = true ∨ k.connected = false) ∧ u.closed = true)
  | _, _ => False

def linkSim : Sim CLink (TcpLink × List CEvent) TcpLink ((List NetEvent × List Nat) × List (Option Sock)) where
  fill := fillLink
  inv c x := (∃ t : Nat, c.timeout = some ((t : Int) + 1)) ∧ Alike c x
  adm c x W := reals W.1.1 = x.2.map CEvent.net ∧ List.Forall₂ Meets c.peers W.2

/-- nothing lags -/
def EvenLink (c : CLink) (x : TcpLink × List CEvent) : Prop := ∀ k u, c.sock = some k → x.1.sock = some u → k.closed = false → k.connected = true → Even (c.now, k) (u, x.2)

/-- something done with the socket -/
theorem onSock_fol {α : Type} {f : PyM (Nat × CSock) α} {g : PyM Sock α} {c : CLink} {x : TcpLink × List CEvent} {P : Except PyErr α → Nat × CSock → Sock × List CEvent → Prop}
    {Q : Except PyErr α → CLink → TcpLink × List CEvent → Prop} (hi : linkSim.inv c x)
    (hf : ∀ k u, c.sock = some k → x.1.sock = some u → MLag (c.now, k) (u, x.2) → sockSim.Fol f g (c.now, k) (u, x.2) P)
    (hdead : ∀ k, k.closed = true ∨ k.connected = false → f (c.now, k) = (.error .osError, (c.now, k)))
    (hdead' : ∀ u : Sock, u.closed = true → g u = (.error .osError, u))
    (hq : ∀ r now k u E cl, P r (now, k) (u, E) → Q r { c with now := now, sock := some k } (⟨some u, [], cl⟩, E)) (hqe : ∀ e c x, Q (.error e) c x) :
    linkSim.Fol (onCSock f) (onSock g) c x Q := by
  obtain ⟨⟨t, ht⟩, ha⟩ := hi
  unfold Alike at ha
  cases hk : c.sock with
  | none =>
    cases hu : x.1.sock with
    | some u => rw [hk, hu] at ha; exact ha.elim
    | none =>
      have e : onCSock f c = (.error .attributeError, c) := by unfold onCSock; rw [hk]
      refine .still x (by rw [e]; exact ⟨⟨t, ht⟩, by unfold Alike; rw [hk, hu]; trivial⟩) (by rw [e]; exact hqe _ _ _) (by rw [e]; exact fun _ h => h) fun W => ?_
      rw [e]
      show onSock g (fillLink x W) = (_, fillLink x W)
      unfold onSock fillLink
      rw [hu]
      rfl
  | some k =>
    cases hu : x.1.sock with
    | none => rw [hk, hu] at ha; exact ha.elim
    | some u =>
      rw [hk, hu] at ha
      obtain ⟨hsent, ha⟩ := ha
      rcases ha with hm | ⟨hd, hd'⟩
      · obtain ⟨x', i', p', r'⟩ := hf k u hk hu hm
        have e : onCSock f c = ((f (c.now, k)).1, { c with now := (f (c.now, k)).2.1, sock := some (f (c.now, k)).2.2 }) := by unfold onCSock; rw [hk]
        refine ⟨(⟨some x'.1, [], x.1.closedSocks⟩, x'.2), ?_, ?_, fun W' hW => ?_⟩
        · rw [e]
          exact ⟨⟨t, ht⟩, i'.sent, .inl i'⟩
        · rw [e]
          exact hq _ _ _ _ _ _ p'
        · rw [e] at hW ⊢
          obtain ⟨h1, h2⟩ := hW
          obtain ⟨W, r, g1, g2, g3⟩ := r' W'.1 h1
          refine ⟨(W, W'.2), r, ⟨g1, h2⟩, g2, ?_⟩
          show onSock g (fillLink x (W, W'.2)) = _
          unfold onSock fillLink
          rw [hu]
          have g3 : g { u with future := W.1, sched := W.2 } = _ := g3
          have hu1 : u.closed = false := hm.notClosed
          have hu2 : x'.1.closed = false := i'.notClosed
          show _ = (r, fillLink (⟨some x'.1, [], x.1.closedSocks⟩, x'.2) W')
          unfold fillLink
          simp only [Option.map_some, fillSock_open hu1, fillSock_open hu2, g3]
          rfl
      · have e : onCSock f c = (.error .osError, c) := by
          unfold onCSock
          rw [hk]
          dsimp only
          rw [hdead k hd]
          obtain ⟨a, b, d, n⟩ := c
          cases hk
          rfl
        refine .still x (by rw [e]; exact ⟨⟨t, ht⟩, by unfold Alike; rw [hk, hu]; exact ⟨hsent, .inr ⟨hd, hd'⟩⟩⟩) (by rw [e]; exact hqe _ _ _) (by rw [e]; exact fun _ h => h) fun W => ?_
        rw [e]
        show onSock g (fillLink x W) = (_, fillLink x W)
        unfold onSock fillLink
        rw [hu]
        simp only [Option.map_some, fillSock, hd', if_true, hdead' u hd']

/-- what `connect` does with a positive time-out -/
def metBy (t : Nat) (now : Nat) : List CPeer → Except PyErr (List (Nat × CEvent)) × Nat
  | .accept d ev :: _ => if d < t + 1 then (.ok ev, now + d) else (.error .timeout, now + (t + 1))
  | .refuse d :: _ => if d < t + 1 then (.error .osError, now + d) else (.error .timeout, now + (t + 1))
  | [] => (.error .timeout, now + (t + 1))

/-- `_do_open` with a positive time-out -/
theorem cDoOpen_eq (R : Registry) (c : CLink) (t : Nat) (ht : c.timeout = some ((t : Int) + 1)) : cDoOpen R c =
    match callHooks R "modbus_tcp.TcpMaster.before_connect" .obj with
    | .error e => (.error e, { c with sock := some { timeout := some (t + 1) } })
    | .ok _ =>
      match metBy t c.now c.peers with
      | (.error e, now) => (.error e, ⟨c.timeout, some { timeout := some (t + 1) }, c.peers.tail, now⟩)
      | (.ok ev, now) => ((callHooks R "modbus_tcp.TcpMaster.after_connect" .obj).map fun _ => (),
          ⟨c.timeout, some { timeout := some (t + 1), connected := true, future := ev }, c.peers.tail, now⟩) := by
  obtain ⟨timeout, sock, peers, now⟩ := c
  cases ht
  have h1 : ¬ ((t : Int) + 1 = 0) := by omega
  have h2 : ¬ ((t : Int) + 1 < 0) := by omega
  have h3 : ((t : Int) + 1 > 0) := by omega
  have h4 : ((t : Int) + 1).toNat = t + 1 := by omega
  simp only [cDoOpen, PyM.bind_apply, PyM.modify_apply, PyM.get_apply, cGetTimeout, cSetTimeout, ne_eq, h1, not_false_eq_true, if_true, h2, if_false, h3, h4,
    PyM.lift_apply, Bool.false_eq_true]
  cases callHooks R "modbus_tcp.TcpMaster.before_connect" .obj with
  | error e => rfl
  | ok v =>
    simp only [cConnect]
    cases peers with
    | nil => rfl
    | cons p rest =>
      cases p with
      | accept d ev =>
        simp only [metBy]
        by_cases hd : d < t + 1
        · simp only [hd, if_true, List.tail_cons]
          cases callHooks R "modbus_tcp.TcpMaster.after_connect" .obj <;> rfl
        · simp only [hd, if_false, List.tail_cons]
      | refuse d =>
        simp only [metBy]
        by_cases hd : d < t + 1
        · simp only [hd, if_true, List.tail_cons]
        · simp only [hd, if_false, List.tail_cons]

/-- the old socket is closed -/
def closedWith (x : TcpLink × List CEvent) : List Sock :=
  x.1.closedSocks ++ x.1.sock.toList.map fun u => (fillSock (x.2.map CEvent.net, []) u).close

theorem doOpen_fol (R : Registry) {c : CLink} {x : TcpLink × List CEvent} (hi : linkSim.inv c x) :
    linkSim.Fol (cDoOpen R) (tcpDoOpen R) c x (fun r c x => r = .ok () → EvenLink c x) := by
  obtain ⟨⟨t, ht⟩, ha⟩ := hi
  have e := cDoOpen_eq R c t ht
  -- the link without a clock after the old socket is closed
  have hg : ∀ P, tcpDoOpen R (fillLink x ((x.2.map CEvent.net, []), P)) =
      match callHooks R "modbus_tcp.TcpMaster.before_connect" .obj with
      | .error e => (.error e, ⟨some { closed := true }, P, closedWith x⟩)
      | .ok _ =>
        match P with
        | some k :: rest => ((callHooks R "modbus_tcp.TcpMaster.after_connect" .obj).map fun _ => (), ⟨some k, rest, closedWith x⟩)
        | none :: rest => (.error .osError, ⟨some { closed := true }, rest, closedWith x⟩)
        | [] => (.error .osError, ⟨some { closed := true }, [], closedWith x⟩) := by
    intro P
    have hcl : x.1.closedSocks ++ (x.1.sock.map (fillSock (x.2.map CEvent.net, []))).toList.map Sock.close = closedWith x := by
      unfold closedWith
      cases x.1.sock <;> rfl
    unfold tcpDoOpen fillLink
    simp only [hcl]
    cases callHooks R "modbus_tcp.TcpMaster.before_connect" .obj with
    | error e => rfl
    | ok v =>
      cases P with
      | nil => rfl
      | cons q P =>
        cases q with
        | none => rfl
        | some k =>
          dsimp only
          cases callHooks R "modbus_tcp.TcpMaster.after_connect" .obj <;> rfl
  have hadm : ∀ {P}, List.Forall₂ Meets c.peers P → linkSim.adm c x ((x.2.map CEvent.net, []), P) := fun h => ⟨reals_net _, h⟩
  -- a socket that cannot be used
  have hdead : ∀ (r r' : Except PyErr Unit) (now : Nat) (peers : List CPeer), SameResult r r' → (∃ er, r = .error er) →
      cDoOpen R c = (r, ⟨c.timeout, some { timeout := some (t + 1) }, peers, now⟩) →
      (∀ Q, List.Forall₂ Meets peers Q → ∃ P, List.Forall₂ Meets c.peers P ∧ tcpDoOpen R (fillLink x ((x.2.map CEvent.net, []), P)) = (r', ⟨some { closed := true }, Q, closedWith x⟩)) →
      linkSim.Fol (cDoOpen R) (tcpDoOpen R) c x (fun r c x => r = .ok () → EvenLink c x) := by
    intro r r' now peers hs hr he hp
    obtain ⟨er, rfl⟩ := hr
    refine ⟨(⟨some { closed := true }, [], closedWith x⟩, []), ?_, ?_, fun W' hW => ?_⟩
    · rw [he]
      exact ⟨⟨t, ht⟩, rfl, .inr ⟨.inr rfl, rfl⟩⟩
    · rw [he]
      intro h; cases h
    · rw [he] at hW ⊢
      obtain ⟨P, p1, p2⟩ := hp W'.2 hW.2
      have hW1 : reals W'.1.1 = [] := hW.1
      refine ⟨((x.2.map CEvent.net, []), P), r', hadm p1, hs, ?_⟩
      show tcpDoOpen R (fillLink x _) = _
      rw [p2]
      rfl
  cases hb : callHooks R "modbus_tcp.TcpMaster.before_connect" .obj with
  | error er =>
    rw [hb] at e hg
    refine hdead (.error er) (.error er) c.now c.peers (.inl rfl) ⟨_, rfl⟩ (by rw [e]) fun Q hQ => ⟨Q, hQ, by rw [hg]⟩
  | ok v =>
    rw [hb] at e hg
    dsimp only at e hg
    cases hp : c.peers with
    | nil =>
      rw [hp] at e
      refine hdead (.error .timeout) (.error .osError) (c.now + (t + 1)) [] (.inr ⟨rfl, rfl⟩) ⟨_, rfl⟩ (by rw [e]; rfl) fun Q hQ => ?_
      cases hQ
      exact ⟨[], by rw [hp]; exact .nil, by rw [hg]⟩
    | cons p rest =>
      have hrefused : ∀ (r : PyErr) (now : Nat), (r = .timeout ∨ r = .osError) → Meets p none → metBy t c.now c.peers = (.error r, now) →
          linkSim.Fol (cDoOpen R) (tcpDoOpen R) c x (fun r c x => r = .ok () → EvenLink c x) := by
        intro r now hr hm hmet
        rw [hmet] at e
        refine hdead (.error r) (.error .osError) now rest ?_ ⟨_, rfl⟩ (by rw [e, hp]; rfl) fun Q hQ => ⟨none :: Q, by rw [hp]; exact .cons hm hQ, by rw [hg]⟩
        rcases hr with rfl | rfl
        · exact .inr ⟨rfl, rfl⟩
        · exact .inl rfl
      cases p with
      | refuse d =>
        by_cases hd : d < t + 1
        · exact hrefused _ _ (.inr rfl) trivial (by rw [hp]; exact if_pos hd)
        · exact hrefused _ _ (.inl rfl) trivial (by rw [hp]; exact if_neg hd)
      | accept d ev =>
        by_cases hd : d < t + 1
        · have hmet : metBy t c.now c.peers = (.ok ev, c.now + d) := by rw [hp]; exact if_pos hd
          rw [hmet, hp] at e
          dsimp only [List.tail_cons] at e
          let k : CSock := { timeout := some (t + 1), connected := true, future := ev }
          obtain ⟨B, b1, b2⟩ := arrived_from (c.now + d) ev k
          have hkat : k.at (c.now + d) = CSock.arrived (c.now + d) ev k := rfl
          rw [← hkat] at b1 b2
          let u : Sock := { buf := (k.at (c.now + d)).buf, ended := (k.at (c.now + d)).ended }
          refine ⟨(⟨some u, [], closedWith x⟩, (k.at (c.now + d)).future.map Prod.snd), ?_, ?_, fun W' hW => ?_⟩
          · rw [e]
            exact ⟨⟨t, ht⟩, rfl, .inl ⟨⟨rfl, rfl, ⟨[], rfl, rfl⟩, List.prefix_refl _, fun _ => rfl⟩, rfl, rfl, t, rfl⟩⟩
          · rw [e]
            intro _ k' u' h1 h2 _ _
            cases h1; cases h2
            exact ⟨rfl, rfl⟩
          · rw [e] at hW ⊢
            refine ⟨((x.2.map CEvent.net, []), some { u with future := W'.1.1, sched := W'.1.2 } :: W'.2), _, hadm ?_, .inl rfl, ?_⟩
            · rw [hp]
              refine .cons ⟨rfl, rfl, B, _, b1, b2, hW.1⟩ hW.2
            · show tcpDoOpen R (fillLink x _) = _
              rw [hg]
              rfl
        · exact hrefused _ _ (.inl rfl) trivial (by rw [hp]; exact if_neg hd)

theorem doClose_fol (R : Registry) {c : CLink} {x : TcpLink × List CEvent} (hi : linkSim.inv c x) : linkSim.Fol (cDoClose R) (tcpDoClose R) c x anyThing := by
  obtain ⟨ht, ha⟩ := hi
  have hinv : linkSim.inv c x := ⟨ht, ha⟩
  unfold Alike at ha
  cases hk : c.sock with
  | none =>
    cases hu : x.1.sock with
    | some u => rw [hk, hu] at ha; exact ha.elim
    | none =>
      have e : cDoClose R c = (.ok false, c) := by simp [cDoClose, PyM.bind_apply, hk]
      refine .still x (by rw [e]; exact hinv) trivial (by rw [e]; exact fun _ h => h) fun W => ?_
      rw [e]
      show tcpDoClose R (fillLink x W) = (_, fillLink x W)
      unfold tcpDoClose fillLink
      rw [hu]
      rfl
  | some k =>
    cases hu : x.1.sock with
    | none => rw [hk, hu] at ha; exact ha.elim
    | some u =>
      rw [hk, hu] at ha
      have e : cDoClose R c = match callHooks R "modbus_tcp.TcpMaster.before_close" .obj with
          | .error er => (.error er, c)
          | .ok _ => match callHooks R "modbus_tcp.TcpMaster.after_close" .obj with
            | .error er => (.error er, { c with sock := some { k with closed := true } })
            | .ok _ => (.ok true, { c with sock := none }) := by
        simp only [cDoClose, PyM.bind_apply, PyM.get_apply, hk]
        cases callHooks R "modbus_tcp.TcpMaster.before_close" .obj with
        | error er => rfl
        | ok v =>
          simp only [PyM.lift_apply, PyM.modify_apply]
          cases callHooks R "modbus_tcp.TcpMaster.after_close" .obj <;> rfl
      have hg : ∀ W, tcpDoClose R (fillLink x W) = match callHooks R "modbus_tcp.TcpMaster.before_close" .obj with
          | .error er => (.error er, fillLink x W)
          | .ok _ => match callHooks R "modbus_tcp.TcpMaster.after_close" .obj with
            | .error er => (.error er, ⟨some (fillSock W.1 u).close, W.2, x.1.closedSocks⟩)
            | .ok _ => (.ok true, ⟨none, W.2, x.1.closedSocks ++ [(fillSock W.1 u).close]⟩) := by
        intro W
        unfold tcpDoClose fillLink
        rw [hu]
        rfl
      cases hb : callHooks R "modbus_tcp.TcpMaster.before_close" .obj with
      | error er =>
        rw [hb] at e hg
        dsimp only at e hg
        refine .still x (by rw [e]; exact hinv) trivial (by rw [e]; exact fun _ h => h) fun W => ?_
        rw [e]
        exact hg W
      | ok v =>
        rw [hb] at e hg
        dsimp only at e hg
        cases hb2 : callHooks R "modbus_tcp.TcpMaster.after_close" .obj with
        | error er =>
          rw [hb2] at e hg
          dsimp only at e hg
          refine ⟨(⟨some (fillSock (x.2.map CEvent.net, []) u).close, [], x.1.closedSocks⟩, []), ?_, trivial, fun W' hW => ?_⟩
          · rw [e]
            refine ⟨ht, ?_, .inr ⟨.inl rfl, rfl⟩⟩
            rw [← ha.1]
            show (fillSock _ u).sent = u.sent
            unfold fillSock
            split <;> rfl
          · rw [e] at hW ⊢
            refine ⟨((x.2.map CEvent.net, []), W'.2), _, ⟨reals_net _, hW.2⟩, .inl rfl, ?_⟩
            exact hg _
        | ok v =>
          rw [hb2] at e hg
          dsimp only at e hg
          refine ⟨(⟨none, [], x.1.closedSocks ++ [(fillSock (x.2.map CEvent.net, []) u).close]⟩, []), ?_, trivial, fun W' hW => ?_⟩
          · rw [e]
            exact ⟨ht, trivial⟩
          · rw [e] at hW ⊢
            refine ⟨((x.2.map CEvent.net, []), W'.2), _, ⟨reals_net _, hW.2⟩, .inl rfl, ?_⟩
            exact hg _

/-- `_send` -/
theorem tcpSend_fol (R : Registry) (request : Bytes) {c : CLink} {x : TcpLink × List CEvent} (hi : linkSim.inv c x) :
    linkSim.Fol (cTcpSend R request) (tcpSend R request) c x anyThing := by
  unfold cTcpSend tcpSend
  refine Sim.Fol.bind (P := anyThing) (.lift hi trivial) (fun _ _ _ _ => trivial) fun v c1 x1 _ i1 _ => ?_
  refine Sim.Fol.bind (P := fun r c x => r = .ok () → EvenLink c x) ?_ (fun _ _ _ _ => trivial) fun _ c2 x2 _ i2 h2 => ?_
  · refine Sim.Fol.tryExcept (P := fun r c x => r = .ok () → EvenLink c x) ?_ (fun _ _ _ h => h) (fun _ c2 x2 _ i2 _ => doOpen_fol R i2) (fun _ _ => rfl)
    refine onSock_fol i1 (fun k u _ _ hm => flush_fol 3 4 0 hm) ?_ ?_ ?_ (fun _ _ _ h => by cases h)
    · intro k hk
      have : cPoll (c1.now, k) = (.error .osError, (c1.now, k)) := by
        unfold cPoll; dsimp only; rw [if_pos]; rcases hk with h | h <;> simp [h]
      simp only [cFlush, PyM.bind_apply, this]
    · intro u hu
      have : sockPoll u = (.error .osError, u) := by unfold sockPoll; rw [if_pos hu]
      simp only [flushSocket, PyM.bind_apply, this]
    · intro r now k u E cl h hr k' u' h1 h2 _ _
      cases h1; cases h2
      exact h hr
  · have h2 := h2 rfl
    refine onSock_fol i2 (fun k u hk hu hm => send_fol hm (h2 k u hk hu hm.isOpen hm.lag.connected) _) ?_ ?_ (fun _ _ _ _ _ _ _ => trivial) (fun _ _ _ => trivial)
    · intro k hk
      unfold cSend; dsimp only; rw [if_pos]; rcases hk with h | h <;> simp [h]
    · intro u hu
      unfold sockSend; rw [if_pos (.inl hu)]

theorem cRecv_dead (n : Nat) (now : Nat) (k : CSock) (hk : k.closed = true ∨ k.connected = false) : cRecv n (now, k) = (.error .osError, (now, k)) := by
  unfold cRecv; dsimp only; rw [if_pos]; rcases hk with h | h <;> simp [h]

theorem sockRecv_dead (n : Nat) (u : Sock) (hu : u.closed = true) : sockRecv n u = (.error .osError, u) := by
  unfold sockRecv; rw [if_pos hu]

/-- `_recv` of a `TcpMaster` -/
theorem tcpRecv_fol (R : Registry) (L : Int) {c : CLink} {x : TcpLink × List CEvent} (hi : linkSim.inv c x) : linkSim.Fol (cTcpRecv R L) (tcpRecv R L) c x anyThing := by
  unfold cTcpRecv tcpRecv
  refine Sim.Fol.bind (P := anyThing) ?_ (fun _ _ _ _ => trivial) fun b c1 x1 _ i1 _ => ?_
  · refine onSock_fol hi (fun k u _ _ hm => recvLoop_fol 65542 [] 255 hm) ?_ ?_ (fun _ _ _ _ _ _ _ => trivial) (fun _ _ _ => trivial)
    · intro k hk
      rw [cRecvLoop]
      rw [if_pos (by decide)]
      simp only [PyM.bind_apply, cRecv_dead 1 _ k hk]
    · intro u hu
      rw [tcpRecvLoop]
      rw [if_pos (by decide)]
      simp only [PyM.bind_apply, sockRecv_dead 1 u hu]
  · exact Sim.Fol.bind (P := anyThing) (.lift i1 trivial) (fun _ _ _ _ => trivial) fun _ c2 x2 _ i2 _ => .pure i2 trivial

/-- `_recv` of an `RtuOverTcpMaster` -/
theorem rtuRecv_fol (R : Registry) (L : Int) {c : CLink} {x : TcpLink × List CEvent} (hi : linkSim.inv c x) :
    linkSim.Fol (cRtuOverTcpRecv R L) (rtuOverTcpRecv R L) c x anyThing := by
  unfold cRtuOverTcpRecv rtuOverTcpRecv
  refine Sim.Fol.bind (P := anyThing) ?_ (fun _ _ _ _ => trivial) fun b c1 x1 _ i1 _ => ?_
  · refine onSock_fol hi (fun k u _ _ hm => rtuLoop_fol L 256 [] hm) ?_ ?_ (fun _ _ _ _ _ _ _ => trivial) (fun _ _ _ => trivial)
    · intro k hk
      rw [cRtuRecvLoop]
      rw [if_pos (by decide)]
      simp only [PyM.bind_apply, cRecv_dead 1 _ k hk]
    · intro u hu
      rw [rtuOverTcpRecvLoop]
      rw [if_pos (by decide)]
      simp only [PyM.bind_apply, sockRecv_dead 1 u hu]
  · exact Sim.Fol.bind (P := anyThing) (.lift i1 trivial) (fun _ _ _ _ => trivial) fun _ c2 x2 _ i2 _ => .pure i2 trivial

/-! ## Masters -/

def masterSim : Sim (MasterSt CLink) (MasterSt (TcpLink × List CEvent)) (MasterSt TcpLink) ((List NetEvent × List Nat) × List (Option Sock)) where
  fill x W := ⟨x.isOpened, fillLink x.link W, x.lastTid⟩
  inv c x := x.isOpened = c.isOpened ∧ x.lastTid = c.lastTid ∧ linkSim.inv c.link x.link
  adm c x W := linkSim.adm c.link x.link W

/-- the methods of a master with a clock and without -/
structure ChanFol (ch : Chan CLink) (ch' : Chan TcpLink) : Prop where
  doOpen : ∀ {c x}, linkSim.inv c x → linkSim.Fol ch.doOpen ch'.doOpen c x anyThing
  doClose : ∀ {c x}, linkSim.inv c x → linkSim.Fol ch.doClose ch'.doClose c x anyThing
  send : ∀ m {c x}, linkSim.inv c x → linkSim.Fol (ch.send m) (ch'.send m) c x anyThing
  recv : ∀ L {c x}, linkSim.inv c x → linkSim.Fol (ch.recv L) (ch'.recv L) c x anyThing

theorem tcp_fol (R : Registry) : ChanFol (clockedTcp R) (tcpChan R) :=
  ⟨fun h => (doOpen_fol R h).mono fun _ _ _ _ => trivial, doClose_fol R, tcpSend_fol R, tcpRecv_fol R⟩

theorem rtuOverTcp_fol (R : Registry) : ChanFol (clockedRtuOverTcp R) (rtuOverTcpChan R) :=
  ⟨fun h => (doOpen_fol R h).mono fun _ _ _ _ => trivial, doClose_fol R, tcpSend_fol R, rtuRecv_fol R⟩

theorem onLink_fol {α : Type} {f : PyM CLink α} {g : PyM TcpLink α} {c : MasterSt CLink} {x : MasterSt (TcpLink × List CEvent)} (hi : masterSim.inv c x)
    (h : linkSim.Fol f g c.link x.link anyThing) : masterSim.Fol (onLink f) (onLink g) c x anyThing := by
  obtain ⟨x', i, _, r⟩ := h
  refine ⟨⟨x.isOpened, x', x.lastTid⟩, ⟨hi.1, hi.2.1, i⟩, trivial, fun W' hW => ?_⟩
  obtain ⟨W, q, h1, h2, h3⟩ := r W' hW
  refine ⟨W, q, h1, h2, ?_⟩
  have h3 : g (fillLink x.link W) = (q, fillLink x' W') := h3
  simp only [masterSim, onLink, h3]

theorem open_fol {ch : Chan CLink} {ch' : Chan TcpLink} (hc : ChanFol ch ch') {c : MasterSt CLink} {x : MasterSt (TcpLink × List CEvent)} (hi : masterSim.inv c x) :
    masterSim.Fol (masterOpen ch) (masterOpen ch') c x anyThing := by
  cases ho : c.isOpened with
  | true =>
    have e : masterOpen ch c = (.ok (), c) := by simp [masterOpen, ho]
    refine .still x (by rw [e]; exact hi) trivial (by rw [e]; exact fun _ h => h) fun W => ?_
    rw [e]
    have : x.isOpened = true := hi.1.trans ho
    simp [masterOpen, masterSim, this]
  | false =>
    have hx : x.isOpened = false := hi.1.trans ho
    obtain ⟨x', i, _, r⟩ := hc.doOpen hi.2.2
    cases hq : ch.doOpen c.link with
    | mk v l =>
      rw [hq] at i r
      have e : masterOpen ch c = (match v with | .ok _ => (.ok (), { c with link := l, isOpened := true }) | .error e => (.error e, { c with link := l })) := by
        simp only [masterOpen, ho, Bool.false_eq_true, if_false, hq]
        cases v <;> rfl
      cases v with
      | ok v =>
        refine ⟨⟨true, x', x.lastTid⟩, by rw [e]; exact ⟨rfl, hi.2.1, i⟩, trivial, fun W' hW => ?_⟩
        rw [e] at hW ⊢
        obtain ⟨W, q, h1, h2, h3⟩ := r W' hW
        cases h2.of_ok
        refine ⟨W, _, h1, .inl rfl, ?_⟩
        have h3 : ch'.doOpen (fillLink x.link W) = (_, fillLink x' W') := h3
        simp only [masterSim, masterOpen, hx, Bool.false_eq_true, if_false, h3]
      | error er =>
        refine ⟨⟨false, x', x.lastTid⟩, by rw [e]; exact ⟨ho.symm, hi.2.1, i⟩, trivial, fun W' hW => ?_⟩
        rw [e] at hW ⊢
        obtain ⟨W, q, h1, h2, h3⟩ := r W' hW
        obtain ⟨e', rfl, h4⟩ := h2.of_error
        refine ⟨W, _, h1, h4 _, ?_⟩
        have h3 : ch'.doOpen (fillLink x.link W) = (_, fillLink x' W') := h3
        simp only [masterSim, masterOpen, hx, Bool.false_eq_true, if_false, h3]

theorem close_fol {ch : Chan CLink} {ch' : Chan TcpLink} (hc : ChanFol ch ch') {c : MasterSt CLink} {x : MasterSt (TcpLink × List CEvent)} (hi : masterSim.inv c x) :
    masterSim.Fol (masterClose ch) (masterClose ch') c x anyThing := by
  cases ho : c.isOpened with
  | false =>
    have e : masterClose ch c = (.ok (), c) := by simp [masterClose, ho]
    refine .still x (by rw [e]; exact hi) trivial (by rw [e]; exact fun _ h => h) fun W => ?_
    rw [e]
    have : x.isOpened = false := hi.1.trans ho
    simp [masterClose, masterSim, this]
  | true =>
    have hx : x.isOpened = true := hi.1.trans ho
    obtain ⟨x', i, _, r⟩ := hc.doClose hi.2.2
    cases hq : ch.doClose c.link with
    | mk v l =>
      rw [hq] at i r
      have e : masterClose ch c = (match v with | .ok b => (.ok (), { c with link := l, isOpened := !b }) | .error e => (.error e, { c with link := l })) := by
        simp only [masterClose, ho, if_true, hq]
        cases v <;> rfl
      cases v with
      | ok v =>
        refine ⟨⟨!v, x', x.lastTid⟩, by rw [e]; exact ⟨rfl, hi.2.1, i⟩, trivial, fun W' hW => ?_⟩
        rw [e] at hW ⊢
        obtain ⟨W, q, h1, h2, h3⟩ := r W' hW
        cases h2.of_ok
        refine ⟨W, _, h1, .inl rfl, ?_⟩
        have h3 : ch'.doClose (fillLink x.link W) = (_, fillLink x' W') := h3
        simp only [masterSim, masterClose, hx, if_true, h3]
      | error er =>
        refine ⟨⟨true, x', x.lastTid⟩, by rw [e]; exact ⟨ho.symm, hi.2.1, i⟩, trivial, fun W' hW => ?_⟩
        rw [e] at hW ⊢
        obtain ⟨W, q, h1, h2, h3⟩ := r W' hW
        obtain ⟨e', rfl, h4⟩ := h2.of_error
        refine ⟨W, _, h1, h4 _, ?_⟩
        have h3 : ch'.doClose (fillLink x.link W) = (_, fillLink x' W') := h3
        simp only [masterSim, masterClose, hx, if_true, h3]

/-- `execute` -/
theorem execute_fol {ch : Chan CLink} {ch' : Chan TcpLink} (hc : ChanFol ch ch') (R : Registry) (mac : Mac) (a : ExecArgs) {c : MasterSt CLink}
    {x : MasterSt (TcpLink × List CEvent)} (hi : masterSim.inv c x) : masterSim.Fol (execute R mac ch a) (execute R mac ch' a) c x anyThing := by
  unfold execute
  refine Sim.Fol.bind (open_fol hc hi) (fun _ _ _ _ => trivial) fun _ c1 x1 _ i1 _ => ?_
  refine Sim.Fol.bind (P := anyThing) (.lift i1 trivial) (fun _ _ _ _ => trivial) fun p c2 x2 _ i2 _ => ?_
  cases a.slave with
  | none => exact .still x2 i2 trivial (fun _ h => h) fun _ => rfl
  | some slave =>
    dsimp only
    refine Sim.Fol.bind (P := anyThing) ?_ (fun _ _ _ _ => trivial) fun rq c3 x3 _ i3 _ => ?_
    · have hb : ∀ {σ : Type} (s : MasterSt σ), buildRequest mac p.pdu slave s =
          ((buildRequest mac p.pdu slave s).1, { s with lastTid := (mac.buildRequest p.pdu slave (mac.new, s.lastTid)).2.2 }) := by
        intro σ s
        unfold buildRequest
        split <;> simp_all
      have hb1 : ∀ {σ τ : Type} (s : MasterSt σ) (s' : MasterSt τ), s.lastTid = s'.lastTid → (buildRequest mac p.pdu slave s).1 = (buildRequest mac p.pdu slave s').1 := by
        intro σ τ s s' h
        unfold buildRequest
        rw [h]
        split <;> rfl
      refine .still ⟨x2.isOpened, x2.link, (mac.buildRequest p.pdu slave (mac.new, c2.lastTid)).2.2⟩ ?_ trivial ?_ fun W => ?_
      · rw [hb]; exact ⟨i2.1, rfl, i2.2.2⟩
      · rw [hb]; exact fun _ h => h
      · rw [hb (masterSim.fill x2 W), hb1 c2 (masterSim.fill x2 W) i2.2.1.symm, ← i2.2.1]
        rfl
    obtain ⟨request, q⟩ := rq
    dsimp only
    refine Sim.Fol.bind (P := anyThing) (.lift i3 trivial) (fun _ _ _ _ => trivial) fun v c4 x4 _ i4 _ => ?_
    refine Sim.Fol.bind (onLink_fol i4 (hc.send _ i4.2.2)) (fun _ _ _ _ => trivial) fun _ c5 x5 _ i5 _ => ?_
    refine Sim.Fol.bind (P := anyThing) (.lift i5 trivial) (fun _ _ _ _ => trivial) fun _ c6 x6 _ i6 _ => ?_
    refine Sim.Fol.bind (onLink_fol i6 (hc.recv _ i6.2.2)) (fun _ _ _ _ => trivial) fun response c7 x7 _ i7 _ => ?_
    refine Sim.Fol.bind (P := anyThing) (.lift i7 trivial) (fun _ _ _ _ => trivial) fun v2 c8 x8 _ i8 _ => ?_
    refine Sim.Fol.bind (P := anyThing) (.lift i8 trivial) (fun _ _ _ _ => trivial) fun pdu c9 x9 _ i9 _ => ?_
    exact .lift i9 trivial

/-! ## C80 -/

/-- one thing done with a master with a clock; what `execute` returns (what `set_timeout` raises is not looked at) -/
def tcpTimedOp (R : Registry) (mac : Mac) (ch : Chan CLink) : TimedOp → PyM (MasterSt CLink) (Option ExecResult)
  | .open => do masterOpen ch; return none
  | .close => do masterClose ch; return none
  | .exec a => do let v ← execute R mac ch a; return some v
  | .setTimeout v => do PyM.modify fun s => { s with link := (cSetTimeout v s.link).2 }; return none
  | .wait d => do PyM.modify fun s => { s with link := { s.link with now := s.link.now + d } }; return none

/-- the same without a clock -/
def tcpUntimedOp (R : Registry) (mac : Mac) (ch : Chan TcpLink) : TimedOp → PyM (MasterSt TcpLink) (Option ExecResult)
  | .open => do masterOpen ch; return none
  | .close => do masterClose ch; return none
  | .exec a => do let v ← execute R mac ch a; return some v
  | .setTimeout _ => return none
  | .wait _ => return none

/-- doing things one after the other, exceptions being caught; the results -/
def tryAll {σ α ι : Type} (f : ι → PyM σ α) : List ι → σ → List (Except PyErr α) × σ
  | [], s => ([], s)
  | i :: is, s => let r := tryAll f is (f i s).2; ((f i s).1 :: r.1, r.2)

/-- not a time-out of 0, a negative one, or None -/
def TimedOp.Positive : TimedOp → Prop
  | .setTimeout v => ∃ x : Int, v = some x ∧ 0 < x
  | _ => True

theorem tcpOp_fol {ch : Chan CLink} {ch' : Chan TcpLink} (hc : ChanFol ch ch') (R : Registry) (mac : Mac) (op : TimedOp) (hop : op.Positive) {c : MasterSt CLink}
    {x : MasterSt (TcpLink × List CEvent)} (hi : masterSim.inv c x) : masterSim.Fol (tcpTimedOp R mac ch op) (tcpUntimedOp R mac ch' op) c x anyThing := by
  cases op with
  | «open» => exact Sim.Fol.bind (open_fol hc hi) (fun _ _ _ _ => trivial) fun _ _ _ _ i _ => .pure i trivial
  | close => exact Sim.Fol.bind (close_fol hc hi) (fun _ _ _ _ => trivial) fun _ _ _ _ i _ => .pure i trivial
  | exec a => exact Sim.Fol.bind (execute_fol hc R mac a hi) (fun _ _ _ _ => trivial) fun _ _ _ _ i _ => .pure i trivial
  | wait d =>
    refine .still x ⟨hi.1, hi.2.1, hi.2.2.1, ?_⟩ trivial (fun _ h => h) fun W => rfl
    have ha := hi.2.2.2
    unfold Alike at ha ⊢
    show match c.link.sock, x.link.1.sock with
      | none, none => True
      | some k, some u => u.sent = k.sent ∧ (MLag (c.link.now + d, k) (u, x.link.2) ∨ (k.closed = true ∨ k.connected = false) ∧ u.closed = true)
      | _, _ => False
    cases hk : c.link.sock with
    | none =>
      cases hu : x.link.1.sock with
      | none => trivial
      | some u => rw [hk, hu] at ha; exact ha.elim
    | some k =>
      cases hu : x.link.1.sock with
      | none => rw [hk, hu] at ha; exact ha.elim
      | some u =>
        rw [hk, hu] at ha
        refine ⟨ha.1, ?_⟩
        rcases ha.2 with h | h
        · exact .inl ⟨h.lag.later (by show c.link.now ≤ c.link.now + d; omega), h.isOpen, h.sent, h.timeout⟩
        · exact .inr h
  | setTimeout v =>
    obtain ⟨y, rfl, hy⟩ := hop
    obtain ⟨t, rfl⟩ : ∃ t : Nat, y = (t : Int) + 1 := ⟨(y - 1).toNat, by omega⟩
    have e : tcpTimedOp R mac ch (.setTimeout (some ((t : Int) + 1))) c = (.ok none, { c with link := (cSetTimeout (some ((t : Int) + 1)) c.link).2 }) := rfl
    have h1 : ¬ ((t : Int) + 1 = 0) := by omega
    have h2 : ¬ ((t : Int) + 1 < 0) := by omega
    have h3 : ((t : Int) + 1 > 0) := by omega
    have h4 : ((t : Int) + 1).toNat = t + 1 := by omega
    have ha := hi.2.2.2
    unfold Alike at ha
    have hpeers : (cSetTimeout (some ((t : Int) + 1)) c.link).2.peers = c.link.peers := by
      unfold cSetTimeout
      cases c.link.sock with
      | none => rfl
      | some k =>
        cases hkc : k.closed <;> simp [hkc, h1, h2]
    refine .still x ?_ trivial ?_ fun W => by rw [e]; rfl
    · rw [e]
      refine ⟨hi.1, hi.2.1, ?_⟩
      cases hk : c.link.sock with
      | none =>
        have e' : (cSetTimeout (some ((t : Int) + 1)) c.link).2 = { c.link with timeout := some ((t : Int) + 1) } := by
          unfold cSetTimeout; dsimp only; rw [hk]
        dsimp only
        rw [e']
        refine ⟨⟨t, rfl⟩, ?_⟩
        unfold Alike
        dsimp only
        rw [hk] at ha ⊢
        exact ha
      | some k =>
        cases hu : x.link.1.sock with
        | none => rw [hk, hu] at ha; exact ha.elim
        | some u =>
          rw [hk, hu] at ha
          cases hkc : k.closed with
          | true =>
            have e' : (cSetTimeout (some ((t : Int) + 1)) c.link).2 = { c.link with timeout := some ((t : Int) + 1) } := by
              unfold cSetTimeout; simp [hk, hkc]
            dsimp only
            rw [e']
            refine ⟨⟨t, rfl⟩, ?_⟩
            unfold Alike
            dsimp only
            rw [hk, hu]
            exact ha
          | false =>
            have e' : (cSetTimeout (some ((t : Int) + 1)) c.link).2 = { c.link with timeout := some ((t : Int) + 1), sock := some { k with timeout := some (t + 1) } } := by
              unfold cSetTimeout; simp [hk, hkc, h1, h2, h4]
            dsimp only
            rw [e']
            refine ⟨⟨t, rfl⟩, ?_⟩
            unfold Alike
            dsimp only
            rw [hu]
            refine ⟨ha.1, ?_⟩
            rcases ha.2 with h | h
            · exact .inl ⟨lag_timeout h.lag, h.isOpen, h.sent, t, rfl⟩
            · exact .inr h
    · rw [e]
      intro W hW
      exact ⟨hW.1, by rw [← hpeers]; exact hW.2⟩

theorem tryAll_fol {ch : Chan CLink} {ch' : Chan TcpLink} (hc : ChanFol ch ch') (R : Registry) (mac : Mac) : ∀ (ops : List TimedOp), (∀ op ∈ ops, op.Positive) →
    ∀ {c : MasterSt CLink} {x : MasterSt (TcpLink × List CEvent)}, masterSim.inv c x →
    ∃ x', masterSim.inv (tryAll (tcpTimedOp R mac ch) ops c).2 x' ∧ ∀ W', masterSim.adm (tryAll (tcpTimedOp R mac ch) ops c).2 x' W' →
      ∃ W, masterSim.adm c x W ∧ List.Forall₂ SameResult (tryAll (tcpTimedOp R mac ch) ops c).1 (tryAll (tcpUntimedOp R mac ch') ops (masterSim.fill x W)).1 ∧
        (tryAll (tcpUntimedOp R mac ch') ops (masterSim.fill x W)).2 = masterSim.fill x' W'
  | [], _, c, x, hi => ⟨x, hi, fun W' hW => ⟨W', hW, .nil, rfl⟩⟩
  | op :: ops, h, c, x, hi => by
    obtain ⟨x1, i1, _, r1⟩ := tcpOp_fol hc R mac op (h op (by simp)) hi
    obtain ⟨x2, i2, r2⟩ := tryAll_fol hc R mac ops (fun o ho => h o (by simp [ho])) i1
    refine ⟨x2, i2, fun W' hW => ?_⟩
    obtain ⟨W1, h1, h2, h3⟩ := r2 W' hW
    obtain ⟨W, r, g1, g2, g3⟩ := r1 W1 h1
    refine ⟨W, g1, ?_, ?_⟩
    · show List.Forall₂ SameResult _ (_ :: _)
      rw [g3]
      exact .cons g2 h2
    · show (tryAll _ ops (tcpUntimedOp R mac ch' op (masterSim.fill x W)).2).2 = _
      rw [g3]
      exact h3

/-- a connection on which everything comes when it is waited for -/
def CPeer.plain : CPeer → Option Sock
  | .accept _ ev => some { future := (ev.map Prod.snd).map CEvent.net }
  | .refuse _ => none

theorem plain_meets : ∀ (ps : List CPeer), List.Forall₂ Meets ps (ps.map CPeer.plain)
  | [] => .nil
  | .accept _ _ :: ps => .cons ⟨rfl, rfl, [], _, rfl, rfl, reals_net _⟩ (plain_meets ps)
  | .refuse _ :: ps => .cons trivial (plain_meets ps)

theorem C80_any {ch : Chan CLink} {ch' : Chan TcpLink} (hc : ChanFol ch ch') (R : Registry) (mac : Mac) (ops : List TimedOp) (hops : ∀ op ∈ ops, op.Positive)
    (x : Int) (hx : 0 < x) (peers : List CPeer) (now : Nat) (tid : Int) :
    ∃ qs, List.Forall₂ Meets peers qs ∧
      List.Forall₂ SameResult (tryAll (tcpTimedOp R mac ch) ops (timedMaster (some x) peers now tid)).1 (tryAll (tcpUntimedOp R mac ch') ops ⟨false, { peers := qs }, tid⟩).1 ∧
      (tryAll (tcpUntimedOp R mac ch') ops ⟨false, { peers := qs }, tid⟩).2.isOpened = (tryAll (tcpTimedOp R mac ch) ops (timedMaster (some x) peers now tid)).2.isOpened ∧
      (tryAll (tcpUntimedOp R mac ch') ops ⟨false, { peers := qs }, tid⟩).2.lastTid = (tryAll (tcpTimedOp R mac ch) ops (timedMaster (some x) peers now tid)).2.lastTid ∧
      (tryAll (tcpUntimedOp R mac ch') ops ⟨false, { peers := qs }, tid⟩).2.link.sock.map Sock.sent =
        (tryAll (tcpTimedOp R mac ch) ops (timedMaster (some x) peers now tid)).2.link.sock.map CSock.sent := by
  obtain ⟨t, rfl⟩ : ∃ t : Nat, x = (t : Int) + 1 := ⟨(x - 1).toNat, by omega⟩
  obtain ⟨x', i, r⟩ := tryAll_fol hc R mac ops hops (c := timedMaster (some ((t : Int) + 1)) peers now tid) (x := ⟨false, ({}, []), tid⟩) ⟨rfl, rfl, ⟨t, rfl⟩, trivial⟩
  obtain ⟨W, ⟨h1, h2⟩, h3, h4⟩ := r ((x'.link.2.map CEvent.net, []), _) ⟨reals_net _, plain_meets _⟩
  refine ⟨W.2, h2, h3, ?_, ?_, ?_⟩
  · have h4 : (tryAll (tcpUntimedOp R mac ch') ops ⟨false, { peers := W.2 }, tid⟩).2 = _ := h4
    rw [h4]; exact i.1
  · have h4 : (tryAll (tcpUntimedOp R mac ch') ops ⟨false, { peers := W.2 }, tid⟩).2 = _ := h4
    rw [h4]; exact i.2.1
  · have h4 : (tryAll (tcpUntimedOp R mac ch') ops ⟨false, { peers := W.2 }, tid⟩).2 = _ := h4
    rw [h4]
    have ha := i.2.2.2
    unfold Alike at ha
    show (x'.link.1.sock.map (fillSock _)).map Sock.sent = _
    generalize (tryAll (tcpTimedOp R mac ch) ops (timedMaster (some ((t : Int) + 1)) peers now tid)).2.link.sock = k at ha ⊢
    cases k with
    | none =>
      cases hu : x'.link.1.sock with
      | none => rfl
      | some u => rw [hu] at ha; exact ha.elim
    | some k =>
      cases hu : x'.link.1.sock with
      | none => rw [hu] at ha; exact ha.elim
      | some u =>
        rw [hu] at ha
        have : ∀ W, (fillSock W u).sent = u.sent := by intro W; unfold fillSock; split <;> rfl
        simp only [Option.map_some, this, ha.1]

/-- **C80.** Whatever the hooks are and whenever segments arrive: in a history of a `TcpMaster` with positive time-outs every call returns or raises what it does without a clock on
    connections on which the same segments arrive in the same order; what is sent is the same. -/
theorem C80_tcp (R : Registry) (ops : List TimedOp) (hops : ∀ op ∈ ops, op.Positive) (x : Int) (hx : 0 < x) (peers : List CPeer) (now : Nat) (tid : Int) :
    ∃ qs, List.Forall₂ Meets peers qs ∧
      let timed := tryAll (tcpTimedOp R tcpMac (clockedTcp R)) ops (timedMaster (some x) peers now tid)
      let untimed := tryAll (tcpUntimedOp R tcpMac (tcpChan R)) ops ⟨false, { peers := qs }, tid⟩
      List.Forall₂ SameResult timed.1 untimed.1 ∧ untimed.2.isOpened = timed.2.isOpened ∧ untimed.2.lastTid = timed.2.lastTid ∧
        untimed.2.link.sock.map Sock.sent = timed.2.link.sock.map CSock.sent := C80_any (tcp_fol R) R tcpMac ops hops x hx peers now tid

/-- **C80.** The same for an `RtuOverTcpMaster`. -/
theorem C80_rtu_over_tcp (R : Registry) (ops : List TimedOp) (hops : ∀ op ∈ ops, op.Positive) (x : Int) (hx : 0 < x) (peers : List CPeer) (now : Nat) (tid : Int) :
    ∃ qs, List.Forall₂ Meets peers qs ∧
      let timed := tryAll (tcpTimedOp R rtuMac (clockedRtuOverTcp R)) ops (timedMaster (some x) peers now tid)
      let untimed := tryAll (tcpUntimedOp R rtuMac (rtuOverTcpChan R)) ops ⟨false, { peers := qs }, tid⟩
      List.Forall₂ SameResult timed.1 untimed.1 ∧ untimed.2.isOpened = timed.2.isOpened ∧ untimed.2.lastTid = timed.2.lastTid ∧
        untimed.2.link.sock.map Sock.sent = timed.2.link.sock.map CSock.sent := C80_any (rtuOverTcp_fol R) R rtuMac ops hops x hx peers now tid

/-- a history: a call whose answer drips in, an idle while, another time-out, a call nothing answers, a close, a connection that is refused -/
def exTimedOps : List TimedOp := [.exec exAsk, .wait 3, .setTimeout (some 7), .exec exAsk, .close, .open]

/-- it is an instance of the hypotheses of `C80_tcp` -/
example : ∀ op ∈ exTimedOps, op.Positive := by
  intro op h
  simp only [exTimedOps, List.mem_cons, List.not_mem_nil, or_false] at h
  rcases h with rfl | rfl | rfl | rfl | rfl | rfl <;> first | exact ⟨7, rfl, by decide⟩ | trivial

/-- what happens in it, and what happens without a clock when silence is met after the answer -/
example : (tryAll (tcpTimedOp [] tcpMac (clockedTcp [])) exTimedOps { exDrip with link := { exDrip.link with peers := exDrip.link.peers ++ [.refuse 1] } }).1 =
      [.ok (some (.values [7])), .ok none, .ok none, .error .timeout, .ok none, .error .osError] ∧
    (tryAll (tcpUntimedOp [] tcpMac (tcpChan [])) exTimedOps ⟨false, { peers := [some { future := [0, 1, 0, 0, 0, 5, 1, 3, 2, 0, 7].map (fun b => .data [b]) ++ [.pause] }, none] }, 0⟩).1 =
      [.ok (some (.values [7])), .ok none, .ok none, .error .timeout, .ok none, .error .osError] := by decide +kernel

/-- a connection that is accepted too late: this is the difference `SameResult` allows -/
example : (tryAll (tcpTimedOp [] tcpMac (clockedTcp [])) [.open] (timedMaster (some 5) [.accept 9 []] 0 0)).1 = [.error .timeout] ∧
    (tryAll (tcpUntimedOp [] tcpMac (tcpChan [])) [.open] ⟨false, { peers := [none] }, 0⟩).1 = [.error .osError] := by decide +kernel

end Modbus
