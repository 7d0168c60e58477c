import Verif.Props.ServerTime
/-
# The TCP server with a clock does what the TCP server without a clock can do

Every run of `Model/ClockedServer.lean` is a run of `Model/TcpServer.lean`, for a suitable order of arrivals and time-outs.  So what the theorems
about `srvRounds` say about all runs holds for all runs with a clock.
-/
namespace Modbus

/-- the events of the model without a clock -/
def CEvent.net : CEvent → NetEvent
  | .data b bs => .data (b :: bs)
  | .eof => .eof
  | .reset => .reset

/-- the events other than silence -/
def reals (ev : List NetEvent) : List NetEvent := ev.filter (· ≠ .pause)

theorem reals_append (a b : List NetEvent) : reals (a ++ b) = reals a ++ reals b := by simp [reals]

theorem reals_net (A : List CEvent) : reals (A.map CEvent.net) = A.map CEvent.net := by
  unfold reals
  rw [List.filter_eq_self]
  intro e he
  obtain ⟨x, _, rfl⟩ := List.mem_map.mp he
  cases x <;> simp [CEvent.net]

/-- the events `A` arrive; only the last one may end the stream -/
def Arrives : List CEvent → Bytes × Option Ending → Bytes × Option Ending → Prop
  | [], p, q => p = q
  | .data b bs :: A, (buf, none), q => Arrives A (buf ++ b :: bs, none) q
  | .eof :: A, (buf, none), q => Arrives A (buf, some .eof) q
  | .reset :: A, (buf, none), q => Arrives A (buf, some .reset) q
  | _ :: _, (_, some _), _ => False

theorem Arrives.append : ∀ {A B : List CEvent} {p q r : Bytes × Option Ending}, Arrives A p q → Arrives B q r → Arrives (A ++ B) p r
  | [], _, _, _, _, h, h' => by cases h; exact h'
  | .data b bs :: A, B, (buf, none), q, r, h, h' => Arrives.append (A := A) h h'
  | .eof :: A, B, (buf, none), q, r, h, h' => Arrives.append (A := A) h h'
  | .reset :: A, B, (buf, none), q, r, h, h' => Arrives.append (A := A) h h'
  | .data _ _ :: _, _, (_, some _), _, _, h, _ => h.elim
  | .eof :: _, _, (_, some _), _, _, h, _ => h.elim
  | .reset :: _, _, (_, some _), _, _, h, _ => h.elim

theorem Arrives.ended {A : List CEvent} {b : Bytes} {e : Ending} {q : Bytes × Option Ending} (h : Arrives A (b, some e) q) : A = [] ∧ q = (b, some e) := by
  cases A with
  | nil => exact ⟨rfl, h.symm⟩
  | cons x A => cases x <;> exact h.elim

theorem Arrives.prefix : ∀ {A : List CEvent} {p q : Bytes × Option Ending}, Arrives A p q → p.1 <+: q.1
  | [], _, _, h => by cases h; exact List.prefix_refl _
  | .data b bs :: A, (buf, none), q, h => (List.prefix_append buf (b :: bs)).trans (Arrives.prefix (A := A) h)
  | .eof :: A, (buf, none), q, h => Arrives.prefix (A := A) (p := (buf, some .eof)) h
  | .reset :: A, (buf, none), q, h => Arrives.prefix (A := A) (p := (buf, some .reset)) h
  | .data _ _ :: _, (_, some _), _, h => h.elim
  | .eof :: _, (_, some _), _, h => h.elim
  | .reset :: _, (_, some _), _, h => h.elim

/-- taking bytes off the front -/
theorem Arrives.drop : ∀ {A : List CEvent} {x buf : Bytes} {e : Option Ending} {q : Bytes × Option Ending}, Arrives A (x ++ buf, e) q →
    ∃ q', q.1 = x ++ q' ∧ Arrives A (buf, e) (q', q.2)
  | [], x, buf, e, q, h => by cases h; exact ⟨buf, rfl, rfl⟩
  | .data b bs :: A, x, buf, none, q, h => by
    have h : Arrives A (x ++ buf ++ b :: bs, none) q := h
    rw [List.append_assoc] at h
    exact Arrives.drop (A := A) h
  | .eof :: A, x, buf, none, q, h => by
    have h : Arrives A (x ++ buf, some .eof) q := h
    exact Arrives.drop (A := A) h
  | .reset :: A, x, buf, none, q, h => by
    have h : Arrives A (x ++ buf, some .reset) q := h
    exact Arrives.drop (A := A) h
  | .data _ _ :: _, _, _, some _, _, h => h.elim
  | .eof :: _, _, _, some _, _, h => h.elim
  | .reset :: _, _, _, some _, _, h => h.elim

theorem Arrives.nothing {A : List CEvent} {p : Bytes × Option Ending} (h : Arrives A p ([], none)) : A = [] ∧ p = ([], none) := by
  cases A with
  | nil => exact ⟨rfl, h⟩
  | cons x A =>
    exfalso
    obtain ⟨b, e⟩ := p
    cases e with
    | some e => cases x <;> exact h.elim
    | none =>
      cases x with
      | data c cs =>
        have h' : Arrives A (b ++ c :: cs, none) ([], none) := h
        have := List.prefix_nil.mp h'.prefix
        simp at this
      | eof =>
        have h' : Arrives A (b, some .eof) ([], none) := h
        exact absurd h'.ended.2 (by simp)
      | reset =>
        have h' : Arrives A (b, some .reset) ([], none) := h
        exact absurd h'.ended.2 (by simp)

theorem Arrives.reset : ∀ {A : List CEvent} {p : Bytes × Option Ending} {b : Bytes}, Arrives A p (b, some .reset) → p.2 = some .reset ∨ CEvent.reset ∈ A
  | [], _, _, h => by cases h; exact .inl rfl
  | .data b bs :: A, (buf, none), _, h => by
    have h : Arrives A (buf ++ b :: bs, none) _ := h
    rcases h.reset with h | h
    · cases h
    · exact .inr (List.mem_cons_of_mem _ h)
  | .eof :: A, (buf, none), _, h => by
    have h : Arrives A (buf, some .eof) _ := h
    rcases h.reset with h | h
    · cases h
    · exact .inr (List.mem_cons_of_mem _ h)
  | .reset :: A, (buf, none), _, _ => .inr (by simp)
  | .data _ _ :: _, (_, some _), _, h => h.elim
  | .eof :: _, (_, some _), _, h => h.elim
  | .reset :: _, (_, some _), _, h => h.elim

/-- what arrives until a time -/
theorem arrived_from (now : Nat) : ∀ (ev : List (Nat × CEvent)) (s : CSock), ∃ B, ev.map Prod.snd = B ++ (CSock.arrived now ev s).future.map Prod.snd ∧
    Arrives B (s.buf, s.ended) ((CSock.arrived now ev s).buf, (CSock.arrived now ev s).ended) := by
  intro ev
  induction ev with
  | nil => intro s; exact ⟨[], rfl, rfl⟩
  | cons x ev ih =>
    intro s
    obtain ⟨T, e⟩ := x
    unfold CSock.arrived
    by_cases hc : T ≤ now ∧ s.ended = none
    · rw [if_pos hc]
      obtain ⟨B, g1, g2⟩ := ih (s.take e)
      refine ⟨e :: B, by simp [g1], ?_⟩
      rw [hc.2]
      cases e with
      | data b bs =>
        show Arrives B (s.buf ++ b :: bs, none) _
        rw [← hc.2]; exact g2
      | eof => exact g2
      | reset => exact g2
    · rw [if_neg hc]
      exact ⟨[], rfl, rfl⟩

/-- what arrives between two times -/
theorem arrived_arrives {now now' : Nat} (hn : now ≤ now') : ∀ (ev : List (Nat × CEvent)) (s : CSock),
    ∃ B, (CSock.arrived now ev s).future.map Prod.snd = B ++ (CSock.arrived now' ev s).future.map Prod.snd ∧
      Arrives B ((CSock.arrived now ev s).buf, (CSock.arrived now ev s).ended) ((CSock.arrived now' ev s).buf, (CSock.arrived now' ev s).ended)
  | [], s => ⟨[], rfl, rfl⟩
  | (T, e) :: ev, s => by
    by_cases h : T ≤ now ∧ s.ended = none
    · unfold CSock.arrived
      rw [if_pos h, if_pos ⟨by omega, h.2⟩]
      exact arrived_arrives hn ev _
    · by_cases h' : T ≤ now' ∧ s.ended = none
      · unfold CSock.arrived
        rw [if_neg h, if_pos h']
        obtain ⟨B, g1, g2⟩ := arrived_from now' ev (s.take e)
        refine ⟨e :: B, by simp [g1], ?_⟩
        show Arrives (e :: B) (s.buf, s.ended) _
        rw [h'.2]
        cases e with
        | data b bs =>
          show Arrives B (s.buf ++ b :: bs, none) _
          rw [← h'.2]; exact g2
        | eof => exact g2
        | reset => exact g2
      · unfold CSock.arrived
        rw [if_neg h, if_neg h']
        exact ⟨[], rfl, rfl⟩

/-- The socket `u` (without a clock; its `future` is left open), for which the events `E` are to come, lags behind the socket `k` at the time `now`:
    some of the events that have arrived on `k` are still to come on `u`. -/
structure Lag (now : Nat) (k : CSock) (u : Sock) (E : List CEvent) : Prop where
  connected : k.connected = true
  closed : u.closed = k.closed
  ahead : ∃ A, E = A ++ (k.at now).future.map Prod.snd ∧ Arrives A (u.buf, u.ended) ((k.at now).buf, (k.at now).ended)
  sent : k.sent <+: u.sent
  whole : (k.at now).ended ≠ some .reset → k.sent = u.sent

theorem at_later {now now' : Nat} (hn : now ≤ now') (k : CSock) : ∃ B, (k.at now).future.map Prod.snd = B ++ (k.at now').future.map Prod.snd ∧
    Arrives B ((k.at now).buf, (k.at now).ended) ((k.at now').buf, (k.at now').ended) := arrived_arrives hn k.future k

theorem arrived_sent (now : Nat) : ∀ (ev : List (Nat × CEvent)) (s : CSock), (CSock.arrived now ev s).sent = s.sent
  | [], _ => rfl
  | (T, e) :: ev, s => by
    unfold CSock.arrived
    split
    · rw [arrived_sent now ev]; cases e <;> rfl
    · rfl

theorem at_sent (now : Nat) (k : CSock) : (k.at now).sent = k.sent := arrived_sent now k.future k

theorem arrived_twice {now now' : Nat} (hn : now ≤ now') : ∀ (ev : List (Nat × CEvent)) (s : CSock), (CSock.arrived now ev s).at now' = CSock.arrived now' ev s
  | [], _ => rfl
  | (T, e) :: ev, s => by
    by_cases h : T ≤ now ∧ s.ended = none
    · rw [CSock.arrived, if_pos h]
      rw [arrived_twice hn ev]
      conv => rhs; rw [CSock.arrived, if_pos ⟨by omega, h.2⟩]
    · rw [CSock.arrived, if_neg h]
      show CSock.arrived now' ((T, e) :: ev) _ = CSock.arrived now' ((T, e) :: ev) s
      have : ∀ f, CSock.arrived now' ((T, e) :: ev) { s with future := f } = CSock.arrived now' ((T, e) :: ev) s := by
        intro f
        have gen : ∀ (ev : List (Nat × CEvent)) (s : CSock) (f : List (Nat × CEvent)), CSock.arrived now' ev { s with future := f } = CSock.arrived now' ev s := by
          intro ev
          induction ev with
          | nil => intro s f; rfl
          | cons x ev ih =>
            intro s f
            obtain ⟨T, e⟩ := x
            unfold CSock.arrived
            by_cases hc : T ≤ now' ∧ s.ended = none
            · rw [if_pos hc, if_pos hc]
              cases e
              · exact ih { s with buf := s.buf ++ _ :: _ } f
              · exact ih { s with ended := some .eof } f
              · exact ih { s with ended := some .reset } f
            · rw [if_neg hc, if_neg hc]
        exact gen _ s f
      exact this _

theorem at_twice {now now' : Nat} (hn : now ≤ now') (k : CSock) : (k.at now).at now' = k.at now' := arrived_twice hn k.future k

theorem Lag.later {now now' : Nat} {k : CSock} {u : Sock} {E : List CEvent} (h : Lag now k u E) (hn : now ≤ now') : Lag now' k u E := by
  obtain ⟨A, h1, h2⟩ := h.ahead
  obtain ⟨B, g1, g2⟩ := at_later hn k
  refine ⟨h.connected, h.closed, ⟨A ++ B, by rw [h1, g1, List.append_assoc], h2.append g2⟩, h.sent, fun hr => h.whole fun hc => hr ?_⟩
  rw [hc] at g2
  have := g2.ended.2
  simp only [Prod.mk.injEq] at this
  exact this.2

/-- arrived or not makes no difference -/
theorem Lag.at {now : Nat} {k : CSock} {u : Sock} {E : List CEvent} : Lag now (k.at now) u E ↔ Lag now k u E := by
  have hk := at_keeps now k
  constructor
  · intro h
    exact ⟨by rw [← hk.2.2]; exact h.connected, by rw [h.closed, hk.2.1], by have := h.ahead; rw [at_at] at this; exact this,
      by rw [← at_sent now k]; exact h.sent, fun hr => by rw [← at_sent now k]; exact h.whole (by rw [at_at]; exact hr)⟩
  · intro h
    exact ⟨by rw [hk.2.2]; exact h.connected, by rw [h.closed, hk.2.1], by rw [at_at]; exact h.ahead,
      by rw [at_sent now k]; exact h.sent, fun hr => by rw [at_sent now k]; exact h.whole (by rw [at_at] at hr; exact hr)⟩

/-- The computation `g` without a clock does what a computation with a clock has done, if the events `pre` come first. -/
structure SockFollows {α : Type} (r : Except PyErr α × Nat × CSock) (g : PyM Sock α) (u : Sock) (E : List CEvent)
    (pre : List NetEvent) (u' : Sock) (E' : List CEvent) : Prop where
  events : E.map CEvent.net = reals pre ++ E'.map CEvent.net
  run : ∀ rest, g { u with future := pre ++ rest } = (r.1, { u' with future := rest })
  lag : Lag r.2.1 r.2.2 u' E'

/-- nothing is due -/
theorem at_settled (now : Nat) (k : CSock) (x : Bytes) : ({ k.at now with buf := x } : CSock).at now = { k.at now with buf := x } := by
  have gen : ∀ (ev : List (Nat × CEvent)) (k : CSock), ({ CSock.arrived now ev k with buf := x } : CSock).at now = { CSock.arrived now ev k with buf := x } := by
    intro ev
    induction ev with
    | nil => intro k; rfl
    | cons y ev ih =>
      intro k
      obtain ⟨T, e⟩ := y
      by_cases hc : T ≤ now ∧ k.ended = none
      · rw [CSock.arrived, if_pos hc]; exact ih _
      · rw [CSock.arrived, if_neg hc]
        show CSock.arrived now ((T, e) :: ev) _ = _
        rw [CSock.arrived, if_neg hc]
  exact gen k.future k

/-- what reading at the end of a stream gives -/
def Ending.result : Ending → Except PyErr Bytes
  | .eof => .ok []
  | .reset => .error .osError

/-- reading a byte that is there, or finding the end of the stream -/
theorem ready_follows {now : Nat} {k : CSock} {u : Sock} {E : List CEvent} (h : Lag now k u E) (hc : k.closed = false)
    {r : Except PyErr Bytes × CSock} (hr : (k.at now).ready 1 = some r) : ∃ pre u' E', SockFollows (r.1, now, r.2) (sockRecv 1) u E pre u' E' := by
  obtain ⟨A, h1, h2⟩ := h.ahead
  have huc : u.closed = false := h.closed.trans hc
  have hkeep := at_keeps now k
  have hlag : ∀ (x : Bytes) (u' : Sock) (A' : List CEvent), u'.closed = u.closed → u'.sent = u.sent → Arrives A' (u'.buf, u'.ended) (x, (k.at now).ended) →
      Lag now { k.at now with buf := x } u' (A' ++ (k.at now).future.map Prod.snd) := by
    intro x u' A' g1 g2 g3
    refine ⟨by rw [← h.connected]; exact hkeep.2.2, by rw [g1, h.closed]; exact hkeep.2.1.symm, ?_, ?_, ?_⟩
    · rw [at_settled]
      exact ⟨A', rfl, g3⟩
    · rw [g2]
      show (k.at now).sent <+: _
      rw [at_sent]; exact h.sent
    · intro hh
      rw [at_settled] at hh
      rw [g2]
      show (k.at now).sent = _
      rw [at_sent]; exact h.whole hh
  cases hb : (k.at now).buf with
  | cons b bs =>
    have hr' : r = (.ok [b], { k.at now with buf := bs }) := by
      have : (k.at now).ready 1 = some (.ok [b], { k.at now with buf := bs }) := by unfold CSock.ready; rw [hb]; rfl
      rw [hr] at this; exact Option.some.inj this
    subst hr'
    cases hu : u.buf with
    | cons c cs =>
      rw [hu, hb] at h2
      obtain ⟨q', e1, e2⟩ := Arrives.drop (x := [c]) h2
      have e1 : b :: bs = c :: q' := e1
      cases e1
      refine ⟨[], { u with buf := cs }, E, rfl, fun rest => ?_, ?_⟩
      · simp only [sockRecv, huc, hu, List.nil_append]
        rfl
      · rw [h1]
        exact hlag bs _ A rfl rfl e2
    | nil =>
      rw [hu, hb] at h2
      cases hue : u.ended with
      | some e =>
        rw [hue] at h2
        have := h2.ended.2
        simp at this
      | none =>
        rw [hue] at h2
        cases A with
        | nil => cases h2
        | cons x A =>
          cases x with
          | data c cs =>
            have h2 : Arrives A (c :: cs, none) (b :: bs, (k.at now).ended) := h2
            obtain ⟨q', e1, e2⟩ := Arrives.drop (x := [c]) h2
            have e1 : b :: bs = c :: q' := e1
            cases e1
            refine ⟨[.data (b :: cs)], { u with buf := cs }, A ++ (k.at now).future.map Prod.snd, ?_, fun rest => ?_, ?_⟩
            · rw [h1]; rfl
            · simp only [sockRecv, huc, hu, hue]
              rfl
            · exact hlag bs _ A rfl rfl (by dsimp only; rw [hue]; exact e2)
          | eof =>
            have h2 : Arrives A ([], some .eof) (b :: bs, (k.at now).ended) := h2
            have := h2.ended.2
            simp at this
          | reset =>
            have h2 : Arrives A ([], some .reset) (b :: bs, (k.at now).ended) := h2
            have := h2.ended.2
            simp at this
  | nil =>
    have hu : u.buf = [] := by
      have := h2.prefix
      rw [hb] at this
      exact List.prefix_nil.mp this
    rw [hu, hb] at h2
    cases he : (k.at now).ended with
    | none =>
      unfold CSock.ready at hr
      rw [hb, he] at hr
      cases hr
    | some e =>
      have hkk : ({ k.at now with buf := [] } : CSock) = k.at now := by rw [← hb]
      have hr' : r = (e.result, k.at now) := by
        unfold CSock.ready at hr
        rw [hb, he] at hr
        cases e <;> exact (Option.some.inj hr).symm
      subst hr'
      cases hue : u.ended with
      | some e' =>
        rw [hue, he] at h2
        obtain ⟨e1, e2⟩ := h2.ended
        simp only [Prod.mk.injEq, Option.some.injEq, true_and] at e2
        refine ⟨[], u, E, rfl, fun rest => ?_, Lag.at.mpr h⟩
        subst e2
        cases e <;> simp only [sockRecv, huc, hu, hue] <;> rfl
      | none =>
        rw [hue, he] at h2
        cases A with
        | nil => cases h2
        | cons x A =>
          cases x with
          | data c cs =>
            have h2 : Arrives A (c :: cs, none) ([], some e) := h2
            have := List.prefix_nil.mp h2.prefix
            cases this
          | eof =>
            have h2 : Arrives A ([], some .eof) ([], some e) := h2
            obtain ⟨e1, e2⟩ := h2.ended
            simp only [Prod.mk.injEq, Option.some.injEq, true_and] at e2
            subst e2
            refine ⟨[.eof], { u with ended := some .eof }, (k.at now).future.map Prod.snd, by rw [h1, e1]; rfl, fun rest => ?_, ?_⟩
            · simp only [sockRecv, huc, hu, hue]
              rfl
            · have := hlag [] { u with ended := some .eof } [] rfl rfl (by dsimp only; rw [hu, he]; rfl)
              rw [hkk] at this
              exact this
          | reset =>
            have h2 : Arrives A ([], some .reset) ([], some e) := h2
            obtain ⟨e1, e2⟩ := h2.ended
            simp only [Prod.mk.injEq, Option.some.injEq, true_and] at e2
            subst e2
            refine ⟨[.reset], { u with ended := some .reset }, (k.at now).future.map Prod.snd, by rw [h1, e1]; rfl, fun rest => ?_, ?_⟩
            · simp only [sockRecv, huc, hu, hue]
              rfl
            · have := hlag [] { u with ended := some .reset } [] rfl rfl (by dsimp only; rw [hu, he]; rfl)
              rw [hkk] at this
              exact this

/-- reading a byte -/
theorem cRecv_follows {now : Nat} {k : CSock} {u : Sock} {E : List CEvent} (h : Lag now k u E) {t : Nat} (ht : k.timeout = some (t + 1)) :
    ∃ pre u' E', SockFollows (cRecv 1 (now, k)) (sockRecv 1) u E pre u' E' := by
  unfold cRecv
  dsimp only
  by_cases hc : k.closed = true
  · rw [if_pos (.inl hc)]
    refine ⟨[], u, E, rfl, fun rest => ?_, h⟩
    simp only [sockRecv, h.closed, hc, if_true]
    rfl
  · have hc : k.closed = false := by simpa using hc
    rw [if_neg (by simp [hc, h.connected])]
    have hkeep := at_keeps now k
    cases hr : (k.at now).ready 1 with
    | some r => exact ready_follows h hc hr
    | none =>
      obtain ⟨hb, he⟩ := ready_none hr
      have htimeout : Lag (now + (t + 1)) (k.at now) u E := (Lag.at.mpr h).later (by omega)
      have hu : u.closed = false ∧ u.buf = [] ∧ u.ended = none := by
        obtain ⟨A, h1, h2⟩ := h.ahead
        rw [hb, he] at h2
        have := h2.nothing.2
        simp only [Prod.mk.injEq] at this
        exact ⟨h.closed.trans hc, this⟩
      have hpause : ∃ pre u' E', SockFollows (.error .timeout, (now + (t + 1), k.at now)) (sockRecv 1) u E pre u' E' := by
        refine ⟨[.pause], u, E, rfl, fun rest => ?_, htimeout⟩
        simp only [sockRecv, hu]
        rfl
      dsimp only
      rw [hkeep.1, ht]
      cases hf : (k.at now).future with
      | nil => exact hpause
      | cons x ev =>
        obtain ⟨T, e⟩ := x
        dsimp only
        by_cases hT : T < now + (t + 1)
        · rw [if_pos hT]
          have hnow : now < T := arrived_head now k.future k he hf
          have hs := ready_arrived 1 (k.at now) hf he
          cases hr2 : ((k.at now).at T).ready 1 with
          | none => rw [hr2] at hs; cases hs
          | some r => exact ready_follows ((Lag.at.mpr h).later (by omega)) (by rw [hkeep.2.1]; exact hc) hr2
        · rw [if_neg hT]
          exact hpause

theorem SockFollows.none {α : Type} {r : Except PyErr α} {now : Nat} {k : CSock} {g : PyM Sock α} {u : Sock} {E : List CEvent}
    (h : Lag now k u E) (hg : ∀ s, g s = (r, s)) : SockFollows (r, now, k) g u E [] u E :=
  ⟨rfl, fun _ => hg _, h⟩

theorem SockFollows.bind {α β : Type} {f : PyM (Nat × CSock) α} {F : α → PyM (Nat × CSock) β} {g : PyM Sock α} {G : α → PyM Sock β}
    {p : Nat × CSock} {u : Sock} {E : List CEvent} (h : ∃ pre u' E', SockFollows (f p) g u E pre u' E')
    (h' : ∀ a u' E', (f p).1 = .ok a → Lag (f p).2.1 (f p).2.2 u' E' → ∃ pre v E'', SockFollows (F a (f p).2) (G a) u' E' pre v E'') :
    ∃ pre u' E', SockFollows ((f >>= F) p) (g >>= G) u E pre u' E' := by
  obtain ⟨pre, u', E', h1, h2, h3⟩ := h
  cases hf : f p with
  | mk r p' =>
    rw [hf] at h2 h3 h'
    cases r with
    | error e =>
      refine ⟨pre, u', E', h1, fun rest => ?_, ?_⟩
      · simp only [PyM.bind_apply, h2, hf]
      · simp only [PyM.bind_apply, hf]; exact h3
    | ok a =>
      obtain ⟨pre', v, E'', k1, k2, k3⟩ := h' a u' E' rfl h3
      refine ⟨pre ++ pre', v, E'', ?_, fun rest => ?_, ?_⟩
      · rw [h1, k1, reals_append, List.append_assoc]
      · rw [List.append_assoc]
        simp only [PyM.bind_apply, h2, hf, k2]
      · simp only [PyM.bind_apply, hf]; exact k3

theorem cReadLoop_follows (target : Int) {t : Nat} : ∀ (fuel : Nat) (request : Bytes) (now : Nat) (k : CSock) (u : Sock) (E : List CEvent),
    Lag now k u E → k.timeout = some (t + 1) → ∃ pre u' E', SockFollows (cReadLoop target fuel request (now, k)) (srvReadLoop target fuel request) u E pre u' E'
  | 0, request, now, k, u, E, h, _ => ⟨[], u, E, .none h fun _ => rfl⟩
  | fuel+1, request, now, k, u, E, h, ht => by
    unfold cReadLoop srvReadLoop
    by_cases hl : (request.length : Int) < target
    · rw [if_pos hl, if_pos hl]
      refine SockFollows.bind (cRecv_follows h ht) fun a u' E' ha hl' => ?_
      by_cases h0 : a.length = 0
      · rw [if_pos h0, if_pos h0]
        exact ⟨[], u', E', .none hl' fun _ => rfl⟩
      · rw [if_neg h0, if_neg h0]
        exact cReadLoop_follows target fuel _ _ _ u' E' hl' ((cRecv_spec 1 (now, k)).1.mode.trans ht)
    · rw [if_neg hl, if_neg hl]
      exact ⟨[], u, E, .none h fun _ => rfl⟩

/-- looking at a readable socket -/
theorem cPeek_follows {now : Nat} {k : CSock} {u : Sock} {E : List CEvent} (h : Lag now k u E) (hu : u.readable = true) (blocking : Bool) :
    SockFollows (cPeek (now, k)) (sockPeek blocking) u E [] u E := by
  by_cases hc : k.closed = true
  · have : cPeek (now, k) = (.error .osError, (now, k)) := by
      unfold cPeek cRecv
      dsimp only
      rw [if_pos (.inl hc)]
    rw [this]
    refine ⟨rfl, fun rest => ?_, h⟩
    simp only [sockPeek, h.closed, hc, if_true]
    rfl
  · have hc : k.closed = false := by simpa using hc
    have huc := h.closed.trans hc
    obtain ⟨A, h1, h2⟩ := h.ahead
    have hself : Lag now (k.at now) u E := Lag.at.mpr h
    cases hb : u.buf with
    | cons b bs =>
      rw [hb] at h2
      obtain ⟨x, hx⟩ := h2.prefix
      have hkb : (k.at now).buf = b :: (bs ++ x) := hx.symm
      rw [cPeek_ready hc h.connected hkb]
      refine ⟨rfl, fun rest => ?_, hself⟩
      simp only [sockPeek, huc, hb]
      rfl
    | nil =>
      unfold Sock.readable at hu
      rw [hb] at hu h2
      cases he : u.ended with
      | none => rw [he] at hu; simp at hu
      | some e =>
        rw [he] at h2
        have h3 := h2.ended.2
        simp only [Prod.mk.injEq] at h3
        have hr : (k.at now).ready 1 = some (e.result, k.at now) := by
          unfold CSock.ready
          rw [h3.1, h3.2]
          cases e <;> rfl
        have : cPeek (now, k) = (e.result, (now, k.at now)) := by
          unfold cPeek cRecv
          dsimp only
          rw [if_neg (by simp [hc, h.connected])]
          simp only [hr]
          cases e <;> rfl
        rw [this]
        refine ⟨rfl, fun rest => ?_, hself⟩
        simp only [sockPeek, huc, hb, he]
        cases e <;> rfl

/-! ## A connection -/

/-- `SockFollows` for a connection with the memories of the slaves -/
structure ConnFollows {α : Type} (r : Except PyErr α × CConn) (g : PyM Conn α) (heap : Heap) (u : Sock) (E : List CEvent)
    (pre : List NetEvent) (u' : Sock) (E' : List CEvent) : Prop where
  events : E.map CEvent.net = reals pre ++ E'.map CEvent.net
  run : ∀ rest, g ⟨heap, { u with future := pre ++ rest }⟩ = (r.1, ⟨r.2.heap, { u' with future := rest }⟩)
  lag : Lag r.2.now r.2.sock u' E'

def ConnSim {α : Type} (f : PyM CConn α) (g : PyM Conn α) (c : CConn) (u : Sock) (E : List CEvent) : Prop :=
  ∃ pre u' E', ConnFollows (f c) g c.heap u E pre u' E'

theorem ConnSim.none {α : Type} {f : PyM CConn α} {g : PyM Conn α} {c : CConn} {u : Sock} {E : List CEvent} (r : Except PyErr α)
    (h : Lag c.now c.sock u E) (hf : f c = (r, c)) (hg : ∀ s, g s = (r, s)) : ConnSim f g c u E :=
  ⟨[], u, E, rfl, fun _ => by rw [hf]; exact hg _, by rw [hf]; exact h⟩

theorem ConnSim.bind {α β : Type} {f : PyM CConn α} {F : α → PyM CConn β} {g : PyM Conn α} {G : α → PyM Conn β}
    {c : CConn} {u : Sock} {E : List CEvent} (h : ConnSim f g c u E)
    (h' : ∀ a u' E', (f c).1 = .ok a → Lag (f c).2.now (f c).2.sock u' E' → ConnSim (F a) (G a) (f c).2 u' E') :
    ConnSim (f >>= F) (g >>= G) c u E := by
  obtain ⟨pre, u', E', h1, h2, h3⟩ := h
  cases hf : f c with
  | mk r p' =>
    rw [hf] at h2 h3 h'
    cases r with
    | error e =>
      refine ⟨pre, u', E', h1, fun rest => ?_, ?_⟩
      · simp only [PyM.bind_apply, h2, hf]
      · simp only [PyM.bind_apply, hf]; exact h3
    | ok a =>
      obtain ⟨pre', v, E'', k1, k2, k3⟩ := h' a u' E' rfl h3
      refine ⟨pre ++ pre', v, E'', ?_, fun rest => ?_, ?_⟩
      · rw [h1, k1, reals_append, List.append_assoc]
      · rw [List.append_assoc]
        simp only [PyM.bind_apply, h2, hf, k2]
      · simp only [PyM.bind_apply, hf]; exact k3

theorem ConnSim.sock {α : Type} {f : PyM (Nat × CSock) α} {g : PyM Sock α} {c : CConn} {u : Sock} {E : List CEvent}
    (h : ∃ pre u' E', SockFollows (f (c.now, c.sock)) g u E pre u' E') : ConnSim (CConn.onSock f) (Conn.onSock g) c u E := by
  obtain ⟨pre, u', E', h1, h2, h3⟩ := h
  refine ⟨pre, u', E', h1, fun rest => ?_, h3⟩
  simp only [Conn.onSock, h2]
  rfl

theorem ConnSim.lift {α : Type} (x : Except PyErr α) {c : CConn} {u : Sock} {E : List CEvent} (h : Lag c.now c.sock u E) :
    ConnSim (PyM.lift x) (PyM.lift x) c u E := .none x h rfl fun _ => rfl

theorem ConnSim.pure {α : Type} (x : α) {c : CConn} {u : Sock} {E : List CEvent} (h : Lag c.now c.sock u E) :
    ConnSim (Pure.pure x) (Pure.pure x) c u E := .none (.ok x) h rfl fun _ => rfl

theorem arrived_sent_any (now : Nat) (k : CSock) (x : List Bytes) : ({ k with sent := x } : CSock).at now = { k.at now with sent := x } := by
  have gen : ∀ (ev : List (Nat × CEvent)) (k : CSock), CSock.arrived now ev { k with sent := x } = { CSock.arrived now ev k with sent := x } := by
    intro ev
    induction ev with
    | nil => intro k; rfl
    | cons y ev ih =>
      intro k
      obtain ⟨T, e⟩ := y
      unfold CSock.arrived
      by_cases hc : T ≤ now ∧ k.ended = none
      · rw [if_pos hc, if_pos hc]
        have := ih (k.take e)
        cases e <;> exact this
      · rw [if_neg hc, if_neg hc]
  exact gen k.future k

theorem arrived_timeout_any (now : Nat) (k : CSock) (x : Option Nat) : ({ k with timeout := x } : CSock).at now = { k.at now with timeout := x } := by
  have gen : ∀ (ev : List (Nat × CEvent)) (k : CSock), CSock.arrived now ev { k with timeout := x } = { CSock.arrived now ev k with timeout := x } := by
    intro ev
    induction ev with
    | nil => intro k; rfl
    | cons y ev ih =>
      intro k
      obtain ⟨T, e⟩ := y
      unfold CSock.arrived
      by_cases hc : T ≤ now ∧ k.ended = none
      · rw [if_pos hc, if_pos hc]
        have := ih (k.take e)
        cases e <;> exact this
      · rw [if_neg hc, if_neg hc]
  exact gen k.future k

theorem lag_timeout {now : Nat} {k : CSock} {u : Sock} {E : List CEvent} (h : Lag now k u E) {x : Option Nat} : Lag now { k with timeout := x } u E := by
  have := arrived_timeout_any now k x
  exact ⟨h.connected, h.closed, by rw [this]; exact h.ahead, h.sent, by rw [this]; exact h.whole⟩

/-- a change of the socket's options -/
theorem modify_sim {α : Type} {F : Unit → PyM CConn α} {g : PyM Conn α} {c : CConn} {u : Sock} {E : List CEvent} (m : CConn → CConn)
    (h : ConnSim (F ()) g (m c) u E) (hm : (m c).heap = c.heap) : ConnSim (PyM.modify m >>= F) g c u E := by
  unfold ConnSim at h ⊢
  rw [hm] at h
  exact h

/-- sending: on a connection that has been reset since, the server without a clock may still send -/
theorem cSrvSend_sim (R : Registry) (r : Bytes) {c : CConn} {u : Sock} {E : List CEvent} (h : Lag c.now c.sock u E) :
    ConnSim (cSrvSend R r) (srvSend R r) c u E := by
  unfold ConnSim
  cases hb : callHooks R "modbus_tcp.TcpServer.before_send" (.msg r) with
  | error e =>
    have h1 : cSrvSend R r c = (.ok (), c) := by simp [cSrvSend, hb]
    rw [h1]
    refine ⟨[], u, E, rfl, fun rest => ?_, h⟩
    simp [srvSend, hb]
  | ok rv =>
    by_cases hbad : c.sock.closed = true ∨ ¬ c.sock.connected = true ∨ (c.sock.at c.now).ended = some .reset
    · have hs : cSend (rv.getD r) (c.now, c.sock) = (.error .osError, (c.now, c.sock)) := by unfold cSend; exact if_pos hbad
      have h1 : cSrvSend R r c = (.ok (), c) := by simp [cSrvSend, hb, CConn.onSock, hs]
      rw [h1]
      by_cases hu : u.closed = true ∨ u.ended = some .reset
      · refine ⟨[], u, E, rfl, fun rest => ?_, h⟩
        simp [srvSend, hb, Conn.onSock, sockSend, hu]
      · have hr : (c.sock.at c.now).ended = some .reset := by
          rcases hbad with hb | hb | hb
          · rw [h.closed] at hu; exact absurd (.inl hb) hu
          · exact absurd h.connected hb
          · exact hb
        refine ⟨[], { u with sent := u.sent ++ [rv.getD r] }, E, rfl, fun rest => ?_, ⟨h.connected, h.closed, h.ahead,
          h.sent.trans (List.prefix_append _ _), fun hh => absurd hr hh⟩⟩
        cases ha : callHooks R "modbus_tcp.TcpServer.after_send" (.msg (rv.getD r)) <;>
          simp [srvSend, hb, Conn.onSock, sockSend, hu, ha]
    · have hu : ¬ (u.closed = true ∨ u.ended = some .reset) := by
        rintro (hu | hu)
        · exact hbad (.inl (h.closed.symm.trans hu))
        · obtain ⟨A, h1, h2⟩ := h.ahead
          rw [hu] at h2
          have := h2.ended.2
          simp only [Prod.mk.injEq] at this
          exact hbad (.inr (.inr this.2))
      have hs : cSend (rv.getD r) (c.now, c.sock) = (.ok (), (c.now, { c.sock with sent := c.sock.sent ++ [rv.getD r] })) := by
        unfold cSend; exact if_neg hbad
      have h1 : ∃ log, cSrvSend R r c = (.ok (), { c with sock := { c.sock with sent := c.sock.sent ++ [rv.getD r] }, log := log }) := by
        cases ha : callHooks R "modbus_tcp.TcpServer.after_send" (.msg (rv.getD r)) <;>
          exact ⟨_, by simp [cSrvSend, hb, CConn.onSock, hs, ha]; rfl⟩
      obtain ⟨log, h1⟩ := h1
      rw [h1]
      refine ⟨[], { u with sent := u.sent ++ [rv.getD r] }, E, rfl, fun rest => ?_, ?_⟩
      · cases ha : callHooks R "modbus_tcp.TcpServer.after_send" (.msg (rv.getD r)) <;>
          simp [srvSend, hb, Conn.onSock, sockSend, hu, ha]
      · have hw := h.whole fun hh => hbad (.inr (.inr hh))
        refine ⟨h.connected, h.closed, ?_, ?_, fun _ => ?_⟩
        · have := arrived_sent_any c.now c.sock (c.sock.sent ++ [rv.getD r])
          dsimp only
          rw [this]
          exact h.ahead
        · show c.sock.sent ++ _ <+: u.sent ++ _
          rw [hw]
        · show c.sock.sent ++ _ = u.sent ++ _
          rw [hw]

theorem cSrvAnswer_sim (R : Registry) (db : Databank) (request : Bytes) {c : CConn} {u : Sock} {E : List CEvent} (h : Lag c.now c.sock u E) :
    ConnSim (cSrvAnswer R db request) (srvAnswer R db request) c u E := by
  unfold cSrvAnswer srvAnswer
  refine ConnSim.bind (α := Option Bytes) ?_ fun a u' E' _ hl => ?_
  · cases hh : serverHandle R tcpMac db request c.heap with
    | mk r hp =>
      cases r with
      | error e =>
        refine ⟨[], u, E, rfl, fun rest => ?_, ?_⟩
        · simp [Conn.onHeap, CConn.onHeap, hh]
        · simp [CConn.onHeap, hh]; exact h
      | ok v =>
        refine ⟨[], u, E, rfl, fun rest => ?_, ?_⟩
        · simp [Conn.onHeap, CConn.onHeap, hh]
        · simp [CConn.onHeap, hh]; exact h
  · cases a with
    | none => exact .pure () hl
    | some a => cases a with
      | nil => exact .pure () hl
      | cons x xs => exact cSrvSend_sim R _ hl

theorem cSrvClient_sim {sec : Nat} (hx : 0 < sec) (R : Registry) (db : Databank) (timed : Bool) {c : CConn} {u : Sock} {E : List CEvent}
    (h : Lag c.now c.sock u E) (hu : u.readable = true) : ConnSim (cSrvClient sec R db) (srvClient R db timed) c u E := by
  obtain ⟨t, rfl⟩ : ∃ t, sec = t + 1 := ⟨sec - 1, by omega⟩
  unfold cSrvClient srvClient
  refine ConnSim.bind (.sock ⟨_, _, _, cPeek_follows h hu timed⟩) fun a u' E' _ hl => ?_
  by_cases h0 : a.length = 0
  · rw [if_pos h0, if_pos h0]
    exact ConnSim.bind (.lift _ hl) fun _ u' E' _ hl => .pure true hl
  · rw [if_neg h0, if_neg h0]
    generalize hc : ((CConn.onSock cPeek) c).2 = c1 at hl ⊢
    refine modify_sim _ ?_ rfl
    have hl' : Lag c1.now { c1.sock with timeout := some (t + 1) } u' E' := lag_timeout hl
    refine ConnSim.bind (.sock (cReadLoop_follows 7 8 [] _ _ u' E' hl' rfl)) fun q u2 E2 _ hl2 => ?_
    have hm2 : ((CConn.onSock (cReadLoop 7 8 [])) { c1 with sock := { c1.sock with timeout := some (t + 1) } }).2.sock.timeout = some (t + 1) :=
      (cReadLoop_waits 7 8 [] (c1.now, { c1.sock with timeout := some (t + 1) })).mode
    generalize ((CConn.onSock (cReadLoop 7 8 [])) { c1 with sock := { c1.sock with timeout := some (t + 1) } }).2 = c2 at hl2 hm2 ⊢
    obtain ⟨request, isOk⟩ := q
    refine ConnSim.bind (.lift _ hl2) fun rv u3 E3 _ hl3 => ?_
    have hl3 : Lag c2.now c2.sock u3 E3 := hl3
    show ConnSim _ _ c2 u3 E3
    cases isOk with
    | false => exact .pure false hl3
    | true =>
      refine ConnSim.bind (.lift _ hl3) fun len u4 E4 _ hl4 => ?_
      have hl4 : Lag c2.now c2.sock u4 E4 := hl4
      show ConnSim _ _ c2 u4 E4
      refine ConnSim.bind (.sock (cReadLoop_follows _ 65543 _ _ _ u4 E4 hl4 hm2)) fun q u5 E5 _ hl5 => ?_
      obtain ⟨request2, ok2⟩ := q
      cases ok2 with
      | false => exact .pure false hl5
      | true => exact ConnSim.bind (cSrvAnswer_sim R db _ hl5) fun _ u6 E6 _ hl6 => .pure false hl6

/-! ## The server -/

/-- the server when the events `F` are to come -/
def Srv.fut (u : Srv) (F : Nat → List NetEvent) : Srv := { u with socks := fun j => { u.socks j with future := F j } }

/-- the events of the connection that will be accepted as number `n` of those to come -/
def eventsOf (coming : List (Nat × Option (List (Nat × CEvent)))) (n : Nat) : List CEvent := ((coming.filterMap Prod.snd).getD n []).map Prod.snd

/-- the server without a clock lags behind the server with a clock -/
structure SrvLag (s : CSrv) (u : Srv) (E : Nat → List CEvent) : Prop where
  heap : u.heap = s.heap
  sock : u.sock = s.sock
  sockets : u.sockets = s.sockets
  next : u.next = s.next
  conn : ∀ i, i < s.next → s.sock ≠ some i → Lag s.now (s.socks i) (u.socks i) (E i)
  listening : ∀ i, s.sock = some i → (u.socks i).closed = (s.socks i).closed
  fresh : ∀ i, s.next ≤ i → ({ u.socks i with future := [] } : Sock) = {} ∧ E i = eventsOf s.coming (i - s.next)
  old : ∀ i ∈ s.sockets, i < s.next
  oldSock : ∀ i, s.sock = some i → i < s.next

structure SrvFollows {α : Type} (r : Except PyErr α × CSrv) (g : PyM Srv α) (u : Srv) (E : Nat → List CEvent)
    (pre : Nat → List NetEvent) (u' : Srv) (E' : Nat → List CEvent) : Prop where
  events : ∀ i, (E i).map CEvent.net = reals (pre i) ++ (E' i).map CEvent.net
  run : ∀ rest, g (u.fut fun i => pre i ++ rest i) = (r.1, u'.fut rest)
  lag : SrvLag r.2 u' E'

/-- what `accept` will give -/
def AccFor (acc : Option (Except PyErr Unit)) (s : CSrv) : Prop :=
  ∃ T c rest, s.coming = (T, c) :: rest ∧ T ≤ s.now ∧ acc = some (if c = none then .error .osError else .ok ())

theorem arrived_closed_any (now : Nat) (k : CSock) (x : Bool) : ({ k with closed := x } : CSock).at now = { k.at now with closed := x } := by
  have gen : ∀ (ev : List (Nat × CEvent)) (k : CSock), CSock.arrived now ev { k with closed := x } = { CSock.arrived now ev k with closed := x } := by
    intro ev
    induction ev with
    | nil => intro k; rfl
    | cons y ev ih =>
      intro k
      obtain ⟨T, e⟩ := y
      unfold CSock.arrived
      by_cases hc : T ≤ now ∧ k.ended = none
      · rw [if_pos hc, if_pos hc]
        have := ih (k.take e)
        cases e <;> exact this
      · rw [if_neg hc, if_neg hc]
  exact gen k.future k

theorem lag_close {now : Nat} {k : CSock} {u : Sock} {E : List CEvent} (h : Lag now k u E) : Lag now { k with closed := true } u.close E := by
  have := arrived_closed_any now k true
  exact ⟨h.connected, rfl, by rw [this]; exact h.ahead, h.sent, by rw [this]; exact h.whole⟩

/-- closing and forgetting a socket -/
theorem drop_follows {s : CSrv} {u : Srv} {E : Nat → List CEvent} (h : SrvLag s u E) {i : Nat} (hi : i ∈ s.sockets) :
    ∃ u', SrvFollows (cSrvDrop i s) (srvDrop i) u E (fun _ => []) u' E ∧ ∀ j, j ≠ i → u'.socks j = u.socks j := by
  rw [cSrvDrop_mem hi]
  refine ⟨{ u.put i (u.socks i).close with sockets := u.sockets.erase i }, ⟨fun j => rfl, fun rest => ?_, ?_⟩, fun j hj => ?_⟩
  · unfold srvDrop
    dsimp only
    rw [if_pos (by show i ∈ u.sockets; rw [h.sockets]; exact hi)]
    refine Prod.ext rfl ?_
    simp only [Srv.fut, Srv.put, List.nil_append, Sock.close]
    congr 1
    funext j
    by_cases hj : j = i
    · subst hj; simp
    · simp [hj]
  · have hio := h.old i hi
    refine ⟨h.heap, h.sock, by rw [← h.sockets], h.next, fun j hj hl => ?_, fun j hj => ?_, fun j hj => ?_, fun j hj => h.old j (List.mem_of_mem_erase hj), h.oldSock⟩
    · simp only [CSrv.put, Srv.put]
      by_cases hji : j = i
      · subst hji
        rw [if_pos rfl, if_pos rfl]
        exact lag_close (h.conn j hj hl)
      · rw [if_neg hji, if_neg hji]
        exact h.conn j hj hl
    · simp only [CSrv.put, Srv.put]
      by_cases hji : j = i
      · rw [if_pos hji, if_pos hji]; rfl
      · rw [if_neg hji, if_neg hji]
        exact h.listening j hj
    · have hj : s.next ≤ j := hj
      simp only [Srv.put]
      rw [if_neg (by omega)]
      exact h.fresh j hj
  · simp only [Srv.put]
    rw [if_neg hj]

/-- a new connection -/
theorem lag_start (ev : List (Nat × CEvent)) (F : List NetEvent) :
    Lag 0 { connected := true, timeout := some 0, future := ev } { future := F } (ev.map Prod.snd) := by
  have h0 : ∀ (ev : List (Nat × CEvent)) (s : CSock), ∃ B, ev.map Prod.snd = B ++ (CSock.arrived 0 ev s).future.map Prod.snd ∧
      Arrives B (s.buf, s.ended) ((CSock.arrived 0 ev s).buf, (CSock.arrived 0 ev s).ended) := arrived_from 0
  obtain ⟨B, h1, h2⟩ := h0 ev { connected := true, timeout := some 0, future := ev }
  exact ⟨rfl, rfl, ⟨B, h1, h2⟩, List.prefix_refl _, fun _ => rfl⟩

/-- one ready socket -/
theorem one_follows {sec : Nat} (hx : 0 < sec) (R : Registry) (db : Databank) (acc : Option (Except PyErr Unit)) {s : CSrv} {u : Srv}
    {E : Nat → List CEvent} (hinv : CSrvInv sec s) (h : SrvLag s u E) {i : Nat} (hi : i ∈ s.sockets) (hacc : s.sock = some i → AccFor acc s)
    (hr : s.sock ≠ some i → (u.socks i).readable = true) :
    ∃ pre u' E', SrvFollows (cSrvOne sec R db i s) (srvOne R db acc i) u E pre u' E' ∧ (∀ j, j ≠ i → u'.socks j = u.socks j) := by
  have hio := h.old i hi
  by_cases hl : s.sock = some i
  · obtain ⟨T, c, rest, hc, hT, ha⟩ := hacc hl
    have hfut : ∀ F, (u.fut F).sock = some i := fun F => h.sock.trans hl
    cases c with
    | none =>
      have h1 : cSrvOne sec R db i s = (.error .osError, { s with coming := rest }) := by
        unfold cSrvOne cSrvAccept
        rw [if_pos hl, hc]
        dsimp only
        rw [if_neg (by omega)]
      rw [h1]
      refine ⟨fun _ => [], u, E, ⟨fun _ => rfl, fun F => ?_, ?_⟩, fun j _ => rfl⟩
      · unfold srvOne srvAccept
        rw [if_pos (hfut _), ha]
        rfl
      · refine ⟨h.heap, h.sock, h.sockets, h.next, h.conn, h.listening, fun j hj => ⟨(h.fresh j hj).1, ?_⟩, h.old, h.oldSock⟩
        rw [(h.fresh j hj).2, hc]
        rfl
    | some ev =>
      have hlag : SrvLag { (({ s with coming := rest } : CSrv).put s.next { connected := true, timeout := some 0, future := ev }) with
          sockets := s.sockets ++ [s.next], next := s.next + 1 } { u with sockets := u.sockets ++ [u.next], next := u.next + 1 } E := by
        have hfr := h.fresh s.next (Nat.le_refl _)
        refine ⟨h.heap, h.sock, by rw [h.sockets, h.next], by rw [h.next], fun j hj hlj => ?_, fun j hj => ?_, fun j hj => ?_, fun j hj => ?_, fun j hj => ?_⟩
        · have hj : j < s.next + 1 := hj
          simp only [CSrv.put]
          by_cases hjn : j = s.next
          · subst hjn
            rw [if_pos rfl]
            have hu : u.socks s.next = { future := (u.socks s.next).future } := by
              have := hfr.1
              simp only [Sock.mk.injEq] at this
              obtain ⟨g1, g2, _, g3, g4, g5⟩ := this
              cases hk : u.socks s.next
              simp_all
            have hE : E s.next = ev.map Prod.snd := by
              rw [hfr.2, hc]
              simp [eventsOf]
            rw [hu, hE]
            exact (lag_start ev _).later (Nat.zero_le _)
          · rw [if_neg hjn]
            exact h.conn j (by omega) hlj
        · have hj : s.sock = some j := hj
          have := h.oldSock j hj
          simp only [CSrv.put]
          rw [if_neg (by omega)]
          exact h.listening j hj
        · have hj : s.next + 1 ≤ j := hj
          refine ⟨(h.fresh j (by omega)).1, ?_⟩
          rw [(h.fresh j (by omega)).2, hc]
          show eventsOf ((T, some ev) :: rest) (j - s.next) = eventsOf rest (j - (s.next + 1))
          rw [show j - s.next = j - (s.next + 1) + 1 from by omega]
          simp [eventsOf]
        · have hj : j ∈ s.sockets ++ [s.next] := hj
          show j < s.next + 1
          rcases List.mem_append.mp hj with hj | hj
          · have := h.old j hj; omega
          · have := List.mem_singleton.mp hj; omega
        · have := h.oldSock j hj
          show j < s.next + 1
          omega
      cases hk : callHooks R "modbus_tcp.TcpServer.on_connect" .obj with
      | error e =>
        have h1 : cSrvOne sec R db i s = (.error e, { (({ s with coming := rest } : CSrv).put s.next { connected := true, timeout := some 0, future := ev }) with
          sockets := s.sockets ++ [s.next], next := s.next + 1 }) := by
          unfold cSrvOne cSrvAccept
          rw [if_pos hl, hc]
          dsimp only
          rw [if_neg (by omega), hk]
        rw [h1]
        refine ⟨fun _ => [], { u with sockets := u.sockets ++ [u.next], next := u.next + 1 }, E, ⟨fun _ => rfl, fun F => ?_, hlag⟩, fun j _ => rfl⟩
        unfold srvOne srvAccept
        rw [if_pos (hfut _), ha]
        simp only [hk]
        rfl
      | ok rv =>
        have h1 : cSrvOne sec R db i s = (.ok false, { (({ s with coming := rest } : CSrv).put s.next { connected := true, timeout := some 0, future := ev }) with
          sockets := s.sockets ++ [s.next], next := s.next + 1 }) := by
          unfold cSrvOne cSrvAccept
          rw [if_pos hl, hc]
          dsimp only
          rw [if_neg (by omega), hk]
        rw [h1]
        refine ⟨fun _ => [], { u with sockets := u.sockets ++ [u.next], next := u.next + 1 }, E, ⟨fun _ => rfl, fun F => ?_, hlag⟩, fun j _ => rfl⟩
        unfold srvOne srvAccept
        rw [if_pos (hfut _), ha]
        simp only [hk]
        rfl
  · have hfut : ∀ F, ¬ (u.fut F).sock = some i := fun F => by rw [show (u.fut F).sock = u.sock from rfl, h.sock]; exact hl
    obtain ⟨p, ui, Ei, q1, q2, q3⟩ := cSrvClient_sim hx R db (u.timed.contains i) (c := ⟨s.heap, i, s.now, s.socks i, s.log⟩) (h.conn i hio hl) (hr hl)
    have hadv : s.now ≤ (cSrvClient sec R db ⟨s.heap, i, s.now, s.socks i, s.log⟩).2.now :=
      (cSrvClient_adv sec R db ⟨s.heap, i, s.now, s.socks i, s.log⟩ (hinv.timed i hi hl)).forward
    cases hcl : cSrvClient sec R db ⟨s.heap, i, s.now, s.socks i, s.log⟩ with
    | mk r c =>
      rw [hcl] at q2 q3 hadv
      dsimp only at q2 q3 hadv
      have hlag : SrvLag (s.served i c) { (u.put i ui) with heap := c.heap, timed := i :: u.timed } (fun j => if j = i then Ei else E j) := by
        refine ⟨rfl, h.sock, h.sockets, h.next, fun j hj hlj => ?_, fun j hj => ?_, fun j hj => ?_, h.old, h.oldSock⟩
        · simp only [CSrv.served, CSrv.put, Srv.put]
          by_cases hji : j = i
          · rw [if_pos hji, if_pos hji, if_pos hji]; exact q3
          · rw [if_neg hji, if_neg hji, if_neg hji]
            exact (h.conn j hj hlj).later hadv
        · have hji : j ≠ i := fun e => hl (e ▸ hj)
          simp only [CSrv.served, CSrv.put, Srv.put]
          rw [if_neg hji, if_neg hji]
          exact h.listening j hj
        · have hji : j ≠ i := fun e => by have : s.next ≤ j := hj; omega
          simp only [Srv.put]
          rw [if_neg hji, if_neg hji]
          exact h.fresh j hj
      have hev : ∀ j, (E j).map CEvent.net = reals (if j = i then p else []) ++ ((if j = i then Ei else E j)).map CEvent.net := by
        intro j
        by_cases hji : j = i
        · subst hji; rw [if_pos rfl, if_pos rfl]; exact q1
        · rw [if_neg hji, if_neg hji]; rfl
      have hrun : ∀ F : Nat → List NetEvent, srvClient R db ((u.fut fun j => (if j = i then p else []) ++ F j).timed.contains i)
          ⟨(u.fut fun j => (if j = i then p else []) ++ F j).heap, (u.fut fun j => (if j = i then p else []) ++ F j).socks i⟩ =
          (r, ⟨c.heap, { ui with future := F i }⟩) := by
        intro F
        have := q2 (F i)
        show srvClient R db (u.timed.contains i) ⟨u.heap, { u.socks i with future := (if i = i then p else []) ++ F i }⟩ = _
        rw [h.heap, if_pos rfl]
        exact this
      have hst : ∀ F : Nat → List NetEvent, ({ ((u.fut fun j => (if j = i then p else []) ++ F j).put i { ui with future := F i }) with
          heap := c.heap, timed := i :: u.timed } : Srv) = ({ (u.put i ui) with heap := c.heap, timed := i :: u.timed } : Srv).fut F := by
        intro F
        simp only [Srv.fut, Srv.put]
        congr 1
        funext j
        by_cases hji : j = i
        · subst hji; simp
        · simp [hji]
      have hoth : ∀ j, j ≠ i → (({ (u.put i ui) with heap := c.heap, timed := i :: u.timed } : Srv)).socks j = u.socks j := by
        intro j hji
        simp only [Srv.put]
        rw [if_neg hji]
      cases r with
      | error e =>
        have h1 : cSrvOne sec R db i s = (.error e, s.served i c) := by
          unfold cSrvOne; rw [if_neg hl, hcl]
        rw [h1]
        refine ⟨_, _, _, ⟨hev, fun F => ?_, hlag⟩, hoth⟩
        unfold srvOne
        rw [if_neg (hfut _), hrun F]
        exact Prod.ext rfl (hst F)
      | ok d =>
        cases d with
        | false =>
          have h1 : cSrvOne sec R db i s = (.ok false, s.served i c) := by
            unfold cSrvOne; rw [if_neg hl, hcl]; rfl
          rw [h1]
          refine ⟨_, _, _, ⟨hev, fun F => ?_, hlag⟩, hoth⟩
          unfold srvOne
          rw [if_neg (hfut _), hrun F]
          exact Prod.ext rfl (hst F)
        | true =>
          obtain ⟨u2, ⟨d1, d2, d3⟩, d4⟩ := drop_follows hlag (i := i) hi
          have hd : cSrvDrop i (s.served i c) = (.ok (), (cSrvDrop i (s.served i c)).2) := by rw [cSrvDrop_mem (by exact hi)]
          have h1 : cSrvOne sec R db i s = (.ok true, (cSrvDrop i (s.served i c)).2) := by
            unfold cSrvOne; rw [if_neg hl, hcl]; dsimp only; rw [hd]; rfl
          rw [h1]
          refine ⟨_, u2, _, ⟨hev, fun F => ?_, d3⟩, fun j hj => (d4 j hj).trans (hoth j hj)⟩
          unfold srvOne
          rw [if_neg (hfut _), hrun F]
          dsimp only
          rw [if_pos rfl]
          have := d2 F
          rw [hd] at this
          simp only [List.nil_append] at this
          rw [show ({ ((u.fut fun j => (if j = i then p else []) ++ F j).put i { ui with future := F i }) with
            heap := c.heap, timed := i :: (u.fut fun j => (if j = i then p else []) ++ F j).timed } : Srv) = _ from hst F, this]

theorem cSrvOne_keeps {sec : Nat} {R : Registry} {db : Databank} {i : Nat} {s s' : CSrv} {e : PyErr} (hi : i ∈ s.sockets)
    (h : cSrvOne sec R db i s = (.error e, s')) : i ∈ s'.sockets := by
  unfold cSrvOne at h
  split at h
  · cases ha : cSrvAccept R s with
    | mk r s1 =>
      rw [ha] at h
      cases r with
      | ok u => cases h
      | error e' =>
        cases h
        unfold cSrvAccept at ha
        split at ha
        · cases ha; exact hi
        · split at ha
          · cases ha; exact hi
          · dsimp only at ha
            split at ha
            · cases ha; exact hi
            · split at ha <;> cases ha
              exact List.mem_append_left _ hi
  · cases hc : cSrvClient sec R db ⟨s.heap, i, s.now, s.socks i, s.log⟩ with
    | mk r c =>
      rw [hc] at h
      cases r with
      | error e' => cases h; exact hi
      | ok d =>
        cases d with
        | false => cases h
        | true =>
          dsimp only at h
          rw [if_pos rfl, cSrvDrop_mem (by exact hi)] at h
          cases h

theorem cSrvStep_coming {sec : Nat} {R : Registry} {db : Databank} {i : Nat} {s : CSrv} (hl : s.sock ≠ some i) :
    (cSrvStep sec R db i s).2.coming = s.coming := by
  have hd : ∀ s : CSrv, (cSrvDrop i s).2.coming = s.coming := by
    intro s
    unfold cSrvDrop
    dsimp only
    split <;> rfl
  have ho : (cSrvOne sec R db i s).2.coming = s.coming := by
    unfold cSrvOne
    rw [if_neg hl]
    cases hc : cSrvClient sec R db ⟨s.heap, i, s.now, s.socks i, s.log⟩ with
    | mk r c =>
      cases r with
      | error e => rfl
      | ok d =>
        cases d with
        | false => rfl
        | true =>
          dsimp only
          rw [if_pos rfl]
          have := hd (s.served i c)
          cases hdd : cSrvDrop i (s.served i c) with
          | mk r s2 =>
            rw [hdd] at this
            cases r <;> exact this
  unfold cSrvStep
  cases h1 : cSrvOne sec R db i s with
  | mk r s1 =>
    rw [h1] at ho
    cases r with
    | ok b => exact ho
    | error e =>
      dsimp only
      cases callHooks R "modbus_tcp.TcpServer.on_error" (.exc e []) with
      | error e' => exact ho
      | ok v =>
        dsimp only
        have := hd s1
        cases hdd : cSrvDrop i s1 with
        | mk r s2 =>
          rw [hdd] at this
          cases r <;> exact this.trans ho

theorem step_follows {sec : Nat} (hx : 0 < sec) (R : Registry) (db : Databank) (acc : Option (Except PyErr Unit)) {s : CSrv} {u : Srv}
    {E : Nat → List CEvent} (hinv : CSrvInv sec s) (h : SrvLag s u E) {i : Nat} (hi : i ∈ s.sockets) (hacc : s.sock = some i → AccFor acc s)
    (hr : s.sock ≠ some i → (u.socks i).readable = true) :
    ∃ pre u' E', SrvFollows (cSrvStep sec R db i s) (srvStep R db acc i) u E pre u' E' ∧ (∀ j, j ≠ i → u'.socks j = u.socks j) := by
  obtain ⟨pre, u1, E1, ⟨h1, h2, h3⟩, h4⟩ := one_follows hx R db acc hinv h hi hacc hr
  unfold cSrvStep srvStep
  cases ho : cSrvOne sec R db i s with
  | mk r s1 =>
    rw [ho] at h2 h3
    dsimp only at h2 h3
    cases r with
    | ok b =>
      refine ⟨pre, u1, E1, ⟨h1, fun F => ?_, h3⟩, h4⟩
      rw [h2 F]
    | error e =>
      dsimp only
      cases hh : callHooks R "modbus_tcp.TcpServer.on_error" (.exc e []) with
      | error e' =>
        refine ⟨pre, u1, E1, ⟨h1, fun F => ?_, h3⟩, h4⟩
        rw [h2 F]
        dsimp only
        rw [hh]
      | ok v =>
        dsimp only
        have hmem := cSrvOne_keeps hi ho
        obtain ⟨u2, ⟨d1, d2, d3⟩, d4⟩ := drop_follows h3 hmem
        rw [cSrvDrop_mem hmem] at d2 d3 ⊢
        refine ⟨pre, u2, E1, ⟨h1, fun F => ?_, d3⟩, fun j hj => (d4 j hj).trans (h4 j hj)⟩
        have := d2 F
        simp only [List.nil_append] at this
        rw [h2 F]
        dsimp only
        rw [hh]
        dsimp only
        rw [this]

theorem SrvFollows.refl {s : CSrv} {u : Srv} {E : Nat → List CEvent} (h : SrvLag s u E) :
    SrvFollows ((.ok (), s) : Except PyErr Unit × CSrv) (fun s => (.ok (), s)) u E (fun _ => []) u E := ⟨fun _ => rfl, fun _ => rfl, h⟩

theorem loop_follows {sec : Nat} (hx : 0 < sec) (R : Registry) (db : Databank) (acc : Option (Except PyErr Unit)) : ∀ (L : List Nat) (s : CSrv) (u : Srv)
    (E : Nat → List CEvent), CSrvInv sec s → SrvLag s u E → L.Sublist s.sockets → (∀ i ∈ L, s.sock = some i → AccFor acc s) →
    (∀ i ∈ L, s.sock ≠ some i → (u.socks i).readable = true) →
    ∃ pre u' E', SrvFollows (cSrvLoop sec R db L s) (srvLoop R db acc L) u E pre u' E'
  | [], s, u, E, _, h, _, _, _ => ⟨fun _ => [], u, E, SrvFollows.refl h⟩
  | i :: L, s, u, E, hinv, h, hL, hacc, hr => by
    have hnd := List.nodup_cons.mp (hL.nodup hinv.nodup)
    have hi : i ∈ s.sockets := hL.subset (by simp)
    obtain ⟨pre, u1, E1, ⟨h1, h2, h3⟩, h4⟩ := step_follows hx R db acc hinv h hi (hacc i (by simp)) (hr i (by simp))
    obtain ⟨r, s1, ha, hadv⟩ := cSrvStep_adv sec R db s hinv i hi
    have hcom : s.sock ≠ some i → s1.coming = s.coming := fun hl => by have := cSrvStep_coming (sec := sec) (R := R) (db := db) hl; rwa [ha] at this
    rw [cSrvLoop_cons, ha]
    rw [ha] at h2 h3
    dsimp only at h2 h3
    match r with
    | .error e =>
      refine ⟨pre, u1, E1, h1, fun F => ?_, h3⟩
      rw [srvLoop_cons, h2 F]
    | .ok true =>
      refine ⟨pre, u1, E1, h1, fun F => ?_, h3⟩
      rw [srvLoop_cons, h2 F]
    | .ok false =>
      dsimp only
      obtain ⟨pre', u2, E2, k1, k2, k3⟩ := loop_follows hx R db acc L s1 u1 E1 (hadv.inv ⟨_, rfl⟩) h3 (hadv.rest hL)
        (fun j hj hl => by
          have hji : j ≠ i := fun e => hnd.1 (e ▸ hj)
          rw [hadv.sock] at hl
          obtain ⟨T, c, rest, g1, g2, g3⟩ := hacc j (List.mem_cons_of_mem _ hj) hl
          have hl' : s.sock ≠ some i := by rw [hl]; simpa using hji
          exact ⟨T, c, rest, (hcom hl').trans g1, Nat.le_trans g2 hadv.forward, g3⟩)
        (fun j hj hl => by
          have hji : j ≠ i := fun e => hnd.1 (e ▸ hj)
          rw [hadv.sock] at hl
          rw [h4 j hji]
          exact hr j (List.mem_cons_of_mem _ hj) hl)
      refine ⟨fun j => pre j ++ pre' j, u2, E2, fun j => by rw [h1, k1, reals_append, List.append_assoc], fun F => ?_, k3⟩
      have := h2 (fun j => pre' j ++ F j)
      simp only [List.append_assoc]
      rw [srvLoop_cons, this]
      dsimp only
      rw [k2 F]

/-! ## Rounds -/

/-- arriving events -/
theorem arriveN_arrives : ∀ (A : List CEvent) (u : Sock) (q : Bytes × Option Ending) (rest : List NetEvent), Arrives A (u.buf, u.ended) q →
    Sock.arriveN A.length { u with future := A.map CEvent.net ++ rest } = { u with buf := q.1, ended := q.2, future := rest }
  | [], u, q, rest, h => by cases h; rfl
  | x :: A, u, q, rest, h => by
    obtain ⟨buf, ended, future, sched, sent, closed⟩ := u
    cases ended with
    | some e => cases x <;> exact h.elim
    | none =>
      cases x with
      | data b bs => exact arriveN_arrives A ⟨buf ++ b :: bs, none, future, sched, sent, closed⟩ q rest h
      | eof => exact arriveN_arrives A ⟨buf, some .eof, future, sched, sent, closed⟩ q rest h
      | reset => exact arriveN_arrives A ⟨buf, some .reset, future, sched, sent, closed⟩ q rest h

/-- before a round, everything that is due arrives at the server without a clock, too -/
theorem lag_meet {now : Nat} {k : CSock} {u : Sock} {E : List CEvent} (h : Lag now k u E) :
    ∃ (n : Nat) (pre : List NetEvent) (u' : Sock) (E' : List CEvent), E.map CEvent.net = reals pre ++ E'.map CEvent.net ∧
      (∀ rest, Sock.arriveN n { u with future := pre ++ rest } = { u' with future := rest }) ∧ Lag now k u' E' ∧
      u'.buf = (k.at now).buf ∧ u'.ended = (k.at now).ended ∧ u'.closed = u.closed := by
  obtain ⟨A, h1, h2⟩ := h.ahead
  refine ⟨A.length, A.map CEvent.net, { u with buf := (k.at now).buf, ended := (k.at now).ended }, (k.at now).future.map Prod.snd, ?_, fun rest => ?_, ?_, rfl, rfl, rfl⟩
  · rw [reals_net, h1, List.map_append]
  · exact arriveN_arrives A u _ rest h2
  · exact ⟨h.connected, h.closed, ⟨[], rfl, rfl⟩, h.sent, h.whole⟩

theorem run_follows {sec : Nat} (hx : 0 < sec) (R : Registry) (db : Databank) {s : CSrv} {u : Srv} {E : Nat → List CEvent} (hinv : CSrvInv sec s)
    (h : SrvLag s u E) : ∃ rd pre u' E', SrvFollows (cSrvRun sec R db s) (srvRun R db rd) u E pre u' E' := by
  have hw := (wake_bound sec s).1
  generalize hW : s.wake sec = W at hw
  -- what arrives before the round
  have hm : ∀ j, ∃ (n : Nat) (pre : List NetEvent) (u' : Sock) (E' : List CEvent), (E j).map CEvent.net = reals pre ++ E'.map CEvent.net ∧
      (∀ rest, Sock.arriveN n { u.socks j with future := pre ++ rest } = { u' with future := rest }) ∧ u'.closed = (u.socks j).closed ∧
      (j < s.next → s.sock ≠ some j → Lag W (s.socks j) u' E' ∧ u'.buf = ((s.socks j).at W).buf ∧ u'.ended = ((s.socks j).at W).ended) ∧
      (s.next ≤ j → u' = u.socks j ∧ E' = E j) := by
    intro j
    by_cases hj : j < s.next ∧ s.sock ≠ some j
    · obtain ⟨n, pre, u', E', g1, g2, g3, g4, g5, g6⟩ := lag_meet ((h.conn j hj.1 hj.2).later hw)
      exact ⟨n, pre, u', E', g1, g2, g6, fun _ _ => ⟨g3, g4, g5⟩, fun hh => by omega⟩
    · exact ⟨0, [], u.socks j, E j, rfl, fun rest => rfl, rfl, fun h1 h2 => absurd ⟨h1, h2⟩ hj, fun _ => ⟨rfl, rfl⟩⟩
  choose n pre us E1 m1 m2 m3 m4 m5 using hm
  let u1 : Srv := { u with socks := us }
  let s1 : CSrv := { s with now := W }
  have hlag : SrvLag s1 u1 E1 := by
    refine ⟨h.heap, h.sock, h.sockets, h.next, fun j hj hl => (m4 j hj hl).1, fun j hj => (m3 j).trans (h.listening j hj), fun j hj => ?_, h.old, h.oldSock⟩
    obtain ⟨g1, g2⟩ := m5 j hj
    exact ⟨by rw [show u1.socks j = u.socks j from g1]; exact (h.fresh j hj).1, by rw [g2]; exact (h.fresh j hj).2⟩
  have hinv1 : CSrvInv sec s1 := ⟨hinv.nodup, hinv.opened, hinv.timed, hinv.fresh, hinv.listens⟩
  let rd : Round := { arrivals := n, accept := match s.coming with
    | [] => none
    | (T, c) :: _ => if T ≤ W then some (if c = none then .error .osError else .ok ()) else none }
  have harr : ∀ F : Nat → List NetEvent, (u.fut fun j => pre j ++ F j).arrivals rd = u1.fut F := by
    intro F
    simp only [Srv.arrivals, Srv.fut]
    show ({ u with socks := fun j => Sock.arriveN (n j) _ } : Srv) = _
    congr 1
    funext j
    exact m2 j (F j)
  have hopen : ∀ F : Nat → List NetEvent, ¬ ((u1.fut F).sockets.any fun i => ((u1.fut F).socks i).closed) = true := by
    intro F
    simp only [List.any_eq_true, not_exists, not_and]
    intro i hi
    have hi : i ∈ s.sockets := by rw [← h.sockets]; exact hi
    have ho := hinv.opened i hi
    show ¬ (us i).closed = true
    by_cases hl : s.sock = some i
    · rw [m3, h.listening i hl, ho]; simp
    · rw [(m4 i (h.old i hi) hl).1.closed, ho]; simp
  have hready : ∀ F : Nat → List NetEvent, (u1.fut F).ready rd = s1.sockets.filter (s1.readableAt s1.now) := by
    intro F
    unfold Srv.ready
    rw [show (u1.fut F).sockets = s1.sockets from h.sockets]
    refine List.filter_congr fun i hi => ?_
    unfold CSrv.readableAt
    rw [show (u1.fut F).sock = s1.sock from h.sock]
    by_cases hl : s1.sock = some i
    · rw [if_pos hl, if_pos hl]
      show (match s.coming with
        | [] => none
        | (T, c) :: _ => if T ≤ W then some (if c = none then .error .osError else .ok ()) else none : Option (Except PyErr Unit)).isSome =
        match s.coming with
        | [] => false
        | (T, _) :: _ => decide (T ≤ W)
      cases s.coming with
      | nil => rfl
      | cons x rest =>
        obtain ⟨T, c⟩ := x
        by_cases hT : T ≤ W <;> simp [hT]
    · rw [if_neg hl, if_neg hl]
      obtain ⟨g1, g2, g3⟩ := m4 i (h.old i hi) hl
      rw [Bool.eq_iff_iff, ready_isSome]
      show decide ((us i).buf ≠ [] ∨ (us i).ended ≠ none) = true ↔ _
      rw [decide_eq_true_iff, g2, g3]
  obtain ⟨pre', u2, E2, k1, k2, k3⟩ := loop_follows hx R db rd.accept (s1.sockets.filter (s1.readableAt s1.now)) s1 u1 E1 hinv1 hlag List.filter_sublist
    (fun i hi hl => by
      have hrd := (List.mem_filter.mp hi).2
      unfold CSrv.readableAt at hrd
      rw [if_pos hl] at hrd
      unfold AccFor
      show ∃ T c rest, s.coming = (T, c) :: rest ∧ T ≤ W ∧ (match s.coming with
        | [] => none
        | (T, c) :: _ => if T ≤ W then some (if c = none then .error .osError else .ok ()) else none : Option (Except PyErr Unit)) = _
      have hrd : (match s.coming with
        | [] => false
        | (T, _) :: _ => decide (T ≤ W)) = true := hrd
      cases hc : s.coming with
      | nil => rw [hc] at hrd; cases hrd
      | cons x rest =>
        obtain ⟨T, c⟩ := x
        rw [hc] at hrd
        have hT : T ≤ W := by simpa using hrd
        exact ⟨T, c, rest, rfl, hT, by simp [hT]⟩)
    (fun i hi hl => by
      obtain ⟨hi, hrd⟩ := List.mem_filter.mp hi
      unfold CSrv.readableAt at hrd
      rw [if_neg hl, ready_isSome] at hrd
      obtain ⟨g1, g2, g3⟩ := m4 i (h.old i hi) hl
      show decide ((us i).buf ≠ [] ∨ (us i).ended ≠ none) = true
      rw [decide_eq_true_iff, g2, g3]
      exact hrd)
  have hrun : cSrvRun sec R db s = cSrvLoop sec R db (s1.sockets.filter (s1.readableAt s1.now)) s1 := by
    unfold cSrvRun
    rw [if_neg (by
      simp only [List.any_eq_true, not_exists, not_and]
      intro i hi
      rw [hinv.opened i hi]; simp)]
    rw [hW]
  rw [hrun]
  refine ⟨rd, fun j => pre j ++ pre' j, u2, E2, fun j => by rw [m1, k1, reals_append, List.append_assoc], fun F => ?_, k3⟩
  unfold srvRun
  simp only [List.append_assoc]
  rw [harr, if_neg (hopen _), hready]
  exact k2 F

/-! ## Connections that are not reset -/

/-- a computation keeps a property of the state -/
def Keeps {σ α : Type} (P : σ → Prop) (f : PyM σ α) : Prop := ∀ s, P s → P (f s).2

theorem Keeps.bind {σ α β : Type} {P : σ → Prop} {f : PyM σ α} {F : α → PyM σ β} (h : Keeps P f) (h' : ∀ a, Keeps P (F a)) : Keeps P (f >>= F) := by
  intro s hs
  have := h s hs
  simp only [PyM.bind_apply]
  cases hf : f s with
  | mk r s1 =>
    rw [hf] at this
    cases r with
    | error e => exact this
    | ok a => exact h' a s1 this

theorem Keeps.tryExcept {σ α : Type} {P : σ → Prop} {f : PyM σ α} {F : PyErr → PyM σ α} (h : Keeps P f) (h' : ∀ a, Keeps P (F a)) : Keeps P (PyM.tryExcept f F) := by
  intro s hs
  have := h s hs
  simp only [PyM.tryExcept_apply]
  cases hf : f s with
  | mk r s1 =>
    rw [hf] at this
    cases r with
    | ok a => exact this
    | error e => exact h' e s1 this

theorem Keeps.pure {σ α : Type} {P : σ → Prop} (a : α) : Keeps P (Pure.pure a : PyM σ α) := fun _ h => h
theorem Keeps.lift {σ α : Type} {P : σ → Prop} (a : Except PyErr α) : Keeps P (PyM.lift a : PyM σ α) := fun _ h => h

/-- not reset, and it will not be -/
def Sock.Sound (k : Sock) : Prop := k.ended ≠ some .reset ∧ NetEvent.reset ∉ k.future

theorem recvWait_sound (n : Nat) : ∀ (ev : List NetEvent) (k : Sock), k.ended ≠ some .reset → NetEvent.reset ∉ ev → (Sock.recvWait n k ev).2.Sound
  | [], k, h, _ => ⟨h, by simp [Sock.recvWait]⟩
  | .data [] :: ev, k, h, h' => recvWait_sound n ev k h (fun hh => h' (List.mem_cons_of_mem _ hh))
  | .data (b :: bs) :: ev, k, h, h' => ⟨h, fun hh => h' (List.mem_cons_of_mem _ hh)⟩
  | .pause :: ev, k, h, h' => ⟨h, fun hh => h' (List.mem_cons_of_mem _ hh)⟩
  | .eof :: ev, k, h, h' => ⟨by simp [Sock.recvWait], fun hh => h' (List.mem_cons_of_mem _ hh)⟩
  | .reset :: ev, k, h, h' => absurd (by simp) h'

theorem sockRecv_sound (n : Nat) : Keeps Sock.Sound (sockRecv n) := by
  intro k h
  unfold sockRecv
  split
  · exact h
  · split
    · exact h
    · split
      · exact h
      · exact h
      · exact recvWait_sound n k.future k h.1 h.2

theorem sockPeek_sound (b : Bool) : Keeps Sock.Sound (sockPeek b) := by
  intro k h
  unfold sockPeek
  split
  · exact h
  · split
    · exact h
    · split
      · exact h
      · exact h
      · split
        · have := recvWait_sound 1 k.future k h.1 h.2
          split <;> rename_i hh <;> rw [hh] at this <;> exact this
        · exact h

theorem sockSend_sound (x : Bytes) : Keeps Sock.Sound (sockSend x) := by
  intro k h
  unfold sockSend
  split <;> exact h

theorem srvReadLoop_sound (target : Int) : ∀ (fuel : Nat) (request : Bytes), Keeps Sock.Sound (srvReadLoop target fuel request)
  | 0, _ => fun _ h => h
  | fuel+1, request => by
    unfold srvReadLoop
    split
    · refine Keeps.bind (sockRecv_sound 1) fun a => ?_
      split
      · exact .pure _
      · exact srvReadLoop_sound target fuel _
    · exact .pure _

theorem onSock_keeps {α : Type} {f : PyM Sock α} (h : Keeps Sock.Sound f) : Keeps (fun c => c.sock.Sound) (Conn.onSock f) := fun c hc => h c.sock hc

theorem srvSend_sound (R : Registry) (r : Bytes) : Keeps (fun c => c.sock.Sound) (srvSend R r) := by
  unfold srvSend
  refine .tryExcept ?_ fun _ => .pure _
  refine .bind (.lift _) fun _ => ?_
  exact .bind (onSock_keeps (sockSend_sound _)) fun _ => .bind (.lift _) fun _ => .pure _

theorem srvClient_sound (R : Registry) (db : Databank) (timed : Bool) : Keeps (fun c => c.sock.Sound) (srvClient R db timed) := by
  unfold srvClient
  refine .bind (onSock_keeps (sockPeek_sound _)) fun a => ?_
  split
  · exact .bind (.lift _) fun _ => .pure _
  · refine .bind (onSock_keeps (srvReadLoop_sound _ _ _)) fun q => ?_
    obtain ⟨request, isOk⟩ := q
    refine .bind (.lift _) fun _ => ?_
    dsimp only
    split
    · refine .bind (.lift _) fun _ => ?_
      refine .bind (onSock_keeps (srvReadLoop_sound _ _ _)) fun q => ?_
      obtain ⟨request, isOk⟩ := q
      dsimp only
      split
      · refine .bind ?_ fun _ => .pure _
        unfold srvAnswer
        refine .bind (.tryExcept (fun c hc => hc) fun _ => .pure _) fun a => ?_
        split
        · exact .pure _
        · exact .pure _
        · exact srvSend_sound R _
      · exact .pure _
    · exact .pure _

theorem srvDrop_sound (i j : Nat) : Keeps (fun s => (s.socks j).Sound) (srvDrop i) := by
  intro s h
  have : ((s.put i (s.socks i).close).socks j).Sound := by
    simp only [Srv.put]
    split
    · rename_i hij; subst hij; exact h
    · exact h
  unfold srvDrop
  dsimp only
  split <;> exact this

theorem srvLoop_sound (R : Registry) (db : Databank) (acc : Option (Except PyErr Unit)) (j : Nat) : ∀ L, Keeps (fun s => (s.socks j).Sound) (srvLoop R db acc L)
  | [] => fun _ h => h
  | i :: L => by
    intro s h
    have hone : (((srvOne R db acc i) s).2.socks j).Sound := by
      unfold srvOne
      split
      · unfold srvAccept
        cases acc with
        | none => exact h
        | some r =>
          cases r with
          | error e => exact h
          | ok u =>
            dsimp only
            cases callHooks R "modbus_tcp.TcpServer.on_connect" .obj <;> exact h
      · have hput : ∀ k : Sock, ((s.socks i).Sound → k.Sound) → ((s.put i k).socks j).Sound := by
          intro k hk
          simp only [Srv.put]
          split
          · rename_i hij; subst hij; exact hk h
          · exact h
        have hc : (s.socks i).Sound → (srvClient R db (s.timed.contains i) ⟨s.heap, s.socks i⟩).2.sock.Sound := srvClient_sound R db _ ⟨s.heap, s.socks i⟩
        cases hcl : srvClient R db (s.timed.contains i) ⟨s.heap, s.socks i⟩ with
        | mk r c =>
          rw [hcl] at hc
          cases r with
          | error e => exact hput _ hc
          | ok d =>
            dsimp only
            split
            · have := srvDrop_sound i j { (s.put i c.sock) with heap := c.heap, timed := i :: s.timed } (hput _ hc)
              split <;> rename_i hh <;> rw [hh] at this <;> exact this
            · exact hput _ hc
    unfold srvLoop
    cases ho : srvOne R db acc i s with
    | mk r s1 =>
      rw [ho] at hone
      match r with
      | .ok true => exact hone
      | .ok false => exact srvLoop_sound R db acc j L s1 hone
      | .error e =>
        dsimp only
        cases callHooks R "modbus_tcp.TcpServer.on_error" (.exc e []) with
        | error e' => exact hone
        | ok v =>
          dsimp only
          have := srvDrop_sound i j s1 hone
          cases hd : srvDrop i s1 with
          | mk r s2 =>
            rw [hd] at this
            cases r with
            | error e' => exact this
            | ok u => exact srvLoop_sound R db acc j L s2 this

theorem arriveN_sound : ∀ (n : Nat) (k : Sock), k.Sound → (Sock.arriveN n k).Sound
  | 0, _, h => h
  | n+1, k, h => by
    refine arriveN_sound n _ ?_
    unfold Sock.arrive
    split
    · rename_i h1 h2
      exact ⟨h.1, fun hh => h.2 (by rw [h2]; exact List.mem_cons_of_mem _ hh)⟩
    · rename_i h1 h2
      exact ⟨h.1, fun hh => h.2 (by rw [h2]; exact List.mem_cons_of_mem _ hh)⟩
    · rename_i h1 h2
      exact ⟨by simp, fun hh => h.2 (by rw [h2]; exact List.mem_cons_of_mem _ hh)⟩
    · rename_i h1 h2
      exact absurd (by rw [h2]; simp) h.2
    · exact h

theorem srvRounds_sound (R : Registry) (db : Databank) (j : Nat) : ∀ rounds, Keeps (fun s => (s.socks j).Sound) (srvRounds R db rounds)
  | [] => fun _ h => h
  | rd :: rest => by
    intro s h
    have h1 : (((srvRun R db rd) s).2.socks j).Sound := by
      unfold srvRun
      dsimp only
      have ha : ((s.arrivals rd).socks j).Sound := arriveN_sound _ _ h
      split
      · exact ha
      · exact srvLoop_sound R db rd.accept j _ _ ha
    unfold srvRounds
    cases hr : srvRun R db rd s with
    | mk r s1 =>
      rw [hr] at h1
      cases r with
      | error e => exact h1
      | ok u => exact srvRounds_sound R db j rest s1 h1

/-! ## The theorems -/

/-- a `TcpServer` without a clock after `_do_init` -/
def Srv.started (heap : Heap) : Srv := { heap := heap, sock := some 0, sockets := [0], socks := fun _ => {}, timed := [], next := 1 }

theorem rounds_follow {sec : Nat} (hx : 0 < sec) (R : Registry) (db : Databank) : ∀ (n : Nat) (s : CSrv) (u : Srv) (E : Nat → List CEvent), CSrvInv sec s →
    SrvLag s u E → ∃ rounds pre u' E', SrvFollows (cSrvRounds sec R db n s) (srvRounds R db rounds) u E pre u' E'
  | 0, s, u, E, _, h => ⟨[], fun _ => [], u, E, SrvFollows.refl h⟩
  | n+1, s, u, E, hinv, h => by
    obtain ⟨rd, pre, u1, E1, h1, h2, h3⟩ := run_follows hx R db hinv h
    have hi := (cSrvRun_adv sec R db s hinv).2
    unfold cSrvRounds
    cases hr : cSrvRun sec R db s with
    | mk r s1 =>
      rw [hr] at h2 h3 hi
      dsimp only at h2 h3
      cases r with
      | error e =>
        refine ⟨[rd], pre, u1, E1, h1, fun F => ?_, h3⟩
        simp only [srvRounds, h2 F]
      | ok v =>
        obtain ⟨rounds, pre', u2, E2, k1, k2, k3⟩ := rounds_follow hx R db n s1 u1 E1 (hi rfl) h3
        refine ⟨rd :: rounds, fun j => pre j ++ pre' j, u2, E2, fun j => by rw [h1, k1, reals_append, List.append_assoc], fun F => ?_, k3⟩
        have := h2 (fun j => pre' j ++ F j)
        simp only [List.append_assoc]
        simp only [srvRounds, this]
        exact k2 F

theorem cSrvRounds_sock {sec : Nat} {R : Registry} {db : Databank} : ∀ (n : Nat) (s : CSrv), CSrvInv sec s → (cSrvRounds sec R db n s).2.sock = s.sock
  | 0, _, _ => rfl
  | n+1, s, hinv => by
    have ha := cSrvRun_adv sec R db s hinv
    unfold cSrvRounds
    cases hr : cSrvRun sec R db s with
    | mk r s1 =>
      rw [hr] at ha
      cases r with
      | error e => exact ha.1.sock
      | ok u => exact (cSrvRounds_sock n s1 (ha.2 rfl)).trans ha.1.sock

/-- **C75.** Every run of the server with a clock is a run of the server without a clock, for all hook functions: there are rounds (what arrives before
    each of them, what `accept` gives) and, on every connection, an order of the events of the client and of silences (`F`) with which the server
    without a clock ends with the same result, memories, sockets, and - unless the connection is reset - the same responses sent. -/
theorem C75_refines {sec : Nat} (hx : 0 < sec) (R : Registry) (db : Databank) (heap : Heap) (coming : List (Nat × Option (List (Nat × CEvent)))) (now n : Nat) :
    ∃ (rounds : List Round) (F : Nat → List NetEvent),
      (∀ j, reals (F (j + 1)) = (eventsOf coming j).map CEvent.net) ∧
      (srvRounds R db rounds ((Srv.started heap).fut F)).1 = (cSrvRounds sec R db n (CSrv.started heap coming now)).1 ∧
      (srvRounds R db rounds ((Srv.started heap).fut F)).2.heap = (cSrvRounds sec R db n (CSrv.started heap coming now)).2.heap ∧
      (srvRounds R db rounds ((Srv.started heap).fut F)).2.sockets = (cSrvRounds sec R db n (CSrv.started heap coming now)).2.sockets ∧
      (srvRounds R db rounds ((Srv.started heap).fut F)).2.next = (cSrvRounds sec R db n (CSrv.started heap coming now)).2.next ∧
      ∀ j, j + 1 < (cSrvRounds sec R db n (CSrv.started heap coming now)).2.next →
        ((srvRounds R db rounds ((Srv.started heap).fut F)).2.socks (j + 1)).closed = ((cSrvRounds sec R db n (CSrv.started heap coming now)).2.socks (j + 1)).closed ∧
        ((cSrvRounds sec R db n (CSrv.started heap coming now)).2.socks (j + 1)).sent <+: ((srvRounds R db rounds ((Srv.started heap).fut F)).2.socks (j + 1)).sent ∧
        (CEvent.reset ∉ eventsOf coming j →
          ((cSrvRounds sec R db n (CSrv.started heap coming now)).2.socks (j + 1)).sent = ((srvRounds R db rounds ((Srv.started heap).fut F)).2.socks (j + 1)).sent) := by
  have hlag : SrvLag (CSrv.started heap coming now) (Srv.started heap) (fun j => eventsOf coming (j - 1)) := by
    refine ⟨rfl, rfl, rfl, rfl, fun i hi hl => ?_, fun i hi => rfl, fun i hi => ⟨rfl, rfl⟩, ?_, ?_⟩
    · have hi : i < 1 := hi
      exact absurd (show (some 0 : Option Nat) = some i from by congr 1; omega) hl
    · simp [CSrv.started]
    · simp [CSrv.started]
  obtain ⟨rounds, pre, u, E, h1, h2, h3⟩ := rounds_follow hx R db n _ _ _ (started_inv sec heap coming now) hlag
  have hsock : (cSrvRounds sec R db n (CSrv.started heap coming now)).2.sock = some 0 := cSrvRounds_sock n _ (started_inv sec heap coming now)
  refine ⟨rounds, fun j => pre j ++ (E j).map CEvent.net, fun j => ?_, ?_⟩
  · rw [reals_append, reals_net, ← h1]
    simp
  · have hrun := h2 (fun j => (E j).map CEvent.net)
    have hsound : ∀ j, CEvent.reset ∉ eventsOf coming j → ((u.fut fun j => (E j).map CEvent.net).socks (j + 1)).Sound := by
      intro j hj
      have := srvRounds_sound R db (j + 1) rounds ((Srv.started heap).fut fun j => pre j ++ (E j).map CEvent.net) ⟨by simp [Srv.started, Srv.fut], fun hm => ?_⟩
      · rw [hrun] at this; exact this
      · have hm : NetEvent.reset ∈ pre (j + 1) ++ (E (j + 1)).map CEvent.net := hm
        have hev := h1 (j + 1)
        simp only [Nat.add_sub_cancel] at hev
        have hin : NetEvent.reset ∈ (eventsOf coming j).map CEvent.net := by
          rw [hev]
          rcases List.mem_append.mp hm with hm | hm
          · exact List.mem_append_left _ (by unfold reals; exact List.mem_filter.mpr ⟨hm, by simp⟩)
          · exact List.mem_append_right _ hm
        obtain ⟨e, he, hee⟩ := List.mem_map.mp hin
        cases e with
        | reset => exact hj he
        | eof => cases hee
        | data b bs => cases hee
    rw [hrun]
    refine ⟨rfl, h3.heap, h3.sockets, h3.next, fun j hj => ?_⟩
    have hc := h3.conn (j + 1) hj (by rw [hsock]; simp)
    refine ⟨hc.closed, hc.sent, fun hr => hc.whole fun hh => ?_⟩
    have hs := hsound j hr
    obtain ⟨A, a1, a2⟩ := hc.ahead
    rw [hh] at a2
    have hA : (u.socks (j + 1)).ended = some .reset ∨ CEvent.reset ∈ A := a2.reset
    rcases hA with hA | hA
    · exact hs.1 hA
    · refine hs.2 ?_
      show NetEvent.reset ∈ (E (j + 1)).map CEvent.net
      rw [a1]
      exact List.mem_map.mpr ⟨.reset, List.mem_append_left _ hA, rfl⟩

/-! ### What was handled -/

/-- the bytes a client sends before it ends the connection -/
def clientBytes : List CEvent → Bytes
  | .data b bs :: ev => b :: bs ++ clientBytes ev
  | _ => []

theorem evData_net : ∀ ev : List CEvent, evData (ev.map CEvent.net) = clientBytes ev
  | [] => rfl
  | .data b bs :: ev => by
    show (b :: bs) ++ evData (ev.map CEvent.net) = _
    rw [evData_net ev]; rfl
  | .eof :: _ => rfl
  | .reset :: _ => rfl

theorem evData_reals : ∀ ev : List NetEvent, evData (reals ev) = evData ev
  | [] => rfl
  | .data bs :: ev => by
    show bs ++ evData (reals ev) = _
    rw [evData_reals ev]; rfl
  | .pause :: ev => by
    show evData (reals ev) = _
    rw [evData_reals ev]; rfl
  | .eof :: _ => rfl
  | .reset :: _ => rfl

/-- **C75, what was handled.** Whatever the times of the clients: the memories are those after handling, one at a time, the requests of some list; those
    that came from a client are whole frames and, one after the other, a prefix of the bytes this client sent; and a client that did not break its
    connection has been sent exactly the responses to its requests, in their order. -/
theorem C75_frames {sec : Nat} (hx : 0 < sec) (R : Registry) (hR : Quiet R) (db : Databank) (heap : Heap)
    (coming : List (Nat × Option (List (Nat × CEvent)))) (now n : Nat) :
    ∃ log : List (Nat × Bytes),
      (cSrvRounds sec R db n (CSrv.started heap coming now)).2.heap = (serveAll R db log heap).1 ∧
      ∀ j, (∀ f ∈ ofConn (j + 1) log, ServerFrame f) ∧
        (ofConn (j + 1) log).flatten <+: clientBytes (eventsOf coming j) ∧
        (j + 1 < (cSrvRounds sec R db n (CSrv.started heap coming now)).2.next → CEvent.reset ∉ eventsOf coming j →
          ((cSrvRounds sec R db n (CSrv.started heap coming now)).2.socks (j + 1)).sent = ofConn (j + 1) (serveAll R db log heap).2) := by
  obtain ⟨rounds, F, hF, _, hheap, _, _, hconn⟩ := C75_refines hx R db heap coming now n
  obtain ⟨log, hlog⟩ := C29_history R hR db rounds ((Srv.started heap).fut F)
  refine ⟨log, by rw [← hheap]; exact hlog.heap, fun j => ?_⟩
  have hc := hlog.conn (j + 1)
  refine ⟨hc.frame, ?_, fun hj hr => ?_⟩
  · obtain ⟨rest, h1, _⟩ := hc.data
    refine ⟨rest, ?_⟩
    rw [← h1]
    show [] ++ evData (F (j + 1)) = _
    rw [List.nil_append, ← evData_reals, hF, evData_net]
  · rw [(hconn j hj).2.2 hr]
    have hu : (((Srv.started heap).fut F).socks (j + 1)).Unbroken := by
      intro hm
      have hm : NetEvent.reset ∈ F (j + 1) := afterData_mem hm
      have hin : NetEvent.reset ∈ (eventsOf coming j).map CEvent.net := by
        rw [← hF]
        exact List.mem_filter.mpr ⟨hm, by simp⟩
      obtain ⟨e, he, hee⟩ := List.mem_map.mp hin
      cases e with
      | reset => exact hr he
      | eof => cases hee
      | data b bs => cases hee
    exact (hc.sent hu).trans (List.nil_append _)

/-- the run of `exComing` (ServerTime): client 1 sends half a header and falls silent, client 2 writes a register, client 3 disconnects.  Exactly the request
    of client 2 was handled. -/
example : ∃ log, (cSrvRounds 100 [] exTwo.st.db 4 (CSrv.started exTwo.st.heap exComing 0)).2.heap = (serveAll [] exTwo.st.db log exTwo.st.heap).1 ∧
    (ofConn 2 log).flatten <+: [0, 2, 0, 0, 0, 6, 1, 6, 0, 10, 0, 7] ∧ ofConn 2 (serveAll [] exTwo.st.db log exTwo.st.heap).2 = [[0, 2, 0, 0, 0, 6, 1, 6, 0, 10, 0, 7]] := by
  obtain ⟨log, h1, h2⟩ := C75_frames (sec := 100) (by omega) [] quiet_nil exTwo.st.db exTwo.st.heap exComing 0 4
  refine ⟨log, h1, (h2 1).2.1, ?_⟩
  rw [← (h2 1).2.2 (by decide +kernel) (by decide +kernel)]
  decide +kernel

end Modbus
