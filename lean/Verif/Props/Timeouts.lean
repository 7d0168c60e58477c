import Verif.Model.Clocked
import Verif.Model.PyClient
import Verif.Props.OpenClose
import Verif.Lemmas.TcpRecv
/-
# Properties C72 and C73: the time-out of a TCP master

C72: which time-out is in force.  C73: how long a call can take.
-/
namespace Modbus

/-! ## Specification -/

/-- what the socket should be when the user has set the time-out `x`: waiting for `x` ticks, or not at all -/
def modeFor (x : Int) : Option Nat := if x > 0 then some x.toNat else some 0

/-- the last value given: to `set_timeout`, or to the constructor -/
def lastTimeout : List TimedOp → Option Int → Option Int
  | [], v => v
  | .setTimeout w :: ops, _ => lastTimeout ops w
  | .open :: ops, v => lastTimeout ops v
  | .close :: ops, v => lastTimeout ops v
  | .exec _ :: ops, v => lastTimeout ops v
  | .wait _ :: ops, v => lastTimeout ops v

/-- the time-out is in force: if the master has a socket that is not closed, it is in the mode the user asked for -/
def InForce (s : CLink) : Prop := ∀ k, s.sock = some k → k.closed = false → ∀ x, s.timeout = some x → k.timeout = modeFor x

/-! ## Sockets -/

theorem arrived_keeps (now : Nat) : ∀ (ev : List (Nat × CEvent)) (s : CSock),
    (CSock.arrived now ev s).timeout = s.timeout ∧ (CSock.arrived now ev s).closed = s.closed ∧ (CSock.arrived now ev s).connected = s.connected
  | [], _ => ⟨rfl, rfl, rfl⟩
  | (T, e) :: ev, s => by
    unfold CSock.arrived
    split
    · have := arrived_keeps now ev (s.take e)
      cases e <;> exact this
    · exact ⟨rfl, rfl, rfl⟩

theorem at_keeps (now : Nat) (s : CSock) : (s.at now).timeout = s.timeout ∧ (s.at now).closed = s.closed ∧ (s.at now).connected = s.connected :=
  arrived_keeps now s.future s

theorem arrived_again (now : Nat) : ∀ (ev : List (Nat × CEvent)) (s : CSock), (CSock.arrived now ev s).at now = CSock.arrived now ev s
  | [], _ => rfl
  | (T, e) :: ev, s => by
    unfold CSock.arrived
    split
    · exact arrived_again now ev _
    · rename_i h
      show CSock.arrived now ((T, e) :: ev) _ = _
      unfold CSock.arrived
      rw [if_neg h]

theorem at_at (now : Nat) (s : CSock) : (s.at now).at now = s.at now := arrived_again now s.future s

theorem ready_isSome (n : Nat) (s : CSock) : (s.ready n).isSome = true ↔ s.buf ≠ [] ∨ s.ended ≠ none := by
  unfold CSock.ready
  cases s.buf with
  | cons b bs => simp
  | nil => cases s.ended with
    | none => simp
    | some e => cases e <;> simp

theorem arrived_ready (now : Nat) : ∀ (ev : List (Nat × CEvent)) (s : CSock), s.buf ≠ [] ∨ s.ended ≠ none →
    (CSock.arrived now ev s).buf ≠ [] ∨ (CSock.arrived now ev s).ended ≠ none
  | [], _, h => h
  | (T, e) :: ev, s, h => by
    unfold CSock.arrived
    split
    · refine arrived_ready now ev _ ?_
      cases e with
      | data b bs => exact .inl (by simp [CSock.take])
      | eof => exact .inr (by simp [CSock.take])
      | reset => exact .inr (by simp [CSock.take])
    · exact h

/-- when the next event is due, there is something to read -/
theorem ready_arrived (n : Nat) (s : CSock) {T : Nat} {e : CEvent} {ev : List (Nat × CEvent)} (hf : s.future = (T, e) :: ev)
    (he : s.ended = none) : ((s.at T).ready n).isSome = true := by
  rw [ready_isSome]
  unfold CSock.at
  rw [hf]
  unfold CSock.arrived
  rw [if_pos ⟨Nat.le_refl _, he⟩]
  refine arrived_ready T ev _ ?_
  cases e with
  | data b bs => exact .inl (by simp [CSock.take])
  | eof => exact .inr (by simp [CSock.take])
  | reset => exact .inr (by simp [CSock.take])

/-- the socket object keeps its options; at most `n` times the time-out has passed -/
structure Waits (n : Nat) (p p' : Nat × CSock) : Prop where
  mode : p'.2.timeout = p.2.timeout
  closed : p'.2.closed = p.2.closed
  forward : p.1 ≤ p'.1
  bound : ∀ t, (p.2.closed = false → p.2.timeout = some t) → p'.1 ≤ p.1 + n * t

theorem Waits.refl (p : Nat × CSock) : Waits 0 p p := ⟨rfl, rfl, Nat.le_refl _, fun _ _ => by omega⟩

theorem Waits.trans {m n : Nat} {p q r : Nat × CSock} (a : Waits m p q) (b : Waits n q r) : Waits (m + n) p r :=
  ⟨b.mode.trans a.mode, b.closed.trans a.closed, Nat.le_trans a.forward b.forward, fun t h => by
    have h1 := a.bound t h
    have h2 := b.bound t (fun hc => by rw [a.mode]; exact h (by rw [← a.closed]; exact hc))
    rw [Nat.add_mul]; omega⟩

theorem Waits.mono {m n : Nat} {p q : Nat × CSock} (a : Waits m p q) (h : m ≤ n) : Waits n p q :=
  ⟨a.mode, a.closed, a.forward, fun t ht => Nat.le_trans (a.bound t ht) (by have := Nat.mul_le_mul_right t h; omega)⟩

theorem ready_keeps {n : Nat} {s : CSock} {r : Except PyErr Bytes × CSock} (h : s.ready n = some r) :
    r.2.timeout = s.timeout ∧ r.2.closed = s.closed := by
  unfold CSock.ready at h
  split at h <;> cases h <;> exact ⟨rfl, rfl⟩

theorem ready_none {n : Nat} {s : CSock} (h : s.ready n = none) : s.buf = [] ∧ s.ended = none := by
  unfold CSock.ready at h
  split at h <;> first | (cases h; done) | skip
  rename_i h1 h2
  exact ⟨h1, h2⟩

theorem arrived_head (now : Nat) : ∀ (ev : List (Nat × CEvent)) (s : CSock) {T : Nat} {e : CEvent} {ev' : List (Nat × CEvent)},
    (CSock.arrived now ev s).ended = none → (CSock.arrived now ev s).future = (T, e) :: ev' → now < T
  | [], _, _, _, _, _, h => by cases h
  | (T', e') :: ev, s, T, e, ev', he, h => by
    unfold CSock.arrived at he h
    split at h
    · rename_i hc
      rw [if_pos hc] at he
      exact arrived_head now ev _ he h
    · rename_i hc
      rw [if_neg hc] at he
      simp only [List.cons.injEq, Prod.mk.injEq] at h
      obtain ⟨⟨rfl, _⟩, _⟩ := h
      have : s.ended = none := he
      simp only [this, and_true] at hc
      omega

theorem cRecv_spec (n : Nat) (p : Nat × CSock) : Waits 1 p (cRecv n p).2 ∧
    ((p.2.timeout ≠ none) → (cRecv n p).1 ≠ .error .nonTermination) ∧ (∀ x, (cRecv n p).1 = .ok x → x.length ≤ n) := by
  obtain ⟨now, s⟩ := p
  unfold cRecv
  dsimp only
  split
  · exact ⟨(Waits.refl _).mono (by omega), (fun _ h => by cases h), (fun _ h => by cases h)⟩
  · rename_i hc
    have hk := at_keeps now s
    have hok : ∀ (s : CSock) (r : Except PyErr Bytes × CSock), s.ready n = some r → r.1 ≠ .error .nonTermination ∧ ∀ x, r.1 = .ok x → x.length ≤ n := by
      intro s r h
      unfold CSock.ready at h
      split at h <;> cases h
      · exact ⟨by simp, (fun x hx => by cases hx; simp)⟩
      · exact ⟨by simp, (fun x hx => by cases hx; simp)⟩
      · exact ⟨by simp, (fun x hx => by cases hx)⟩
    cases hr : (s.at now).ready n with
    | some r =>
      have := ready_keeps hr
      have h0 : Waits 0 (now, s) (now, r.2) := ⟨this.1.trans hk.1, this.2.trans hk.2.1, Nat.le_refl _, fun _ _ => by omega⟩
      exact ⟨h0.mono (by omega), fun _ => (hok _ _ hr).1, (hok _ _ hr).2⟩
    | none =>
      have hn := ready_none hr
      have hcl : s.closed = false := by
        cases h : s.closed
        · rfl
        · exact absurd (Or.inl h) hc
      have still : ∀ (d : Nat), (∀ t, s.timeout = some t → d ≤ t) → Waits 1 (now, s) (now + d, s.at now) := fun d hd =>
        ⟨hk.1, hk.2.1, by omega, fun t ht => by have := hd t (ht hcl); omega⟩
      have event : ∀ (T : Nat) (e : CEvent) (ev : List (Nat × CEvent)), (s.at now).future = (T, e) :: ev → (∀ t, s.timeout = some t → T ≤ now + t) →
          ∃ r, ((s.at now).at T).ready n = some r ∧ Waits 1 (now, s) (T, r.2) := by
        intro T e ev hf hT
        have hlt : now < T := arrived_head now s.future s hn.2 hf
        have h1 := ready_arrived n (s.at now) hf hn.2
        cases h2 : ((s.at now).at T).ready n with
        | none => rw [h2] at h1; cases h1
        | some r =>
          have h3 := ready_keeps h2
          have h4 := at_keeps T (s.at now)
          exact ⟨r, rfl, h3.1.trans (h4.1.trans hk.1), h3.2.trans (h4.2.1.trans hk.2.1), by omega, fun t ht => by have := hT t (ht hcl); omega⟩
      dsimp only
      rw [hk.1]
      cases ht : s.timeout with
      | none =>
        cases hf : (s.at now).future with
        | nil => exact ⟨still 0 (fun _ _ => by omega), fun h => absurd rfl h, (fun _ h => by cases h)⟩
        | cons x ev =>
          obtain ⟨T, e⟩ := x
          obtain ⟨r, h1, h2⟩ := event T e ev hf (fun t h => by rw [ht] at h; cases h)
          dsimp only
          rw [h1]
          exact ⟨h2, fun h => absurd rfl h, (hok _ _ h1).2⟩
      | some t =>
        match t with
        | 0 => exact ⟨still 0 (fun _ _ => by omega), (fun _ h => by cases h), (fun _ h => by cases h)⟩
        | t+1 =>
          cases hf : (s.at now).future with
          | nil => exact ⟨still (t+1) (fun t' h => by rw [ht] at h; cases h; omega), (fun _ h => by cases h), (fun _ h => by cases h)⟩
          | cons x ev =>
            obtain ⟨T, e⟩ := x
            dsimp only
            by_cases hT : T < now + (t+1)
            · obtain ⟨r, h1, h2⟩ := event T e ev hf (fun t' h => by rw [ht] at h; cases h; omega)
              rw [if_pos hT, h1]
              exact ⟨h2, fun _ => (hok _ _ h1).1, (hok _ _ h1).2⟩
            · rw [if_neg hT]
              exact ⟨still (t+1) (fun t' h => by rw [ht] at h; cases h; omega), (fun _ h => by cases h), (fun _ h => by cases h)⟩

/-- reading when something is there takes no time -/
theorem cRecv_now (n : Nat) (now : Nat) (s : CSock) (h : (s.at now).buf ≠ [] ∨ (s.at now).ended ≠ none) :
    Waits 0 (now, s) (cRecv n (now, s)).2 := by
  unfold cRecv
  dsimp only
  split
  · exact .refl _
  · rw [← ready_isSome n] at h
    cases hr : (s.at now).ready n with
    | none => rw [hr] at h; cases h
    | some r =>
      have hk := at_keeps now s
      have := ready_keeps hr
      have h0 : Waits 0 (now, s) (now, r.2) := ⟨this.1.trans hk.1, this.2.trans hk.2.1, Nat.le_refl _, fun _ _ => by omega⟩
      exact h0

theorem cFlush_waits (lim fuel cnt : Nat) (p : Nat × CSock) : Waits 0 p (cFlush lim fuel cnt p).2 := by
  induction fuel generalizing cnt p with
  | zero => exact .refl _
  | succ fuel ih =>
    obtain ⟨now, s⟩ := p
    unfold cFlush
    simp only [PyM.bind_apply]
    by_cases hc : s.closed = true ∨ ¬ s.connected = true
    · simp only [cPoll, if_pos hc]; exact .refl _
    · have hk := at_keeps now s
      have hp : Waits 0 (now, s) (now, s.at now) := ⟨hk.1, hk.2.1, Nat.le_refl _, fun _ _ => by omega⟩
      have hpoll : cPoll (now, s) = (.ok (((s.at now).ready 1).isSome), (now, s.at now)) := by unfold cPoll; dsimp only; rw [if_neg hc]
      rw [hpoll]
      dsimp only
      by_cases hb : ((s.at now).ready 1).isSome = true
      · rw [if_pos hb]
        rw [ready_isSome] at hb
        have h1 := cRecv_now 1024 now (s.at now) (by rw [at_at]; exact hb)
        simp only [PyM.bind_apply]
        cases hr : cRecv 1024 (now, s.at now) with
        | mk r p1 =>
          rw [hr] at h1
          have h2 := hp.trans h1
          cases r with
          | error e => exact h2
          | ok x =>
            dsimp only
            split
            · split
              · exact h2
              · exact h2.trans (ih _ _)
            · exact h2.trans (ih _ _)
      · rw [if_neg hb]
        exact hp

theorem cSend_waits (b : Bytes) (p : Nat × CSock) : Waits 0 p (cSend b p).2 := by
  obtain ⟨now, s⟩ := p
  unfold cSend
  dsimp only
  split
  · exact .refl _
  · exact ⟨rfl, rfl, Nat.le_refl _, fun _ _ => by dsimp only; omega⟩

theorem cRecvLoop_spec (fuel : Nat) (response : Bytes) (length : Int) (hl : length ≤ 65541) (hr : response.length ≤ 65541) (p : Nat × CSock) :
    Waits (65541 - response.length) p (cRecvLoop fuel response length p).2 ∧
    (p.2.timeout ≠ none → 65541 < fuel + response.length → (cRecvLoop fuel response length p).1 ≠ .error .nonTermination) := by
  induction fuel generalizing response length p with
  | zero =>
    refine ⟨(Waits.refl _).mono (by omega), fun ht hf => ?_⟩
    omega
  | succ fuel ih =>
    rw [cRecvLoop]
    by_cases hlt : (response.length : Int) < length
    · rw [if_pos hlt]
      simp only [PyM.bind_apply]
      have hs := cRecv_spec 1 p
      cases hr : cRecv 1 p with
      | mk r p1 =>
        rw [hr] at hs
        obtain ⟨h1, h2, h3⟩ := hs
        cases r with
        | error e => exact ⟨h1.mono (by omega), fun ht _ => h2 ht⟩
        | ok x =>
          dsimp only
          have next : ∀ L : Int, L ≤ 65541 → x ≠ [] → Waits (65541 - response.length) p (cRecvLoop fuel (response ++ x) L p1).2 ∧
              (p.2.timeout ≠ none → 65541 < fuel + 1 + response.length → (cRecvLoop fuel (response ++ x) L p1).1 ≠ .error .nonTermination) := by
            intro L hL hx
            have hlen : x.length = 1 := by have := h3 x rfl; have := List.length_pos_of_ne_nil hx; omega
            have h4 := ih (response ++ x) L hL (by simp only [List.length_append]; omega) p1
            refine ⟨(h1.trans h4.1).mono (by simp only [List.length_append]; omega), fun ht hf => ?_⟩
            refine h4.2 (by rw [h1.mode]; exact ht) (by simp only [List.length_append]; omega)
          by_cases hx : x = []
          · rw [if_neg (by simp [hx])]
            exact ⟨h1.mono (by omega), (fun _ _ h => by cases h)⟩
          · rw [if_pos hx]
            by_cases h6 : (response ++ x).length = 6
            · rw [if_pos h6]
              obtain ⟨vs, e1, e2⟩ := unpack_HHH h6
              simp only [PyM.bind_apply, PyM.lift_apply, e1, e2]
              exact next _ (by have := announced_lt (response ++ x); omega) hx
            · rw [if_neg h6]
              exact next _ hl hx
    · rw [if_neg hlt]
      exact ⟨(Waits.refl _).mono (by omega), (fun _ _ h => by cases h)⟩

theorem cRecv_empty {n : Nat} {p p1 : Nat × CSock} (h : cRecv (n+1) p = (.ok [], p1)) : p1.2.ended = some .eof ∧ p1.2.buf = [] := by
  obtain ⟨now, s⟩ := p
  have hr : ∀ (s : CSock) (k : CSock), s.ready (n+1) = some (.ok [], k) → k.ended = some .eof ∧ k.buf = [] := by
    intro s k h
    unfold CSock.ready at h
    split at h
    · simp at h
    · rename_i h1 h2
      cases h
      exact ⟨h2, h1⟩
    · cases h
    · cases h
  unfold cRecv at h
  dsimp only at h
  split at h
  · cases h
  · cases h1 : (s.at now).ready (n+1) with
    | some r => obtain ⟨r1, r2⟩ := r; rw [h1] at h; cases h; exact hr _ _ h1
    | none =>
      rw [h1] at h
      dsimp only at h
      split at h
      · cases h
      · split at h
        · split at h
          · rename_i r h2
            obtain ⟨r1, r2⟩ := r
            cases h; exact hr _ _ h2
          · cases h
        · cases h
      · cases h
      · split at h
        · rename_i r h2
          obtain ⟨r1, r2⟩ := r
          cases h; exact hr _ _ h2
        · cases h
      · cases h

theorem at_ended {s : CSock} (h : s.ended ≠ none) (now : Nat) : (s.at now).ended = s.ended ∧ (s.at now).buf = s.buf := by
  unfold CSock.at
  cases s.future with
  | nil => exact ⟨rfl, rfl⟩
  | cons x ev =>
    obtain ⟨T, e⟩ := x
    unfold CSock.arrived
    rw [if_neg (by simp [h])]
    exact ⟨rfl, rfl⟩

theorem cRtuRecvLoop_ended (L : Int) (fuel : Nat) (response : Bytes) (p : Nat × CSock) (h : p.2.ended ≠ none) :
    Waits 0 p (cRtuRecvLoop L fuel response p).2 := by
  induction fuel generalizing response p with
  | zero => exact .refl _
  | succ fuel ih =>
    rw [cRtuRecvLoop]
    split
    · simp only [PyM.bind_apply]
      obtain ⟨now, s⟩ := p
      have ha := at_ended h now
      have h1 := cRecv_now 1 now s (.inr (by rw [ha.1]; exact h))
      have he : ((cRecv 1 (now, s)).2).2.ended ≠ none := by
        unfold cRecv
        dsimp only
        split
        · exact h
        · cases hr : (s.at now).ready 1 with
          | none => have := ready_none hr; rw [ha.1] at this; exact absurd this.2 h
          | some r =>
            have hd : r.2.ended = (s.at now).ended := by unfold CSock.ready at hr; split at hr <;> cases hr <;> rfl
            show r.2.ended ≠ none
            rw [hd, ha.1]; exact h
      cases hr : cRecv 1 (now, s) with
      | mk r p1 =>
        rw [hr] at h1 he
        cases r with
        | error e => exact h1
        | ok x =>
          dsimp only
          split
          · exact h1
          · exact h1.trans (ih _ _ he)
    · exact .refl _

theorem cRtuRecvLoop_waits (L : Int) (fuel : Nat) (response : Bytes) (p : Nat × CSock) :
    Waits (255 - response.length) p (cRtuRecvLoop L fuel response p).2 := by
  induction fuel generalizing response p with
  | zero => exact (Waits.refl _).mono (by omega)
  | succ fuel ih =>
    rw [cRtuRecvLoop]
    split
    · rename_i hlt
      simp only [PyM.bind_apply]
      have hs := cRecv_spec 1 p
      cases hr : cRecv 1 p with
      | mk r p1 =>
        rw [hr] at hs
        obtain ⟨h1, -, h3⟩ := hs
        cases r with
        | error e => exact h1.mono (by omega)
        | ok x =>
          dsimp only
          split
          · exact h1.mono (by omega)
          · cases x with
            | nil =>
              have he := cRecv_empty hr
              exact (h1.trans (cRtuRecvLoop_ended L fuel _ p1 (by rw [he.1]; simp))).mono (by omega)
            | cons b bs => exact (h1.trans (ih _ _)).mono (by simp only [List.length_append, List.length_cons]; omega)
    · exact (Waits.refl _).mono (by omega)

/-! ## Masters -/

/-- The master keeps its time-out, time goes forward; if the time-out was in force it still is, and at most `n` time-outs have passed. -/
structure Spends (n : Nat) (s s' : CLink) : Prop where
  timeout : s'.timeout = s.timeout
  forward : s.now ≤ s'.now
  inForce : InForce s → InForce s'
  bound : InForce s → ∀ x : Int, x > 0 → s.timeout = some x → s'.now ≤ s.now + n * x.toNat

theorem Spends.refl (s : CLink) : Spends 0 s s := ⟨rfl, Nat.le_refl _, id, fun _ _ _ _ => by omega⟩

theorem Spends.trans {m n : Nat} {a b c : CLink} (h : Spends m a b) (h' : Spends n b c) : Spends (m + n) a c :=
  ⟨h'.timeout.trans h.timeout, Nat.le_trans h.forward h'.forward, fun hi => h'.inForce (h.inForce hi), fun hi x hx ht => by
    have h1 := h.bound hi x hx ht
    have h2 := h'.bound (h.inForce hi) x hx (by rw [h.timeout]; exact ht)
    rw [Nat.add_mul]; omega⟩

theorem Spends.mono {m n : Nat} {a b : CLink} (h : Spends m a b) (hmn : m ≤ n) : Spends n a b :=
  ⟨h.timeout, h.forward, h.inForce, fun hi x hx ht => Nat.le_trans (h.bound hi x hx ht) (by have := Nat.mul_le_mul_right x.toNat hmn; omega)⟩

theorem modeFor_pos {x : Int} (h : x > 0) : modeFor x = some x.toNat := by unfold modeFor; rw [if_pos h]

theorem onCSock_spends {α : Type} {n : Nat} {f : PyM (Nat × CSock) α} (hf : ∀ p, Waits n p (f p).2) (s : CLink) : Spends n s (onCSock f s).2 := by
  unfold onCSock
  cases hk : s.sock with
  | none => exact (Spends.refl _).mono (by omega)
  | some k =>
    dsimp only
    have h := hf (s.now, k)
    refine ⟨rfl, h.forward, fun hi k' hk' hc x hx => ?_, fun hi x hx ht => ?_⟩
    · simp only [Option.some.injEq] at hk'
      subst hk'
      rw [h.mode]
      exact hi k hk (by rw [← h.closed]; exact hc) x hx
    · refine h.bound x.toNat (fun hc => ?_)
      rw [← modeFor_pos hx]
      exact hi k hk hc x ht

theorem cSetTimeout_spec (v : Option Int) (s : CLink) :
    (cSetTimeout v s).2.timeout = v ∧ (cSetTimeout v s).2.now = s.now ∧ (cSetTimeout v s).2.peers = s.peers ∧ InForce (cSetTimeout v s).2 := by
  unfold cSetTimeout
  cases hk : s.sock with
  | none => exact ⟨rfl, rfl, rfl, (fun k h => by cases h)⟩
  | some k =>
    dsimp only
    cases v with
    | none => exact ⟨rfl, rfl, rfl, fun k' _ _ x h => by cases h⟩
    | some x =>
      dsimp only
      by_cases hc : k.closed = true
      · rw [if_pos hc]
        refine ⟨rfl, rfl, rfl, fun k' h hc' => ?_⟩
        cases h
        rw [hc] at hc'; cases hc'
      · rw [if_neg hc]
        by_cases h0 : x ≠ 0
        · rw [if_pos h0]
          by_cases hn : x < 0
          · rw [if_pos hn]
            refine ⟨rfl, rfl, rfl, fun k' h _ y hy => ?_⟩
            cases h; cases hy
            unfold modeFor
            rw [if_neg (by omega), if_neg (by omega)]
          · rw [if_neg hn]
            refine ⟨rfl, rfl, rfl, fun k' h _ y hy => ?_⟩
            cases h; cases hy
            rw [modeFor_pos (by omega)]
        · rw [if_neg h0]
          refine ⟨rfl, rfl, rfl, fun k' h _ y hy => ?_⟩
          cases h; cases hy
          unfold modeFor
          rw [if_neg (by omega), if_neg (by omega)]

theorem cConnect_spends (s : CLink) (hn : ∀ k, s.sock = some k → k.closed = false) : Spends 1 s (cConnect s).2 := by
  obtain ⟨tmo, so, pe0, now⟩ := s
  cases so with
  | none => exact (Spends.refl _).mono (by omega)
  | some k =>
    have hk := hn k rfl
    have same : ∀ (pe : List CPeer) (d : Nat), (∀ t, k.timeout = some t → d ≤ t) → Spends 1 ⟨tmo, some k, pe0, now⟩ ⟨tmo, some k, pe, now + d⟩ := by
      intro pe d hd
      refine ⟨rfl, by dsimp only; omega, fun h => h, fun hi x hx ht => ?_⟩
      have := hd x.toNat (by rw [← modeFor_pos hx]; exact hi k rfl hk x ht)
      dsimp only; omega
    have conn : ∀ (pe : List CPeer) (d : Nat) (ev : List (Nat × CEvent)), (∀ t, k.timeout = some t → d ≤ t) →
        Spends 1 ⟨tmo, some k, pe0, now⟩ ⟨tmo, some { k with connected := true, future := ev }, pe, now + d⟩ := by
      intro pe d ev hd
      refine ⟨rfl, by dsimp only; omega, fun hi k' h hc x hx => ?_, fun hi x hx ht => ?_⟩
      · cases h
        exact hi k rfl hk x hx
      · have := hd x.toNat (by rw [← modeFor_pos hx]; exact hi k rfl hk x ht)
        dsimp only; omega
    unfold cConnect
    dsimp only
    split
    · exact same _ 0 (fun _ _ => by omega)
    · rename_i t d ev rest ht
      split
      · exact conn rest d ev (fun t' h => by rw [ht] at h; cases h; omega)
      · exact same rest (t+1) (fun t' h => by rw [ht] at h; cases h; omega)
    · rename_i t d rest ht
      split
      · exact same rest d (fun t' h => by rw [ht] at h; cases h; omega)
      · exact same rest (t+1) (fun t' h => by rw [ht] at h; cases h; omega)
    · rename_i t ht
      exact same [] (t+1) (fun t' h => by rw [ht] at h; cases h; omega)
    · rename_i d ev rest ht
      exact conn rest d ev (fun t' h => by rw [ht] at h; cases h)
    · rename_i d rest ht
      exact same rest d (fun t' h => by rw [ht] at h; cases h)
    · exact (Spends.refl _).mono (by omega)

/-- `open` makes a new socket, and the time-out is in force whatever it was before -/
theorem cDoOpen_spec (R : Registry) (s : CLink) : Spends 1 s (cDoOpen R s).2 ∧ InForce (cDoOpen R s).2 := by
  have key : ∀ s', Spends 1 (cSetTimeout s.timeout { s with sock := some {} }).2 s' → Spends 1 s s' ∧ InForce s' := by
    intro s' h
    obtain ⟨h1, h2, h3, h4⟩ := cSetTimeout_spec s.timeout { s with sock := some {} }
    refine ⟨⟨h.timeout.trans h1, by have := h.forward; rw [h2] at this; exact this, fun _ => h.inForce h4, fun _ x hx ht => ?_⟩, h.inForce h4⟩
    have := h.bound h4 x hx (h1.trans ht)
    rw [h2] at this
    exact this
  have hn : ∀ k, (cSetTimeout s.timeout { s with sock := some {} }).2.sock = some k → k.closed = false := by
    intro k hk
    unfold cSetTimeout at hk
    dsimp only at hk
    cases hv : s.timeout with
    | none => rw [hv] at hk; cases hk; rfl
    | some x =>
      rw [hv] at hk
      dsimp only at hk
      rw [if_neg (by simp)] at hk
      split at hk
      · split at hk <;> cases hk <;> rfl
      · cases hk; rfl
  unfold cDoOpen
  simp only [PyM.bind_apply, PyM.modify_apply, PyM.get_apply, cGetTimeout]
  cases hs : cSetTimeout s.timeout { s with sock := some {} } with
  | mk r s1 =>
    rw [hs] at key hn
    cases r with
    | error e => exact key _ ((Spends.refl _).mono (by omega))
    | ok u =>
      dsimp only
      simp only [PyM.lift_apply]
      cases callHooks R "modbus_tcp.TcpMaster.before_connect" .obj with
      | error e => exact key _ ((Spends.refl _).mono (by omega))
      | ok v =>
        dsimp only
        have hc := cConnect_spends s1 hn
        cases hcc : cConnect s1 with
        | mk r2 s2 =>
          rw [hcc] at hc
          cases r2 with
          | error e => exact key _ hc
          | ok u2 =>
            dsimp only
            cases callHooks R "modbus_tcp.TcpMaster.after_connect" .obj <;> exact key _ hc

theorem lift_spends {α : Type} (x : Except PyErr α) (s : CLink) : Spends 0 s (PyM.lift x s).2 := Spends.refl s

theorem bind_spends {α β : Type} {m n : Nat} {f : PyM CLink α} {g : α → PyM CLink β} {s : CLink} (hf : Spends m s (f s).2)
    (hg : ∀ a s', Spends n s' (g a s').2) : Spends (m + n) s ((f >>= g) s).2 := by
  rw [PyM.bind_apply]
  cases h : f s with
  | mk r s' =>
    rw [h] at hf
    cases r with
    | ok a => exact hf.trans (hg a s')
    | error e => exact hf.mono (by omega)

theorem cDoClose_spends (R : Registry) (s : CLink) : Spends 0 s (cDoClose R s).2 := by
  unfold cDoClose
  simp only [PyM.bind_apply, PyM.get_apply]
  cases hk : s.sock with
  | none => exact .refl _
  | some k =>
    dsimp only
    simp only [PyM.bind_apply, PyM.lift_apply]
    cases callHooks R "modbus_tcp.TcpMaster.before_close" .obj with
    | error e => exact .refl _
    | ok v =>
      simp only [PyM.modify_apply]
      cases callHooks R "modbus_tcp.TcpMaster.after_close" .obj with
      | error e =>
        refine ⟨rfl, Nat.le_refl _, fun _ k' h hc => ?_, fun _ _ _ _ => Nat.le_add_right _ _⟩
        cases h; cases hc
      | ok v =>
        refine ⟨rfl, Nat.le_refl _, fun _ k' h => ?_, fun _ _ _ _ => Nat.le_add_right _ _⟩
        cases h

theorem cTcpSend_spends (R : Registry) (b : Bytes) (s : CLink) : Spends 1 s (cTcpSend R b s).2 := by
  unfold cTcpSend
  refine bind_spends (m := 0) (n := 1) (lift_spends _ _) (fun v s1 => ?_)
  refine bind_spends (m := 1) (n := 0) ?_ (fun _ s2 => onCSock_spends (cSend_waits _) s2)
  rw [PyM.tryExcept_apply]
  have h := onCSock_spends (cFlush_waits 3 4 0) s1
  cases hf : onCSock (cFlush 3 4 0) s1 with
  | mk r s2 =>
    rw [hf] at h
    cases r with
    | ok a => exact h.mono (by omega)
    | error e => exact h.trans (cDoOpen_spec R s2).1

theorem cTcpRecv_spends (R : Registry) (n : Int) (s : CLink) : Spends 65541 s (cTcpRecv R n s).2 := by
  unfold cTcpRecv
  refine bind_spends (m := 65541) (n := 0) (onCSock_spends (fun p => (cRecvLoop_spec 65542 [] 255 (by omega) (by simp) p).1) s) (fun v s1 => ?_)
  exact bind_spends (m := 0) (n := 0) (lift_spends _ _) (fun _ s2 => .refl _)

theorem cRtuOverTcpRecv_spends (R : Registry) (n : Int) (s : CLink) : Spends 255 s (cRtuOverTcpRecv R n s).2 := by
  unfold cRtuOverTcpRecv
  refine bind_spends (m := 255) (n := 0) (onCSock_spends (fun p => cRtuRecvLoop_waits n 256 [] p) s) (fun v s1 => ?_)
  exact bind_spends (m := 0) (n := 0) (lift_spends _ _) (fun _ s2 => .refl _)

/-- the two masters that use a socket -/
def IsClocked (R : Registry) (ch : Chan CLink) : Prop := ch = clockedTcp R ∨ ch = clockedRtuOverTcp R

theorem masterOpen_spends {R : Registry} {ch : Chan CLink} (hch : IsClocked R ch) (s : MasterSt CLink) :
    Spends 1 s.link (masterOpen ch s).2.link := by
  have ho : ch.doOpen = cDoOpen R := by rcases hch with rfl | rfl <;> rfl
  unfold masterOpen
  rw [ho]
  split
  · exact (Spends.refl _).mono (by omega)
  · have := (cDoOpen_spec R s.link).1
    cases h : cDoOpen R s.link with
    | mk r l => rw [h] at this; cases r <;> exact this

theorem masterClose_spends {R : Registry} {ch : Chan CLink} (hch : IsClocked R ch) (s : MasterSt CLink) :
    Spends 0 s.link (masterClose ch s).2.link := by
  have ho : ch.doClose = cDoClose R := by rcases hch with rfl | rfl <;> rfl
  unfold masterClose
  rw [ho]
  split
  · have := cDoClose_spends R s.link
    cases h : cDoClose R s.link with
    | mk r l => rw [h] at this; cases r <;> exact this
  · exact .refl _

theorem bind_spendsM {α β : Type} {m n : Nat} {f : PyM (MasterSt CLink) α} {g : α → PyM (MasterSt CLink) β} {s : MasterSt CLink}
    (hf : Spends m s.link (f s).2.link) (hg : ∀ a s', Spends n s'.link (g a s').2.link) : Spends (m + n) s.link ((f >>= g) s).2.link := by
  rw [PyM.bind_apply]
  cases h : f s with
  | mk r s' =>
    rw [h] at hf
    cases r with
    | ok a => exact hf.trans (hg a s')
    | error e => exact hf.mono (by omega)

theorem execute_spends (R : Registry) (mac : Mac) (ch : Chan CLink) (N : Nat) (hch : IsClocked R ch)
    (hr : ∀ n l, Spends N l (ch.recv n l).2) (a : ExecArgs) (s : MasterSt CLink) : Spends (2 + N) s.link (execute R mac ch a s).2.link := by
  have hsend : ∀ b l, Spends 1 l (ch.send b l).2 := by rcases hch with rfl | rfl <;> exact cTcpSend_spends R
  unfold execute
  refine (bind_spendsM (m := 1) (n := 1 + N) (masterOpen_spends hch s) (fun _ s1 => ?_)).mono (by omega)
  refine (bind_spendsM (m := 0) (n := 1 + N) (Spends.refl _) (fun p s2 => ?_)).mono (by omega)
  cases a.slave with
  | none => exact (Spends.refl _).mono (by omega)
  | some slave =>
    refine (bind_spendsM (m := 0) (n := 1 + N) ?_ (fun x s3 => ?_)).mono (by omega)
    · unfold buildRequest
      split <;> exact Spends.refl _
    refine (bind_spendsM (m := 0) (n := 1 + N) (Spends.refl _) (fun _ s4 => ?_)).mono (by omega)
    refine (bind_spendsM (m := 1) (n := N) (hsend _ s4.link) (fun _ s5 => ?_))
    refine (bind_spendsM (m := 0) (n := N) (Spends.refl _) (fun _ s6 => ?_)).mono (by omega)
    refine (bind_spendsM (m := N) (n := 0) (hr _ s6.link) (fun _ s7 => ?_))
    refine (bind_spendsM (m := 0) (n := 0) (Spends.refl _) (fun _ s8 => ?_))
    refine (bind_spendsM (m := 0) (n := 0) (Spends.refl _) (fun _ s9 => ?_))
    exact Spends.refl _

theorem clocked_recv {R : Registry} {ch : Chan CLink} (hch : IsClocked R ch) : ∀ n l, Spends 65541 l (ch.recv n l).2 := by
  rcases hch with rfl | rfl
  · exact cTcpRecv_spends R
  · exact fun n l => (cRtuOverTcpRecv_spends R n l).mono (by omega)

theorem runTimed_spec (R : Registry) (mac : Mac) (ch : Chan CLink) (hch : IsClocked R ch) (ops : List TimedOp) (s : MasterSt CLink)
    (hi : InForce s.link) :
    (runTimed R mac ch ops s).link.timeout = lastTimeout ops s.link.timeout ∧ InForce (runTimed R mac ch ops s).link := by
  induction ops generalizing s with
  | nil => exact ⟨rfl, hi⟩
  | cons op ops ih =>
    have step : ∀ {n : Nat} {s' : MasterSt CLink}, Spends n s.link s'.link → (runTimed R mac ch ops s').link.timeout = lastTimeout ops s.link.timeout ∧
        InForce (runTimed R mac ch ops s').link := by
      intro n s' h
      have := ih s' (h.inForce hi)
      rw [h.timeout] at this
      exact this
    cases op with
    | «open» => exact step (masterOpen_spends hch s)
    | close => exact step (masterClose_spends hch s)
    | exec a => exact step (execute_spends R mac ch 65541 hch (clocked_recv hch) a s)
    | setTimeout v =>
      obtain ⟨h1, _, _, h4⟩ := cSetTimeout_spec v s.link
      have := ih { s with link := (cSetTimeout v s.link).2 } h4
      rw [show ({ s with link := (cSetTimeout v s.link).2 } : MasterSt CLink).link.timeout = v from h1] at this
      exact this
    | wait d => exact ih { s with link := { s.link with now := s.link.now + d } } hi

/-! ## C72 -/

/-- **C72.** After every history of a TcpMaster or RtuOverTcpMaster - opening, closing, calls of execute with any outcome, reconnections by
    `_send`, changes of the time-out, any hooks - `get_timeout` is the last value given, and if the master has a socket (not closed), then the
    time-out of the socket is this value; values up to 0 mean non-blocking. -/
theorem C72_in_force (R : Registry) (mac : Mac) (ch : Chan CLink) (hch : IsClocked R ch) (timeout : Option Int) (peers : List CPeer) (now : Nat)
    (tid : Int) (ops : List TimedOp) :
    cGetTimeout (runTimed R mac ch ops (timedMaster timeout peers now tid)).link = lastTimeout ops timeout ∧
    ∀ k, (runTimed R mac ch ops (timedMaster timeout peers now tid)).link.sock = some k → k.closed = false →
      ∀ x, lastTimeout ops timeout = some x → k.timeout = if x > 0 then some x.toNat else some 0 := by
  have h := runTimed_spec R mac ch hch ops (timedMaster timeout peers now tid) (fun k h => by cases h)
  refine ⟨h.1, fun k hk hc x hx => ?_⟩
  exact h.2 k hk hc x (h.1.trans hx)

/-- **C72.** `set_timeout` always stores the value; with a socket it raises TypeError for None and ValueError for negative numbers. -/
theorem C72_set_timeout (v : Option Int) (s : CLink) :
    cGetTimeout (cSetTimeout v s).2 = v ∧
    (s.sock = none → (cSetTimeout v s).1 = .ok ()) ∧
    (∀ k, s.sock = some k → k.closed = false → (cSetTimeout v s).1 = match v with
      | none => .error .typeError
      | some x => if x < 0 then .error .valueError else .ok ()) := by
  refine ⟨(cSetTimeout_spec v s).1, fun h => ?_, fun k h hc => ?_⟩
  · unfold cSetTimeout; dsimp only; rw [h]
  · unfold cSetTimeout
    dsimp only
    rw [h]
    cases v with
    | none => rfl
    | some x =>
      dsimp only
      rw [if_neg (by simp [hc])]
      by_cases h1 : x < 0
      · rw [if_pos (by omega), if_pos h1, if_pos h1]
      · rw [if_neg h1]
        by_cases h2 : x ≠ 0
        · rw [if_pos h2, if_neg h1]
        · rw [if_neg h2, if_neg h1]

theorem cDoOpen_refused (R : Registry) (s : CLink) (e : PyErr) (h : (cSetTimeout s.timeout { s with sock := some {} }).1 = .error e) :
    (cDoOpen R s).1 = .error e ∧ (cDoOpen R s).2.peers = s.peers := by
  have hp := (cSetTimeout_spec s.timeout { s with sock := some {} }).2.2.1
  unfold cDoOpen
  simp only [PyM.bind_apply, PyM.modify_apply, PyM.get_apply, cGetTimeout]
  cases hs : cSetTimeout s.timeout { s with sock := some {} } with
  | mk r s1 =>
    rw [hs] at h hp
    cases r with
    | ok u => cases h
    | error e' => cases h; exact ⟨rfl, hp⟩

/-- **C72.** Only a positive time-out lets a master connect.  With None, opening raises TypeError, with a negative number ValueError, both before
    connecting; with 0 it fails with OSError (or what a hook raises). -/
theorem C72_open (R : Registry) (ch : Chan CLink) (hch : IsClocked R ch) (s : MasterSt CLink) (ho : s.isOpened = false) :
    (∀ s', masterOpen ch s = (.ok (), s') → ∃ x, x > 0 ∧ s.link.timeout = some x) ∧
    (s.link.timeout = none → (masterOpen ch s).1 = .error .typeError ∧ (masterOpen ch s).2.link.peers = s.link.peers) ∧
    (∀ x, s.link.timeout = some x → x < 0 → (masterOpen ch s).1 = .error .valueError ∧ (masterOpen ch s).2.link.peers = s.link.peers) ∧
    (Quiet R → s.link.timeout = some 0 → (masterOpen ch s).1 = .error .osError) := by
  have hd : ch.doOpen = cDoOpen R := by rcases hch with rfl | rfl <;> rfl
  have hm : (masterOpen ch s).1 = (cDoOpen R s.link).1 ∧ (masterOpen ch s).2.link = (cDoOpen R s.link).2 := by
    unfold masterOpen
    rw [if_neg (by simp [ho]), hd]
    cases cDoOpen R s.link with
    | mk r l => cases r <;> exact ⟨rfl, rfl⟩
  have hno : s.link.timeout = none → (masterOpen ch s).1 = .error .typeError ∧ (masterOpen ch s).2.link.peers = s.link.peers := by
    intro h
    rw [hm.1, hm.2]
    exact cDoOpen_refused R s.link _ (by rw [h]; rfl)
  have hneg : ∀ x, s.link.timeout = some x → x < 0 → (masterOpen ch s).1 = .error .valueError ∧ (masterOpen ch s).2.link.peers = s.link.peers := by
    intro x h hx
    rw [hm.1, hm.2]
    refine cDoOpen_refused R s.link _ ?_
    have := (C72_set_timeout s.link.timeout { s.link with sock := some {} }).2.2 {} rfl rfl
    rw [this, h]
    dsimp only
    rw [if_pos hx]
  have hzero : s.link.timeout = some 0 → (masterOpen ch s).1 = .error .osError ∨ ∃ e, callHooks R "modbus_tcp.TcpMaster.before_connect" .obj = .error e ∧
      (masterOpen ch s).1 = .error e := by
    intro h
    rw [hm.1]
    have hs : cSetTimeout s.link.timeout { s.link with sock := some {} } =
        (.ok (), { s.link with sock := some { timeout := some 0 } }) := by
      rw [h]; unfold cSetTimeout; dsimp only; rw [if_neg (by simp), if_neg (by simp), ← h]; rfl
    unfold cDoOpen
    simp only [PyM.bind_apply, PyM.modify_apply, PyM.get_apply, cGetTimeout, hs, PyM.lift_apply]
    cases callHooks R "modbus_tcp.TcpMaster.before_connect" .obj with
    | error e => exact .inr ⟨e, rfl, rfl⟩
    | ok v => exact .inl rfl
  refine ⟨fun s' h => ?_, hno, hneg, fun hR h => ?_⟩
  · cases ht : s.link.timeout with
    | none => have := (hno ht).1; rw [h] at this; cases this
    | some x =>
      refine ⟨x, ?_, rfl⟩
      by_cases h0 : x = 0
      · subst h0
        rcases hzero ht with h1 | ⟨e, _, h1⟩ <;> (rw [h] at h1; cases h1)
      · by_cases hneg' : x < 0
        · have := (hneg x ht hneg').1; rw [h] at this; cases this
        · omega
  · rcases hzero h with h1 | ⟨e, h1, _⟩
    · exact h1
    · rw [hR _ _] at h1; cases h1

/-- **C72.** `PyModbusClientTCP(host, port)` has the time-out None by default: no method that talks to the server works (Python 3).  They raise
    TypeError, before connecting, as often as they are called. -/
theorem C72_py_client (R : Registry) (s : MasterSt CLink) (ho : s.isOpened = false) (ht : s.link.timeout = none) (register v : Int) :
    (pyOpen (clockedTcp R) s).1 = .error .typeError ∧ (pyReadInputRegisters R (clockedTcp R) register v s).1 = .error .typeError ∧
    (pyWriteSingleRegister R (clockedTcp R) register v s).1 = .error .typeError ∧
    (pyWriteSingleCoil R (clockedTcp R) register v s).1 = .error .typeError ∧ (pyReadCoils R (clockedTcp R) register v s).1 = .error .typeError ∧
    (pyReadDiscreteInputs R (clockedTcp R) register v s).1 = .error .typeError ∧
    (∀ a, (execute R tcpMac (clockedTcp R) a s).2.link.peers = s.link.peers ∧ (execute R tcpMac (clockedTcp R) a s).2.isOpened = false ∧
      (execute R tcpMac (clockedTcp R) a s).2.link.timeout = none) := by
  have h := (C72_open R (clockedTcp R) (.inl rfl) s ho).2.1 ht
  have hst := masterOpen_spends (R := R) (ch := clockedTcp R) (.inl rfl) s
  have hop : (masterOpen (clockedTcp R) s).2.isOpened = false := by
    unfold masterOpen at h ⊢
    rw [if_neg (by simp [ho])] at h ⊢
    split
    · rename_i h1; rw [h1] at h; cases h.1
    · exact ho
  cases hm : masterOpen (clockedTcp R) s with
  | mk r s1 =>
    rw [hm] at h hst hop
    obtain ⟨rfl, h2⟩ := h
    have he : ∀ a, execute R tcpMac (clockedTcp R) a s = (.error .typeError, s1) := fun a => execute_open_error hm
    refine ⟨?_, ?_, ?_, ?_, ?_, ?_, fun a => ?_⟩
    · simp only [pyOpen, PyM.bind_apply, hm]
    · simp only [pyReadInputRegisters, PyM.bind_apply, he]
    · simp only [pyWriteSingleRegister, PyM.bind_apply, he]
    · simp only [pyWriteSingleCoil, PyM.bind_apply, he]
    · simp only [pyReadCoils, PyM.bind_apply, he]
    · simp only [pyReadDiscreteInputs, PyM.bind_apply, he]
    · rw [he a]; exact ⟨h2, hop, hst.timeout.trans ht⟩

/-! ## C73 -/

/-- **C73.** With the time-out `x > 0` in force (C72) a call of a TcpMaster takes at most 65543 times `x`: one for connecting, one for
    reconnecting, one for every byte of the response. -/
theorem C73_bounded (R : Registry) (mac : Mac) (timeout : Option Int) (peers : List CPeer) (now : Nat) (tid : Int) (ops : List TimedOp)
    (x : Int) (hx : x > 0) (hl : lastTimeout ops timeout = some x) (a : ExecArgs) (s : MasterSt CLink)
    (hs : s = runTimed R mac (clockedTcp R) ops (timedMaster timeout peers now tid)) :
    (execute R mac (clockedTcp R) a s).2.link.now ≤ s.link.now + 65543 * x.toNat := by
  have h := runTimed_spec R mac _ (.inl rfl) ops (timedMaster timeout peers now tid) (fun k h => by cases h)
  rw [← hs] at h
  exact (execute_spends R mac (clockedTcp R) 65541 (.inl rfl) (cTcpRecv_spends R) a s).bound h.2 x hx (h.1.trans hl)

/-- **C73.** The same of an RtuOverTcpMaster, with 255 bytes.  (When the peer closes the connection it does not wait but spins, see C32.) -/
theorem C73_bounded_rtu_over_tcp (R : Registry) (mac : Mac) (timeout : Option Int) (peers : List CPeer) (now : Nat) (tid : Int)
    (ops : List TimedOp) (x : Int) (hx : x > 0) (hl : lastTimeout ops timeout = some x) (a : ExecArgs) (s : MasterSt CLink)
    (hs : s = runTimed R mac (clockedRtuOverTcp R) ops (timedMaster timeout peers now tid)) :
    (execute R mac (clockedRtuOverTcp R) a s).2.link.now ≤ s.link.now + 257 * x.toNat := by
  have h := runTimed_spec R mac _ (.inr rfl) ops (timedMaster timeout peers now tid) (fun k h => by cases h)
  rw [← hs] at h
  exact (execute_spends R mac (clockedRtuOverTcp R) 255 (.inr rfl) (cRtuOverTcpRecv_spends R) a s).bound h.2 x hx (h.1.trans hl)

/-- **C73.** Waiting ends: neither connecting, sending nor receiving of a TcpMaster with a numeric time-out lasts for ever. -/
theorem C73_recv_ends (R : Registry) (hR : ∀ n a, callHooks R n a ≠ .error .nonTermination) (l : CLink) (k : CSock) (hk : l.sock = some k)
    (ht : k.timeout ≠ none) (n : Int) : (cTcpRecv R n l).1 ≠ .error .nonTermination := by
  have h := (cRecvLoop_spec 65542 [] 255 (by omega) (by simp) (l.now, k)).2 ht (by simp)
  unfold cTcpRecv
  rw [PyM.bind_apply]
  unfold onCSock
  rw [hk]
  dsimp only
  cases hr : cRecvLoop 65542 [] 255 (l.now, k) with
  | mk r p =>
    rw [hr] at h
    cases r with
    | error e => exact h
    | ok x =>
      simp only [PyM.bind_apply, PyM.lift_apply]
      cases hc : callHooks R "modbus_tcp.TcpMaster.after_recv" (.msg x) with
      | error e => intro h'; cases h'; exact hR _ _ hc
      | ok v => intro h'; cases h'

/-- When are `n` bytes there, if `have_` are there now and no gap is as long as `x`? -/
def completeAt (x : Nat) : (now have_ : Nat) → List (Nat × CEvent) → (n : Nat) → Option Nat
  | now, have_, [], n => if n ≤ have_ then some now else none
  | now, have_, (T, e) :: ev, n =>
    if n ≤ have_ then some now
    else match e with
      | .data _ bs => if T < now + x then completeAt x (max now T) (have_ + (bs.length + 1)) ev n else none
      | _ => none

/-- the bytes that will have arrived in the end -/
def comingBytes : Bytes → List (Nat × CEvent) → Bytes
  | buf, [] => buf
  | buf, (_, .data b bs) :: ev => comingBytes (buf ++ b :: bs) ev
  | buf, (_, _) :: _ => buf

theorem completeAt_enough {x now h n : Nat} {ev : List (Nat × CEvent)} (hn : n ≤ h) : completeAt x now h ev n = some now := by
  cases ev with
  | nil => simp [completeAt, hn]
  | cons y ev => obtain ⟨T, e⟩ := y; simp [completeAt, hn]

theorem completeAt_shift (x : Nat) : ∀ (ev : List (Nat × CEvent)) (now h n : Nat), completeAt x now (h+1) ev (n+1) = completeAt x now h ev n
  | [], now, h, n => by simp [completeAt]
  | (T, e) :: ev, now, h, n => by
    unfold completeAt
    by_cases hn : n ≤ h
    · rw [if_pos hn, if_pos (by omega)]
    · rw [if_neg hn, if_neg (by omega)]
      cases e with
      | data b bs =>
        dsimp only
        have e : h + 1 + (bs.length + 1) = (h + (bs.length + 1)) + 1 := by omega
        rw [e, completeAt_shift x ev]
      | eof => rfl
      | reset => rfl

theorem comingBytes_cons (c : UInt8) : ∀ (ev : List (Nat × CEvent)) (buf : Bytes), comingBytes (c :: buf) ev = c :: comingBytes buf ev
  | [], _ => rfl
  | (T, e) :: ev, buf => by
    cases e with
    | data b bs => exact comingBytes_cons c ev _
    | eof => rfl
    | reset => rfl

/-- what is still to come -/
def CSock.toCome (s : CSock) : List (Nat × CEvent) := if s.ended = none then s.future else []

/-- arrivals do not change when the bytes are complete, nor which bytes come -/
theorem arrived_complete (x now n : Nat) (hx : 0 < x) : ∀ (ev : List (Nat × CEvent)) (s : CSock), s.ended = none →
    completeAt x now (CSock.arrived now ev s).buf.length (CSock.arrived now ev s).toCome n = completeAt x now s.buf.length ev n ∧
    comingBytes (CSock.arrived now ev s).buf (CSock.arrived now ev s).toCome = comingBytes s.buf ev
  | [], s, he => by simp [CSock.arrived, CSock.toCome, he]
  | (T', e) :: ev, s, he => by
    unfold CSock.arrived
    by_cases hT : T' ≤ now ∧ s.ended = none
    · rw [if_pos hT]
      have hstop : ∀ (k : CSock), k.ended ≠ none → (CSock.arrived now ev k).buf = k.buf ∧ (CSock.arrived now ev k).toCome = [] := by
        intro k hk
        have : (CSock.arrived now ev k).buf = k.buf ∧ (CSock.arrived now ev k).ended = k.ended := by
          cases ev with
          | nil => exact ⟨rfl, rfl⟩
          | cons y ev => obtain ⟨a, b⟩ := y; unfold CSock.arrived; rw [if_neg (by simp [hk])]; exact ⟨rfl, rfl⟩
        refine ⟨this.1, ?_⟩
        unfold CSock.toCome
        rw [this.2, if_neg hk]
      cases e with
      | data b bs =>
        have h := arrived_complete x now n hx ev (s.take (.data b bs)) he
        rw [h.1, h.2]
        refine ⟨?_, rfl⟩
        show completeAt x now (s.buf ++ b :: bs).length ev n = completeAt x now s.buf.length ((T', .data b bs) :: ev) n
        rw [List.length_append, List.length_cons]
        conv => rhs; unfold completeAt
        by_cases hn : n ≤ s.buf.length
        · rw [if_pos hn, completeAt_enough (by omega)]
        · rw [if_neg hn]
          dsimp only
          rw [if_pos (by omega), Nat.max_eq_left hT.1]
      | eof =>
        have h := hstop (s.take .eof) (by simp [CSock.take])
        rw [h.1, h.2]
        refine ⟨?_, rfl⟩
        show completeAt x now s.buf.length [] n = _
        simp [completeAt]
      | reset =>
        have h := hstop (s.take .reset) (by simp [CSock.take])
        rw [h.1, h.2]
        refine ⟨?_, rfl⟩
        show completeAt x now s.buf.length [] n = _
        simp [completeAt]
    · rw [if_neg hT]
      unfold CSock.toCome
      rw [if_pos he]
      exact ⟨rfl, rfl⟩

theorem at_complete (x now n : Nat) (hx : 0 < x) (s : CSock) :
    completeAt x now (s.at now).buf.length (s.at now).toCome n = completeAt x now s.buf.length s.toCome n ∧
    comingBytes (s.at now).buf (s.at now).toCome = comingBytes s.buf s.toCome := by
  by_cases he : s.ended = none
  · have := arrived_complete x now n hx s.future s he
    unfold CSock.toCome at this ⊢
    rw [if_pos he]
    exact this
  · have := at_ended he now
    unfold CSock.toCome
    rw [this.1, this.2, if_neg he, if_neg he]
    exact ⟨rfl, rfl⟩

theorem arrived_nonempty (now : Nat) : ∀ (ev : List (Nat × CEvent)) (s : CSock), s.buf ≠ [] → (CSock.arrived now ev s).buf ≠ []
  | [], _, h => h
  | (T, e) :: ev, s, h => by
    unfold CSock.arrived
    split
    · refine arrived_nonempty now ev _ ?_
      cases e with
      | data b bs => simp [CSock.take]
      | eof => exact h
      | reset => exact h
    · exact h

/-- reading the next byte -/
theorem cRecv_next {x : Nat} (hx : 0 < x) {now : Nat} {s : CSock} (hc : s.closed = false) (hk : s.connected = true) (ht : s.timeout = some x)
    {n T : Nat} (h : completeAt x now s.buf.length s.toCome (n+1) = some T) :
    ∃ b rest now' s', comingBytes s.buf s.toCome = b :: rest ∧ cRecv 1 (now, s) = (.ok [b], (now', s')) ∧ comingBytes s'.buf s'.toCome = rest ∧
      completeAt x now' s'.buf.length s'.toCome n = some T ∧ s'.closed = false ∧ s'.connected = true ∧ s'.timeout = some x := by
  have hready : ∀ (now : Nat) (s : CSock), s.closed = false → s.connected = true → s.timeout = some x → s.buf ≠ [] →
      completeAt x now s.buf.length s.toCome (n+1) = some T →
      ∃ b rest s', comingBytes s.buf s.toCome = b :: rest ∧ s.ready 1 = some (.ok [b], s') ∧ comingBytes s'.buf s'.toCome = rest ∧
        completeAt x now s'.buf.length s'.toCome n = some T ∧ s'.closed = false ∧ s'.connected = true ∧ s'.timeout = some x := by
    intro now s hc hk ht hb h
    cases hbuf : s.buf with
    | nil => exact absurd hbuf hb
    | cons b bs =>
      refine ⟨b, comingBytes bs s.toCome, { s with buf := bs }, comingBytes_cons b _ _, by simp [CSock.ready, hbuf], rfl, ?_, hc, hk, ht⟩
      rw [hbuf, List.length_cons, completeAt_shift] at h
      exact h
  have ha := at_complete x now (n+1) hx s
  have hkeep := at_keeps now s
  rw [← ha.1] at h
  rw [← ha.2]
  unfold cRecv
  dsimp only
  rw [if_neg (by simp [hc, hk])]
  by_cases hb : (s.at now).buf = []
  · -- wait for the next segment
    rw [hb] at h
    have he : (s.at now).ended = none := by
      by_cases he : (s.at now).ended = none
      · exact he
      · unfold CSock.toCome at h
        rw [if_neg he] at h
        simp [completeAt] at h
    have hr : (s.at now).ready 1 = none := by unfold CSock.ready; rw [hb, he]
    rw [hr]
    dsimp only
    have htc : (s.at now).toCome = (s.at now).future := by unfold CSock.toCome; rw [if_pos he]
    rw [htc] at h
    rw [hkeep.1, ht]
    cases hf : (s.at now).future with
    | nil => rw [hf] at h; simp [completeAt] at h
    | cons y ev =>
      obtain ⟨T0, e⟩ := y
      have hlt := arrived_head now s.future s he hf
      rw [hf] at h
      unfold completeAt at h
      rw [if_neg (by simp)] at h
      cases e with
      | eof => cases h
      | reset => cases h
      | data b bs =>
        dsimp only at h
        split at h
        · rename_i hT
          obtain ⟨x', rfl⟩ : ∃ x', x = x' + 1 := ⟨x - 1, by omega⟩
          dsimp only
          rw [if_pos hT]
          have hat : (s.at now).at T0 = CSock.arrived T0 ev ((s.at now).take (.data b bs)) := by
            unfold CSock.at at hf he ⊢
            rw [hf]
            conv => lhs; unfold CSock.arrived
            rw [if_pos ⟨Nat.le_refl _, he⟩]
          have h2 := arrived_complete (x'+1) T0 (n+1) hx ev ((s.at now).take (.data b bs)) he
          have h3 := at_keeps T0 (s.at now)
          rw [← hat] at h2
          have hbuf : ((s.at now).take (.data b bs)).buf = b :: bs := by simp [CSock.take, hb]
          rw [hbuf] at h2
          have hne : ((s.at now).at T0).buf ≠ [] := by
            rw [hat]
            exact arrived_nonempty T0 ev _ (by rw [hbuf]; simp)
          obtain ⟨c, rest, s', g1, g2, g3, g4, g5, g6, g7⟩ := hready T0 ((s.at now).at T0) (by rw [h3.2.1, hkeep.2.1]; exact hc)
            (by rw [h3.2.2, hkeep.2.2]; exact hk) (by rw [h3.1, hkeep.1]; exact ht) hne (by
              rw [h2.1]
              rw [Nat.max_eq_right (Nat.le_of_lt hlt)] at h
              rw [List.length_nil, Nat.zero_add] at h
              exact h)
          refine ⟨c, rest, T0, s', ?_, by rw [g2], g3, g4, g5, g6, g7⟩
          rw [htc, hf, hb, ← g1, h2.2]
          rfl
        · cases h
  · obtain ⟨b, rest, s', g1, g2, g3, g4, g5, g6, g7⟩ := hready now (s.at now) (by rw [hkeep.2.1]; exact hc) (by rw [hkeep.2.2]; exact hk)
      (by rw [hkeep.1]; exact ht) hb h
    exact ⟨b, rest, now, s', g1, by rw [g2], g3, g4, g5, g6, g7⟩

theorem cRecvLoop_prompt {x : Nat} (hx : 0 < x) (T : Nat) (f : Bytes) : ∀ (fuel : Nat) (response : Bytes) (length : Int) (now : Nat) (s : CSock),
    RecvInv response length → 6 ≤ (response ++ f).length → (response ++ f).length = announced (response ++ f) + 6 →
    s.closed = false → s.connected = true → s.timeout = some x → f <+: comingBytes s.buf s.toCome → f.length < fuel →
    completeAt x now s.buf.length s.toCome f.length = some T →
    ∃ s', cRecvLoop fuel response length (now, s) = (.ok (response ++ f), (T, s')) := by
  induction f with
  | nil =>
    intro fuel response length now s hi h6 hlen _ _ _ _ hf h
    rw [List.append_nil] at h6 hlen
    rw [List.length_nil, completeAt_enough (Nat.zero_le _)] at h
    cases h
    match fuel with
    | 0 => simp at hf
    | fuel+1 =>
      rcases hi with ⟨h1, _⟩ | ⟨_, h2, _⟩
      · omega
      · rw [cRecvLoop, if_neg (by omega)]
        exact ⟨s, by rw [List.append_nil]; rfl⟩
  | cons c f ih =>
    intro fuel response length now s hi h6 hlen hc hk ht hp hf h
    match fuel with
    | 0 => simp at hf
    | fuel+1 =>
      have hl : (response.length : Int) < length := by
        rcases hi with ⟨h1, h2⟩ | ⟨h1, h2, _⟩
        · omega
        · rw [announced_append h1] at hlen
          simp only [List.length_append, List.length_cons] at hlen
          omega
      obtain ⟨b, rest, now', s', e1, e2, e3, e4, e5, e6, e7⟩ := cRecv_next hx hc hk ht h
      have hbc : b = c ∧ f <+: rest := by
        rw [e1, List.cons_prefix_cons] at hp
        exact ⟨hp.1.symm, hp.2⟩
      obtain ⟨rfl, hpf⟩ := hbc
      have ea : response ++ [b] ++ f = response ++ b :: f := by simp
      have next : ∀ length', RecvInv (response ++ [b]) length' →
          ∃ s'', cRecvLoop fuel (response ++ [b]) length' (now', s') = (.ok (response ++ b :: f), (T, s'')) := by
        intro length' hi'
        have := ih fuel (response ++ [b]) length' now' s' hi' (by rw [ea]; exact h6) (by rw [ea]; exact hlen) e5 e6 e7 (by rw [e3]; exact hpf)
          (by simpa using hf) e4
        rw [ea] at this
        exact this
      rw [cRecvLoop, if_pos hl]
      simp only [PyM.bind_apply, e2]
      rw [if_pos (by simp)]
      by_cases h6' : (response ++ [b]).length = 6
      · rw [if_pos h6']
        obtain ⟨vs, e8, e9⟩ := unpack_HHH h6'
        simp only [PyM.bind_apply, PyM.lift_apply, e8, e9]
        exact next _ (.inr ⟨by omega, rfl, by omega⟩)
      · rw [if_neg h6']
        refine next _ ?_
        rw [List.length_append, List.length_singleton] at h6'
        rcases hi with ⟨h1, h2⟩ | ⟨h1, h2, h3⟩
        · left; simp only [List.length_append, List.length_singleton]; omega
        · right
          rw [announced_append h1]
          simp only [List.length_append, List.length_singleton]
          omega

theorem completeAt_le (x : Nat) : ∀ (ev : List (Nat × CEvent)) (now h n T : Nat), completeAt x now h ev n = some T → now ≤ T
  | [], now, h, n, T, hc => by
    unfold completeAt at hc
    split at hc <;> cases hc
    exact Nat.le_refl _
  | (T', e) :: ev, now, h, n, T, hc => by
    unfold completeAt at hc
    split at hc
    · cases hc; exact Nat.le_refl _
    · cases e with
      | data b bs =>
        dsimp only at hc
        split at hc
        · have := completeAt_le x ev _ _ _ _ hc; omega
        · cases hc
      | eof => cases hc
      | reset => cases hc

theorem onCSock_of {α : Type} {f : PyM (Nat × CSock) α} {l : CLink} {k : CSock} {r : Except PyErr α} {p : Nat × CSock} (hk : l.sock = some k)
    (h : f (l.now, k) = (r, p)) : onCSock f l = (r, { l with now := p.1, sock := some p.2 }) := by
  unfold onCSock
  rw [hk]
  dsimp only
  rw [h]

/-- a connection on which nothing is waiting -/
theorem at_quiet {k : CSock} {now : Nat} (h : ∀ T e, (T, e) ∈ k.future → now < T) : k.at now = k := by
  unfold CSock.at
  cases hf : k.future with
  | nil => unfold CSock.arrived; cases k; simp_all
  | cons y ev =>
    obtain ⟨T, e⟩ := y
    unfold CSock.arrived
    have := h T e (by rw [hf]; exact List.mem_cons_self)
    rw [if_neg (by omega)]
    cases k; simp_all

theorem cTcpSend_quiet (R : Registry) (b : Bytes) (l : CLink) (k : CSock) (hk : l.sock = some k) (hc : k.closed = false) (hcon : k.connected = true)
    (hb : k.buf = []) (he : k.ended = none) (hfut : ∀ T e, (T, e) ∈ k.future → l.now < T) :
    (∃ e, cTcpSend R b l = (.error e, l)) ∨ ∃ m, cTcpSend R b l = (.ok (), { l with sock := some { k with sent := k.sent ++ [m] } }) := by
  have hq := at_quiet hfut
  have hr : k.ready 1 = none := by unfold CSock.ready; rw [hb, he]
  have hfl : onCSock (cFlush 3 4 0) l = (.ok (), l) := by
    unfold onCSock
    rw [hk]
    dsimp only
    have : cFlush 3 4 0 (l.now, k) = (.ok (), (l.now, k)) := by
      unfold cFlush
      simp only [PyM.bind_apply, cPoll]
      rw [if_neg (by simp [hc, hcon]), hq, hr]
      rfl
    rw [this]
    cases l; simp_all
  unfold cTcpSend
  simp only [PyM.bind_apply, PyM.lift_apply, PyM.tryExcept_apply]
  cases callHooks R "modbus_tcp.TcpMaster.before_send" (.msg b) with
  | error e => exact .inl ⟨e, rfl⟩
  | ok v =>
    refine .inr ⟨v.getD b, ?_⟩
    dsimp only
    rw [hfl]
    dsimp only
    unfold onCSock
    rw [hk]
    dsimp only
    have : cSend (v.getD b) (l.now, k) = (.ok (), (l.now, { k with sent := k.sent ++ [v.getD b] })) := by
      unfold cSend
      dsimp only
      rw [hq, if_neg (by simp [hc, hcon, he])]
    rw [this]

/-- **C73.** A call on an open connection does not wait longer than the response takes: if its frame arrives, in segments of any sizes with gaps
    shorter than the time-out, and is complete at time `T`, then the call is over at time `T`.  (Nothing is in the connection before: old bytes are
    flushed, see C49.) -/
theorem C73_prompt (R : Registry) (mac : Mac) (a : ExecArgs) (s : MasterSt CLink) (ho : s.isOpened = true) (k : CSock) (hk : s.link.sock = some k)
    (hc : k.closed = false) (hcon : k.connected = true) (x : Nat) (hx : 0 < x) (ht : k.timeout = some x)
    (hb : k.buf = []) (he : k.ended = none) (hfut : ∀ T e, (T, e) ∈ k.future → s.link.now < T)
    (f : Bytes) (h6 : 6 ≤ f.length) (hf : f.length = announced f + 6) (hp : f <+: comingBytes [] k.future)
    (T : Nat) (hT : completeAt x s.link.now 0 k.future f.length = some T) :
    (execute R mac (clockedTcp R) a s).2.link.now = s.link.now ∨ (execute R mac (clockedTcp R) a s).2.link.now = T := by
  have hm : masterOpen (clockedTcp R) s = (.ok (), s) := by unfold masterOpen; rw [if_pos ho]
  unfold execute
  simp only [PyM.bind_apply, hm, PyM.lift_apply]
  cases prepare a with
  | error e => exact .inl rfl
  | ok p =>
    dsimp only
    cases a.slave with
    | none => exact .inl rfl
    | some slave =>
      simp only [PyM.bind_apply, PyM.lift_apply]
      have hbr : ((buildRequest (σ := CLink) mac p.pdu slave s)).2.link = s.link := by unfold buildRequest; split <;> rfl
      cases hbq : buildRequest (σ := CLink) mac p.pdu slave s with
      | mk r s1 =>
        rw [hbq] at hbr
        dsimp only at hbr
        cases r with
        | error e => exact .inl (by rw [← hbr])
        | ok q =>
          dsimp only
          cases callHooks R "modbus.Master.before_send" (.msg q.1) with
          | error e => exact .inl (by rw [← hbr])
          | ok v =>
            dsimp only
            unfold onLink
            dsimp only
            show _ ∨ _
            rw [hbr]
            rcases cTcpSend_quiet R (v.getD q.1) s.link k hk hc hcon hb he hfut with ⟨e, h⟩ | ⟨m, h⟩
            · rw [show (clockedTcp R).send (v.getD q.1) s.link = _ from h]; exact .inl rfl
            · rw [show (clockedTcp R).send (v.getD q.1) s.link = _ from h]
              dsimp only
              cases callHooks R "modbus.Master.after_send" .obj with
              | error e => exact .inl rfl
              | ok w =>
                dsimp only
                have hloop := cRecvLoop_prompt hx T f 65542 [] 255 s.link.now { k with sent := k.sent ++ [m] } (.inl ⟨by simp, rfl⟩) (by simpa using h6)
                  (by simpa using hf) hc hcon ht (by unfold CSock.toCome; simp only [he, if_true, hb]; exact hp)
                  (by have := announced_lt f; omega) (by unfold CSock.toCome; simp only [he, if_true, hb]; exact hT)
                obtain ⟨s', hloop⟩ := hloop
                have hrecv : ∃ r, (clockedTcp R).recv p.expectedLength { s.link with sock := some { k with sent := k.sent ++ [m] } } =
                    (r, { s.link with now := T, sock := some s' }) := by
                  show ∃ r, cTcpRecv R p.expectedLength _ = _
                  unfold cTcpRecv
                  rw [PyM.bind_apply, onCSock_of (l := { s.link with sock := some { k with sent := k.sent ++ [m] } }) rfl hloop]
                  simp only [PyM.bind_apply, PyM.lift_apply]
                  cases callHooks R "modbus_tcp.TcpMaster.after_recv" (.msg ([] ++ f)) with
                  | error e => exact ⟨_, rfl⟩
                  | ok z => exact ⟨_, rfl⟩
                obtain ⟨r, hrecv⟩ := hrecv
                rw [hrecv]
                right
                cases r with
                | error e => rfl
                | ok resp =>
                  dsimp only
                  cases callHooks R "modbus.Master.after_recv" (.msg resp) with
                  | error e => rfl
                  | ok z =>
                    dsimp only
                    cases (mac.parseResponse (z.getD resp) q.2).1 with
                    | error e => rfl
                    | ok z2 => rfl

/-! ### instances -/

/-- a register of slave 1 is asked for; the answer 7 comes in drops, one byte every 4 ticks -/
def exDrip : MasterSt CLink := timedMaster (some 5) [.accept 0 ([0, 1, 0, 0, 0, 5, 1, 3, 2, 0, 7].mapIdx fun i b => (4 * (i + 1), .data b []))] 0 0

/-- a call of this master -/
def exAsk : ExecArgs := { slave := some 1, functionCode := 3, startingAddress := .int 0, quantity := .int 1 }

/-- **The time-out does not bound the call**: with a time-out of 5 ticks this call takes 44, and succeeds. -/
theorem C73_slow : (execute [] tcpMac (clockedTcp []) exAsk exDrip).1 = .ok (.values [7]) ∧
    (execute [] tcpMac (clockedTcp []) exAsk exDrip).2.link.now = 44 ∧
    cGetTimeout (execute [] tcpMac (clockedTcp []) exAsk exDrip).2.link = some 5 := by decide +kernel

/-- an open master; in 3 ticks the first four bytes of the answer arrive, 4 ticks later the rest and a byte more -/
def exSegments : MasterSt CLink := ⟨true, ⟨some 5, some { connected := true, timeout := some 5, future := [(13, .data 0 [1, 0, 0]), (17, .data 0 [5, 1, 3, 2, 0, 7, 99])] }, [], 10⟩, 0⟩

/-- it is an instance of the hypotheses of `C73_prompt`: the call, which succeeds, takes exactly the 7 ticks -/
example : completeAt 5 10 0 [(13, .data 0 [1, 0, 0]), (17, .data 0 [5, 1, 3, 2, 0, 7, 99])] 11 = some 17 ∧
    ([0, 1, 0, 0, 0, 5, 1, 3, 2, 0, 7] : Bytes) <+: comingBytes [] [(13, .data 0 [1, 0, 0]), (17, .data 0 [5, 1, 3, 2, 0, 7, 99])] ∧
    ([0, 1, 0, 0, 0, 5, 1, 3, 2, 0, 7] : Bytes).length = announced [0, 1, 0, 0, 0, 5, 1, 3, 2, 0, 7] + 6 ∧
    (execute [] tcpMac (clockedTcp []) exAsk exSegments).1 = .ok (.values [7]) ∧
    (execute [] tcpMac (clockedTcp []) exAsk exSegments).2.link.now = 17 := by decide +kernel

/-- a silent peer: the call fails after the time-out -/
theorem C73_silent : (execute [] tcpMac (clockedTcp []) exAsk (timedMaster (some 5) [.accept 2 []] 10 0)).1 = .error .timeout ∧
    (execute [] tcpMac (clockedTcp []) exAsk (timedMaster (some 5) [.accept 2 []] 10 0)).2.link.now = 17 := by decide +kernel

end Modbus
