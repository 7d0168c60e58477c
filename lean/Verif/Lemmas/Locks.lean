import Verif.Model.Locks
/-
# Locks: what balanced programs guarantee
-/
namespace Modbus

variable {L σ α β : Type}

namespace Prog

theorem run_bind (p : Prog L σ α) (g : α → Prog L σ β) (s : σ) : (p.bind g).run s = (g (p.run s).1).run (p.run s).2 := by
  induction p generalizing s with
  | ret a => rfl
  | acq l k ih => exact ih s
  | rel l k ih => exact ih s
  | step f k ih => exact ih s (f s)

theorem run_withLock (l : L) (p : Prog L σ α) (s : σ) : (withLock l p).run s = p.run s := by
  show (p.bind _).run s = _
  rw [run_bind]
  rfl

variable [DecidableEq L]

/-- The program will release lock `l` exactly `d l` times more often than it acquires it, on every path, and never releases
    what it does not hold. -/
def Owes : Prog L σ α → (L → Nat) → Prop
  | .ret _, d => ∀ l, d l = 0
  | .acq l k, d => k.Owes (Function.update d l (d l + 1))
  | .rel l k, d => 0 < d l ∧ k.Owes (Function.update d l (d l - 1))
  | .step _ k, d => ∀ s, (k s).Owes d

/-- acquisitions and releases match -/
def Balanced (p : Prog L σ α) : Prop := p.Owes (fun _ => 0)

theorem update_add (e d : L → Nat) (l : L) (v : Nat) (w : Nat) (h : v + d l = w) :
    (fun x => Function.update e l v x + d x) = Function.update (fun x => e x + d x) l w := by
  funext x
  by_cases hx : x = l
  · subst hx; simp [h]
  · simp [Function.update_of_ne hx]

theorem Owes.bind {p : Prog L σ α} {g : α → Prog L σ β} {e d : L → Nat} (hp : p.Owes e) (hg : ∀ a, (g a).Owes d) :
    (p.bind g).Owes (fun l => e l + d l) := by
  induction p generalizing e with
  | ret a =>
    have : (fun l => e l + d l) = d := by funext l; rw [hp l]; simp
    rw [this]; exact hg a
  | acq l k ih =>
    have := ih (e := Function.update e l (e l + 1)) hp
    rw [update_add e d l _ (e l + d l + 1) (by omega)] at this
    exact this
  | rel l k ih =>
    obtain ⟨h1, h2⟩ := hp
    have := ih (e := Function.update e l (e l - 1)) h2
    rw [update_add e d l _ (e l + d l - 1) (by omega)] at this
    exact ⟨by show 0 < e l + d l; omega, this⟩
  | step f k ih => exact fun s => ih s (hp s)

theorem Balanced.bind {p : Prog L σ α} {g : α → Prog L σ β} {d : L → Nat} (hp : p.Balanced) (hg : ∀ a, (g a).Owes d) :
    (p.bind g).Owes d := by
  have := Owes.bind hp hg
  simpa using this

theorem Balanced.withLock {p : Prog L σ α} (hp : p.Balanced) (l : L) : (withLock l p).Balanced := by
  show (p.bind _).Owes _
  refine hp.bind (fun a => ⟨by simp, ?_⟩)
  intro l'
  by_cases h : l' = l
  · subst h; simp
  · simp [Function.update_of_ne h]

theorem Owes.unique {p : Prog L σ α} {d d' : L → Nat} (x : σ) (h : p.Owes d) (h' : p.Owes d') : d = d' := by
  induction p generalizing d d' with
  | ret a => funext l; rw [h l, h' l]
  | acq l k ih =>
    have := ih (d := Function.update d l (d l + 1)) (d' := Function.update d' l (d' l + 1)) h h'
    funext y
    have hy := congrFun this y
    by_cases hyl : y = l
    · subst hyl; simpa using hy
    · simpa [Function.update_of_ne hyl] using hy
  | rel l k ih =>
    have := ih (d := Function.update d l (d l - 1)) (d' := Function.update d' l (d' l - 1)) h.2 h'.2
    have h1 := h.1
    have h2 := h'.1
    funext y
    have hy := congrFun this y
    by_cases hyl : y = l
    · subst hyl; simp at hy; omega
    · simpa [Function.update_of_ne hyl] using hy
  | step f k ih => exact ih x (h x) (h' x)

/-- Locks are acquired in the order of their ranks (or again). -/
def Ordered (rank : L → Nat) : Prog L σ α → (L → Nat) → Prop
  | .ret _, _ => True
  | .acq l k, d => (0 < d l ∨ ∀ l', 0 < d l' → rank l' < rank l) ∧ k.Ordered rank (Function.update d l (d l + 1))
  | .rel l k, d => k.Ordered rank (Function.update d l (d l - 1))
  | .step _ k, d => ∀ s, (k s).Ordered rank d

end Prog

variable [DecidableEq L]

/-! ## The invariant -/

/-- what each thread owes is what the locks say -/
structure LockInv (s : Sys L σ α) (d : Nat → L → Nat) : Prop where
  owes : ∀ t, (s.progs t).Owes (d t)
  locks : ∀ l, match s.owners l with
    | none => ∀ t, d t l = 0
    | some (t, n) => 0 < n ∧ d t l = n ∧ ∀ t', t' ≠ t → d t' l = 0

theorem acquire_some {o o' : Owners L} {t : Nat} {l : L} (h : acquire o t l = some o') :
    (o l = none ∧ o' = Function.update o l (some (t, 1))) ∨
    (∃ n, o l = some (t, n) ∧ o' = Function.update o l (some (t, n + 1))) := by
  unfold acquire at h
  split at h
  · left; rename_i h1; cases h; exact ⟨h1, rfl⟩
  · right; rename_i t' n h1
    split at h
    · rename_i ht; subst ht; cases h; exact ⟨n, h1, rfl⟩
    · cases h

theorem release_some {o o' : Owners L} {t : Nat} {l : L} (h : release o t l = some o') :
    ∃ n, o l = some (t, n) ∧ o' = Function.update o l (if n ≤ 1 then none else some (t, n - 1)) := by
  unfold release at h
  split at h
  · cases h
  · rename_i t' n h1
    split at h
    · rename_i ht; subst ht; cases h; exact ⟨n, h1, rfl⟩
    · cases h

/-- the debts after thread `t` has acted -/
def owed (_t : Nat) (p : Prog L σ α) (d : L → Nat) : L → Nat :=
  match p with
  | .acq l _ => Function.update d l (d l + 1)
  | .rel l _ => Function.update d l (d l - 1)
  | _ => d

theorem LockInv.next {s s' : Sys L σ α} {d : Nat → L → Nat} {t : Nat} (h : LockInv s d) (hn : s.next t = some s') :
    LockInv s' (Function.update d t (owed t (s.progs t) (d t))) := by
  have ho := h.owes t
  unfold Sys.next at hn
  -- the other threads
  have hothers : ∀ (p : Prog L σ α) (e : L → Nat), p.Owes e →
      ∀ t', (Function.update s.progs t p t').Owes (Function.update d t e t') := by
    intro p e hpe t'
    by_cases ht : t' = t
    · subst ht; simpa using hpe
    · simpa [Function.update_of_ne ht] using h.owes t'
  match hp : s.progs t with
  | .ret a => rw [hp] at hn; simp [Prog.next] at hn
  | .step f k =>
    rw [hp] at hn ho
    simp only [Prog.next, Option.map_some, Option.some.injEq] at hn
    subst hn
    have hd : Function.update d t (owed t (Prog.step f k) (d t)) = d := Function.update_eq_self t d
    rw [hd]
    refine ⟨?_, h.locks⟩
    have := hothers (k s.shared) (d t) (ho s.shared)
    rwa [Function.update_eq_self] at this
  | .acq l k =>
    rw [hp] at hn ho
    cases ha : acquire s.owners t l with
    | none => simp [Prog.next, ha] at hn
    | some o =>
      simp only [Prog.next, ha, Option.map_some, Option.some.injEq] at hn
      subst hn
      refine ⟨hothers k _ ho, ?_⟩
      intro l'
      by_cases hl : l' = l
      · subst hl
        have hlk := h.locks l'
        rcases acquire_some ha with ⟨h1, h2⟩ | ⟨n, h1, h2⟩
        · rw [h1] at hlk
          subst h2
          simp only [Function.update_self]
          refine ⟨by omega, ?_, ?_⟩
          · simp [owed, hlk t]
          · intro t' ht; rw [Function.update_of_ne ht]; exact hlk t'
        · rw [h1] at hlk
          subst h2
          simp only [Function.update_self]
          refine ⟨by omega, ?_, ?_⟩
          · simp [owed, hlk.2.1]
          · intro t' ht; rw [Function.update_of_ne ht]; exact hlk.2.2 t' ht
      · have hol : o l' = s.owners l' := by
          rcases acquire_some ha with ⟨_, h2⟩ | ⟨n, _, h2⟩ <;> (subst h2; exact Function.update_of_ne hl _ _)
        have hdl : ∀ t', Function.update d t (owed t (Prog.acq l k) (d t)) t' l' = d t' l' := by
          intro t'
          by_cases ht : t' = t
          · subst ht; simp [owed, Function.update_of_ne hl]
          · rw [Function.update_of_ne ht]
        have := h.locks l'
        simp only [hol, hdl]
        exact this
  | .rel l k =>
    rw [hp] at hn ho
    cases ha : release s.owners t l with
    | none => simp [Prog.next, ha] at hn
    | some o =>
      simp only [Prog.next, ha, Option.map_some, Option.some.injEq] at hn
      subst hn
      refine ⟨hothers k _ ho.2, ?_⟩
      intro l'
      obtain ⟨n, h1, h2⟩ := release_some ha
      by_cases hl : l' = l
      · subst hl
        have hlk := h.locks l'
        rw [h1] at hlk
        subst h2
        simp only [Function.update_self]
        by_cases hn1 : n ≤ 1
        · rw [if_pos hn1]
          intro t'
          by_cases ht : t' = t
          · subst ht; simp [owed, hlk.2.1]; omega
          · rw [Function.update_of_ne ht]; exact hlk.2.2 t' ht
        · rw [if_neg hn1]
          refine ⟨by omega, ?_, ?_⟩
          · simp [owed, hlk.2.1]
          · intro t' ht; rw [Function.update_of_ne ht]; exact hlk.2.2 t' ht
      · have hol : o l' = s.owners l' := by subst h2; exact Function.update_of_ne hl _ _
        have hdl : ∀ t', Function.update d t (owed t (Prog.rel l k) (d t)) t' l' = d t' l' := by
          intro t'
          by_cases ht : t' = t
          · subst ht; simp [owed, Function.update_of_ne hl]
          · rw [Function.update_of_ne ht]
        have := h.locks l'
        simp only [hol, hdl]
        exact this

theorem LockInv.init {x : σ} {ps : Nat → Prog L σ α} (h : ∀ t, (ps t).Balanced) : LockInv (Sys.init x ps) (fun _ _ => 0) :=
  ⟨h, fun _ _ => rfl⟩

theorem LockInv.reach {s0 s : Sys L σ α} {d0 : Nat → L → Nat} (h : LockInv s0 d0) (hr : Sys.Reach s0 s) : ∃ d, LockInv s d := by
  induction hr with
  | refl => exact ⟨d0, h⟩
  | step t _ hn ih =>
    obtain ⟨d, hd⟩ := ih
    exact ⟨_, hd.next hn⟩

/-- the invariant with the order of the locks -/
structure OrderInv (rank : L → Nat) (s : Sys L σ α) (d : Nat → L → Nat) : Prop where
  inv : LockInv s d
  ordered : ∀ t, (s.progs t).Ordered rank (d t)

theorem OrderInv.next {rank : L → Nat} {s s' : Sys L σ α} {d : Nat → L → Nat} {t : Nat} (h : OrderInv rank s d)
    (hn : s.next t = some s') : OrderInv rank s' (Function.update d t (owed t (s.progs t) (d t))) := by
  refine ⟨h.inv.next hn, ?_⟩
  have ho := h.ordered t
  intro t'
  by_cases ht : t' = t
  · subst ht
    rw [Function.update_self]
    unfold Sys.next at hn
    match hp : s.progs t' with
    | .ret a => rw [hp] at hn; simp [Prog.next] at hn
    | .step f k =>
      rw [hp] at hn ho
      simp only [Prog.next, Option.map_some, Option.some.injEq] at hn
      subst hn
      simp only [Function.update_self, owed]
      exact ho s.shared
    | .acq l k =>
      rw [hp] at hn ho
      cases ha : acquire s.owners t' l with
      | none => simp [Prog.next, ha] at hn
      | some o =>
        simp only [Prog.next, ha, Option.map_some, Option.some.injEq] at hn
        subst hn
        simp only [Function.update_self, owed]
        exact ho.2
    | .rel l k =>
      rw [hp] at hn ho
      cases ha : release s.owners t' l with
      | none => simp [Prog.next, ha] at hn
      | some o =>
        simp only [Prog.next, ha, Option.map_some, Option.some.injEq] at hn
        subst hn
        simp only [Function.update_self, owed]
        exact ho
  · have : s'.progs t' = s.progs t' := by
      unfold Sys.next at hn
      cases hx : (s.progs t).next t s.shared s.owners with
      | none => rw [hx] at hn; cases hn
      | some y =>
        rw [hx] at hn
        simp only [Option.map_some, Option.some.injEq] at hn
        subst hn
        exact Function.update_of_ne ht _ _
    rw [this, Function.update_of_ne ht]
    exact h.ordered t'

theorem OrderInv.reach {rank : L → Nat} {s0 s : Sys L σ α} {d0 : Nat → L → Nat} (h : OrderInv rank s0 d0) (hr : Sys.Reach s0 s) :
    ∃ d, OrderInv rank s d := by
  induction hr with
  | refl => exact ⟨d0, h⟩
  | step t _ hn ih =>
    obtain ⟨d, hd⟩ := ih
    exact ⟨_, hd.next hn⟩

/-- a thread that cannot act has finished or waits for a lock held by another thread that has not finished -/
theorem LockInv.blocked {s : Sys L σ α} {d : Nat → L → Nat} (h : LockInv s d) {t : Nat} (hn : s.next t = none) :
    (s.progs t).isRet = true ∨
    ∃ l k t' n, s.progs t = .acq l k ∧ s.owners l = some (t', n) ∧ t' ≠ t ∧ (s.progs t').isRet = false ∧ d t l = 0 ∧ 0 < d t' l := by
  unfold Sys.next at hn
  match hp : s.progs t with
  | .ret a => left; rfl
  | .step f k => rw [hp] at hn; simp [Prog.next] at hn
  | .acq l k =>
    right
    rw [hp] at hn
    have ha : acquire s.owners t l = none := by
      cases ha : acquire s.owners t l with
      | none => rfl
      | some o => simp [Prog.next, ha] at hn
    unfold acquire at ha
    have hlk := h.locks l
    split at ha
    · cases ha
    · rename_i t' n ho
      split at ha
      · cases ha
      · rename_i ht
        rw [ho] at hlk
        refine ⟨l, k, t', n, rfl, ho, ht, ?_, hlk.2.2 t (Ne.symm ht), by rw [hlk.2.1]; exact hlk.1⟩
        have hot := h.owes t'
        match hp' : s.progs t' with
        | .ret a =>
          rw [hp'] at hot
          have := hot l
          rw [hlk.2.1] at this
          omega
        | .acq _ _ => rfl
        | .rel _ _ => rfl
        | .step _ _ => rfl
  | .rel l k =>
    rw [hp] at hn
    have ho := h.owes t
    rw [hp] at ho
    have hlk := h.locks l
    exfalso
    have ha : release s.owners t l ≠ none := by
      unfold release
      split
      · rename_i hnone; rw [hnone] at hlk; have := ho.1; rw [hlk t] at this; omega
      · rename_i t' n hs
        rw [hs] at hlk
        have : t' = t := by
          by_contra hne
          have := hlk.2.2 t (Ne.symm hne)
          have h1 := ho.1
          omega
        rw [if_pos this]; simp
    cases hr : release s.owners t l with
    | none => exact ha hr
    | some o => simp [Prog.next, hr] at hn

/-- with ordered locks somebody can always act -/
theorem OrderInv.progress {rank : L → Nat} {N : Nat} (hN : ∀ l, rank l ≤ N) {s : Sys L σ α} {d : Nat → L → Nat}
    (h : OrderInv rank s d) {t : Nat} (ht : (s.progs t).isRet = false) : ∃ t' s', s.next t' = some s' := by
  by_contra hno
  have hall : ∀ t, s.next t = none := by
    intro t
    cases hs : s.next t with
    | none => rfl
    | some s' => exact absurd ⟨t, s', hs⟩ hno
  -- a chain of waiting threads with growing ranks
  have chain : ∀ (m : Nat) (t : Nat) (l : L) (k : Prog L σ α), s.progs t = .acq l k → d t l = 0 → N < rank l + m → False := by
    intro m
    induction m with
    | zero => intro t l k _ _ hlt; have := hN l; omega
    | succ m ih =>
      intro t l k hp hd hlt
      rcases h.inv.blocked (hall t) with hr | ⟨l1, k1, t', n, h1, _, _, h4, _, h6⟩
      · rw [hp] at hr; cases hr
      · rw [hp] at h1; cases h1
        rcases h.inv.blocked (hall t') with hr | ⟨l2, k2, t2, n2, g1, _, _, _, g5, _⟩
        · rw [hr] at h4; cases h4
        · have ho := h.ordered t'
          rw [g1] at ho
          rcases ho.1 with hx | hx
          · omega
          · have := hx l h6
            exact ih t' l2 k2 g1 g5 (by omega)
  rcases h.inv.blocked (hall t) with hr | ⟨l, k, t', n, h1, _, _, _, h5, _⟩
  · rw [hr] at ht; cases ht
  · exact chain (N + 1) t l k h1 h5 (by omega)

/-! ## Executions end -/

/-- `q` is what is left of `p` after one action -/
inductive Prog.Child : Prog L σ α → Prog L σ α → Prop
  | acq (l : L) (k : Prog L σ α) : Child k (.acq l k)
  | rel (l : L) (k : Prog L σ α) : Child k (.rel l k)
  | step (f : σ → σ) (k : σ → Prog L σ α) (x : σ) : Child (k x) (.step f k)

omit [DecidableEq L] in
theorem Prog.child_acc (p : Prog L σ α) : Acc Prog.Child p := by
  induction p with
  | ret a => exact ⟨_, fun q h => by cases h⟩
  | acq l k ih => exact ⟨_, fun q h => by cases h; exact ih⟩
  | rel l k ih => exact ⟨_, fun q h => by cases h; exact ih⟩
  | step f k ih => exact ⟨_, fun q h => by cases h; exact ih _⟩

/-- one of the first `n` programs makes an action -/
def oneChild (n : Nat) (g' g : Nat → Prog L σ α) : Prop :=
  ∃ t p, t < n ∧ Prog.Child p (g t) ∧ g' = Function.update g t p

omit [DecidableEq L] in
theorem oneChild_acc (n : Nat) (g : Nat → Prog L σ α) : Acc (oneChild n) g := by
  induction n generalizing g with
  | zero => exact ⟨_, fun g' ⟨t, p, h, _⟩ => by omega⟩
  | succ n ih =>
    have key : ∀ p : Prog L σ α, Acc Prog.Child p → ∀ g, Acc (oneChild n) g → g n = p → Acc (oneChild (n+1)) g := by
      intro p hp
      induction hp with
      | intro p _ ih1 =>
        intro g hg
        induction hg with
        | intro g _ ih2 =>
          intro hgp
          refine ⟨_, ?_⟩
          rintro g' ⟨t, q, ht, hc, rfl⟩
          by_cases htn : t = n
          · subst htn
            rw [hgp] at hc
            exact ih1 q hc _ (ih _) (Function.update_self _ _ _)
          · refine ih2 _ ⟨t, q, by omega, hc, rfl⟩ ?_
            rw [Function.update_of_ne (Ne.symm htn)]; exact hgp
    exact key (g n) (Prog.child_acc _) g (ih g) rfl

/-- With finitely many threads there is no infinite execution. -/
theorem sys_terminates (n : Nat) (s : Sys L σ α) (hfin : ∀ t, n ≤ t → (s.progs t).isRet = true) :
    Acc (fun s' s : Sys L σ α => ∃ t, s.next t = some s') s := by
  generalize hg : s.progs = g
  induction oneChild_acc n g generalizing s with
  | intro g _ ih =>
    refine ⟨_, ?_⟩
    rintro s' ⟨t, hn⟩
    have hlt : t < n := by
      by_contra hge
      have := hfin t (by omega)
      unfold Sys.next at hn
      match hp : s.progs t with
      | .ret a => rw [hp] at hn; simp [Prog.next] at hn
      | .acq _ _ => rw [hp] at this; cases this
      | .rel _ _ => rw [hp] at this; cases this
      | .step _ _ => rw [hp] at this; cases this
    have hch : ∃ p, Prog.Child p (s.progs t) ∧ s'.progs = Function.update s.progs t p := by
      unfold Sys.next at hn
      match hp : s.progs t with
      | .ret a => rw [hp] at hn; simp [Prog.next] at hn
      | .step f k =>
        rw [hp] at hn
        simp only [Prog.next, Option.map_some, Option.some.injEq] at hn
        subst hn
        exact ⟨_, .step f k _, rfl⟩
      | .acq l k =>
        rw [hp] at hn
        cases ha : acquire s.owners t l with
        | none => simp [Prog.next, ha] at hn
        | some o =>
          simp only [Prog.next, ha, Option.map_some, Option.some.injEq] at hn
          subst hn
          exact ⟨_, .acq l k, rfl⟩
      | .rel l k =>
        rw [hp] at hn
        cases ha : release s.owners t l with
        | none => simp [Prog.next, ha] at hn
        | some o =>
          simp only [Prog.next, ha, Option.map_some, Option.some.injEq] at hn
          subst hn
          exact ⟨_, .rel l k, rfl⟩
    obtain ⟨p, hc, he⟩ := hch
    refine ih s'.progs ⟨t, p, hlt, by rw [← hg]; exact hc, by rw [he, hg]⟩ s' ?_ rfl
    intro t' ht'
    rw [he, Function.update_of_ne (by omega)]
    exact hfin t' ht'

/-! ## Operations under one lock are atomic -/

variable {Op Res : Type}

/-- The rest of an operation that holds `D` `n` times: it works only while it holds the lock. -/
def Prog.Held (D : L) : Prog L σ α → Nat → Prop
  | .ret _, n => n = 0
  | .acq l k, n => 0 < n ∧ k.Held D (if l = D then n + 1 else n)
  | .rel l k, n => 0 < n ∧ k.Held D (if l = D then n - 1 else n)
  | .step _ k, n => 0 < n ∧ ∀ s, (k s).Held D n

theorem Prog.Owes.held {p : Prog L σ α} {e : L → Nat} (h : p.Owes e) (D : L) :
    (p.bind fun a => .rel D (.ret a)).Held D (e D + 1) := by
  induction p generalizing e with
  | ret a =>
    refine ⟨by omega, ?_⟩
    simp [Prog.Held, h D]
  | acq l k ih =>
    refine ⟨by omega, ?_⟩
    have := ih h
    by_cases hl : l = D
    · subst hl; simpa [Function.update_self] using this
    · rw [if_neg hl]
      rw [Function.update_of_ne (Ne.symm hl)] at this
      exact this
  | rel l k ih =>
    refine ⟨by omega, ?_⟩
    have := ih h.2
    by_cases hl : l = D
    · subst hl
      rw [Function.update_self] at this
      rw [if_pos rfl]
      have h1 := h.1
      rw [show e l - 1 + 1 = e l + 1 - 1 by omega] at this
      exact this
    · rw [if_neg hl]
      rw [Function.update_of_ne (Ne.symm hl)] at this
      exact this
  | step f k ih => exact ⟨by omega, fun s => ih s (h s)⟩

theorem Prog.Held.zero {D : L} {p : Prog L σ α} (h : p.Held D 0) : ∃ a, p = .ret a := by
  match p with
  | .ret a => exact ⟨a, rfl⟩
  | .acq l k => exact absurd h.1 (by omega)
  | .rel l k => exact absurd h.1 (by omega)
  | .step f k => exact absurd h.1 (by omega)

/-- a sequential history: each operation returns what it returns when run alone on the state left by those before it -/
def Legal (spec : Op → σ → Res × σ) : σ → List (Nat × Op × Res) → σ → Prop
  | x, [], y => x = y
  | x, (_, op, r) :: log, y => (spec op x).1 = r ∧ Legal spec (spec op x).2 log y

omit [DecidableEq L] in
theorem Legal.append {spec : Op → σ → Res × σ} {x y z : σ} {log log' : List (Nat × Op × Res)} (h : Legal spec x log y)
    (h' : Legal spec y log' z) : Legal spec x (log ++ log') z := by
  induction log generalizing x with
  | nil => cases h; exact h'
  | cons e log ih => obtain ⟨t, op, r⟩ := e; exact ⟨h.1, ih h.2⟩

/-- the part of a sequential history that belongs to one thread -/
def byThread (t : Nat) (log : List (Nat × Op × Res)) : List (Op × Res) := (log.filter (fun e => e.1 = t)).map (·.2)

omit [DecidableEq L] in
theorem byThread_append (t : Nat) (log log' : List (Nat × Op × Res)) :
    byThread t (log ++ log') = byThread t log ++ byThread t log' := by
  simp [byThread]

/-- a thread outside its critical section -/
def Outside (code : Op → Prog L σ Res) (log : List (Nat × Op × Res)) (s : Calls L σ Op Res) (t : Nat) : Prop :=
  (s.cur t = none ∧ byThread t log = s.hist t) ∨
  (∃ op, s.cur t = some (op, code op) ∧ byThread t log = s.hist t) ∨
  (∃ op r, s.cur t = some (op, .ret r) ∧ byThread t log = s.hist t ++ [(op, r)])

/-- the shared state `y` will be reached when the thread inside the critical section, if any, leaves it -/
def LinLock (code : Op → Prog L σ Res) (D : L) (log : List (Nat × Op × Res)) (s : Calls L σ Op Res) (y : σ) :
    Option (Nat × Nat) → Prop
  | none => s.shared = y ∧ ∀ t, Outside code log s t
  | some (t, n) => 0 < n ∧ (∃ op p r, s.cur t = some (op, p) ∧ p.Held D n ∧ p.run s.shared = (r, y) ∧
      byThread t log = s.hist t ++ [(op, r)]) ∧ ∀ t', t' ≠ t → Outside code log s t'

/-- the concurrent state corresponds to a sequential history -/
structure LinInv (code : Op → Prog L σ Res) (D : L) (spec : Op → σ → Res × σ) (x0 : σ) (s : Calls L σ Op Res)
    (log : List (Nat × Op × Res)) (y : σ) : Prop where
  legal : Legal spec x0 log y
  lock : LinLock code D log s y (s.owners D)

omit [DecidableEq L] in
theorem Outside.congr {code : Op → Prog L σ Res} {log : List (Nat × Op × Res)} {s s' : Calls L σ Op Res} {t : Nat}
    (h : Outside code log s t) (hc : s'.cur t = s.cur t) (hh : s'.hist t = s.hist t) : Outside code log s' t := by
  unfold Outside at *
  rw [hc, hh]; exact h

theorem LinInv.step {code : Op → Prog L σ Res} {D : L} {spec : Op → σ → Res × σ} {x0 : σ} {s s' : Calls L σ Op Res}
    {log : List (Nat × Op × Res)} {y : σ} (hcode : ∀ op, ∃ p, code op = .acq D p ∧ p.Held D 1 ∧ ∀ x, p.run x = spec op x)
    (h : LinInv code D spec x0 s log y) (hs : Calls.Step code s s') :
    ∃ log' y', LinInv code D spec x0 s' (log ++ log') y' := by
  obtain ⟨hlegal, hlock⟩ := h
  cases hs with
  | call t op hcur =>
    refine ⟨[], y, by simpa using hlegal, ?_⟩
    rw [List.append_nil]
    have hthis : ∀ t', Outside code log s t' → Outside code log
        { s with cur := Function.update s.cur t (some (op, code op)) } t' := by
      intro t' ho
      by_cases ht : t' = t
      · subst ht
        rcases ho with ⟨_, h2⟩ | ⟨op', h1, _⟩ | ⟨op', r, h1, _⟩
        · exact .inr (.inl ⟨op, Function.update_self _ _ _, h2⟩)
        · rw [hcur] at h1; cases h1
        · rw [hcur] at h1; cases h1
      · exact ho.congr (Function.update_of_ne ht _ _) rfl
    show LinLock code D log _ y (s.owners D)
    cases hD : s.owners D with
    | none =>
      rw [hD] at hlock
      exact ⟨hlock.1, fun t' => hthis t' (hlock.2 t')⟩
    | some tn =>
      obtain ⟨t1, n⟩ := tn
      rw [hD] at hlock
      obtain ⟨h1, ⟨op1, p, r, h2, h3, h4, h5⟩, h6⟩ := hlock
      have hne : t1 ≠ t := by intro he; subst he; rw [hcur] at h2; cases h2
      refine ⟨h1, ⟨op1, p, r, ?_, h3, h4, h5⟩, fun t' ht' => hthis t' (h6 t' ht')⟩
      show Function.update s.cur t _ t1 = _
      rw [Function.update_of_ne hne]; exact h2
  | back t hcur =>
    rename_i op r
    refine ⟨[], y, by simpa using hlegal, ?_⟩
    rw [List.append_nil]
    have hthis : ∀ t', Outside code log s t' → Outside code log
        { s with cur := Function.update s.cur t none, hist := Function.update s.hist t (s.hist t ++ [(op, r)]) } t' := by
      intro t' ho
      by_cases ht : t' = t
      · subst ht
        refine .inl ⟨Function.update_self _ _ _, ?_⟩
        show _ = Function.update s.hist t' _ t'
        rw [Function.update_self]
        rcases ho with ⟨h1, _⟩ | ⟨op', h1, _⟩ | ⟨op', r', h1, h2⟩
        · rw [hcur] at h1; cases h1
        · rw [hcur] at h1
          obtain ⟨p, hp, _⟩ := hcode op'
          simp only [Option.some.injEq, Prod.mk.injEq] at h1
          rw [hp] at h1
          exact absurd h1.2 (by simp)
        · rw [hcur] at h1; cases h1; exact h2
      · exact ho.congr (Function.update_of_ne ht _ _) (Function.update_of_ne ht _ _)
    show LinLock code D log _ y (s.owners D)
    cases hD : s.owners D with
    | none =>
      rw [hD] at hlock
      exact ⟨hlock.1, fun t' => hthis t' (hlock.2 t')⟩
    | some tn =>
      obtain ⟨t1, n⟩ := tn
      rw [hD] at hlock
      obtain ⟨h1, ⟨op1, p, r1, h2, h3, h4, h5⟩, h6⟩ := hlock
      have hne : t1 ≠ t := by
        intro he; subst he; rw [hcur] at h2; cases h2
        have : n = 0 := h3
        omega
      refine ⟨h1, ⟨op1, p, r1, ?_, h3, h4, ?_⟩, fun t' ht' => hthis t' (h6 t' ht')⟩
      · show Function.update s.cur t _ t1 = _
        rw [Function.update_of_ne hne]; exact h2
      · show _ = Function.update s.hist t _ t1 ++ _
        rw [Function.update_of_ne hne]; exact h5
  | act t hcur hnext =>
    rename_i op p p' x o
    cases hD : s.owners D with
    | none =>
      -- nobody is inside: thread `t` can only enter
      rw [hD] at hlock
      obtain ⟨hsh, hout⟩ := hlock
      rcases hout t with ⟨h1, _⟩ | ⟨op', h1, h2⟩ | ⟨op', r', h1, _⟩
      · rw [hcur] at h1; cases h1
      · rw [hcur] at h1
        obtain ⟨q, hq, hheld, hrun⟩ := hcode op'
        simp only [Option.some.injEq, Prod.mk.injEq] at h1
        obtain ⟨rfl, rfl⟩ := h1
        rw [hq] at hnext
        have ha : acquire s.owners t D = some (Function.update s.owners D (some (t, 1))) := by unfold acquire; rw [hD]
        simp only [Prog.next, ha, Option.map_some, Option.some.injEq, Prod.mk.injEq] at hnext
        obtain ⟨rfl, rfl, rfl⟩ := hnext
        refine ⟨[(t, op, (spec op y).1)], (spec op y).2, hlegal.append ⟨rfl, rfl⟩, ?_⟩
        show LinLock code D _ _ _ (Function.update s.owners D (some (t, 1)) D)
        rw [Function.update_self]
        refine ⟨by omega, ⟨op, q, (spec op y).1, ?_, hheld, ?_, ?_⟩, ?_⟩
        · exact Function.update_self _ _ _
        · rw [hrun, hsh]
        · rw [byThread_append, h2]
          simp [byThread]
        · intro t' ht'
          have ho := (hout t').congr (s' := { s with owners := Function.update s.owners D (some (t, 1)),
                                                     cur := Function.update s.cur t (some (op, q)) })
            (Function.update_of_ne ht' _ _) rfl
          unfold Outside at *
          have hb : byThread t' (log ++ [(t, op, (spec op y).1)]) = byThread t' log := by
            rw [byThread_append]
            simp [byThread, Ne.symm ht']
          rw [hb]
          exact ho
      · rw [hcur] at h1; cases h1
        simp [Prog.next] at hnext
    | some tn =>
      obtain ⟨t1, n⟩ := tn
      rw [hD] at hlock
      obtain ⟨h1, ⟨op1, p1, r1, h2, h3, h4, h5⟩, h6⟩ := hlock
      by_cases ht : t = t1
      · -- the thread inside acts
        subst ht
        rw [hcur] at h2
        cases h2
        have hothers : ∀ t', t' ≠ t → Outside code log
            { s with shared := x, owners := o, cur := Function.update s.cur t (some (op, p')) } t' :=
          fun t' ht' => (h6 t' ht').congr (Function.update_of_ne ht' _ _) rfl
        refine ⟨[], y, by simpa using hlegal, ?_⟩
        rw [List.append_nil]
        match p with
        | .ret a => simp [Prog.next] at hnext
        | .step f k =>
          simp only [Prog.next, Option.some.injEq, Prod.mk.injEq] at hnext
          obtain ⟨rfl, rfl, rfl⟩ := hnext
          show LinLock code D _ _ _ (s.owners D)
          rw [hD]
          exact ⟨h1, ⟨op, _, r1, Function.update_self _ _ _, h3.2 _, h4, h5⟩, hothers⟩
        | .acq l k =>
          cases ha : acquire s.owners t l with
          | none => simp [Prog.next, ha] at hnext
          | some o' =>
            simp only [Prog.next, ha, Option.map_some, Option.some.injEq, Prod.mk.injEq] at hnext
            obtain ⟨rfl, rfl, rfl⟩ := hnext
            by_cases hl : l = D
            · subst hl
              rcases acquire_some ha with ⟨e1, _⟩ | ⟨m, e1, e2⟩
              · rw [hD] at e1; cases e1
              · rw [hD] at e1; cases e1
                subst e2
                show LinLock code l _ _ _ (Function.update s.owners l (some (t, n + 1)) l)
                rw [Function.update_self]
                have hh := h3.2
                rw [if_pos rfl] at hh
                exact ⟨by omega, ⟨op, _, r1, Function.update_self _ _ _, hh, h4, h5⟩, hothers⟩
            · have ho : o' D = some (t, n) := by
                rcases acquire_some ha with ⟨_, e2⟩ | ⟨m, _, e2⟩ <;>
                  (subst e2; rw [Function.update_of_ne (Ne.symm hl)]; exact hD)
              show LinLock code D _ _ _ (o' D)
              rw [ho]
              have hh := h3.2
              rw [if_neg hl] at hh
              exact ⟨h1, ⟨op, _, r1, Function.update_self _ _ _, hh, h4, h5⟩, hothers⟩
        | .rel l k =>
          cases ha : release s.owners t l with
          | none => simp [Prog.next, ha] at hnext
          | some o' =>
            simp only [Prog.next, ha, Option.map_some, Option.some.injEq, Prod.mk.injEq] at hnext
            obtain ⟨rfl, rfl, rfl⟩ := hnext
            obtain ⟨m, e1, e2⟩ := release_some ha
            by_cases hl : l = D
            · subst hl
              rw [hD] at e1; cases e1
              subst e2
              have hh := h3.2
              rw [if_pos rfl] at hh
              show LinLock code l _ _ _ (Function.update s.owners l _ l)
              rw [Function.update_self]
              by_cases hn1 : n ≤ 1
              · rw [if_pos hn1]
                have : n = 1 := by omega
                subst this
                obtain ⟨a, rfl⟩ := hh.zero
                have h4' : (a, s.shared) = (r1, y) := h4
                cases h4'
                refine ⟨rfl, ?_⟩
                intro t'
                by_cases ht' : t' = t
                · subst ht'
                  exact .inr (.inr ⟨op, r1, Function.update_self _ _ _, h5⟩)
                · exact hothers t' ht'
              · rw [if_neg hn1]
                exact ⟨by omega, ⟨op, _, r1, Function.update_self _ _ _, hh, h4, h5⟩, hothers⟩
            · subst e2
              have ho : Function.update s.owners l (if m ≤ 1 then none else some (t, m - 1)) D = some (t, n) := by
                rw [Function.update_of_ne (Ne.symm hl)]; exact hD
              show LinLock code D _ _ _ (Function.update s.owners l _ D)
              rw [ho]
              have hh := h3.2
              rw [if_neg hl] at hh
              exact ⟨h1, ⟨op, _, r1, Function.update_self _ _ _, hh, h4, h5⟩, hothers⟩
      · -- another thread cannot act
        exfalso
        rcases h6 t ht with ⟨e1, _⟩ | ⟨op', e1, _⟩ | ⟨op', r', e1, _⟩
        · rw [hcur] at e1; cases e1
        · rw [hcur] at e1
          obtain ⟨q, hq, _⟩ := hcode op'
          simp only [Option.some.injEq, Prod.mk.injEq] at e1
          obtain ⟨rfl, rfl⟩ := e1
          rw [hq] at hnext
          have ha : acquire s.owners t D = none := by
            unfold acquire; rw [hD]; simp only; rw [if_neg (Ne.symm ht)]
          simp [Prog.next, ha] at hnext
        · rw [hcur] at e1; cases e1
          simp [Prog.next] at hnext

end Modbus
