import Verif.Lemmas.Locks
/-
# Operations on several objects, each with a lock of its own

The shared state has a component for every object (`K`: the objects, `τ`: the state of one).  An operation works on one object, and
its code is `with lock_of_the_object: body`.
-/
namespace Modbus

variable {L K τ α β : Type} [DecidableEq L] [DecidableEq K] {Op Res : Type}

/-- of the locks of the objects the program uses only that of the object `k` -/
def Prog.Only (D : K → L) (k : K) : Prog L τ α → Prop
  | .ret _ => True
  | .acq l p => (∀ k', l = D k' → k' = k) ∧ p.Only D k
  | .rel l p => (∀ k', l = D k' → k' = k) ∧ p.Only D k
  | .step _ p => ∀ x, (p x).Only D k

omit [DecidableEq L] in
theorem Prog.run_onKey (k : K) (p : Prog L τ α) (x : K → τ) :
    (p.onKey k).run x = ((p.run (x k)).1, Function.update x k (p.run (x k)).2) := by
  induction p generalizing x with
  | ret a => simp [onKey, run, Function.update_eq_self]
  | acq l p ih => exact ih x
  | rel l p ih => exact ih x
  | step f p ih =>
    simp only [onKey, run, ih, Function.update_self, Function.update_idem]

omit [DecidableEq L] [DecidableEq K] in
theorem Prog.Only.bind {D : K → L} {k : K} {p : Prog L τ α} {g : α → Prog L τ β} (hp : p.Only D k) (hg : ∀ a, (g a).Only D k) :
    (p.bind g).Only D k := by
  induction p with
  | ret a => exact hg a
  | acq l p ih => exact ⟨hp.1, ih hp.2⟩
  | rel l p ih => exact ⟨hp.1, ih hp.2⟩
  | step f p ih => exact fun x => ih x (hp x)

/-- the operation `op` on its object -/
def keyCode (D : K → L) (key : Op → K) (body : Op → Prog L τ Res) (op : Op) : Prog L (K → τ) Res :=
  ((body op).withLock (D (key op))).onKey (key op)

/-- what the operation does when it is alone -/
def keySpec (key : Op → K) (run : Op → τ → Res × τ) (op : Op) (x : K → τ) : Res × (K → τ) :=
  ((run op (x (key op))).1, Function.update x (key op) (run op (x (key op))).2)

/-- the concurrent state corresponds to a sequential history -/
structure ManyInv (D : K → L) (key : Op → K) (body : Op → Prog L τ Res) (x0 : K → τ) (s : Calls L (K → τ) Op Res)
    (log : List (Nat × Op × Res)) (y : K → τ) : Prop where
  legal : Legal (keySpec key fun op => (body op).run) x0 log y
  free : ∀ k, s.owners (D k) = none → s.shared k = y k
  busy : ∀ k t n, s.owners (D k) = some (t, n) → 0 < n ∧ ∃ op p r, key op = k ∧ s.cur t = some (op, Prog.onKey k p) ∧ p.Held (D k) n ∧
    p.Only D k ∧ p.run (s.shared k) = (r, y k) ∧ byThread t log = s.hist t ++ [(op, r)]
  out : ∀ t, (∀ k n, s.owners (D k) ≠ some (t, n)) → Outside (keyCode D key body) log s t

omit [DecidableEq L] in
theorem keyCode_eq (D : K → L) (key : Op → K) (body : Op → Prog L τ Res) (op : Op) :
    keyCode D key body op = .acq (D (key op)) (((body op).bind fun a => .rel (D (key op)) (.ret a)).onKey (key op)) := rfl

theorem ManyInv.step {D : K → L} (hD : Function.Injective D) {key : Op → K} {body : Op → Prog L τ Res} (hb : ∀ op, (body op).Balanced)
    (ho : ∀ op, (body op).Only D (key op)) {x0 : K → τ} {s s' : Calls L (K → τ) Op Res} {log : List (Nat × Op × Res)} {y : K → τ}
    (h : ManyInv D key body x0 s log y) (hs : Calls.Step (keyCode D key body) s s') :
    ∃ log' y', ManyInv D key body x0 s' (log ++ log') y' := by
  obtain ⟨hlegal, hfree, hbusy, hout⟩ := h
  cases hs with
  | call t op hcur =>
    refine ⟨[], y, by simpa using hlegal, hfree, ?_, ?_⟩
    · intro k t' n hk
      obtain ⟨h1, op', p, r, hkey, h2, h3⟩ := hbusy k t' n hk
      have hne : t' ≠ t := by rintro rfl; rw [hcur] at h2; cases h2
      rw [List.append_nil]
      refine ⟨h1, op', p, r, hkey, ?_, h3⟩
      show Function.update s.cur t _ t' = _
      rw [Function.update_of_ne hne]; exact h2
    · intro t' hf
      rw [List.append_nil]
      have ho := hout t' hf
      by_cases ht : t' = t
      · subst ht
        rcases ho with ⟨_, h2⟩ | ⟨op', h1, _⟩ | ⟨op', r, h1, _⟩
        · exact .inr (.inl ⟨op, Function.update_self _ _ _, h2⟩)
        · rw [hcur] at h1; cases h1
        · rw [hcur] at h1; cases h1
      · exact ho.congr (Function.update_of_ne ht _ _) rfl
  | back t hcur =>
    rename_i op r
    have hnot : ∀ k n, s.owners (D k) ≠ some (t, n) := by
      intro k n hk
      obtain ⟨h1, op', p, r', _, h2, h3, _⟩ := hbusy k t n hk
      rw [hcur] at h2
      cases p with
      | ret a => have : n = 0 := h3; omega
      | acq l p => cases h2
      | rel l p => cases h2
      | step f p => cases h2
    refine ⟨[], y, by simpa using hlegal, hfree, ?_, ?_⟩
    · intro k t' n hk
      obtain ⟨h1, op', p, r', hkey, h2, h3, h4, h5, h6⟩ := hbusy k t' n hk
      have hne : t' ≠ t := by rintro rfl; exact hnot k n hk
      rw [List.append_nil]
      refine ⟨h1, op', p, r', hkey, ?_, h3, h4, h5, ?_⟩
      · show Function.update s.cur t _ t' = _
        rw [Function.update_of_ne hne]; exact h2
      · show _ = Function.update s.hist t _ t' ++ _
        rw [Function.update_of_ne hne]; exact h6
    · intro t' hf
      rw [List.append_nil]
      have ho := hout t' hf
      by_cases ht : t' = t
      · subst ht
        refine .inl ⟨Function.update_self _ _ _, ?_⟩
        show _ = Function.update s.hist t' _ t'
        rw [Function.update_self]
        rcases ho with ⟨h1, _⟩ | ⟨op', h1, _⟩ | ⟨op', r', h1, h2⟩
        · rw [hcur] at h1; cases h1
        · rw [hcur, keyCode_eq] at h1
          simp only [Option.some.injEq, Prod.mk.injEq] at h1
          exact absurd h1.2 (by simp)
        · rw [hcur] at h1; cases h1; exact h2
      · exact ho.congr (Function.update_of_ne ht _ _) (Function.update_of_ne ht _ _)
  | act t hcur hnext =>
    rename_i op p p' x o
    by_cases hin : ∃ k n, s.owners (D k) = some (t, n)
    · -- the thread is inside an operation on the object `k`
      obtain ⟨k, n, hk⟩ := hin
      obtain ⟨h1, op1, q, r, hkey, h2, h3, h4, h5, h6⟩ := hbusy k t n hk
      rw [hcur] at h2
      obtain ⟨rfl, rfl⟩ : op = op1 ∧ p = Prog.onKey k q := by simpa using h2
      have hother : ∀ k' t' n', k' ≠ k → s.owners (D k') = some (t', n') → t' ≠ t := by
        rintro k' t' n' hkk hk' rfl
        obtain ⟨_, op2, q2, r2, e1, e2, _⟩ := hbusy k' t' n' hk'
        rw [hcur] at e2
        have : op = op2 := by simpa using congrArg (Option.map Prod.fst) e2
        exact hkk (by rw [← e1, ← hkey, this])
      -- it is enough to look at this object
      have main : ∀ q', p' = Prog.onKey k q' → (∀ k', k' ≠ k → x k' = s.shared k' ∧ o (D k') = s.owners (D k')) →
          ((∃ n', o (D k) = some (t, n') ∧ 0 < n' ∧ q'.Held (D k) n' ∧ q'.Only D k ∧ q'.run (x k) = (r, y k)) ∨
            (o (D k) = none ∧ q' = .ret r ∧ x k = y k)) →
          ∃ log' y', ManyInv D key body x0 { s with shared := x, owners := o, cur := Function.update s.cur t (some (op, p')) }
            (log ++ log') y' := by
        intro q' hp' hrest hthis
        refine ⟨[], y, ?_⟩
        rw [List.append_nil]
        refine ⟨hlegal, ?_, ?_, ?_⟩
        · intro k' hf
          by_cases hkk : k' = k
          · subst hkk
            rcases hthis with ⟨n', e, _⟩ | ⟨_, _, e⟩
            · rw [show o (D k') = none from hf] at e; cases e
            · exact e
          · show x k' = y k'
            rw [(hrest k' hkk).1]
            exact hfree k' (by rw [← (hrest k' hkk).2]; exact hf)
        · intro k' t' m hf
          by_cases hkk : k' = k
          · subst hkk
            rcases hthis with ⟨n', e, e1, e2, e3, e4⟩ | ⟨e, _, _⟩
            · rw [show o (D k') = some (t', m) from hf] at e
              cases e
              exact ⟨e1, op, q', r, hkey, by rw [hp']; exact Function.update_self _ _ _, e2, e3, e4, h6⟩
            · rw [show o (D k') = some (t', m) from hf] at e; cases e
          · have hf' : s.owners (D k') = some (t', m) := by rw [← (hrest k' hkk).2]; exact hf
            have hne := hother k' t' m hkk hf'
            obtain ⟨g1, op2, q2, r2, g2, g3, g4, g5, g6, g7⟩ := hbusy k' t' m hf'
            refine ⟨g1, op2, q2, r2, g2, ?_, g4, g5, ?_, g7⟩
            · show Function.update s.cur t _ t' = _
              rw [Function.update_of_ne hne]; exact g3
            · show q2.run (x k') = _
              rw [(hrest k' hkk).1]; exact g6
        · intro t' hf
          by_cases ht : t' = t
          · subst ht
            rcases hthis with ⟨n', e, _⟩ | ⟨_, e1, _⟩
            · exact absurd e (hf k n')
            · subst e1 hp'
              exact .inr (.inr ⟨op, r, Function.update_self _ _ _, h6⟩)
          · refine (hout t' ?_).congr (Function.update_of_ne ht _ _) rfl
            intro k' m hf'
            by_cases hkk : k' = k
            · subst hkk; rw [hk] at hf'; cases hf'; exact ht rfl
            · exact hf k' m (by rw [← hf']; exact (hrest k' hkk).2)
      have hDk : ∀ k', k' ≠ k → D k' ≠ D k := fun k' hkk e => hkk (hD e)
      match q with
      | .ret a => simp [Prog.onKey, Prog.next] at hnext
      | .step f c =>
        simp only [Prog.onKey, Prog.next, Option.some.injEq, Prod.mk.injEq] at hnext
        obtain ⟨rfl, rfl, rfl⟩ := hnext
        refine main _ rfl (fun k' hkk => ⟨Function.update_of_ne hkk _ _, rfl⟩) (.inl ⟨n, hk, h1, h3.2 _, h4 _, ?_⟩)
        rw [Function.update_self]; exact h5
      | .acq l c =>
        cases ha : acquire s.owners t l with
        | none => simp [Prog.onKey, Prog.next, ha] at hnext
        | some o' =>
          simp only [Prog.onKey, Prog.next, ha, Option.map_some, Option.some.injEq, Prod.mk.injEq] at hnext
          obtain ⟨rfl, rfl, rfl⟩ := hnext
          have hupd : ∃ v, o' = Function.update s.owners l v := by
            rcases acquire_some ha with ⟨_, e⟩ | ⟨m, _, e⟩ <;> exact ⟨_, e⟩
          obtain ⟨v, hv⟩ := hupd
          refine main _ rfl (fun k' hkk => ⟨rfl, ?_⟩) (.inl ?_)
          · rw [hv, Function.update_of_ne]
            rintro rfl
            exact hkk (h4.1 k' rfl)
          · by_cases hl : l = D k
            · subst hl
              rcases acquire_some ha with ⟨e1, _⟩ | ⟨m, e1, e2⟩
              · rw [hk] at e1; cases e1
              · rw [hk] at e1; cases e1
                have hh := h3.2
                rw [if_pos rfl] at hh
                exact ⟨n + 1, by rw [e2, Function.update_self], by omega, hh, h4.2, h5⟩
            · have hh := h3.2
              rw [if_neg hl] at hh
              exact ⟨n, by rw [hv, Function.update_of_ne (Ne.symm hl)]; exact hk, h1, hh, h4.2, h5⟩
      | .rel l c =>
        cases ha : release s.owners t l with
        | none => simp [Prog.onKey, Prog.next, ha] at hnext
        | some o' =>
          simp only [Prog.onKey, Prog.next, ha, Option.map_some, Option.some.injEq, Prod.mk.injEq] at hnext
          obtain ⟨rfl, rfl, rfl⟩ := hnext
          obtain ⟨m, e1, e2⟩ := release_some ha
          refine main _ rfl (fun k' hkk => ⟨rfl, ?_⟩) ?_
          · rw [e2, Function.update_of_ne]
            rintro rfl
            exact hkk (h4.1 k' rfl)
          · by_cases hl : l = D k
            · subst hl
              rw [hk] at e1; cases e1
              have hh := h3.2
              rw [if_pos rfl] at hh
              by_cases hn1 : n ≤ 1
              · right
                have : n = 1 := by omega
                subst this
                obtain ⟨a, rfl⟩ := hh.zero
                have h5' : (a, s.shared k) = (r, y k) := h5
                obtain ⟨i1, i2⟩ := Prod.mk.inj h5'
                subst i1
                exact ⟨by rw [e2, Function.update_self]; rfl, rfl, i2⟩
              · left
                exact ⟨n - 1, by rw [e2, Function.update_self, if_neg hn1], by omega, hh, h4.2, h5⟩
            · left
              have hh := h3.2
              rw [if_neg hl] at hh
              exact ⟨n, by rw [e2, Function.update_of_ne (Ne.symm hl)]; exact hk, h1, hh, h4.2, h5⟩
    · -- the thread is outside: it can only enter
      have hno : ∀ k n, s.owners (D k) ≠ some (t, n) := fun k n e => hin ⟨k, n, e⟩
      rcases hout t hno with ⟨h1, _⟩ | ⟨op', h1, h2⟩ | ⟨op', r', h1, _⟩
      · rw [hcur] at h1; cases h1
      · rw [hcur] at h1
        obtain ⟨rfl, rfl⟩ : op = op' ∧ p = keyCode D key body op' := by simpa using h1
        rw [keyCode_eq] at hnext
        cases ha : acquire s.owners t (D (key op)) with
        | none => simp [Prog.next, ha] at hnext
        | some o' =>
          simp only [Prog.next, ha, Option.map_some, Option.some.injEq, Prod.mk.injEq] at hnext
          obtain ⟨rfl, rfl, rfl⟩ := hnext
          obtain ⟨e1, e2⟩ : s.owners (D (key op)) = none ∧ o' = Function.update s.owners (D (key op)) (some (t, 1)) := by
            rcases acquire_some ha with h | ⟨m, e1, _⟩
            · exact h
            · exact absurd e1 (hno _ _)
          have hsh := hfree _ e1
          refine ⟨[(t, op, ((body op).run (y (key op))).1)], Function.update y (key op) ((body op).run (y (key op))).2,
            hlegal.append ⟨rfl, rfl⟩, ?_, ?_, ?_⟩
          · intro k hf
            have hf : o' (D k) = none := hf
            by_cases hkk : k = key op
            · subst hkk; rw [e2, Function.update_self] at hf; cases hf
            · rw [Function.update_of_ne hkk]
              refine hfree k ?_
              rw [e2, Function.update_of_ne (fun e => hkk (hD e))] at hf; exact hf
          · intro k t' n hf
            have hf : o' (D k) = some (t', n) := hf
            by_cases hkk : k = key op
            · subst hkk
              rw [e2, Function.update_self] at hf
              cases hf
              refine ⟨by omega, op, _, ((body op).run (y (key op))).1, rfl, Function.update_self _ _ _, (hb op).held _, ?_, ?_, ?_⟩
              · exact (ho op).bind fun a => ⟨fun k' e => (hD e).symm, trivial⟩
              · show Prog.run _ (s.shared (key op)) = _
                rw [hsh, Function.update_self]
                exact Prog.run_withLock (D (key op)) (body op) (y (key op))
              · rw [byThread_append, h2]; simp [byThread]
            · rw [e2, Function.update_of_ne (fun e => hkk (hD e))] at hf
              have hne : t' ≠ t := fun e => hno k n (e ▸ hf)
              obtain ⟨g1, op2, q2, r2, g2, g3, g4, g5, g6, g7⟩ := hbusy k t' n hf
              refine ⟨g1, op2, q2, r2, g2, ?_, g4, g5, ?_, ?_⟩
              · show Function.update s.cur t _ t' = _
                rw [Function.update_of_ne hne]; exact g3
              · rw [Function.update_of_ne hkk]; exact g6
              · rw [byThread_append, g7]; simp [byThread, Ne.symm hne]
          · intro t' hf
            have ht : t' ≠ t := by
              rintro rfl
              exact hf (key op) 1 (by show o' _ = _; rw [e2, Function.update_self])
            have hoo := (hout t' (by
              intro k n e
              refine hf k n ?_
              show o' (D k) = _
              by_cases hkk : k = key op
              · subst hkk; rw [e1] at e; cases e
              · rw [e2, Function.update_of_ne (fun e => hkk (hD e))]; exact e)).congr
              (s' := { s with owners := o', cur := Function.update s.cur t (some (op, ((body op).bind fun a => .rel (D (key op)) (.ret a)).onKey (key op))) })
              (Function.update_of_ne ht _ _) rfl
            unfold Outside at *
            have hb : byThread t' (log ++ [(t, op, ((body op).run (y (key op))).1)]) = byThread t' log := by
              rw [byThread_append]
              simp [byThread, Ne.symm ht]
            rw [hb]
            exact hoo
      · rw [hcur] at h1; cases h1
        simp [Prog.next] at hnext

end Modbus
