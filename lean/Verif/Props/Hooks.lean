import Verif.Model.LiveHooks
import Verif.Lemmas.Py
/-
# Property C44: installing, removing and calling hooks
-/
namespace Modbus

/-! ## Which functions are installed -/

/-- a call of `install_hook` or `uninstall_hook` -/
inductive HookOp where
  | install (name : String) (f : Nat)
  | uninstall (name : String) (f : Nat)
  | uninstallAll (name : String)

/-- its effect; a call that raises leaves everything as it is -/
def HookOp.apply (R : LiveReg) : HookOp → LiveReg
  | .install n f => liveInstall R n f
  | .uninstall n f => match liveUninstall R n (some f) with | .ok R' => R' | .error _ => R
  | .uninstallAll n => match liveUninstall R n none with | .ok R' => R' | .error _ => R

/-- Specification: the functions under a name, in order.  Only the calls with this name matter. -/
def installedUnder (name : String) : List HookOp → List Nat
  | [] => []
  | ops => go [] ops
where
  go (l : List Nat) : List HookOp → List Nat
    | [] => l
    | .install n f :: ops => go (if n = name then l ++ [f] else l) ops
    | .uninstall n f :: ops => go (if n = name then l.erase f else l) ops
    | .uninstallAll n :: ops => go (if n = name then [] else l) ops

/-- the functions that `call_hooks(name, ...)` would call -/
def LiveReg.under (R : LiveReg) (name : String) : List Nat := (Dict.get? R name).getD []

theorem under_set (R : LiveReg) (n name : String) (l : List Nat) :
    LiveReg.under (Dict.set R n l) name = if n = name then l else R.under name := by
  unfold LiveReg.under
  by_cases h : n = name
  · subst h; rw [Dict.get?_set_same, if_pos rfl]; rfl
  · rw [Dict.get?_set_other _ _ _ _ (Ne.symm h), if_neg h]

theorem under_install (R : LiveReg) (n name : String) (f : Nat) :
    (liveInstall R n f).under name = if n = name then R.under name ++ [f] else R.under name := by
  unfold liveInstall
  cases h : Dict.get? R n with
  | none =>
    simp only
    rw [under_set]
    by_cases hn : n = name
    · subst hn; simp [LiveReg.under, h]
    · simp [hn]
  | some fs =>
    simp only
    rw [under_set]
    by_cases hn : n = name
    · subst hn; simp [LiveReg.under, h]
    · simp [hn]

theorem apply_uninstall_none {R : LiveReg} {n : String} (f : Nat) (h : Dict.get? R n = none) :
    HookOp.apply R (.uninstall n f) = R := by simp only [HookOp.apply, liveUninstall, h]

theorem apply_uninstall_mem {R : LiveReg} {n : String} {f : Nat} {fs : List Nat} (h : Dict.get? R n = some fs) (hf : f ∈ fs) :
    HookOp.apply R (.uninstall n f) = Dict.set R n (fs.erase f) := by simp only [HookOp.apply, liveUninstall, h, hf, if_true]

theorem apply_uninstall_not_mem {R : LiveReg} {n : String} {f : Nat} {fs : List Nat} (h : Dict.get? R n = some fs) (hf : f ∉ fs) :
    HookOp.apply R (.uninstall n f) = R := by simp only [HookOp.apply, liveUninstall, h, hf, if_false]

theorem apply_uninstallAll_none {R : LiveReg} {n : String} (h : Dict.get? R n = none) :
    HookOp.apply R (.uninstallAll n) = R := by simp only [HookOp.apply, liveUninstall, h]

theorem apply_uninstallAll_some {R : LiveReg} {n : String} {fs : List Nat} (h : Dict.get? R n = some fs) :
    HookOp.apply R (.uninstallAll n) = Dict.set R n [] := by simp only [HookOp.apply, liveUninstall, h]

theorem under_uninstall (R : LiveReg) (n name : String) (f : Nat) :
    (HookOp.apply R (.uninstall n f)).under name = if n = name then (R.under name).erase f else R.under name := by
  cases h : Dict.get? R n with
  | none =>
    rw [apply_uninstall_none f h]
    by_cases hn : n = name
    · subst hn; simp [LiveReg.under, h]
    · simp [hn]
  | some fs =>
    by_cases hf : f ∈ fs
    · rw [apply_uninstall_mem h hf, under_set]
      by_cases hn : n = name
      · subst hn; simp [LiveReg.under, h]
      · simp [hn]
    · rw [apply_uninstall_not_mem h hf]
      by_cases hn : n = name
      · subst hn; simp [LiveReg.under, h, List.erase_of_not_mem hf]
      · simp [hn]

theorem under_uninstallAll (R : LiveReg) (n name : String) :
    (HookOp.apply R (.uninstallAll n)).under name = if n = name then [] else R.under name := by
  cases h : Dict.get? R n with
  | none =>
    rw [apply_uninstallAll_none h]
    by_cases hn : n = name
    · subst hn; simp [LiveReg.under, h]
    · simp [hn]
  | some fs => rw [apply_uninstallAll_some h, under_set]

/-- **C44.** After any history of `install_hook` and `uninstall_hook` calls - also failing ones - the functions under a name are
    those installed under it and not removed, in the order of installation; calls with other names do not matter. -/
theorem C44_installed (ops : List HookOp) (name : String) :
    (ops.foldl HookOp.apply []).under name = installedUnder name ops := by
  have key : ∀ (ops : List HookOp) (R : LiveReg),
      (ops.foldl HookOp.apply R).under name = installedUnder.go name (R.under name) ops := by
    intro ops
    induction ops with
    | nil => intro R; rfl
    | cons op ops ih =>
      intro R
      rw [List.foldl_cons, ih]
      cases op with
      | install n f => rw [show HookOp.apply R (.install n f) = liveInstall R n f from rfl, under_install]; rfl
      | uninstall n f => rw [under_uninstall]; rfl
      | uninstallAll n => rw [under_uninstallAll]; rfl
  cases ops with
  | nil => rfl
  | cons op ops => exact key _ []

/-- **C44.** When `uninstall_hook` raises: a name never used is a KeyError; a function that is not installed under the name is a
    ValueError. -/
theorem C44_uninstall_errors (ops : List HookOp) (name : String) (f : Option Nat) :
    (liveUninstall (ops.foldl HookOp.apply []) name f =
      .error .keyError ↔ ∀ g, HookOp.install name g ∉ ops) ∧
    (liveUninstall (ops.foldl HookOp.apply []) name f = .error .valueError ↔
      (∃ g, HookOp.install name g ∈ ops) ∧ ∃ g, f = some g ∧ g ∉ installedUnder name ops) := by
  have hsome : ∀ (ops : List HookOp) (R : LiveReg), (Dict.get? (ops.foldl HookOp.apply R) name = none ↔
      Dict.get? R name = none ∧ ∀ g, HookOp.install name g ∉ ops) := by
    intro ops
    induction ops with
    | nil => intro R; simp
    | cons op ops ih =>
      intro R
      rw [List.foldl_cons, ih]
      have hset : ∀ (R : LiveReg) n l, Dict.get? (Dict.set R n l) name = none ↔ n ≠ name ∧ Dict.get? R name = none := by
        intro R n l
        by_cases hn : n = name
        · subst hn; rw [Dict.get?_set_same]; simp
        · rw [Dict.get?_set_other _ _ _ _ (Ne.symm hn)]; simp [hn]
      have hset' : ∀ (R : LiveReg) n l fs, Dict.get? R n = some fs →
          (Dict.get? (Dict.set R n l) name = none ↔ Dict.get? R name = none) := by
        intro R n l fs h
        rw [hset]
        constructor
        · exact fun h => h.2
        · intro h'; refine ⟨?_, h'⟩; rintro rfl; rw [h] at h'; cases h'
      cases op with
      | install n f =>
        simp only [HookOp.apply, liveInstall, List.mem_cons, not_or, HookOp.install.injEq]
        cases h : Dict.get? R n with
        | none => simp only [hset]; constructor
                  · rintro ⟨⟨h1, h2⟩, h3⟩; exact ⟨h2, fun g => ⟨fun hh => h1 hh.1.symm, h3 g⟩⟩
                  · rintro ⟨h1, h2⟩; exact ⟨⟨fun hh => (h2 f).1 ⟨hh.symm, rfl⟩, h1⟩, fun g => (h2 g).2⟩
        | some fs => simp only [hset]; constructor
                     · rintro ⟨⟨h1, h2⟩, h3⟩; exact ⟨h2, fun g => ⟨fun hh => h1 hh.1.symm, h3 g⟩⟩
                     · rintro ⟨h1, h2⟩; exact ⟨⟨fun hh => (h2 f).1 ⟨hh.symm, rfl⟩, h1⟩, fun g => (h2 g).2⟩
      | uninstall n f =>
        have : Dict.get? (HookOp.apply R (.uninstall n f)) name = none ↔ Dict.get? R name = none := by
          cases h : Dict.get? R n with
          | none => rw [apply_uninstall_none f h]
          | some fs =>
            by_cases hf : f ∈ fs
            · rw [apply_uninstall_mem h hf]; exact hset' R n _ fs h
            · rw [apply_uninstall_not_mem h hf]
        rw [this]; simp
      | uninstallAll n =>
        have : Dict.get? (HookOp.apply R (.uninstallAll n)) name = none ↔ Dict.get? R name = none := by
          cases h : Dict.get? R n with
          | none => rw [apply_uninstallAll_none h]
          | some fs => rw [apply_uninstallAll_some h]; exact hset' R n _ fs h
        rw [this]; simp
  have h0 := hsome ops []
  have h1 := C44_installed ops name
  generalize hR : ops.foldl HookOp.apply [] = R at h0 h1 ⊢
  have hn : (Dict.get? R name = none ↔ ∀ g, HookOp.install name g ∉ ops) := by
    rw [h0]; simp [Dict.get?]
  rw [← h1, ← hn]
  unfold liveUninstall LiveReg.under
  cases h : Dict.get? R name with
  | none =>
    rw [h] at hn
    simp only [true_iff] at hn
    simp only [true_and, reduceCtorEq, Except.error.injEq, false_iff, not_and]
    rintro ⟨g, hg⟩; exact absurd hg (hn g)
  | some fs =>
    have hex : ∃ g, HookOp.install name g ∈ ops := by
      by_contra hne
      push Not at hne
      rw [h] at hn
      exact absurd (hn.mpr hne) (by simp)
    cases f with
    | none => simp
    | some f =>
      by_cases hf : f ∈ fs
      · simp [hf]
      · simp [hf, hex]

/-! ## Calling them -/

/-- the functions of `fn`, and every call is written down with its answer -/
def logCalls {σ : Type} (fn : HookFns σ) : HookFns (σ × List (Nat × Except PyErr (Option Bytes))) := fun f a w =>
  let r := fn f a ⟨w.reg, w.ext.1⟩
  (r.1, ⟨r.2.reg, (r.2.ext, w.ext.2 ++ [(f, r.1)])⟩)

/-- The functions under `name` leave the list of `name` alone. -/
def KeepsHooks {σ : Type} (fn : HookFns σ) (name : String) (a : HookArg) : Prop :=
  ∀ f (w : HookWorld σ), (fn f a w).2.reg.under name = w.reg.under name

theorem liveLoop_keeps {σ : Type} (fn : HookFns σ) (name : String) (a : HookArg) (hk : KeepsHooks fn name a) (l : List Nat) :
    ∀ (todo done : List Nat) (fuel : Nat) (w : HookWorld (σ × List (Nat × Except PyErr (Option Bytes)))),
      l = done ++ todo → w.reg.under name = l → todo.length < fuel →
      ∃ r w', liveLoop (logCalls fn) name a fuel done.length w = some (r, w') ∧
        ((r = .ok none ∧ w'.ext.2 = w.ext.2 ++ todo.map (·, .ok none)) ∨
         (∃ pre f rest, todo = pre ++ f :: rest ∧ w'.ext.2 = w.ext.2 ++ pre.map (·, .ok none) ++ [(f, r)] ∧
            ((∃ v, r = .ok (some v)) ∨ ∃ e, r = .error e))) := by
  intro todo
  induction todo with
  | nil =>
    intro done fuel w hl hw hf
    cases fuel with
    | zero => simp at hf
    | succ fuel =>
      refine ⟨.ok none, w, ?_, .inl ⟨rfl, by simp⟩⟩
      unfold LiveReg.under at hw
      rw [liveLoop, hw, hl]
      simp
  | cons f todo ih =>
    intro done fuel w hl hw hf
    cases fuel with
    | zero => simp at hf
    | succ fuel =>
      have hw' := hw
      unfold LiveReg.under at hw
      have hget : l[done.length]? = some f := by rw [hl]; simp
      have hkeep := hk f ⟨w.reg, w.ext.1⟩
      rw [liveLoop, hw, hget]
      simp only
      cases hr : fn f a ⟨w.reg, w.ext.1⟩ with
      | mk r w1 =>
        rw [hr] at hkeep
        have hlog : logCalls fn f a w = (r, ⟨w1.reg, (w1.ext, w.ext.2 ++ [(f, r)])⟩) := by simp only [logCalls, hr]
        rw [hlog]
        cases r with
        | error e => exact ⟨_, _, rfl, .inr ⟨[], f, todo, rfl, by simp, .inr ⟨e, rfl⟩⟩⟩
        | ok v =>
          cases v with
          | some v => exact ⟨_, _, rfl, .inr ⟨[], f, todo, rfl, by simp, .inl ⟨v, rfl⟩⟩⟩
          | none =>
            simp only
            obtain ⟨r, w', h1, h2⟩ := ih (done ++ [f]) fuel ⟨w1.reg, (w1.ext, w.ext.2 ++ [(f, .ok none)])⟩ (by simp [hl])
              (by simp only; rw [hkeep]; exact hw') (by simp at hf; omega)
            rw [List.length_append, List.length_singleton] at h1
            refine ⟨r, w', h1, ?_⟩
            rcases h2 with ⟨g1, g2⟩ | ⟨pre, f', rest, g1, g2, g3⟩
            · exact .inl ⟨g1, by rw [g2]; simp⟩
            · exact .inr ⟨f :: pre, f', rest, by simp [g1], by rw [g2]; simp, g3⟩

/-- **C44.** `call_hooks` calls the functions installed under the name in their order.  It stops after the first one that answers
    something or raises; without such a function it calls all of them and answers None.  A KeyError raised by a function becomes
    the answer None.  (The functions may have any effects, except changing the list they are in.) -/
theorem C44_call {σ : Type} (fn : HookFns σ) (name : String) (a : HookArg) (hk : KeepsHooks fn name a) (reg : LiveReg) (x : σ)
    (fuel : Nat) (hf : (reg.under name).length < fuel) :
    ∃ r w, liveCall (logCalls fn) fuel name a ⟨reg, (x, [])⟩ = some (r, w) ∧
      ((r = .ok none ∧ w.ext.2 = (reg.under name).map (·, .ok none)) ∨
       (∃ pre f rest v, reg.under name = pre ++ f :: rest ∧ w.ext.2 = pre.map (·, .ok none) ++ [(f, .ok (some v))] ∧ r = .ok (some v)) ∨
       (∃ pre f rest e, reg.under name = pre ++ f :: rest ∧ w.ext.2 = pre.map (·, .ok none) ++ [(f, .error e)] ∧
          r = if e = .keyError then .ok none else .error e)) := by
  unfold liveCall
  cases h : Dict.get? reg name with
  | none => exact ⟨_, _, rfl, .inl ⟨rfl, by simp [LiveReg.under, h]⟩⟩
  | some fs =>
    simp only
    obtain ⟨r, w', h1, h2⟩ := liveLoop_keeps fn name a hk (reg.under name) (reg.under name) [] fuel ⟨reg, (x, [])⟩ rfl rfl hf
    simp only [List.length_nil, List.nil_append] at h1 h2
    rw [h1]
    rcases h2 with ⟨g1, g2⟩ | ⟨pre, f, rest, g1, g2, ⟨v, rfl⟩ | ⟨e, rfl⟩⟩
    · subst g1; exact ⟨_, _, rfl, .inl ⟨rfl, g2⟩⟩
    · exact ⟨_, _, rfl, .inr (.inl ⟨pre, f, rest, v, g1, g2, rfl⟩)⟩
    · refine ⟨if e = .keyError then .ok none else .error e, w', ?_, .inr (.inr ⟨pre, f, rest, e, g1, g2, rfl⟩)⟩
      by_cases he : e = .keyError
      · subst he; rfl
      · rw [if_neg he]
        split
        · rename_i heq; cases heq; exact absurd rfl he
        · rfl

/-! ## The pure model agrees -/

/-- the names of the functions in the registry of the pure model -/
def Registry.ids (R : Registry) : LiveReg := R.map fun p => (p.1, p.2.map (·.id))

theorem ids_get? (R : Registry) (name : String) : Dict.get? R.ids name = (Dict.get? R name).map (·.map (·.id)) := by
  induction R with
  | nil => rfl
  | cons p R ih =>
    obtain ⟨n, fs⟩ := p
    simp only [Registry.ids, List.map_cons, Dict.get?] at ih ⊢
    by_cases h : n = name
    · simp [h]
    · rw [if_neg h, if_neg h]; exact ih

theorem ids_set (R : Registry) (name : String) (l : List Hook) :
    Registry.ids (Dict.set R name l) = Dict.set R.ids name (l.map (·.id)) := by
  induction R with
  | nil => rfl
  | cons p R ih =>
    obtain ⟨n, fs⟩ := p
    simp only [Registry.ids, List.map_cons, Dict.set] at ih ⊢
    by_cases h : n = name
    · simp [h]
    · rw [if_neg h, if_neg h, List.map_cons, ih]

theorem eraseP_ids (l : List Hook) (f : Hook) :
    (l.eraseP (fun g => decide (g.id = f.id))).map (·.id) = (l.map (·.id)).erase f.id := by
  induction l with
  | nil => rfl
  | cons g l ih =>
    by_cases h : g.id = f.id
    · simp [h]
    · rw [List.eraseP_cons_of_neg (by simpa using h), List.map_cons, List.map_cons, List.erase_cons_tail (by simpa using h), ih]

/-- `installHook` and `uninstallHook` of `Model/Hooks.lean` do the same as the live versions. -/
theorem install_live (R : Registry) (name : String) (f : Hook) :
    (installHook R name f).ids = liveInstall R.ids name f.id := by
  unfold installHook liveInstall
  rw [ids_get?]
  cases Dict.get? R name with
  | none => exact ids_set R name [f]
  | some fs => simp only [Option.map_some]; rw [ids_set]; simp

theorem uninstall_live (R : Registry) (name : String) (f : Option Hook) :
    (uninstallHook R name f).map Registry.ids = liveUninstall R.ids name (f.map (·.id)) := by
  unfold uninstallHook liveUninstall
  rw [ids_get?]
  cases Dict.get? R name with
  | none => rfl
  | some fs =>
    cases f with
    | none => simp only [Option.map_some, Option.map_none, Except.map]; rw [ids_set]; rfl
    | some f =>
      simp only [Option.map_some]
      have : (fs.any (fun g => decide (g.id = f.id)) = true) ↔ f.id ∈ fs.map (·.id) := by simp
      by_cases h : f.id ∈ fs.map (·.id)
      · rw [if_pos (this.mpr h), if_pos h]; simp only [Except.map]; rw [ids_set, eraseP_ids]
      · rw [if_neg (fun hh => h (this.mp hh)), if_neg h]; rfl

/-- `callHooks` of `Model/Hooks.lean` is `call_hooks` for functions without effects. -/
theorem callHooks_live (R : Registry) (fn : Nat → HookArg → Except PyErr (Option Bytes))
    (hfn : ∀ n fs, (n, fs) ∈ R → ∀ f ∈ fs, f.fn = fn f.id) (name : String) (a : HookArg) (σ : Type) (x : σ) (fuel : Nat)
    (hf : (R.ids.under name).length < fuel) :
    liveCall (fun f a w => (fn f a, w)) fuel name a (⟨R.ids, x⟩ : HookWorld σ) = some (callHooks R name a, ⟨R.ids, x⟩) := by
  unfold liveCall callHooks
  rw [LiveReg.under, ids_get?] at hf
  rw [ids_get?]
  cases h : Dict.get? R name with
  | none => rfl
  | some fs =>
    have hmem : (name, fs) ∈ R := by
      clear hf hfn
      induction R with
      | nil => cases h
      | cons p R ih =>
        obtain ⟨n, gs⟩ := p
        rw [Dict.get?] at h
        by_cases hn : n = name
        · rw [if_pos hn] at h; cases h; subst hn; exact List.mem_cons_self ..
        · rw [if_neg hn] at h; exact List.mem_cons_of_mem _ (ih h)
    have hfs := hfn name fs hmem
    have hg : (Dict.get? R.ids name).getD [] = fs.map (·.id) := by rw [ids_get?, h]; rfl
    rw [h] at hf
    simp only [Option.map_some, Option.getD_some, List.length_map] at hf ⊢
    have key : ∀ (todo done : List Hook) (fuel : Nat), fs = done ++ todo → todo.length < fuel →
        liveLoop (fun f a w => (fn f a, w)) name a fuel done.length (⟨R.ids, x⟩ : HookWorld σ) = some (callLoop todo a, ⟨R.ids, x⟩) := by
      intro todo
      induction todo with
      | nil =>
        intro done fuel hl hfu
        cases fuel with
        | zero => simp at hfu
        | succ fuel => rw [liveLoop, hg, hl]; simp [callLoop]
      | cons f todo ih =>
        intro done fuel hl hfu
        cases fuel with
        | zero => simp at hfu
        | succ fuel =>
          have hget : (fs.map (·.id))[done.length]? = some f.id := by rw [hl]; simp
          rw [liveLoop, hg, hget, callLoop]
          have hff : fn f.id a = f.fn a := by rw [hfs f (by rw [hl]; simp)]
          simp only
          rw [hff]
          cases hr : f.fn a with
          | error e => rfl
          | ok v =>
            cases v with
            | some v => rfl
            | none =>
              simp only
              have := ih (done ++ [f]) fuel (by simp [hl]) (by simp at hfu; omega)
              rw [List.length_append, List.length_singleton] at this
              exact this
    have h0 := key fs [] fuel rfl hf
    rw [List.length_nil] at h0
    rw [h0]
    cases callLoop fs a with
    | error e => cases e <;> rfl
    | ok v => rfl

/-! ## What is false -/

/-- function 1 removes itself, function 2 does nothing -/
def exSelfRemoving : HookFns (List Nat) := fun f _ w =>
  if f = 1 then (.ok none, ⟨HookOp.apply w.reg (.uninstall "h" 1), w.ext ++ [1]⟩) else (.ok none, ⟨w.reg, w.ext ++ [f]⟩)

/-- A function that removes itself makes `call_hooks` skip the next one. -/
theorem C44_false_self_removing :
    liveCall exSelfRemoving 10 "h" .obj ⟨[("h", [1, 2, 3])], []⟩ = some (.ok none, ⟨[("h", [2, 3])], [1, 3]⟩) := rfl

/-- a function that installs itself once more -/
def exSelfInstalling : HookFns Unit := fun f _ w => (.ok none, ⟨liveInstall w.reg "h" f, w.ext⟩)

/-- A function that installs a further one on every call makes `call_hooks` run for ever. -/
theorem C44_false_self_installing (fuel : Nat) : liveCall exSelfInstalling fuel "h" .obj ⟨[("h", [1])], ()⟩ = none := by
  have key : ∀ fuel i k, i < k → liveLoop exSelfInstalling "h" .obj fuel i ⟨[("h", List.replicate k 1)], ()⟩ = none := by
    intro fuel
    induction fuel with
    | zero => intro i k _; rfl
    | succ fuel ih =>
      intro i k hik
      rw [liveLoop]
      have : ((Dict.get? [("h", List.replicate k 1)] "h").getD [])[i]? = some 1 := by
        simp [Dict.get?, hik]
      simp only [this]
      have h2 : exSelfInstalling 1 .obj ⟨[("h", List.replicate k 1)], ()⟩ = (.ok none, ⟨[("h", List.replicate (k+1) 1)], ()⟩) := by
        simp [exSelfInstalling, liveInstall, Dict.get?, Dict.set, List.replicate_succ']
      rw [h2]
      exact ih (i+1) (k+1) (by omega)
  unfold liveCall
  have h0 : Dict.get? [("h", [1])] "h" = some [1] := rfl
  simp only [h0]
  rw [show ([("h", [1])] : LiveReg) = [("h", List.replicate 1 1)] from rfl, key fuel 0 1 (by omega)]

-- a history; functions 1 and 3 remain under "a"
example : installedUnder "a" [.install "a" 1, .install "b" 9, .install "a" 2, .uninstall "b" 1, .install "a" 3, .uninstall "a" 2,
    .uninstallAll "c"] = [1, 3] := rfl
-- functions with effects that keep the hooks; function 2 answers
def exFns : HookFns Nat := fun f _ w => (if f = 2 then .ok (some [7]) else .ok none, ⟨w.reg, w.ext + f⟩)
example : KeepsHooks exFns "a" .obj := fun _ _ => rfl
example : liveCall (logCalls exFns) 5 "a" .obj ⟨[("a", [1, 2, 3])], (0, [])⟩ =
    some (.ok (some [7]), ⟨[("a", [1, 2, 3])], (3, [(1, .ok none), (2, .ok (some [7]))])⟩) := rfl

end Modbus
