import Verif.Model.DbThreads
import Verif.Props.Composite
/-
# C67: threads that use one databank while slaves are added and removed
-/
namespace Modbus

variable {L : Type} [DecidableEq L]

/-! ## Specification -/

/-- one operation on one cell, the others unchanged -/
def actSpec (R : Registry) (a : DbAct) (x : Option SlaveRef → DbCell) : DbRes × (Option SlaveRef → DbCell) :=
  ((a.run R (x a.key)).1, Function.update x a.key (a.run R (x a.key)).2)

/-- the sequential specification: methods of the databank and of slaves; a request is handled by the slave that the map contains at that moment, or
    answered as by an empty databank -/
def taskSpec (R : Registry) (c : DbTask) (x : Option SlaveRef → DbCell) : DbRes × (Option SlaveRef → DbCell) :=
  match c with
  | .op c => actSpec R (.op c) x
  | .request q =>
    match Dict.get? (x none).slaves q.id with
    | none => (.answer (dbHandle R q.w.mac ⟨[], true⟩ q.request Heap.empty).1, x)
    | some ref => actSpec R (.handle q ref) x

/-- the task removes slaves -/
def DbTask.removes : DbTask → Prop
  | .op (.remove _) => True
  | .op .removeAll => True
  | _ => False

/-- what the acts of a thread mean as tasks: a lookup that found the slave is only the first half of a request -/
def asTask : DbAct × DbRes → List (DbTask × DbRes)
  | (.op c, v) => [(.op c, v)]
  | (.lookup _, .found _) => []
  | (.lookup q, v) => [(.request q, v)]
  | (.handle q _, v) => [(.request q, v)]

/-- every second half of a request comes, in the same thread, after a first half that found this slave -/
def Follows (l : List (DbAct × DbRes)) : Prop :=
  ∀ pre post q ref v, l = pre ++ (.handle q ref, v) :: post → (.lookup q, .found ref) ∈ pre

/-! ## The code in acts -/

/-- what follows the lookup -/
def afterLookup (D : Option SlaveRef → L) (body : DbAct → Prog L DbCell DbRes) (q : DbRequest) (r : DbRes) :
    Prog L (Option SlaveRef → DbCell) DbRes :=
  match r with
  | .found ref => keyCode D DbAct.key body (.handle q ref)
  | r => .ret r

omit [DecidableEq L] in
theorem dbCode_request (D : Option SlaveRef → L) (body : DbAct → Prog L DbCell DbRes) (q : DbRequest) :
    dbCode D body (.request q) = (keyCode D DbAct.key body (.lookup q)).bind (afterLookup D body q) := rfl

omit [DecidableEq L] in
theorem dbCode_op (D : Option SlaveRef → L) (body : DbAct → Prog L DbCell DbRes) (c : DbCallOp) :
    dbCode D body (.op c) = keyCode D DbAct.key body (.op c) := rfl

theorem Prog.next_bind {σ α β : Type} (t : Nat) (p : Prog L σ α) (g : α → Prog L σ β) (x : σ) (o : Owners L) (h : p.isRet = false) :
    (p.bind g).next t x o = (p.next t x o).map fun r => (r.1.bind g, r.2) := by
  cases p with
  | ret a => cases h
  | acq l k => simp [Prog.bind, Prog.next, Option.map_map, Function.comp_def]
  | rel l k => simp [Prog.bind, Prog.next, Option.map_map, Function.comp_def]
  | step f k => rfl

/-- a lookup that found the slave -/
def FoundRet : Prog L (Option SlaveRef → DbCell) DbRes → Prop
  | .ret (.found _) => True
  | _ => False

/-- what a thread is doing, as a task and as an act -/
inductive SameCur (D : Option SlaveRef → L) (body : DbAct → Prog L DbCell DbRes) (hist : List (DbAct × DbRes)) :
    Option (DbTask × Prog L (Option SlaveRef → DbCell) DbRes) → Option (DbAct × Prog L (Option SlaveRef → DbCell) DbRes) → Prop
  | idle : SameCur D body hist none none
  | op (c : DbCallOp) (p : Prog L (Option SlaveRef → DbCell) DbRes) : SameCur D body hist (some (.op c, p)) (some (.op c, p))
  | lookup (q : DbRequest) (p : Prog L (Option SlaveRef → DbCell) DbRes) (h : ¬ FoundRet p) :
      SameCur D body hist (some (.request q, p.bind (afterLookup D body q))) (some (.lookup q, p))
  | handle (q : DbRequest) (ref : SlaveRef) (p : Prog L (Option SlaveRef → DbCell) DbRes) (h : (DbAct.lookup q, DbRes.found ref) ∈ hist) :
      SameCur D body hist (some (.request q, p)) (some (.handle q ref, p))

/-- the execution in tasks `s` is the execution in acts `f` -/
structure SameCalls (D : Option SlaveRef → L) (body : DbAct → Prog L DbCell DbRes)
    (s : Calls L (Option SlaveRef → DbCell) DbTask DbRes) (f : Calls L (Option SlaveRef → DbCell) DbAct DbRes) : Prop where
  shared : s.shared = f.shared
  owners : s.owners = f.owners
  cur : ∀ t, SameCur D body (f.hist t) (s.cur t) (f.cur t)
  hist : ∀ t, s.hist t = (f.hist t).flatMap asTask
  follows : ∀ t, Follows (f.hist t)

theorem follows_snoc {l : List (DbAct × DbRes)} {e : DbAct × DbRes} (h : Follows l)
    (he : ∀ q ref v, e = (.handle q ref, v) → (DbAct.lookup q, DbRes.found ref) ∈ l) : Follows (l ++ [e]) := by
  intro pre post q ref v hl
  rcases List.eq_nil_or_concat post with rfl | ⟨post', b, rfl⟩
  · obtain ⟨h1, h2⟩ := List.append_inj' hl rfl
    cases h2; subst h1; exact he q ref v rfl
  · rw [List.concat_eq_append, ← List.cons_append, ← List.append_assoc] at hl
    obtain ⟨h1, _⟩ := List.append_inj' hl rfl
    exact h pre post' q ref v h1

theorem Calls.Reach.trans {σ Op Res : Type} {code : Op → Prog L σ Res} {a b c : Calls L σ Op Res} (h : Calls.Reach code a b)
    (h' : Calls.Reach code b c) : Calls.Reach code a c := by
  induction h' with
  | refl => exact h
  | step _ hs ih => exact .step ih hs

/-- one step of the tasks is some steps of the acts -/
theorem sameCalls_step {D : Option SlaveRef → L} {body : DbAct → Prog L DbCell DbRes} {s s' : Calls L (Option SlaveRef → DbCell) DbTask DbRes}
    {f : Calls L (Option SlaveRef → DbCell) DbAct DbRes} (h : SameCalls D body s f) (hs : Calls.Step (dbCode D body) s s') :
    ∃ f', Calls.Reach (keyCode D DbAct.key body) f f' ∧ SameCalls D body s' f' := by
  obtain ⟨h1, h2, h3, h4, h5⟩ := h
  cases hs with
  | call t c hc =>
    have ht := h3 t
    rw [hc] at ht
    cases hf : f.cur t with
    | some a => rw [hf] at ht; cases ht
    | none =>
      cases c with
      | op c =>
        refine ⟨_, .step .refl (.call t (.op c) hf), h1, h2, fun t' => ?_, h4, h5⟩
        by_cases e : t' = t
        · subst e; simp only [Function.update_self]; exact .op c _
        · simp only [Function.update_of_ne e]; exact h3 t'
      | request q =>
        refine ⟨_, .step .refl (.call t (.lookup q) hf), h1, h2, fun t' => ?_, h4, h5⟩
        by_cases e : t' = t
        · subst e; simp only [Function.update_self]; exact .lookup q _ (fun h => h)
        · simp only [Function.update_of_ne e]; exact h3 t'
  | @act t c p p' x o hc hn =>
    have ht := h3 t
    rw [hc] at ht
    rw [h1, h2] at hn
    generalize hf : f.cur t = fc at ht
    cases ht with
    | op c =>
      refine ⟨_, .step .refl (.act t hf hn), rfl, rfl, fun t' => ?_, h4, h5⟩
      by_cases e : t' = t
      · subst e; simp only [Function.update_self]; exact .op c _
      · simp only [Function.update_of_ne e]; exact h3 t'
    | handle q ref _ hl =>
      refine ⟨_, .step .refl (.act t hf hn), rfl, rfl, fun t' => ?_, h4, h5⟩
      by_cases e : t' = t
      · subst e; simp only [Function.update_self]; exact .handle q ref _ hl
      · simp only [Function.update_of_ne e]; exact h3 t'
    | lookup q p0 hr =>
      cases hp : p0.isRet with
      | true =>
        cases p0 with
        | ret a =>
          cases a with
          | found r => exact absurd trivial hr
          | ref r => cases hn
          | done r => cases hn
          | slave r => cases hn
          | answer r => cases hn
        | acq l k => cases hp
        | rel l k => cases hp
        | step g k => cases hp
      | false =>
        rw [Prog.next_bind t p0 _ _ _ hp, Option.map_eq_some_iff] at hn
        obtain ⟨⟨p1, x1, o1⟩, hn1, hn2⟩ := hn
        simp only [Prod.mk.injEq] at hn2
        obtain ⟨rfl, rfl, rfl⟩ := hn2
        by_cases hr1 : FoundRet p1
        · cases p1 with
          | ret a =>
            cases a with
            | found r =>
              have s1 : Calls.Step (keyCode D DbAct.key body) f _ := .act t hf hn1
              refine ⟨_, .step (.step (.step .refl s1) (.back t (op := .lookup q) (r := .found r) (by simp only [Function.update_self])))
                (.call t (.handle q r) (by simp only [Function.update_self])), rfl, rfl, fun t' => ?_, fun t' => ?_, fun t' => ?_⟩
              · by_cases e : t' = t
                · subst e; simp only [Function.update_self]
                  exact .handle q r _ (by simp)
                · simp only [Function.update_of_ne e]; exact h3 t'
              · by_cases e : t' = t
                · subst e; simp only [Function.update_self, List.flatMap_append]; rw [← h4 t']; simp [asTask]
                · simp only [Function.update_of_ne e]; exact h4 t'
              · by_cases e : t' = t
                · subst e; simp only [Function.update_self]; exact follows_snoc (h5 t') (fun _ _ _ h => by cases h)
                · simp only [Function.update_of_ne e]; exact h5 t'
            | ref r => exact hr1.elim
            | done r => exact hr1.elim
            | slave r => exact hr1.elim
            | answer r => exact hr1.elim
          | acq l k => exact hr1.elim
          | rel l k => exact hr1.elim
          | step g k => exact hr1.elim
        · refine ⟨_, .step .refl (.act t hf hn1), rfl, rfl, fun t' => ?_, h4, h5⟩
          by_cases e : t' = t
          · subst e; simp only [Function.update_self]; exact .lookup q _ hr1
          · simp only [Function.update_of_ne e]; exact h3 t'
  | @back t c r hc =>
    have ht := h3 t
    rw [hc] at ht
    generalize hf : f.cur t = fc at ht
    have key : ∀ a, f.cur t = some (a, .ret r) → asTask (a, r) = [(c, r)] →
        (∀ q ref v, (a, r) = (.handle q ref, v) → (DbAct.lookup q, DbRes.found ref) ∈ f.hist t) →
        ∃ f', Calls.Reach (keyCode D DbAct.key body) f f' ∧ SameCalls D body
          { s with cur := Function.update s.cur t none, hist := Function.update s.hist t (s.hist t ++ [(c, r)]) } f' := by
      intro a ha has hfo
      refine ⟨_, .step .refl (.back t ha), h1, h2, fun t' => ?_, fun t' => ?_, fun t' => ?_⟩
      · by_cases e : t' = t
        · subst e; simp only [Function.update_self]; exact .idle
        · simp only [Function.update_of_ne e]; exact h3 t'
      · by_cases e : t' = t
        · subst e; simp only [Function.update_self, List.flatMap_append, List.flatMap_cons, List.flatMap_nil, List.append_nil, has]; rw [h4 t']
        · simp only [Function.update_of_ne e]; exact h4 t'
      · by_cases e : t' = t
        · subst e; simp only [Function.update_self]; exact follows_snoc (h5 t') hfo
        · simp only [Function.update_of_ne e]; exact h5 t'
    generalize hp : (Prog.ret r : Prog L (Option SlaveRef → DbCell) DbRes) = pr at ht
    cases ht with
    | op c => subst hp; exact key _ hf rfl (fun _ _ _ h => by cases h)
    | handle q ref _ hl =>
      subst hp
      exact key _ hf rfl (fun q' ref' v h => by cases h; exact hl)
    | lookup q p0 hr =>
      cases p0 with
      | ret a =>
        cases a with
        | found r => exact absurd trivial hr
        | ref r' => cases hp; exact key _ hf rfl (fun _ _ _ h => by cases h)
        | done r' => cases hp; exact key _ hf rfl (fun _ _ _ h => by cases h)
        | slave r' => cases hp; exact key _ hf rfl (fun _ _ _ h => by cases h)
        | answer r' => cases hp; exact key _ hf rfl (fun _ _ _ h => by cases h)
      | acq l k => cases hp
      | rel l k => cases hp
      | step g k => cases hp

theorem sameCalls_reach {D : Option SlaveRef → L} {body : DbAct → Prog L DbCell DbRes} {s s' : Calls L (Option SlaveRef → DbCell) DbTask DbRes}
    {f : Calls L (Option SlaveRef → DbCell) DbAct DbRes} (h : SameCalls D body s f) (hs : Calls.Reach (dbCode D body) s s') :
    ∃ f', Calls.Reach (keyCode D DbAct.key body) f f' ∧ SameCalls D body s' f' := by
  induction hs with
  | refl => exact ⟨f, .refl, h⟩
  | step _ h1 ih =>
    obtain ⟨f1, hf1, hs1⟩ := ih
    obtain ⟨f2, hf2, hs2⟩ := sameCalls_step hs1 h1
    exact ⟨f2, hf1.trans hf2, hs2⟩

omit [DecidableEq L] in
theorem sameCalls_init (D : Option SlaveRef → L) (body : DbAct → Prog L DbCell DbRes) (x0 : Option SlaveRef → DbCell) :
    SameCalls D body (Calls.init x0) (Calls.init x0) :=
  ⟨rfl, rfl, fun _ => .idle, fun _ => rfl, fun _ pre post q ref v h => by
    exfalso; have := congrArg List.length h; simp [Calls.init] at this⟩

/-! ## Histories -/

/-- an entry of a history of acts, as entries of a history of tasks -/
def asTasks (e : Nat × DbAct × DbRes) : List (Nat × DbTask × DbRes) := (asTask e.2).map fun r => (e.1, r)

theorem byThread_asTasks (t : Nat) (log : List (Nat × DbAct × DbRes)) :
    byThread t (log.flatMap asTasks) = (byThread t log).flatMap asTask := by
  induction log with
  | nil => rfl
  | cons e log ih =>
    obtain ⟨t', a, v⟩ := e
    rw [List.flatMap_cons, byThread_append, ih, show (t', a, v) :: log = [(t', a, v)] ++ log from rfl, byThread_append, List.flatMap_append]
    congr 1
    by_cases h : t' = t
    · subst h
      simp only [byThread, asTasks, List.filter_cons, List.filter_nil, decide_true, if_true, List.map_cons, List.map_nil, List.flatMap_cons,
        List.flatMap_nil, List.append_nil]
      rw [List.filter_eq_self.mpr (by intro b hb; obtain ⟨r, _, rfl⟩ := List.mem_map.mp hb; simp)]
      simp [List.map_map, Function.comp_def]
    · have hz : (asTasks (t', a, v)).filter (fun e => decide (e.1 = t)) = [] := by
        rw [List.filter_eq_nil_iff]
        intro b hb
        obtain ⟨r, _, rfl⟩ := List.mem_map.mp hb
        simpa using h
      simp [byThread, hz, h]

theorem mem_byThread {t : Nat} {a : DbAct} {v : DbRes} {log : List (Nat × DbAct × DbRes)} : (a, v) ∈ byThread t log ↔ (t, a, v) ∈ log := by
  simp [byThread]

theorem add_keeps (R : Registry) (id : Int) (u : Bool) (m : DbCell) (id' : Int) (ref : SlaveRef) (h : Dict.get? m.slaves id' = some ref) :
    Dict.get? ((DbAct.op (.add id u)).run R m).2.slaves id' = some ref := by
  simp only [DbAct.run]
  by_cases hb : id ≤ 0 ∨ id > 255
  · rw [if_pos hb]; exact h
  · rw [if_neg hb]
    by_cases hd : Dict.has m.slaves id = true
    · rw [if_pos hd]; exact h
    · rw [if_neg hd]
      by_cases e : id' = id
      · rw [← e] at hd; simp [Dict.has, h] at hd
      · exact (Dict.get?_set_other _ _ _ _ e).trans h

/-- Without removals, the slave found by the lookup is still the one in the map when it handles the request: the two halves can be taken together at
    the second. -/
theorem legal_tasks (R : Registry) (log : List (Nat × DbAct × DbRes)) (x y : Option SlaveRef → DbCell) (F : DbRequest → SlaveRef → Prop)
    (hF : ∀ q ref, F q ref → Dict.get? (x none).slaves q.id = some ref)
    (hj : ∀ pre post t q ref v, log = pre ++ (t, .handle q ref, v) :: post → F q ref ∨ ∃ t', (t', .lookup q, .found ref) ∈ pre)
    (hn : ∀ t id v, (t, .op (.remove id), v) ∉ log) (hn' : ∀ t v, (t, .op .removeAll, v) ∉ log)
    (hl : Legal (actSpec R) x log y) : Legal (taskSpec R) x (log.flatMap asTasks) y := by
  induction log generalizing x F with
  | nil => exact hl
  | cons e log ih =>
    obtain ⟨t, a, v⟩ := e
    obtain ⟨h1, h2⟩ := hl
    have hj' : ∀ (G : DbRequest → SlaveRef → Prop), (∀ q ref, F q ref → G q ref) → (∀ q ref, a = .lookup q → v = .found ref → G q ref) →
        ∀ pre post t q ref v, log = pre ++ (t, .handle q ref, v) :: post → G q ref ∨ ∃ t', (t', .lookup q, .found ref) ∈ pre := by
      intro G hG hG' pre post t1 q ref v1 e1
      rcases hj ((t, a, v) :: pre) post t1 q ref v1 (by rw [e1]; rfl) with h | ⟨t', h⟩
      · exact .inl (hG q ref h)
      · rcases List.mem_cons.mp h with h | h
        · cases h; exact .inl (hG' q ref rfl rfl)
        · exact .inr ⟨t', h⟩
    have hn1 : ∀ t id v, (t, .op (.remove id), v) ∉ log := fun t id v h => hn t id v (List.mem_cons_of_mem _ h)
    have hn1' : ∀ t v, (t, .op .removeAll, v) ∉ log := fun t v h => hn' t v (List.mem_cons_of_mem _ h)
    have keep : ∀ G : DbRequest → SlaveRef → Prop, (∀ q ref, G q ref → Dict.get? ((actSpec R a x).2 none).slaves q.id = some ref) →
        (∀ q ref, F q ref → G q ref) → (∀ q ref, a = .lookup q → v = .found ref → G q ref) →
        Legal (taskSpec R) (actSpec R a x).2 (log.flatMap asTasks) y := fun G g1 g2 g3 => ih _ G g1 (hj' G g2 g3) hn1 hn1' h2
    cases a with
    | op c =>
      refine ⟨h1, keep F (fun q ref hq => ?_) (fun _ _ h => h) (fun _ _ h => by cases h)⟩
      have := hF q ref hq
      cases c with
      | add id u =>
        simp only [actSpec, DbAct.key, Function.update_self]
        exact add_keeps R id u (x none) q.id ref this
      | get id =>
        simp only [actSpec, DbAct.key, Function.update_self, DbAct.run]
        split <;> exact this
      | remove id => exact absurd List.mem_cons_self (hn t id v)
      | removeAll => exact absurd List.mem_cons_self (hn' t v)
      | slave r c => simp only [actSpec, DbAct.key, ne_eq, reduceCtorEq, not_false_eq_true, Function.update_of_ne]; exact this
    | handle q ref =>
      have hf : Dict.get? (x none).slaves q.id = some ref := by
        rcases hj [] log t q ref v rfl with h | ⟨_, h⟩
        · exact hF q ref h
        · cases h
      have hs : taskSpec R (.request q) x = actSpec R (.handle q ref) x := by simp only [taskSpec, hf]
      refine ⟨by rw [hs]; exact h1, ?_⟩
      show Legal _ (taskSpec R (.request q) x).2 _ _
      rw [hs]
      refine keep F (fun q' ref' hq => ?_) (fun _ _ h => h) (fun _ _ h => by cases h)
      simp only [actSpec, DbAct.key, ne_eq, reduceCtorEq, not_false_eq_true, Function.update_of_ne]
      exact hF q' ref' hq
    | lookup q =>
      have hx : (actSpec R (.lookup q) x).2 = x := by
        simp only [actSpec, DbAct.key, DbAct.run]
        split <;> exact Function.update_eq_self _ _
      cases hg : Dict.get? (x none).slaves q.id with
      | some ref =>
        have hv : v = .found ref := by rw [← h1]; simp only [actSpec, DbAct.key, DbAct.run, hg]
        subst hv
        show Legal _ x ([] ++ log.flatMap asTasks) y
        have := keep (fun q' ref' => F q' ref' ∨ (q' = q ∧ ref' = ref)) (fun q' ref' h => by
          rw [hx]
          rcases h with h | ⟨rfl, rfl⟩
          · exact hF q' ref' h
          · exact hg) (fun _ _ h => .inl h) (fun q' ref' e1 e2 => by cases e1; cases e2; exact .inr ⟨rfl, rfl⟩)
        rw [hx] at this
        exact this
      | none =>
        have hv : v = .answer (dbHandle R q.w.mac ⟨[], true⟩ q.request Heap.empty).1 := by
          rw [← h1]; simp only [actSpec, DbAct.key, DbAct.run, hg]
        have hs : taskSpec R (.request q) x = (v, x) := by simp only [taskSpec, hg, hv]
        have := keep F (fun q' ref' h => by rw [hx]; exact hF q' ref' h) (fun _ _ h => h) (fun _ _ _ e => by rw [hv] at e; cases e)
        rw [hx] at this
        subst hv
        refine ⟨by rw [hs], ?_⟩
        show Legal _ (taskSpec R (.request q) x).2 _ _
        rw [hs]
        exact this

omit [DecidableEq L] in
theorem SameCalls.follows_log {D : Option SlaveRef → L} {body : DbAct → Prog L DbCell DbRes} {s : Calls L (Option SlaveRef → DbCell) DbTask DbRes}
    {f : Calls L (Option SlaveRef → DbCell) DbAct DbRes} (h : SameCalls D body s f) {log : List (Nat × DbAct × DbRes)} {t : Nat}
    (hr : Recorded log f t) : Follows (byThread t log) := by
  rcases hr with hr | ⟨a, p, r, hc, hr⟩
  · rw [hr]; exact h.follows t
  · rw [hr]
    refine follows_snoc (h.follows t) ?_
    intro q ref v e
    cases e
    have := h.cur t
    rw [hc] at this
    generalize s.cur t = sc at this
    cases this with
    | handle _ _ _ hm => exact hm

omit [DecidableEq L] in
theorem SameCalls.recorded {D : Option SlaveRef → L} {body : DbAct → Prog L DbCell DbRes} {s : Calls L (Option SlaveRef → DbCell) DbTask DbRes}
    {f : Calls L (Option SlaveRef → DbCell) DbAct DbRes} (h : SameCalls D body s f) {log : List (Nat × DbAct × DbRes)} {t : Nat}
    (hr : Recorded log f t) : Recorded (log.flatMap asTasks) s t := by
  unfold Recorded
  rw [byThread_asTasks, h.hist t]
  rcases hr with hr | ⟨a, p, r, hc, hr⟩
  · rw [hr]; exact .inl rfl
  · rw [hr, List.flatMap_append]
    have hcur := h.cur t
    rw [hc] at hcur
    generalize hs : s.cur t = sc at hcur
    cases hcur with
    | op c => exact .inr ⟨_, _, r, rfl, by simp [asTask]⟩
    | handle q ref _ _ => exact .inr ⟨_, _, r, rfl, by simp [asTask]⟩
    | lookup q p0 _ =>
      cases r with
      | found ref => exact .inl (by simp [asTask])
      | ref r => exact .inr ⟨_, _, .ref r, rfl, by simp [asTask]⟩
      | done r => exact .inr ⟨_, _, .done r, rfl, by simp [asTask]⟩
      | slave r => exact .inr ⟨_, _, .slave r, rfl, by simp [asTask]⟩
      | answer r => exact .inr ⟨_, _, .answer r, rfl, by simp [asTask]⟩

/-- nobody has called `remove_slave` or `remove_all_slaves` -/
def NoRemovals (s : Calls L (Option SlaveRef → DbCell) DbTask DbRes) : Prop :=
  ∀ t, (∀ c v, (c, v) ∈ s.hist t → ¬ c.removes) ∧ ∀ c p, s.cur t = some (c, p) → ¬ c.removes

omit [DecidableEq L] in
theorem SameCalls.no_removals {D : Option SlaveRef → L} {body : DbAct → Prog L DbCell DbRes} {s : Calls L (Option SlaveRef → DbCell) DbTask DbRes}
    {f : Calls L (Option SlaveRef → DbCell) DbAct DbRes} (h : SameCalls D body s f) {log : List (Nat × DbAct × DbRes)}
    (hr : ∀ t, Recorded log f t) (hn : NoRemovals s) (t : Nat) (c : DbCallOp) (v : DbRes) (hm : (t, .op c, v) ∈ log) : ¬ (DbTask.op c).removes := by
  rw [← mem_byThread] at hm
  have old : (DbAct.op c, v) ∈ f.hist t → ¬ (DbTask.op c).removes := by
    intro hm
    refine (hn t).1 (.op c) v ?_
    rw [h.hist t]
    exact List.mem_flatMap.mpr ⟨_, hm, by simp [asTask]⟩
  rcases hr t with hr | ⟨a, p, r, hc, hr⟩
  · rw [hr] at hm; exact old hm
  · rw [hr] at hm
    rcases List.mem_append.mp hm with hm | hm
    · exact old hm
    · simp only [List.mem_singleton, Prod.mk.injEq] at hm
      obtain ⟨rfl, rfl⟩ := hm
      have hcur := h.cur t
      rw [hc] at hcur
      generalize hs : s.cur t = sc at hcur
      cases hcur with
      | op c => exact (hn t).2 _ _ hs

/-! ## The theorems -/

/-- the bodies of the methods, as programs in atomic steps of any size: they take and release other locks in pairs, use the lock of no other object of
    the databank, and compute what they compute when they are alone -/
structure DbBodies (R : Registry) (D : Option SlaveRef → L) (body : DbAct → Prog L DbCell DbRes) : Prop where
  locks : Function.Injective D
  balanced : ∀ a, (body a).Balanced
  own : ∀ a, (body a).Only D a.key
  alone : ∀ a x, (body a).run x = a.run R x

/-- **C67.** Any number of threads call methods of one databank (`add_slave`, `get_slave`) and of its slaves, and handle requests that arrived at any
    servers, at any times, in atomic steps of any size.  As long as nobody removes slaves, there is one sequential history of all of these operations in
    which each has the result it had - a request is answered by the slave the databank contains at that moment of the history - and this history grows
    as the execution goes on (`s` is an earlier state of the execution, `s'` a later one): what ended before another operation began comes before it. -/
theorem C67_adding (R : Registry) (D : Option SlaveRef → L) (body : DbAct → Prog L DbCell DbRes) (hb : DbBodies R D body)
    (x0 : Option SlaveRef → DbCell) (s s' : Calls L (Option SlaveRef → DbCell) DbTask DbRes)
    (hr : Calls.Reach (dbCode D body) (Calls.init x0) s) (hr' : Calls.Reach (dbCode D body) s s') (hn : NoRemovals s') :
    ∃ log log' y y', Legal (taskSpec R) x0 log y ∧ Legal (taskSpec R) x0 (log ++ log') y' ∧
      (∀ t, Recorded log s t) ∧ (∀ t, Recorded (log ++ log') s' t) ∧ ∀ k, s'.owners (D k) = none → s'.shared k = y' k := by
  obtain ⟨f, hf, hs⟩ := sameCalls_reach (sameCalls_init D body x0) hr
  obtain ⟨f', hf', hs'⟩ := sameCalls_reach hs hr'
  obtain ⟨log, y, h⟩ := many_reach hb.locks hb.balanced hb.own (many_init D DbAct.key body x0) hf
  obtain ⟨log', y', h'⟩ := many_reach hb.locks hb.balanced hb.own h hf'
  rw [List.nil_append] at h h'
  have he : (keySpec DbAct.key fun op => (body op).run) = actSpec R := by
    funext op x; simp only [keySpec, actSpec, hb.alone]
  have hl := h.legal
  have hl' := h'.legal
  rw [he] at hl hl'
  have hjust : ∀ (lg : List (Nat × DbAct × DbRes)) (S : Calls L (Option SlaveRef → DbCell) DbTask DbRes) F, SameCalls D body S F →
      (∀ t, Recorded lg F t) → ∀ pre post t q ref v, lg = pre ++ (t, .handle q ref, v) :: post →
        False ∨ ∃ t', (t', DbAct.lookup q, DbRes.found ref) ∈ pre := by
    intro lg S F hS hR pre post t q ref v e
    have := hS.follows_log (hR t)
    rw [e, byThread_append] at this
    have h2 : byThread t ((t, DbAct.handle q ref, v) :: post) = (DbAct.handle q ref, v) :: byThread t post := by simp [byThread]
    rw [h2] at this
    exact .inr ⟨t, mem_byThread.mp (this _ _ q ref v rfl)⟩
  have hno := hs'.no_removals h'.recorded hn
  refine ⟨log.flatMap asTasks, log'.flatMap asTasks, y, y', ?_, ?_, fun t => hs.recorded (h.recorded t), ?_, ?_⟩
  · exact legal_tasks R log x0 y (fun _ _ => False) (fun _ _ h => h.elim) (hjust log s f hs h.recorded)
      (fun t id v hm => hno t _ v (List.mem_append_left _ hm) trivial) (fun t v hm => hno t _ v (List.mem_append_left _ hm) trivial) hl
  · rw [← List.flatMap_append]
    exact legal_tasks R _ x0 y' (fun _ _ => False) (fun _ _ h => h.elim) (hjust _ s' f' hs' h'.recorded)
      (fun t id v hm => hno t _ v hm trivial) (fun t v hm => hno t _ v hm trivial) hl'
  · intro t; rw [← List.flatMap_append]; exact hs'.recorded (h'.recorded t)
  · intro k hk; rw [hs'.shared]; exact h'.free k (by rw [← hs'.owners]; exact hk)

/-- **C67.** Also when slaves are removed there is one sequential history of the operations, but in it a request is two operations of its thread: the
    lookup of the slave in the map, and - when it was found - the handling by the slave object that was found, which may have left the map since.
    (`asTask`: how the entries of a thread in the history correspond to its calls.) -/
theorem C67_two_steps (R : Registry) (D : Option SlaveRef → L) (body : DbAct → Prog L DbCell DbRes) (hb : DbBodies R D body)
    (x0 : Option SlaveRef → DbCell) (s : Calls L (Option SlaveRef → DbCell) DbTask DbRes)
    (hr : Calls.Reach (dbCode D body) (Calls.init x0) s) :
    ∃ log y, Legal (actSpec R) x0 log y ∧ (∀ t, Follows (byThread t log)) ∧ (∀ t, Recorded (log.flatMap asTasks) s t) ∧
      ∀ k, s.owners (D k) = none → s.shared k = y k := by
  obtain ⟨f, hf, hs⟩ := sameCalls_reach (sameCalls_init D body x0) hr
  obtain ⟨log, y, h⟩ := many_reach hb.locks hb.balanced hb.own (many_init D DbAct.key body x0) hf
  have he : (keySpec DbAct.key fun op => (body op).run) = actSpec R := by
    funext op x; simp only [keySpec, actSpec, hb.alone]
  have hl := h.legal
  rw [he] at hl
  exact ⟨_, y, hl, fun t => hs.follows_log (h.recorded t), fun t => hs.recorded (h.recorded t), (fun k hk => by
    rw [hs.shared]; exact h.free k (by rw [← hs.owners]; exact hk))⟩


/-! ## What the operations on the map do -/

theorem has_keys {κ ν ν' : Type} [DecidableEq κ] : ∀ (d : List (κ × ν)) (d' : List (κ × ν')) (k : κ), d.map (·.1) = d'.map (·.1) →
    Dict.has d k = Dict.has d' k
  | [], [], _, _ => rfl
  | [], _ :: _, _, h => by cases h
  | _ :: _, [], _, h => by cases h
  | (a, v) :: d, (b, w) :: d', k, h => by
    simp only [List.map_cons, List.cons.injEq] at h
    obtain ⟨rfl, h⟩ := h
    simp only [Dict.has, Dict.get?]
    by_cases e : a = k
    · simp [e]
    · simp only [e, if_false]; exact has_keys d d' k h

theorem set_keys {κ ν ν' : Type} [DecidableEq κ] (d : List (κ × ν)) (d' : List (κ × ν')) (k : κ) (v : ν) (v' : ν') (h : d.map (·.1) = d'.map (·.1)) :
    (Dict.set d k v).map (·.1) = (Dict.set d' k v').map (·.1) := by
  rw [show (Dict.set d k v).map (·.1) = (Dict.set d k v).map Prod.fst from rfl, keys_set,
    show (Dict.set d' k v').map (·.1) = (Dict.set d' k v').map Prod.fst from rfl, keys_set, show d.map Prod.fst = d'.map Prod.fst from h]

theorem erase_keys {κ ν ν' : Type} [DecidableEq κ] : ∀ (d : List (κ × ν)) (d' : List (κ × ν')) (k : κ), d.map (·.1) = d'.map (·.1) →
    (Dict.erase d k).map (·.1) = (Dict.erase d' k).map (·.1)
  | [], [], _, _ => rfl
  | [], _ :: _, _, h => by cases h
  | _ :: _, [], _, h => by cases h
  | (a, v) :: d, (b, w) :: d', k, h => by
    simp only [List.map_cons, List.cons.injEq] at h
    obtain ⟨rfl, h⟩ := h
    have ih := erase_keys d d' k h
    simp only [Dict.erase] at ih ⊢
    by_cases e : a = k
    · simpa [e] using ih
    · simpa [e] using ih

/-- **C67.** `add_slave`, `get_slave`, `remove_slave`, `remove_all_slaves` of the concurrent model raise what those of the sequential model
    (Model/Databank.lean) raise, and leave the same slave ids in the same order, in databanks with the same slave ids. -/
theorem C67_sequential (R : Registry) (m : DbCell) (s : DbSt) (hk : m.slaves.map (·.1) = s.db.slaves.map (·.1)) (id : Int) (u : Bool) :
    ((∀ e, ((DbAct.op (.add id u)).run R m).1 = .ref (.error e) ↔ (addSlave id u none s).1 = .error e) ∧
      ((DbAct.op (.add id u)).run R m).2.slaves.map (·.1) = (addSlave id u none s).2.db.slaves.map (·.1)) ∧
    ((∀ e, ((DbAct.op (.get id)).run R m).1 = .ref (.error e) ↔ (getSlave id s).1 = .error e) ∧
      ((DbAct.op (.get id)).run R m).2.slaves.map (·.1) = (getSlave id s).2.db.slaves.map (·.1)) ∧
    ((∀ r, ((DbAct.op (.remove id)).run R m).1 = .done r ↔ (removeSlave id s).1 = r) ∧
      ((DbAct.op (.remove id)).run R m).2.slaves.map (·.1) = (removeSlave id s).2.db.slaves.map (·.1)) ∧
    ((∀ r, ((DbAct.op .removeAll).run R m).1 = .done r ↔ (removeAllSlaves s).1 = r) ∧
      ((DbAct.op .removeAll).run R m).2.slaves.map (·.1) = (removeAllSlaves s).2.db.slaves.map (·.1)) := by
  have hh : Dict.has m.slaves id = Dict.has s.db.slaves id := has_keys _ _ id hk
  refine ⟨?_, ?_, ?_, ?_⟩
  · simp only [DbAct.run, addSlave]
    by_cases hb : id ≤ 0 ∨ id > 255
    · rw [if_pos hb, if_pos hb]
      exact ⟨fun e => by simp, hk⟩
    · rw [if_neg hb, if_neg hb]
      by_cases hd : Dict.has s.db.slaves id = true
      · rw [if_pos hd, if_pos (hh.trans hd)]
        exact ⟨fun e => by simp, hk⟩
      · rw [if_neg hd, if_neg (by rw [hh]; exact hd)]
        exact ⟨fun e => by simp, set_keys _ _ _ _ _ hk⟩
  · simp only [DbAct.run, getSlave]
    have h1 : (Dict.get? m.slaves id).isSome = (Dict.get? s.db.slaves id).isSome := hh
    cases h2 : Dict.get? m.slaves id <;> cases h3 : Dict.get? s.db.slaves id <;> rw [h2, h3] at h1 <;>
      first | cases h1; done | exact ⟨fun e => by simp, hk⟩
  · simp only [DbAct.run, removeSlave]
    by_cases hd : Dict.has s.db.slaves id = true
    · rw [if_pos hd, if_pos (hh.trans hd)]
      exact ⟨fun e => by simp, erase_keys _ _ _ hk⟩
    · rw [if_neg hd, if_neg (by rw [hh]; exact hd)]
      exact ⟨fun e => by simp, hk⟩
  · exact ⟨fun r => by simp [DbAct.run, removeAllSlaves], rfl⟩

/-! ## Non-vacuity and counterexample -/

theorem oneStep_bodies (R : Registry) : DbBodies R (fun k => k) (oneStep (DbAct.run R)) :=
  ⟨fun _ _ h => h, fun _ _ _ => rfl, fun _ _ => trivial, fun _ _ => rfl⟩

/-- the state after thread `t` has called one method, with nobody else running -/
def Calls.after (R : Registry) (s : Calls (Option SlaveRef) (Option SlaveRef → DbCell) DbTask DbRes) (t : Nat) (c : DbCallOp) :
    Calls (Option SlaveRef) (Option SlaveRef → DbCell) DbTask DbRes :=
  { s with shared := (actSpec R (.op c) s.shared).2, hist := Function.update s.hist t (s.hist t ++ [(.op c, (actSpec R (.op c) s.shared).1)]) }

/-- the code with each body in one step -/
abbrev plainCode (R : Registry) : DbTask → Prog (Option SlaveRef) (Option SlaveRef → DbCell) DbRes := dbCode (fun k => k) (oneStep (DbAct.run R))

/-- one action under the lock of cell `k`, from the moment before the lock is taken to the moment after it was released -/
theorem critical {R : Registry} {s : Calls (Option SlaveRef) (Option SlaveRef → DbCell) DbTask DbRes} {t : Nat} {c : DbTask} {a : DbAct}
    (g : DbRes → Prog (Option SlaveRef) (Option SlaveRef → DbCell) DbRes)
    (hc : s.cur t = some (c, (keyCode (fun k => k) DbAct.key (oneStep (DbAct.run R)) a).bind g)) (ho : s.owners a.key = none) :
    Calls.Reach (plainCode R) s { s with shared := (actSpec R a s.shared).2, cur := Function.update s.cur t (some (c, g (actSpec R a s.shared).1)) } := by
  have r1 : Calls.Step (plainCode R) s ⟨s.shared, Function.update s.owners a.key (some (t, 1)), Function.update s.cur t (some (c,
      .step (fun x => Function.update x a.key (a.run R (x a.key)).2) fun x => .rel a.key (g (a.run R (x a.key)).1))), s.hist⟩ := .act t hc (by
    show Option.map _ (acquire s.owners t a.key) = _
    simp only [acquire, ho, Option.map_some]
    rfl)
  have r2 : Calls.Step (plainCode R) ⟨s.shared, Function.update s.owners a.key (some (t, 1)), Function.update s.cur t (some (c,
      .step (fun x => Function.update x a.key (a.run R (x a.key)).2) fun x => .rel a.key (g (a.run R (x a.key)).1))), s.hist⟩ ⟨(actSpec R a s.shared).2, Function.update s.owners a.key (some (t, 1)), Function.update s.cur t (some (c,
      .rel a.key (g (actSpec R a s.shared).1))), s.hist⟩ := by
    have := Calls.Step.act (code := plainCode R) (s := ⟨s.shared, Function.update s.owners a.key (some (t, 1)), Function.update s.cur t (some (c,
      .step (fun x => Function.update x a.key (a.run R (x a.key)).2) fun x => .rel a.key (g (a.run R (x a.key)).1))), s.hist⟩) t
      (Function.update_self t _ s.cur) rfl
    simp only [Function.update_idem] at this
    exact this
  have r3 : Calls.Step (plainCode R) ⟨(actSpec R a s.shared).2, Function.update s.owners a.key (some (t, 1)), Function.update s.cur t (some (c,
      .rel a.key (g (actSpec R a s.shared).1))), s.hist⟩
      { s with shared := (actSpec R a s.shared).2, cur := Function.update s.cur t (some (c, g (actSpec R a s.shared).1)) } := by
    have := Calls.Step.act (code := plainCode R) (s := ⟨(actSpec R a s.shared).2, Function.update s.owners a.key (some (t, 1)),
      Function.update s.cur t (some (c, .rel a.key (g (actSpec R a s.shared).1))), s.hist⟩) t (p' := g (actSpec R a s.shared).1)
      (x := (actSpec R a s.shared).2) (o := s.owners) (Function.update_self t _ s.cur) (by
        show Option.map _ (release _ t a.key) = _
        have he : Function.update s.owners a.key none = s.owners := by rw [← ho]; exact Function.update_eq_self _ _
        simp [release, he])
    simp only [Function.update_idem] at this
    exact this
  exact .step (.step (.step .refl r1) r2) r3

theorem calls_after (R : Registry) (s : Calls (Option SlaveRef) (Option SlaveRef → DbCell) DbTask DbRes) (t : Nat) (c : DbCallOp)
    (hc : s.cur t = none) (ho : ∀ k, s.owners k = none) : Calls.Reach (plainCode R) s (Calls.after R s t c) := by
  have h1 : Calls.Step (plainCode R) s _ := .call t (.op c) hc
  have h2 := critical (R := R) (s := { s with cur := Function.update s.cur t (some (.op c, plainCode R (.op c))) }) (t := t) (c := .op c) (a := .op c) .ret
    (by simp only [Function.update_self]; rfl) (ho _)
  have h3 := Calls.Step.back (code := plainCode R) (s := ⟨(actSpec R (.op c) s.shared).2, s.owners,
    Function.update (Function.update s.cur t (some (.op c, plainCode R (.op c)))) t (some (.op c, .ret (actSpec R (.op c) s.shared).1)), s.hist⟩) t (Function.update_self t _ _)
  have := Calls.Reach.step (Calls.Reach.trans (.step .refl h1) h2) h3
  simp only [Function.update_idem] at this
  rw [show Function.update s.cur t none = s.cur by rw [← hc]; exact Function.update_eq_self _ _] at this
  exact this

/-- thread `t` has looked up the slave for a request and goes on with it -/
def Calls.looked (R : Registry) (s : Calls (Option SlaveRef) (Option SlaveRef → DbCell) DbTask DbRes) (t : Nat) (q : DbRequest) (ref : SlaveRef) :
    Calls (Option SlaveRef) (Option SlaveRef → DbCell) DbTask DbRes :=
  { s with cur := Function.update s.cur t (some (.request q, keyCode (fun k => k) DbAct.key (oneStep (DbAct.run R)) (.handle q ref))) }

theorem calls_looked (R : Registry) (s : Calls (Option SlaveRef) (Option SlaveRef → DbCell) DbTask DbRes) (t : Nat) (q : DbRequest) (ref : SlaveRef)
    (hc : s.cur t = none) (ho : ∀ k, s.owners k = none) (hf : Dict.get? (s.shared none).slaves q.id = some ref) :
    Calls.Reach (plainCode R) s (Calls.looked R s t q ref) := by
  have h1 : Calls.Step (plainCode R) s _ := .call t (.request q) hc
  have h2 := critical (R := R) (s := { s with cur := Function.update s.cur t (some (.request q, plainCode R (.request q))) }) (t := t) (c := .request q)
    (a := .lookup q) (afterLookup (fun k => k) (oneStep (DbAct.run R)) q) (by simp only [Function.update_self]; rfl) (ho _)
  have hx : actSpec R (.lookup q) s.shared = (.found ref, s.shared) := by
    simp only [actSpec, DbAct.key, DbAct.run, hf]
    rw [Function.update_eq_self]
  have := Calls.Reach.trans (.step .refl h1) h2
  simp only [Function.update_idem, hx] at this
  exact this

/-- ... and finishes it -/
def Calls.handled (R : Registry) (s : Calls (Option SlaveRef) (Option SlaveRef → DbCell) DbTask DbRes) (t : Nat) (q : DbRequest) (ref : SlaveRef) :
    Calls (Option SlaveRef) (Option SlaveRef → DbCell) DbTask DbRes :=
  ⟨(actSpec R (.handle q ref) s.shared).2, s.owners, Function.update s.cur t none,
    Function.update s.hist t (s.hist t ++ [(.request q, (actSpec R (.handle q ref) s.shared).1)])⟩

theorem calls_handled (R : Registry) (s : Calls (Option SlaveRef) (Option SlaveRef → DbCell) DbTask DbRes) (t : Nat) (q : DbRequest) (ref : SlaveRef)
    (hc : s.cur t = some (.request q, keyCode (fun k => k) DbAct.key (oneStep (DbAct.run R)) (.handle q ref))) (ho : ∀ k, s.owners k = none) :
    Calls.Reach (plainCode R) s (Calls.handled R s t q ref) := by
  have h2 := critical (R := R) (s := s) (t := t) (c := .request q) (a := .handle q ref) .ret (by rw [hc]; rfl) (ho _)
  have h3 := Calls.Step.back (code := plainCode R) (s := ⟨(actSpec R (.handle q ref) s.shared).2, s.owners,
    Function.update s.cur t (some (.request q, .ret (actSpec R (.handle q ref) s.shared).1)), s.hist⟩) t (Function.update_self t _ _)
  have := Calls.Reach.step h2 h3
  simp only [Function.update_idem] at this
  exact this

/-- the results of operations done one after the other -/
def resultsOf (R : Registry) : List DbTask → (Option SlaveRef → DbCell) → List DbRes
  | [], _ => []
  | c :: cs, x => (taskSpec R c x).1 :: resultsOf R cs (taskSpec R c x).2

theorem legal_results {R : Registry} {log : List (Nat × DbTask × DbRes)} {x y : Option SlaveRef → DbCell} (h : Legal (taskSpec R) x log y) :
    resultsOf R (log.map (·.2.1)) x = log.map (·.2.2) := by
  induction log generalizing x with
  | nil => rfl
  | cons e log ih =>
    obtain ⟨t, c, v⟩ := e
    simp only [List.map_cons, resultsOf]
    rw [h.1, ih h.2]

/-- a result in numbers -/
def DbRes.numbers : DbRes → List Int
  | .slave (.values (.ok vs)) => vs
  | .answer (.ok (some b)) => b.map fun x => (x.toNat : Int)
  | .ref (.ok _) => [1]
  | .done (.ok _) => [1]
  | .slave (.done (.ok _)) => [1]
  | _ => []

theorem interleave_one {Op Res : Type} (a : Op × Res) : ∀ (log : List (Nat × Op × Res)) (bs : List (Op × Res)), byThread 0 log = [a] → byThread 1 log = bs →
    (∀ t, 2 ≤ t → byThread t log = []) → ∃ n, log.map (·.2) = bs.take n ++ a :: bs.drop n
  | [], _, h, _, _ => by cases h
  | (t, e) :: log, bs, h0, h1, h2 => by
    have hc : ∀ t', byThread t' ((t, e) :: log) = (if t = t' then [e] else []) ++ byThread t' log := by
      intro t'
      by_cases ht : t = t' <;> simp [byThread, ht]
    rw [hc] at h0 h1
    have h2' : ∀ t', 2 ≤ t' → byThread t' log = [] := by
      intro t' ht'
      have := h2 t' ht'
      rw [hc] at this
      exact (List.append_eq_nil_iff.mp this).2
    have ht : t = 0 ∨ t = 1 := by
      by_contra hcon
      have := h2 t (by omega)
      rw [hc] at this
      simp at this
    rcases ht with rfl | rfl
    · simp only [if_true, List.singleton_append, List.cons.injEq, show ¬ (0 : Nat) = 1 by decide, if_false, List.nil_append] at h0 h1
      obtain ⟨rfl, h0⟩ := h0
      refine ⟨0, ?_⟩
      simp only [List.take_zero, List.drop_zero, List.nil_append, List.map_cons, List.cons.injEq, true_and]
      have : ∀ (lg : List (Nat × Op × Res)), byThread 0 lg = [] → (∀ t, 2 ≤ t → byThread t lg = []) → lg.map (·.2) = byThread 1 lg := by
        intro lg g0 g2
        have : lg.filter (fun e => e.1 = 1) = lg := by
          rw [List.filter_eq_self]
          rintro ⟨t, e⟩ he
          by_contra hne
          have hm : e ∈ byThread t lg := by simp [byThread]; exact he
          have : t ≠ 1 := by simpa using hne
          rcases Nat.lt_or_ge t 2 with h | h
          · have : t = 0 := by omega
            subst this; rw [g0] at hm; cases hm
          · rw [g2 t h] at hm; cases hm
        unfold byThread
        rw [this]
      rw [← h1]; exact this log h0 h2'
    · simp only [show ¬ (1 : Nat) = 0 by decide, if_false, List.nil_append, if_true, List.singleton_append] at h0 h1
      cases bs with
      | nil => cases h1
      | cons b bs =>
        simp only [List.cons.injEq] at h1
        obtain ⟨rfl, h1⟩ := h1
        obtain ⟨n, hn⟩ := interleave_one a log bs h0 h1 h2'
        exact ⟨n + 1, by simp [hn]⟩

/-- the request: write 7 to register 0 of slave 1 -/
def exWriteReq : DbRequest := ⟨.tcp, 1, [0, 1, 0, 0, 0, 6, 1, 6, 0, 0, 0, 7], ⟨by decide, [6, 0, 0, 0, 7], _, rfl⟩⟩

/-- the slave -/
def exRef : SlaveRef := ⟨1, true, 0⟩

/-- the operations of the user -/
def exUser : List DbCallOp := [.add 1 true, .slave exRef (.addBlock "a" 3 0 1), .remove 1, .slave exRef (.getValues "a" 0 1), .slave exRef (.getValues "a" 0 1)]

abbrev DbCalls := Calls (Option SlaveRef) (Option SlaveRef → DbCell) DbTask DbRes
/-- the user makes slave 1 with a register at address 0 -/
def exR1 : DbCalls := (Calls.init newCells).after [] 1 (.add 1 true)
def exR2 : DbCalls := exR1.after [] 1 (.slave exRef (.addBlock "a" 3 0 1))
/-- the server begins with the request and finds slave 1 -/
def exR3 : DbCalls := exR2.looked [] 0 exWriteReq exRef
/-- the user removes slave 1 and reads the register of the slave object -/
def exR4 : DbCalls := exR3.after [] 1 (.remove 1)
def exR5 : DbCalls := exR4.after [] 1 (.slave exRef (.getValues "a" 0 1))
/-- the server finishes with the request -/
def exR6 : DbCalls := exR5.handled [] 0 exWriteReq exRef
/-- the user reads the register again -/
def exR7 : DbCalls := exR6.after [] 1 (.slave exRef (.getValues "a" 0 1))

theorem exR7_reach : Calls.Reach (plainCode []) (Calls.init newCells) exR7 := by
  refine Calls.Reach.trans (b := exR1) (calls_after [] (Calls.init newCells) 1 _ rfl fun _ => rfl) ?_
  refine Calls.Reach.trans (b := exR2) (calls_after [] exR1 1 _ rfl fun _ => rfl) ?_
  refine Calls.Reach.trans (b := exR3) (calls_looked [] exR2 0 exWriteReq exRef rfl (fun _ => rfl) (by decide +kernel)) ?_
  refine Calls.Reach.trans (b := exR4) (calls_after [] exR3 1 _ rfl fun _ => rfl) ?_
  refine Calls.Reach.trans (b := exR5) (calls_after [] exR4 1 _ rfl fun _ => rfl) ?_
  refine Calls.Reach.trans (b := exR6) (calls_handled [] exR5 0 exWriteReq exRef rfl fun _ => rfl) ?_
  exact calls_after [] exR6 1 _ rfl fun _ => rfl

/-- the results of the user, and the answer of the server -/
theorem exR7_hist : (exR7.hist 1).map (·.1) = exUser.map .op ∧ (exR7.hist 1).map (·.2.numbers) = [[1], [1], [1], [0], [7]] ∧
    (exR7.hist 0).map (·.1) = [.request exWriteReq] ∧ (exR7.hist 0).map (·.2.numbers) = [[0, 1, 0, 0, 0, 6, 1, 6, 0, 0, 0, 7]] ∧
    (∀ t, 2 ≤ t → exR7.hist t = []) ∧ ∀ t, exR7.cur t = none := by
  refine ⟨rfl, by decide +kernel, rfl, by decide +kernel, ?_, ?_⟩
  · intro t ht
    have h0 : t ≠ 0 := by omega
    have h1 : t ≠ 1 := by omega
    simp [exR7, exR6, exR5, exR4, exR3, exR2, exR1, Calls.after, Calls.handled, Calls.looked, Calls.init, Function.update_of_ne, h0, h1]
  · intro t
    by_cases h0 : t = 0
    · subst h0; simp [exR7, exR6, exR5, exR4, exR3, exR2, exR1, Calls.after, Calls.handled, Calls.looked, Calls.init]
    · simp [exR7, exR6, exR5, exR4, exR3, exR2, exR1, Calls.after, Calls.handled, Calls.looked, Calls.init, Function.update_of_ne]

/-- **`C67_adding` does not hold with removals.**  The user has removed slave 1 from the databank; after that, a request for slave 1 which was looked up
    before changes the register of the slave - the user, who still has the slave object, reads 0, then 7 - and is answered as if the slave were
    there.  No order of the operations explains this: after `remove_slave(1)` no request for slave 1 is answered. -/
theorem C67_false_removing : ∃ s : DbCalls, Calls.Reach (plainCode []) (Calls.init newCells) s ∧ (∀ t, s.cur t = none) ∧
    ¬ ∃ log y, Legal (taskSpec []) newCells log y ∧ ∀ t, byThread t log = s.hist t := by
  refine ⟨exR7, exR7_reach, exR7_hist.2.2.2.2.2, ?_⟩
  rintro ⟨log, y, hl, hb⟩
  obtain ⟨h1, h2, h3, h4, h5, _⟩ := exR7_hist
  obtain ⟨a, ha⟩ : ∃ a, exR7.hist 0 = [a] := ⟨_, rfl⟩
  rw [ha] at h3 h4
  simp only [List.map_cons, List.map_nil, List.cons.injEq, and_true] at h3 h4
  obtain ⟨n, hn⟩ := interleave_one a log (exR7.hist 1) (by rw [hb, ha]) (hb 1) (fun t ht => by rw [hb, h5 t ht])
  have hr := legal_results hl
  have e1 : log.map (·.2.1) = (exUser.map DbTask.op).take n ++ .request exWriteReq :: (exUser.map DbTask.op).drop n := by
    rw [show log.map (·.2.1) = (log.map (·.2)).map (·.1) by simp, hn, ← h1, ← h3]
    simp [List.map_take, List.map_drop]
  have e2 : (log.map (·.2.2)).map DbRes.numbers = ([[1], [1], [1], [0], [7]] : List (List Int)).take n ++ [0, 1, 0, 0, 0, 6, 1, 6, 0, 0, 0, 7] ::
      ([[1], [1], [1], [0], [7]] : List (List Int)).drop n := by
    rw [show (log.map (·.2.2)).map DbRes.numbers = (log.map (·.2)).map (·.2.numbers) by simp, hn, ← h2, ← h4]
    simp [List.map_take, List.map_drop]
  rw [e1] at hr
  rw [← hr] at e2
  have hsmall : ∀ n, n < 6 → (resultsOf [] ((exUser.map DbTask.op).take n ++ .request exWriteReq :: (exUser.map DbTask.op).drop n) newCells).map
      DbRes.numbers ≠ ([[1], [1], [1], [0], [7]] : List (List Int)).take n ++ [0, 1, 0, 0, 0, 6, 1, 6, 0, 0, 0, 7] ::
      ([[1], [1], [1], [0], [7]] : List (List Int)).drop n := by decide +kernel
  rcases Nat.lt_or_ge n 6 with h | h
  · exact hsmall n h e2
  · rw [List.take_of_length_le (by simp [exUser]; omega), List.drop_eq_nil_of_le (by simp [exUser]; omega),
      List.take_of_length_le (by simp; omega), List.drop_eq_nil_of_le (by simp; omega)] at e2
    exact hsmall 5 (by omega) e2

/-! ### Broadcasts while the map changes -/

/-- what a slave object does with a broadcast: the exception it raises, if any, and its new state -/
def cellBroadcast (R : Registry) (pdu : Bytes) (m : DbCell) : Option PyErr × DbCell :=
  ((afterBroadcast R pdu m.slave).1, { m with slave := (afterBroadcast R pdu m.slave).2 })

/-- the exception of a result -/
def DbRes.raised : DbRes → Option PyErr
  | .slave (.response (.error e)) => some e
  | _ => none

theorem handle_cell (R : Registry) (ref : SlaveRef) (pdu : Bytes) (m : DbCell) :
    (((DbAct.op (.slave ref (.handle pdu true))).run R m).1.raised, ((DbAct.op (.slave ref (.handle pdu true))).run R m).2) = cellBroadcast R pdu m := by
  simp only [DbAct.run, SlaveCall.run, onHeap, cellBroadcast, afterBroadcast]
  generalize handleRequest R m.slave.sl pdu true m.slave.heap = r
  obtain ⟨_ | _, _⟩ := r <;> rfl

omit [DecidableEq L] in
theorem broadcastSteps_alone (R : Registry) (D : Option SlaveRef → L) (body : DbAct → Prog L DbCell DbRes)
    (hspec : ∀ a x, (body a).run x = a.run R x) (pdu : Bytes) (ms : List (Int × SlaveRef)) (hk : (ms.map Prod.fst).Nodup)
    (fuel i : Nat) (hf : i + fuel = ms.length) (x : Option SlaveRef → DbCell) (hx : (x none).slaves = ms) (hr : ((ms.drop i).map (·.2)).Nodup) :
    let refs := (ms.drop i).map (·.2)
    let reached := (refs.takeWhile fun ref => (cellBroadcast R pdu (x (some ref))).1.isNone).length + 1
    (∀ ref, ((broadcastSteps D body pdu ms.length fuel i).run x).2 (some ref) =
      if ref ∈ refs.take reached then (cellBroadcast R pdu (x (some ref))).2 else x (some ref)) ∧
    ((broadcastSteps D body pdu ms.length fuel i).run x).2 none = x none ∧
    ((broadcastSteps D body pdu ms.length fuel i).run x).1 = refs.findSome? fun ref => (cellBroadcast R pdu (x (some ref))).1 := by
  induction fuel generalizing i x with
  | zero =>
    have : ms.drop i = [] := List.drop_eq_nil_of_le (by omega)
    simp [broadcastSteps, Prog.run, hx, this]
  | succ fuel ih =>
    have hi : i < ms.length := by omega
    obtain ⟨id, ref, hm⟩ : ∃ id ref, ms[i] = (id, ref) := ⟨_, _, rfl⟩
    have hd : ms.drop i = (id, ref) :: ms.drop (i + 1) := by rw [List.drop_eq_getElem_cons hi, hm]
    have hg : Dict.get? ms id = some ref := get?_of_mem hk (by rw [← hm]; exact List.getElem_mem hi)
    have hstep : ∀ a, (((body a).withLock (D a.key)).onKey a.key).run x = ((a.run R (x a.key)).1, Function.update x a.key (a.run R (x a.key)).2) := by
      intro a; rw [Prog.run_onKey, Prog.run_withLock, hspec]
    have hc := handle_cell R ref pdu (x (some ref))
    have hrun : (broadcastSteps D body pdu ms.length (fuel + 1) i).run x =
        (match (cellBroadcast R pdu (x (some ref))).1 with
         | some e => (some e, Function.update x (some ref) (cellBroadcast R pdu (x (some ref))).2)
         | none => (broadcastSteps D body pdu ms.length fuel (i + 1)).run (Function.update x (some ref) (cellBroadcast R pdu (x (some ref))).2)) := by
      have hgi : ms[i]? = some (id, ref) := by rw [List.getElem?_eq_getElem hi, hm]
      simp only [broadcastSteps, Prog.run, id_eq, hx, if_true, hgi, hg]
      have hs := hstep (.op (.slave ref (.handle pdu true)))
      dsimp only [DbAct.key] at hs
      rw [Prog.run_bind, hs, ← hc]
      generalize (DbAct.op (.slave ref (.handle pdu true))).run R (x (some ref)) = rr
      obtain ⟨v, m⟩ := rr
      cases v with
      | slave r =>
        cases r with
        | response r => cases r <;> rfl
        | done r => rfl
        | values r => rfl
      | ref r => rfl
      | done r => rfl
      | found r => rfl
      | answer r => rfl
    rw [hd] at hr ⊢
    simp only [List.map_cons, List.nodup_cons] at hr
    obtain ⟨hr1, hr2⟩ := hr
    simp only [List.map_cons]
    rw [hrun]
    cases he : (cellBroadcast R pdu (x (some ref))).1 with
    | some e =>
      simp only [he, List.takeWhile_cons, Option.isNone_some, List.findSome?_cons]
      refine ⟨fun r => ?_, by simp, trivial⟩
      by_cases h : r = ref
      · subst h; simp
      · simp [h, Function.update_of_ne]
    | none =>
      obtain ⟨g1, g2, g3⟩ := ih (i + 1) (by omega) (Function.update x (some ref) (cellBroadcast R pdu (x (some ref))).2)
        (by simpa using hx) hr2
      have hsame : ∀ r ∈ (ms.drop (i + 1)).map (·.2), Function.update x (some ref) (cellBroadcast R pdu (x (some ref))).2 (some r) = x (some r) := by
        intro r hr
        exact Function.update_of_ne (fun h => hr1 (by cases h; exact hr)) _ _
      have ht : (((ms.drop (i + 1)).map (·.2)).takeWhile fun r =>
          (cellBroadcast R pdu (Function.update x (some ref) (cellBroadcast R pdu (x (some ref))).2 (some r))).1.isNone) =
          ((ms.drop (i + 1)).map (·.2)).takeWhile fun r => (cellBroadcast R pdu (x (some r))).1.isNone :=
        takeWhile_congr' fun r hr => by rw [hsame r hr]
      rw [ht] at g1
      simp only [he, List.takeWhile_cons, Option.isNone_none, List.findSome?_cons, if_true, List.length_cons, List.take_succ_cons]
      refine ⟨fun r => ?_, ?_, ?_⟩
      · rw [g1 r]
        by_cases h : r = ref
        · subst h
          rw [if_neg (fun h => hr1 (List.mem_of_mem_take h))]
          simp
        · simp [h, Function.update_of_ne]
      · rw [g2]; simp
      · rw [g3]
        exact findSome?_congr' fun r hr => by rw [hsame r hr]

omit [DecidableEq L] in
/-- **C67.** A broadcast that nobody disturbs is handled by the slaves in the order of the map, up to the first that raises an exception. -/
theorem C67_broadcast_alone (R : Registry) (D : Option SlaveRef → L) (body : DbAct → Prog L DbCell DbRes)
    (hspec : ∀ a x, (body a).run x = a.run R x) (pdu : Bytes) (x : Option SlaveRef → DbCell) (hk : ((x none).slaves.map Prod.fst).Nodup)
    (hr : ((x none).slaves.map (·.2)).Nodup) :
    let refs := (x none).slaves.map (·.2)
    let reached := (refs.takeWhile fun ref => (cellBroadcast R pdu (x (some ref))).1.isNone).length + 1
    (∀ ref, ((broadcastTask D body pdu).run x).2 (some ref) =
      if ref ∈ refs.take reached then (cellBroadcast R pdu (x (some ref))).2 else x (some ref)) ∧
    ((broadcastTask D body pdu).run x).2 none = x none ∧
    ((broadcastTask D body pdu).run x).1 = refs.findSome? fun ref => (cellBroadcast R pdu (x (some ref))).1 := by
  exact broadcastSteps_alone R D body hspec pdu (x none).slaves hk _ 0 (by simp) x rfl hr

/-- slaves 1 and 2, each with a register at address 0 -/
def exPair : Option SlaveRef → DbCell :=
  (((((Calls.init newCells : DbCalls).after [] 1 (.add 1 true)).after [] 1 (.slave ⟨1, true, 0⟩ (.addBlock "a" 3 0 1))).after [] 1 (.add 2 true)).after [] 1
    (.slave ⟨2, true, 1⟩ (.addBlock "a" 3 0 1))).shared

example : ((exPair none).slaves.map Prod.fst).Nodup ∧ ((exPair none).slaves.map (·.2)).Nodup := by decide +kernel
example : (exPair none).slaves = [(1, ⟨1, true, 0⟩), (2, ⟨2, true, 1⟩)] := by decide +kernel

/-- a server handles a broadcast (write 7 to register 0); the user adds slave 3 -/
def exAdding (t : Nat) : Prog (Option SlaveRef) (Option SlaveRef → DbCell) (Option PyErr) :=
  if t = 0 then broadcastTask (fun k => k) (oneStep (DbAct.run [])) [6, 0, 0, 0, 7]
  else if t = 1 then (plainCode [] (.op (.add 3 true))).bind fun _ => .ret none
  else .ret none

/-- **The broadcast loop does not hold the lock of the map.**  When a slave is added while a broadcast is handled, the loop ends with a RuntimeError
    ("dictionary changed size during iteration"): slave 1 has executed the request, slave 2 has not, and a response is sent to a broadcast. -/
theorem C67_false_broadcast :
    (∃ s, Sys.Reach (Sys.init exPair exAdding) s ∧ s.progs 0 = .ret (some .runtimeError) ∧ s.progs 1 = .ret none ∧
      (s.shared none).slaves.map (·.1) = [1, 2, 3] ∧
      (Modbus.getValues "a" 0 1 (s.shared (some ⟨1, true, 0⟩)).slave.sl (s.shared (some ⟨1, true, 0⟩)).slave.heap).1 = .ok [7] ∧
      (Modbus.getValues "a" 0 1 (s.shared (some ⟨2, true, 1⟩)).slave.sl (s.shared (some ⟨2, true, 1⟩)).slave.heap).1 = .ok [0]) ∧
    ∀ h, dbExcept [] [6, 0, 0, 0, 7] .runtimeError h = (.ok (some [0x86, 4]), h) := by
  refine ⟨⟨_, reach_of_schedule [0, 0, 0, 0, 0, 0, 1, 1, 1, 0] _ _ rfl, rfl, rfl, ?_, ?_, ?_⟩, fun h => rfl⟩
  · decide +kernel
  · decide +kernel
  · decide +kernel

/-- **The same at the end of the loop**: slave 3 is added when both slaves have executed the broadcast; the loop still ends with a RuntimeError, and a
    response saying that the request failed is sent to a broadcast that everybody has executed. -/
theorem C67_false_broadcast_end :
    ∃ s, Sys.Reach (Sys.init exPair exAdding) s ∧ s.progs 0 = .ret (some .runtimeError) ∧ s.progs 1 = .ret none ∧
      (Modbus.getValues "a" 0 1 (s.shared (some ⟨1, true, 0⟩)).slave.sl (s.shared (some ⟨1, true, 0⟩)).slave.heap).1 = .ok [7] ∧
      (Modbus.getValues "a" 0 1 (s.shared (some ⟨2, true, 1⟩)).slave.sl (s.shared (some ⟨2, true, 1⟩)).slave.heap).1 = .ok [7] := by
  refine ⟨_, reach_of_schedule [0, 0, 0, 0, 0, 0, 0, 0, 0, 0, 0, 1, 1, 1, 0] _ _ rfl, rfl, rfl, ?_, ?_⟩
  · decide +kernel
  · decide +kernel

/-- a server handles a broadcast; the user removes slave 2 -/
def exRemoving (t : Nat) : Prog (Option SlaveRef) (Option SlaveRef → DbCell) (Option PyErr) :=
  if t = 0 then broadcastTask (fun k => k) (oneStep (DbAct.run [])) [6, 0, 0, 0, 7]
  else if t = 1 then (plainCode [] (.op (.remove 2))).bind fun _ => .ret none
  else .ret none

/-- **A slave removed between the iterator and the lookup**: the loop ends with a KeyError, also answered with exception 4. -/
theorem C67_false_broadcast_removed :
    (∃ s, Sys.Reach (Sys.init exPair exRemoving) s ∧ s.progs 0 = .ret (some .keyError) ∧ s.progs 1 = .ret none ∧
      (s.shared none).slaves.map (·.1) = [1] ∧
      (Modbus.getValues "a" 0 1 (s.shared (some ⟨1, true, 0⟩)).slave.sl (s.shared (some ⟨1, true, 0⟩)).slave.heap).1 = .ok [7]) ∧
    ∀ h, dbExcept [] [6, 0, 0, 0, 7] .keyError h = (.ok (some [0x86, 4]), h) := by
  refine ⟨⟨_, reach_of_schedule [0, 0, 0, 0, 0, 0, 0, 1, 1, 1, 0] _ _ rfl, rfl, rfl, ?_, ?_⟩, fun h => rfl⟩
  · decide +kernel
  · decide +kernel

/-! ## New slaves -/

/-- references are not made up: who uses a slave got it from `add_slave` or `get_slave` (or the lookup for a request) before -/
def OwnRefs (log : List (Nat × DbAct × DbRes)) : Prop :=
  ∀ pre post t a v, log = pre ++ (t, a, v) :: post →
    (∀ ref c, a = .op (.slave ref c) → ∃ t' c', (t', .op c', .ref (.ok ref)) ∈ pre) ∧
    (∀ q ref, a = .handle q ref → ∃ t', (t', .lookup q, .found ref) ∈ pre)

structure NewInv (x : Option SlaveRef → DbCell) (seen : SlaveRef → Prop) : Prop where
  unmade : ∀ ref, (x none).made ≤ ref.made → x (some ref) = newCells (some ref)
  inMap : ∀ id ref, Dict.get? (x none).slaves id = some ref → ref.made < (x none).made
  seen : ∀ ref, seen ref → ref.made < (x none).made

/-- what an act hands out -/
def DbRes.refOf : DbRes → Option SlaveRef
  | .ref (.ok r) => some r
  | .found r => some r
  | _ => none

/-- an act on a slave -/
theorem newInv_slave {x : Option SlaveRef → DbCell} {seen : SlaveRef → Prop} (h : NewInv x seen) {ref : SlaveRef} (hs : seen ref) (m : DbCell) :
    NewInv (Function.update x (some ref) m) seen := by
  refine ⟨fun r hr => ?_, fun id r hg => ?_, fun r hr => ?_⟩
  · have h1 := h.seen ref hs
    have : (some r : Option SlaveRef) ≠ some ref := by
      intro e; cases e
      simp only [ne_eq, reduceCtorEq, not_false_eq_true, Function.update_of_ne] at hr
      omega
    rw [Function.update_of_ne this]
    exact h.unmade r (by simpa using hr)
  · simp only [ne_eq, reduceCtorEq, not_false_eq_true, Function.update_of_ne] at hg ⊢
    exact h.inMap id r hg
  · simp only [ne_eq, reduceCtorEq, not_false_eq_true, Function.update_of_ne]
    exact h.seen r hr

/-- an act on the map -/
theorem newInv_map {x : Option SlaveRef → DbCell} {seen seen' : SlaveRef → Prop} (h : NewInv x seen) {m : DbCell} (hm : (x none).made ≤ m.made)
    (hs : ∀ id r, Dict.get? m.slaves id = some r → r.made < m.made) (hn : ∀ r, seen' r → seen r ∨ r.made < m.made) :
    NewInv (Function.update x none m) seen' := by
  refine ⟨fun r hr => ?_, fun id r hg => ?_, fun r hr => ?_⟩
  · rw [Function.update_self] at hr
    rw [Function.update_of_ne (by simp)]
    exact h.unmade r (by omega)
  · rw [Function.update_self] at hg ⊢; exact hs id r hg
  · rw [Function.update_self]
    rcases hn r hr with h1 | h1
    · have := h.seen r h1; omega
    · exact h1

theorem newInv_step (R : Registry) (x : Option SlaveRef → DbCell) (seen : SlaveRef → Prop) (a : DbAct) (h : NewInv x seen)
    (ho : (∀ ref c, a = .op (.slave ref c) → seen ref) ∧ ∀ q ref, a = .handle q ref → seen ref) :
    NewInv (actSpec R a x).2 (fun ref => seen ref ∨ (actSpec R a x).1.refOf = some ref) := by
  have hid : ∀ v, (∀ r, v.refOf = some r → r.made < (x none).made) → NewInv (Function.update x none (x none)) (fun ref => seen ref ∨ DbRes.refOf v = some ref) :=
    fun v hv => newInv_map h (Nat.le_refl _) h.inMap (fun r hr => hr.imp id (hv r))
  cases a with
  | op c =>
    cases c with
    | add id u =>
      show NewInv (Function.update x none ((DbAct.op (.add id u)).run R (x none)).2) (fun ref => seen ref ∨ ((DbAct.op (.add id u)).run R (x none)).1.refOf = some ref)
      generalize hm : x none = m
      rw [hm] at hid
      simp only [DbAct.run]
      by_cases hb : id ≤ 0 ∨ id > 255
      · rw [if_pos hb]; exact hid _ (fun r hr => by cases hr)
      · rw [if_neg hb]
        by_cases hd : Dict.has m.slaves id = true
        · rw [if_pos hd]; exact hid _ (fun r hr => by cases hr)
        · rw [if_neg hd]
          refine newInv_map h (by rw [hm]; exact Nat.le_succ _) (fun id' r hg => ?_) (fun r hr => hr.imp (fun h => h) (fun hr => ?_))
          · by_cases e : id' = id
            · subst e
              rw [Dict.get?_set_same] at hg
              cases hg; exact Nat.lt_succ_self _
            · rw [Dict.get?_set_other _ _ _ _ e, ← hm] at hg
              have := h.inMap id' r hg
              rw [hm] at this
              exact Nat.lt_succ_of_lt this
          · cases hr; exact Nat.lt_succ_self _
    | get id =>
      simp only [actSpec, DbAct.key, DbAct.run]
      cases hg : Dict.get? (x none).slaves id with
      | none => exact hid _ (fun r hr => by cases hr)
      | some ref => exact hid _ (fun r hr => by cases hr; exact h.inMap id ref hg)
    | remove id =>
      show NewInv (Function.update x none ((DbAct.op (.remove id)).run R (x none)).2) (fun ref => seen ref ∨ ((DbAct.op (.remove id)).run R (x none)).1.refOf = some ref)
      generalize hm : x none = m
      rw [hm] at hid
      simp only [DbAct.run]
      by_cases hd : Dict.has m.slaves id = true
      · rw [if_pos hd]
        refine newInv_map h (by rw [hm]; exact Nat.le_refl _) (fun id' r hg => ?_) (fun r hr => hr.imp (fun h => h) (fun hr => by cases hr))
        rw [Dict.get?_erase] at hg
        split at hg
        · cases hg
        · rw [← hm] at hg
          have := h.inMap id' r hg
          rw [hm] at this; exact this
      · rw [if_neg hd]; exact hid _ (fun r hr => by cases hr)
    | removeAll =>
      exact newInv_map h (Nat.le_refl _) (fun id' r hg => by cases hg) (fun r hr => hr.imp (fun h => h) (fun hr => by cases hr))
    | slave ref c =>
      have := newInv_slave h (ho.1 ref c rfl) ((DbAct.op (.slave ref c)).run R (x (some ref))).2
      exact ⟨this.unmade, this.inMap, fun r hr => hr.elim (this.seen r) (fun hr => by cases hr)⟩
  | lookup q =>
    simp only [actSpec, DbAct.key, DbAct.run]
    cases hg : Dict.get? (x none).slaves q.id with
    | none => exact hid _ (fun r hr => by cases hr)
    | some ref => exact hid _ (fun r hr => by cases hr; exact h.inMap q.id ref hg)
  | handle q ref =>
    have := newInv_slave h (ho.2 q ref rfl) ((DbAct.handle q ref).run R (x (some ref))).2
    exact ⟨this.unmade, this.inMap, fun r hr => hr.elim (this.seen r) (fun hr => by cases hr)⟩

theorem legal_append_inv {σ Op Res : Type} {spec : Op → σ → Res × σ} {x y : σ} {log log' : List (Nat × Op × Res)} (h : Legal spec x (log ++ log') y) :
    ∃ z, Legal spec x log z ∧ Legal spec z log' y := by
  induction log generalizing x with
  | nil => exact ⟨x, rfl, h⟩
  | cons e log ih =>
    obtain ⟨t, op, r⟩ := e
    obtain ⟨z, h1, h2⟩ := ih h.2
    exact ⟨z, ⟨h.1, h1⟩, h2⟩

theorem newInv_log (R : Registry) (log : List (Nat × DbAct × DbRes)) (y : Option SlaveRef → DbCell) (ho : OwnRefs log)
    (hl : Legal (actSpec R) newCells log y) : NewInv y (fun ref => ∃ e ∈ log, e.2.2.refOf = some ref) := by
  induction log using List.reverseRecOn generalizing y with
  | nil =>
    cases hl
    exact ⟨fun _ _ => rfl, (fun _ _ h => by cases h), (fun _ h => by obtain ⟨_, h, _⟩ := h; cases h)⟩
  | append_singleton log e ih =>
    obtain ⟨t, a, v⟩ := e
    obtain ⟨z, h1, h2, h3⟩ := legal_append_inv hl
    have hz := ih z (fun pre post t' a' v' he => ho pre (post ++ [(t, a, v)]) t' a' v' (by rw [he]; simp)) h1
    obtain ⟨o1, o2⟩ := ho log [] t a v rfl
    have := newInv_step R z _ a hz ⟨fun ref c e => by
      obtain ⟨t', c', hm⟩ := o1 ref c e
      exact ⟨_, hm, rfl⟩, fun q ref e => by
      obtain ⟨t', hm⟩ := o2 q ref e
      exact ⟨_, hm, rfl⟩⟩
    cases h3
    refine ⟨this.unmade, this.inMap, fun ref hr => this.seen ref ?_⟩
    obtain ⟨e, he, hr⟩ := hr
    rcases List.mem_append.mp he with he | he
    · exact .inl ⟨e, he, hr⟩
    · simp only [List.mem_singleton] at he
      subst he
      exact .inr (by rw [h2]; exact hr)

/-- **C67.** In the sequential history of `C67_two_steps`: what `add_slave(id, unsigned)` hands out is a new slave - with this id and this setting, without
    blocks, and not one that anybody got before. -/
theorem C67_new_slave (R : Registry) (pre post : List (Nat × DbAct × DbRes)) (t : Nat) (id : Int) (u : Bool) (ref : SlaveRef) (y : Option SlaveRef → DbCell)
    (hl : Legal (actSpec R) newCells (pre ++ (t, .op (.add id u), .ref (.ok ref)) :: post) y)
    (ho : OwnRefs (pre ++ (t, .op (.add id u), .ref (.ok ref)) :: post)) :
    ref.id = id ∧ ref.unsigned = u ∧ (∀ e ∈ pre, e.2.2.refOf ≠ some ref) ∧
      ∃ z, Legal (actSpec R) newCells pre z ∧ z (some ref) = newCells (some ref) ∧
        (z (some ref)).slave = ⟨(Slave.new id u none Heap.empty).1, (Slave.new id u none Heap.empty).2⟩ := by
  obtain ⟨z, h1, h2, _⟩ := legal_append_inv hl
  have hz := newInv_log R pre z (fun pre' post' t' a' v' he => ho pre' (post' ++ (t, .op (.add id u), .ref (.ok ref)) :: post) t' a' v' (by
    rw [he]; simp)) h1
  have hr : ref = ⟨id, u, (z none).made⟩ := by
    have h2 : ((DbAct.op (.add id u)).run R (z none)).1 = .ref (.ok ref) := h2
    generalize hm : z none = m at h2 ⊢
    simp only [DbAct.run] at h2
    by_cases hb : id ≤ 0 ∨ id > 255
    · rw [if_pos hb] at h2; cases h2
    · rw [if_neg hb] at h2
      by_cases hd : Dict.has m.slaves id = true
      · rw [if_pos hd] at h2; cases h2
      · rw [if_neg hd] at h2
        cases h2; rfl
  have hu : z (some ref) = newCells (some ref) := hz.unmade ref (by rw [hr]; exact Nat.le_refl _)
  refine ⟨by rw [hr], by rw [hr], fun e he hc => ?_, z, h1, hu, ?_⟩
  · have := hz.seen ref ⟨e, he, hc⟩
    rw [hr] at this
    exact absurd this (Nat.lt_irrefl _)
  · rw [hu, hr]; rfl

/-- **C67.** A request that is addressed to a slave of the databank is handled as by the sequential model of `Databank.handle_request`, whatever other slaves
    the databank has; a request to an unknown slave gets no answer. -/
theorem C67_request (R : Registry) (q : DbRequest) (ref : SlaveRef) (m : DbCell) (db : Databank) :
    (Dict.get? db.slaves q.id = some m.slave.sl →
      (DbAct.handle q ref).run R m = (.answer (dbHandle R q.w.mac db q.request m.slave.heap).1,
        { m with slave := ⟨m.slave.sl, (dbHandle R q.w.mac db q.request m.slave.heap).2⟩ })) ∧
    (Dict.get? m.slaves q.id = none → (DbAct.lookup q).run R m = (.answer (.ok (some [])), m)) := by
  constructor
  · intro h
    have := C61_one_slave R q.w db q.id m.slave.sl q.request q.addressed h m.slave.heap
    simp only [BankOp.run, Prod.mk.injEq, BankRes.answer.injEq, SlaveSt.mk.injEq, true_and] at this
    simp only [DbAct.run, this.1, this.2]
  · intro h
    obtain ⟨h0, pdu, p, hp⟩ := q.addressed
    have hd : (dbHandle R q.w.mac ⟨[], true⟩ q.request Heap.empty).1 = .ok (some []) := by
      unfold dbHandle
      rw [hp]
      simp only [PyM.tryExcept_apply, dbBody, if_neg h0, Dict.get?, if_true]
      rfl
    simp only [DbAct.run, h, hd]

/-! ### Non-vacuity -/

theorem ownRefs_snoc {log : List (Nat × DbAct × DbRes)} (h : OwnRefs log) (t : Nat) (a : DbAct) (v : DbRes)
    (h1 : ∀ ref c, a = .op (.slave ref c) → ∃ t' c', (t', .op c', .ref (.ok ref)) ∈ log)
    (h2 : ∀ q ref, a = .handle q ref → ∃ t', (t', .lookup q, .found ref) ∈ log) : OwnRefs (log ++ [(t, a, v)]) := by
  intro pre post t' a' v' hl
  rcases List.eq_nil_or_concat post with rfl | ⟨post', b, rfl⟩
  · obtain ⟨e1, e2⟩ := List.append_inj' hl rfl
    cases e2; subst e1; exact ⟨h1, h2⟩
  · rw [List.concat_eq_append, ← List.cons_append, ← List.append_assoc] at hl
    obtain ⟨e1, _⟩ := List.append_inj' hl rfl
    exact h pre post' t' a' v' e1

-- a slave is made, used by its owner and by a server, removed; then another one is made
example : OwnRefs [(1, .op (.add 1 true), .ref (.ok exRef)), (1, .op (.slave exRef (.addBlock "a" 3 0 1)), .slave (.done (.ok ()))),
    (0, .lookup exWriteReq, .found exRef), (0, .handle exWriteReq exRef, .answer (.ok (some []))), (1, .op (.remove 1), .done (.ok ())),
    (1, .op (.add 1 true), .ref (.ok ⟨1, true, 1⟩))] := by
  have h0 : OwnRefs [] := by
    intro pre post t a v h
    have := congrArg List.length h
    simp at this
  have h1 := ownRefs_snoc h0 1 (.op (.add 1 true)) (.ref (.ok exRef)) (fun _ _ h => by cases h) (fun _ _ h => by cases h)
  have h2 := ownRefs_snoc h1 1 (.op (.slave exRef (.addBlock "a" 3 0 1))) (.slave (.done (.ok ())))
    (fun _ _ h => by cases h; exact ⟨1, .add 1 true, by simp⟩) (fun _ _ h => by cases h)
  have h3 := ownRefs_snoc h2 0 (.lookup exWriteReq) (.found exRef) (fun _ _ h => by cases h) (fun _ _ h => by cases h)
  have h4 := ownRefs_snoc h3 0 (.handle exWriteReq exRef) (.answer (.ok (some []))) (fun _ _ h => by cases h)
    (fun _ _ h => by cases h; exact ⟨0, by simp⟩)
  have h5 := ownRefs_snoc h4 1 (.op (.remove 1)) (.done (.ok ())) (fun _ _ h => by cases h) (fun _ _ h => by cases h)
  exact ownRefs_snoc h5 1 (.op (.add 1 true)) (.ref (.ok ⟨1, true, 1⟩)) (fun _ _ h => by cases h) (fun _ _ h => by cases h)

end Modbus
