import Verif.Model.CutCalls
import Verif.Props.Blocks
/-
# C109: interrupted calls on a slave
-/
namespace Modbus

/-! ## the actions of a call make up the call -/

theorem handleRequest_names (R : Registry) (sl : Slave) (names : List (String × (Int × Int))) (pdu : Bytes) (b : Bool) :
    handleRequest R { sl with names := names } pdu b = handleRequest R sl pdu b := rfl

theorem getBlock_get (sl sl' : Slave) (hm : sl'.mem = sl.mem) (n : String) (hn : Dict.get? sl'.names n = Dict.get? sl.names n) : getBlock sl' n = getBlock sl n := by
  funext h
  unfold getBlock
  rw [hm, hn]

theorem cut_all {σ : Type} (p : Plan σ) (s : σ) (k : Nat) (hk : p.steps.length ≤ k) : p.cut k s = p.full s := by
  unfold Plan.cut Plan.full
  rw [List.take_of_length_le hk]

theorem cut_zero {σ : Type} (p : Plan σ) (s : σ) : p.cut 0 s = s := rfl

/-- the states a call of two actions can be left in -/
theorem cut_two {σ : Type} (r : Except PyErr Unit) (f g : σ → σ) (s : σ) (k : Nat) :
    (Plan.mk r [f, g]).cut k s = s ∨ (Plan.mk r [f, g]).cut k s = f s ∨ (Plan.mk r [f, g]).cut k s = g (f s) := by
  rcases k with _ | _ | k
  · exact .inl rfl
  · exact .inr (.inl rfl)
  · refine .inr (.inr ?_)
    rw [cut_all _ _ _ (by simp)]
    rfl

theorem addPlan_cases (name : String) (bt start size : Int) (s : SlaveSt) :
    (∃ e, addBlockPlan name bt start size s = ⟨.error e, []⟩) ∨
    ∃ r i, Dict.get? (s.heap.dicts s.sl.mem) bt = some r ∧ insertionIndex (s.heap.lists r) 0 start size = some i ∧ 0 < size ∧ 0 ≤ start ∧
      Dict.get? s.sl.names name = none ∧ addBlockPlan name bt start size s = ⟨.ok (), [registerName name bt start, insertBlock r i start size]⟩ := by
  unfold addBlockPlan
  split
  · exact .inl ⟨_, rfl⟩
  · split
    · exact .inl ⟨_, rfl⟩
    · split
      · exact .inl ⟨_, rfl⟩
      · rename_i h1 h2 h3
        cases hr : Dict.get? (s.heap.dicts s.sl.mem) bt with
        | none => exact .inl ⟨_, rfl⟩
        | some r =>
          dsimp only
          cases hi : insertionIndex (s.heap.lists r) 0 start size with
          | none => exact .inl ⟨_, rfl⟩
          | some i => exact .inr ⟨r, i, rfl, hi, by omega, by omega, (Dict.has_eq_false_iff _ _).mp (by simpa using h3), rfl⟩

theorem removePlan_cases (name : String) (s : SlaveSt) :
    (∃ e, removeBlockPlan name s = ⟨.error e, []⟩) ∨ ∃ b, (getBlock s.sl name s.heap).1 = .ok b ∧ removeBlockPlan name s = ⟨.ok (), [popName name, dropBlock b]⟩ := by
  unfold removeBlockPlan
  cases h : getBlock s.sl name s.heap with
  | mk r h =>
    cases r with
    | error e => exact .inl ⟨_, rfl⟩
    | ok b => exact .inr ⟨b, rfl, rfl⟩

theorem cut_nil {σ : Type} (r : Except PyErr Unit) (s : σ) (k : Nat) : (Plan.mk r []).cut k s = s := by
  rw [cut_all _ _ _ (Nat.zero_le _)]
  rfl

theorem add_full (name : String) (bt start size : Int) (s : SlaveSt) :
    addBlock name bt start size s = ((addBlockPlan name bt start size s).result, (addBlockPlan name bt start size s).full s) := by
  unfold addBlock addBlockPlan
  split
  · rfl
  · split
    · rfl
    · split
      · rfl
      · cases Dict.get? (s.heap.dicts s.sl.mem) bt with
        | none => rfl
        | some r =>
          dsimp only
          cases insertionIndex (s.heap.lists r) 0 start size with
          | none => rfl
          | some i => rfl

theorem remove_full (name : String) (s : SlaveSt) :
    removeBlock name s = ((removeBlockPlan name s).result, (removeBlockPlan name s).full s) := by
  unfold removeBlock removeBlockPlan
  cases getBlock s.sl name s.heap with
  | mk r h => cases r <;> rfl

/-- `set_values` that raises has changed nothing, whatever the hook functions do -/
theorem setValues_raised (R : Registry) (name : String) (a : Int) (vs : Values) (sl : Slave) (h : Heap) (e : PyErr) (he : (setValues R name a vs sl h).1 = .error e) :
    (setValues R name a vs sl h).2 = h := by
  unfold setValues at he ⊢
  rw [PyM.bind_apply] at he ⊢
  have hg : (getBlock sl name h).2 = h := by
    unfold getBlock
    split
    · rfl
    · split
      · rfl
      · split <;> rfl
  cases hb : getBlock sl name h with
  | mk r h1 =>
    rw [hb] at hg
    replace hg : h1 = h := hg
    subst hg
    rw [hb] at he
    cases r with
    | error e => rfl
    | ok b =>
      dsimp only at he ⊢
      rw [PyM.bind_apply] at he ⊢
      simp only [PyM.get_apply] at he ⊢
      cases hk : h1.block? b with
      | none => rfl
      | some blk =>
        rw [hk] at he
        dsimp only at he ⊢
        have key : ∀ (c : Prop) [Decidable c] (f : PyM Heap Unit), ((f h1).1 = .error e → (f h1).2 = h1) →
            ((if c then PyM.raise .outOfBlock else f) h1).1 = .error e → ((if c then (PyM.raise .outOfBlock : PyM Heap Unit) else f) h1).2 = h1 := by
          intro c _ f hf
          by_cases hc : c
          · rw [if_pos hc]; exact fun _ => rfl
          · rw [if_neg hc]; exact hf
        refine key _ _ ?_ he
        cases vs with
        | seq vs =>
          dsimp only
          unfold setSlice
          rw [hk]
          dsimp only
          cases callHooks R "modbus.ModbusBlock.setitem" (.setitem blk.start (a - blk.start) vs) with
          | error e => exact fun _ => rfl
          | ok r => exact nofun
        | one v =>
          dsimp only
          unfold setItem
          rw [hk]
          dsimp only
          cases callHooks R "modbus.ModbusBlock.setitem" (.setitem blk.start (a - blk.start) [v]) with
          | error e => exact fun _ => rfl
          | ok r =>
            dsimp only
            split
            · exact nofun
            · exact fun _ => rfl

theorem set_full (R : Registry) (name : String) (a : Int) (vs : Values) (s : SlaveSt) :
    onHeap (setValues R name a vs) s = ((setValuesPlan R name a vs s).result, (setValuesPlan R name a vs s).full s) := by
  unfold setValuesPlan
  cases hr : onHeap (setValues R name a vs) s with
  | mk r s' =>
    cases r with
    | error e =>
      have h1 : (setValues R name a vs s.sl s.heap).1 = .error e := congrArg Prod.fst hr
      have h2 : { s with heap := (setValues R name a vs s.sl s.heap).2 } = s' := congrArg Prod.snd hr
      rw [setValues_raised R name a vs s.sl s.heap e h1] at h2
      rw [← h2]
      rfl
    | ok u => rfl

/-- the tables from position `j` on are cleared -/
theorem clear_tables (todo : List (Int × Nat)) : ∀ (done : List (Int × Nat)) (s : SlaveSt), s.heap.dicts s.sl.mem = done ++ todo → ((done ++ todo).map Prod.fst).Nodup →
    (todo.map fun p => clearTable p.1).foldl (fun s f => f s) s =
      { sl := s.sl, heap := { s.heap with
          lists := fun r => if s.heap.nextList ≤ r ∧ r < s.heap.nextList + todo.length then [] else s.heap.lists r
          dicts := fun d => if d = s.sl.mem then done ++ (todo.map Prod.fst).zipIdx.map (fun p => (p.1, s.heap.nextList + p.2)) else s.heap.dicts d
          nextList := s.heap.nextList + todo.length } } := by
  induction todo with
  | nil =>
    intro done s hd _
    rw [List.append_nil] at hd
    simp only [List.map_nil, List.foldl_nil, List.zipIdx_nil, List.append_nil, List.length_nil, Nat.add_zero]
    have h1 : (fun r => if s.heap.nextList ≤ r ∧ r < s.heap.nextList then [] else s.heap.lists r) = s.heap.lists := by
      funext r; rw [if_neg (by omega)]
    have h2 : (fun d => if d = s.sl.mem then done else s.heap.dicts d) = s.heap.dicts := by
      funext d; split
      · rename_i h; rw [h, hd]
      · rfl
    rw [h1, h2]
  | cons p todo ih =>
    intro done s hd hn
    have hset : ∀ (pre : List (Int × Nat)) (v : Nat), (∀ q ∈ pre, q.1 ≠ p.1) → Dict.set (pre ++ p :: todo) p.1 v = pre ++ (p.1, v) :: todo := by
      intro pre v hpre
      induction pre with
      | nil => simp [Dict.set]
      | cons q pre ih2 =>
        rw [List.cons_append, Dict.set, if_neg (hpre q (by simp)), ih2 (fun x hx => hpre x (by simp [hx]))]
        rfl
    have hpre : ∀ q ∈ done, q.1 ≠ p.1 := by
      intro q hq he
      rw [List.map_append, List.map_cons] at hn
      exact (List.nodup_append.mp hn).2.2 _ (List.mem_map_of_mem hq) _ List.mem_cons_self he
    rw [List.map_cons, List.foldl_cons, ih (done ++ [(p.1, s.heap.nextList)]) (clearTable p.1 s) ?_ ?_]
    · unfold clearTable
      dsimp only
      congr 2
      · funext r
        rw [List.length_cons]
        by_cases h1 : r = s.heap.nextList
        · rw [if_neg (by omega), if_pos h1, if_pos (by omega)]
        · rw [if_neg h1]
          by_cases h2 : s.heap.nextList ≤ r ∧ r < s.heap.nextList + (todo.length + 1)
          · rw [if_pos h2, if_pos (by omega)]
          · rw [if_neg h2, if_neg (by omega)]
      · funext d
        by_cases h : d = s.sl.mem
        · rw [if_pos h, if_pos h, List.map_cons, List.zipIdx_cons, List.map_cons, Nat.zero_add, List.append_assoc, Nat.add_zero, List.singleton_append]
          congr 2
          rw [List.zipIdx_succ, List.map_map]
          apply List.map_congr_left
          intro q _
          show (q.1, s.heap.nextList + 1 + q.2) = (q.1, s.heap.nextList + (q.2 + 1))
          congr 1
          omega
        · rw [if_neg h, if_neg h, if_neg h]
      · rw [List.length_cons]; omega
    · show (if s.sl.mem = s.sl.mem then Dict.set (s.heap.dicts s.sl.mem) p.1 s.heap.nextList else _) = _
      rw [if_pos rfl, hd, hset done _ hpre, List.append_assoc, List.singleton_append]
    · simpa using hn

theorem removeAll_full (s : SlaveSt) (h : ((s.heap.dicts s.sl.mem).map Prod.fst).Nodup) :
    removeAllBlocks s = ((removeAllPlan s).result, (removeAllPlan s).full s) := by
  unfold removeAllBlocks removeAllPlan Plan.full
  rw [List.foldl_cons, clear_tables (s.heap.dicts s.sl.mem) [] (clearNames s) rfl (by simpa using h)]
  simp only [List.nil_append, List.length_map]
  rfl

/-- **C109.** A call that is not interrupted does all its actions.  (The keys of a dictionary are different.) -/
theorem C109_complete (R : Registry) (c : CutCall) (s : SlaveSt) (h : ((s.heap.dicts s.sl.mem).map Prod.fst).Nodup) :
    c.run R s = ((c.plan R s).result, (c.plan R s).full s) := by
  cases c with
  | add name bt start size => exact add_full name bt start size s
  | remove name => exact remove_full name s
  | removeAll => exact removeAll_full s h
  | set name a vs => exact set_full R name a vs s

/-! ## what everybody else sees -/

/-- the name the call is about -/
def CutCall.name? : CutCall → Option String
  | .add name _ _ _ => some name
  | .remove name => some name
  | .removeAll => none
  | .set _ _ _ => none

/-- two states of a slave that masters and the users of the names other than `n?` cannot tell apart -/
structure LooksLike (n? : Option String) (x y : SlaveSt) : Prop where
  /-- every request gets the same answer and leaves the same data -/
  requests : ∀ R pdu b, handleRequest R x.sl pdu b x.heap = handleRequest R y.sl pdu b y.heap
  /-- `get_values` -/
  reads : ∀ n a q, some n ≠ n? → getValues n a q x.sl x.heap = getValues n a q y.sl y.heap
  /-- `set_values` -/
  writes : ∀ R n a vs, some n ≠ n? → setValues R n a vs x.sl x.heap = setValues R n a vs y.sl y.heap

theorem looks_of {n? : Option String} {x y : SlaveSt} {names : List (String × (Int × Int))} (h : x = { y with sl := { y.sl with names := names } })
    (hn : ∀ n, some n ≠ n? → Dict.get? names n = Dict.get? y.sl.names n) : LooksLike n? x y := by
  subst h
  refine ⟨fun R pdu b => rfl, fun n a q hne => ?_, fun R n a vs hne => ?_⟩
  · unfold getValues
    rw [getBlock_get y.sl { y.sl with names := names } rfl n (hn n hne)]
  · unfold setValues
    rw [getBlock_get y.sl { y.sl with names := names } rfl n (hn n hne)]

theorem looks_refl (n? : Option String) (x : SlaveSt) : LooksLike n? x x := ⟨fun _ _ _ => rfl, fun _ _ _ _ => rfl, fun _ _ _ _ _ => rfl⟩

/-- **C109 (all or nothing).** Wherever `add_block`, `remove_block` or `set_values` is interrupted: masters and the users of all other block names find the slave either as it was before the call
    or as the complete call would have left it. -/
theorem C109_all_or_nothing (R : Registry) (c : CutCall) (hc : c ≠ .removeAll) (s : SlaveSt) (k : Nat) :
    LooksLike c.name? ((c.plan R s).cut k s) s ∨ LooksLike c.name? ((c.plan R s).cut k s) (c.run R s).2 := by
  cases c with
  | removeAll => exact absurd rfl hc
  | add name bt start size =>
    show LooksLike (some name) ((addBlockPlan name bt start size s).cut k s) s ∨ LooksLike (some name) ((addBlockPlan name bt start size s).cut k s) (addBlock name bt start size s).2
    rw [add_full]
    rcases addPlan_cases name bt start size s with ⟨e, he⟩ | ⟨r, i, _, _, _, _, _, he⟩
    · rw [he, cut_nil]; exact .inl (looks_refl _ _)
    · rw [he]
      rcases cut_two (.ok ()) (registerName name bt start) (insertBlock r i start size) s k with h | h | h
      · rw [h]; exact .inl (looks_refl _ _)
      · rw [h]
        exact .inl (looks_of (names := Dict.set s.sl.names name (bt, start)) rfl (fun n hn => Dict.get?_set_other _ _ _ _ (fun h => hn (congrArg some h))))
      · rw [h]; exact .inr (looks_refl _ _)
  | remove name =>
    show LooksLike (some name) ((removeBlockPlan name s).cut k s) s ∨ LooksLike (some name) ((removeBlockPlan name s).cut k s) (removeBlock name s).2
    rw [remove_full]
    rcases removePlan_cases name s with ⟨e, he⟩ | ⟨b, _, he⟩
    · rw [he, cut_nil]; exact .inl (looks_refl _ _)
    · rw [he]
      rcases cut_two (.ok ()) (popName name) (dropBlock b) s k with h | h | h
      · rw [h]; exact .inl (looks_refl _ _)
      · rw [h]
        exact .inl (looks_of (names := Dict.erase s.sl.names name) rfl (fun n hn => Dict.get?_erase_other _ _ _ (fun h => hn (congrArg some h))))
      · rw [h]; exact .inr (looks_refl _ _)
  | set name a vs =>
    show LooksLike none ((setValuesPlan R name a vs s).cut k s) s ∨ LooksLike none ((setValuesPlan R name a vs s).cut k s) (onHeap (setValues R name a vs) s).2
    unfold setValuesPlan
    cases hr : onHeap (setValues R name a vs) s with
    | mk r s' =>
      cases r with
      | error e => refine .inl ?_; show LooksLike none (Plan.cut ⟨.error e, []⟩ k s) s; rw [cut_all _ _ _ (by simp)]; exact looks_refl _ _
      | ok u =>
        rcases k with _ | k
        · exact .inl (looks_refl _ _)
        · refine .inr ?_
          show LooksLike none (Plan.cut ⟨.ok (), [fun _ => s']⟩ (k + 1) s) s'
          rw [cut_all _ _ _ (by simp)]
          exact looks_refl _ _

/-- **C109 (`remove_all_blocks`).** Wherever it is interrupted, every table is as before or empty, and if one is empty that was not, no block has a name any more. -/
theorem C109_remove_all (s : SlaveSt) (k : Nat) (bt : Int) :
    let s' := (removeAllPlan s).cut k s
    (blocksOf s'.heap s'.sl bt = blocksOf s.heap s.sl bt ∨ blocksOf s'.heap s'.sl bt = []) ∧
    (s'.sl.names = [] ∨ s' = s) := by
  rcases k with _ | k
  · exact ⟨.inl rfl, .inr rfl⟩
  · have hfold : ∀ (keys : List (Int × Nat)) (s1 : SlaveSt),
        let t := (keys.map fun p => clearTable p.1).foldl (fun s f => f s) s1
        (blocksOf t.heap t.sl bt = blocksOf s1.heap s1.sl bt ∨ blocksOf t.heap t.sl bt = []) ∧ t.sl = s1.sl := by
      intro keys
      induction keys with
      | nil => intro s1; exact ⟨.inl rfl, rfl⟩
      | cons p keys ih =>
        intro s1
        obtain ⟨h1, h2⟩ := ih (clearTable p.1 s1)
        refine ⟨?_, h2⟩
        have h3 : blocksOf (clearTable p.1 s1).heap (clearTable p.1 s1).sl bt = blocksOf s1.heap s1.sl bt ∨ blocksOf (clearTable p.1 s1).heap (clearTable p.1 s1).sl bt = [] := by
          unfold blocksOf clearTable
          dsimp only
          rw [if_pos rfl, Dict.get?_set]
          by_cases hb : bt = p.1
          · rw [if_pos hb]; exact .inr (if_pos rfl)
          · rw [if_neg hb]
            cases hg : Dict.get? (s1.heap.dicts s1.sl.mem) bt with
            | none => exact .inl rfl
            | some r =>
              dsimp only
              split
              · exact .inr rfl
              · exact .inl rfl
        rcases h1 with h1 | h1
        · rcases h3 with h3 | h3
          · exact .inl (h1.trans h3)
          · exact .inr (h1.trans h3)
        · exact .inr h1
    have hcut : (removeAllPlan s).cut (k + 1) s = (((s.heap.dicts s.sl.mem).take k).map fun p => clearTable p.1).foldl (fun s f => f s) (clearNames s) := by
      unfold Plan.cut removeAllPlan
      rw [List.take_succ_cons, List.foldl_cons, List.map_take]
    rw [hcut]
    obtain ⟨h1, h2⟩ := hfold ((s.heap.dicts s.sl.mem).take k) (clearNames s)
    exact ⟨h1, .inl (by rw [h2]; rfl)⟩

/-! ## what is left behind -/

/-- **C109 (finding).** An `add_block` that is interrupted between its two actions leaves a name without a block: `get_values`, `set_values` and `remove_block` with this name raise the exception
    "Bug?", `add_block` with this name raises DuplicatedKeyError - as long as no block of this type with this starting address is added under another name. -/
theorem C109_false_add (R : Registry) (name : String) (bt start size : Int) (s : SlaveSt) (r : Nat) (hr : Dict.get? (s.heap.dicts s.sl.mem) bt = some r)
    (hno : ∀ b ∈ s.heap.lists r, b.start ≠ start) (hok : (addBlock name bt start size s).1 = .ok ()) :
    let s' := (addBlockPlan name bt start size s).cut 1 s
    s'.heap = s.heap ∧
    (∀ a q, (getValues name a q s'.sl s'.heap).1 = .error .generic) ∧ (∀ a vs, (setValues R name a vs s'.sl s'.heap).1 = .error .generic) ∧
    removeBlock name s' = (.error .generic, s') ∧
    ∀ bt' start' size', 0 < size' → 0 ≤ start' → addBlock name bt' start' size' s' = (.error .duplicatedKey, s') := by
  intro s'
  rw [add_full] at hok
  rcases addPlan_cases name bt start size s with ⟨e, he⟩ | ⟨r', i, hr', _, _, _, _, he⟩
  · rw [he] at hok; cases hok
  · have hs' : s' = registerName name bt start s := by unfold s'; rw [he]; rfl
    have hg : getBlock s'.sl name s'.heap = (.error .generic, s'.heap) := by
      rw [hs']
      unfold getBlock registerName
      dsimp only
      rw [Dict.get?_set_same]
      dsimp only
      rw [hr]
      dsimp only
      have : (s.heap.lists r).findIdx? (fun b => b.start = start) = none := by
        rw [List.findIdx?_eq_none_iff]
        intro b hb
        simpa using hno b hb
      rw [this]
    refine ⟨by rw [hs']; rfl, fun a q => ?_, fun a vs => ?_, ?_, fun bt' start' size' h1 h2 => ?_⟩
    · unfold getValues; rw [PyM.bind_apply, hg]
    · unfold setValues; rw [PyM.bind_apply, hg]
    · unfold removeBlock; rw [hg]
    · unfold addBlock
      rw [if_neg (by omega), if_neg (by omega), if_pos]
      rw [hs']
      exact (Dict.has_eq_true_iff _ _).mpr ⟨_, Dict.get?_set_same _ _ _⟩

/-- **C109 (finding).** ... and if it is, the two names stand for one block. -/
theorem C109_false_alias (name other : String) (bt start size size' : Int) (s s2 : SlaveSt) (hok : (addBlock name bt start size s).1 = .ok ())
    (h2 : addBlock other bt start size' ((addBlockPlan name bt start size s).cut 1 s) = (.ok (), s2)) :
    (∀ a q, getValues name a q s2.sl s2.heap = getValues other a q s2.sl s2.heap) ∧
    ∀ R a vs, setValues R name a vs s2.sl s2.heap = setValues R other a vs s2.sl s2.heap := by
  rw [add_full] at hok
  rcases addPlan_cases name bt start size s with ⟨e, he⟩ | ⟨r', i, hr', _, _, _, _, he⟩
  · rw [he] at hok; cases hok
  · rw [he] at h2
    have h2' : addBlock other bt start size' (registerName name bt start s) = (.ok (), s2) := h2
    obtain ⟨_, _, hn, ref, i', _, _, rfl⟩ := addBlock_ok h2'
    have hne : name ≠ other := by
      rintro rfl
      have : Dict.get? (Dict.set s.sl.names name (bt, start)) name = none := hn
      rw [Dict.get?_set_same] at this
      cases this
    have hg : ∀ h, getBlock { (registerName name bt start s).sl with names := Dict.set (registerName name bt start s).sl.names other (bt, start) } name h =
        getBlock { (registerName name bt start s).sl with names := Dict.set (registerName name bt start s).sl.names other (bt, start) } other h := by
      intro h
      unfold getBlock
      dsimp only
      rw [Dict.get?_set_same, Dict.get?_set_other _ _ _ _ hne]
      have hx : Dict.get? (registerName name bt start s).sl.names name = some (bt, start) := Dict.get?_set_same _ _ _
      rw [hx]
    refine ⟨fun a q => ?_, fun R a vs => ?_⟩
    · unfold getValues; rw [PyM.bind_apply, PyM.bind_apply, hg]
    · unfold setValues; rw [PyM.bind_apply, PyM.bind_apply, hg]

/-- **C109 (finding).** A `remove_block` that is interrupted between its two actions leaves a block without a name: masters read and write it as before, `remove_block` with its name raises
    MissingKeyError. -/
theorem C109_false_remove (name : String) (s : SlaveSt) (hok : (removeBlock name s).1 = .ok ()) :
    let s' := (removeBlockPlan name s).cut 1 s
    (∀ R pdu b, handleRequest R s'.sl pdu b s'.heap = handleRequest R s.sl pdu b s.heap) ∧ removeBlock name s' = (.error .missingKey, s') ∧
    ∀ a q, (getValues name a q s'.sl s'.heap).1 = .error .missingKey := by
  intro s'
  rw [remove_full] at hok
  rcases removePlan_cases name s with ⟨e, he⟩ | ⟨b, _, he⟩
  · rw [he] at hok; cases hok
  · have hs' : s' = popName name s := by unfold s'; rw [he]; rfl
    have hg : getBlock s'.sl name s'.heap = (.error .missingKey, s'.heap) := by
      rw [hs']
      unfold getBlock popName
      dsimp only
      rw [Dict.get?_erase_same]
    refine ⟨fun R pdu b => by rw [hs']; rfl, ?_, fun a q => ?_⟩
    · unfold removeBlock; rw [hg]
    · unfold getValues; rw [PyM.bind_apply, hg]

/-- the tables after `remove_all_blocks` -/
theorem removed_all (t : SlaveSt) (bt : Int) :
    let s' := (removeAllBlocks t).2
    blocksOf s'.heap s'.sl bt = [] ∧ Dict.has (s'.heap.dicts s'.sl.mem) bt = Dict.has (t.heap.dicts t.sl.mem) bt := by
  intro s'
  have hget : ∀ (keys : List Int) (n j : Nat),
      (∀ r, Dict.get? ((keys.zipIdx j).map fun p => (p.1, n + p.2)) bt = some r → n + j ≤ r ∧ r < n + j + keys.length) ∧
      Dict.has ((keys.zipIdx j).map fun p => (p.1, n + p.2)) bt = decide (bt ∈ keys) := by
    intro keys n
    induction keys with
    | nil => intro j; exact ⟨nofun, rfl⟩
    | cons k keys ih =>
      intro j
      obtain ⟨h1, h2⟩ := ih (j + 1)
      rw [List.zipIdx_cons, List.map_cons]
      refine ⟨fun r hr => ?_, ?_⟩
      · rw [Dict.get?] at hr
        rw [List.length_cons]
        split at hr
        · cases hr; omega
        · have := h1 r hr; omega
      · rw [Dict.has, Dict.get?]
        split
        · rename_i h; replace h : k = bt := h; simp [h]
        · rename_i h; replace h : ¬ k = bt := h
          rw [← Dict.has, h2]
          simp [Ne.symm h]
  have hkeys : ∀ d : List (Int × Nat), Dict.has d bt = decide (bt ∈ d.map Prod.fst) := by
    intro d
    induction d with
    | nil => rfl
    | cons p d ih =>
      rw [Dict.has, Dict.get?]
      split
      · rename_i h; simp [h]
      · rename_i h
        rw [← Dict.has, ih]
        simp [Ne.symm h]
  obtain ⟨h1, h2⟩ := hget ((t.heap.dicts t.sl.mem).map Prod.fst) t.heap.nextList 0
  have hd : s'.heap.dicts s'.sl.mem = (((t.heap.dicts t.sl.mem).map Prod.fst).zipIdx.map fun p => (p.1, t.heap.nextList + p.2)) := if_pos rfl
  refine ⟨?_, ?_⟩
  · unfold blocksOf
    rw [hd]
    cases hg : Dict.get? (((t.heap.dicts t.sl.mem).map Prod.fst).zipIdx.map fun p => (p.1, t.heap.nextList + p.2)) bt with
    | none => rfl
    | some r =>
      have := h1 r hg
      exact if_pos ⟨by omega, by omega⟩
  · rw [hd, h2, hkeys]

/-- **C109 (repair).** After any program of calls, each complete or interrupted anywhere, one complete `remove_all_blocks` leaves a slave without names and blocks, like a new one: the same tables, all
    empty, and every well-formed `add_block` is accepted. -/
theorem C109_repair (R : Registry) (calls : List (CutCall × Option Nat)) (s : SlaveSt) :
    let t := cutRun R calls s
    let s' := (removeAllBlocks t).2
    s'.sl.names = [] ∧ (∀ bt, blocksOf s'.heap s'.sl bt = [] ∧ Dict.has (s'.heap.dicts s'.sl.mem) bt = Dict.has (t.heap.dicts t.sl.mem) bt) ∧
    ∀ name bt start size, 0 < size → 0 ≤ start → Dict.has (t.heap.dicts t.sl.mem) bt = true → (addBlock name bt start size s').1 = .ok () := by
  intro t s'
  clear_value t
  have main : ∀ bt, blocksOf s'.heap s'.sl bt = [] ∧ Dict.has (s'.heap.dicts s'.sl.mem) bt = Dict.has (t.heap.dicts t.sl.mem) bt := by
    intro bt
    exact removed_all t bt
  refine ⟨rfl, main, fun name bt start size h1 h2 h3 => ?_⟩
  obtain ⟨m1, m2⟩ := main bt
  rw [h3] at m2
  obtain ⟨r, hr⟩ := (Dict.has_eq_true_iff _ _).mp m2
  have hl : s'.heap.lists r = [] := by
    have := m1
    unfold blocksOf at this
    rw [hr] at this
    exact this
  unfold addBlock
  have hh : Dict.has s'.sl.names name = false := rfl
  rw [if_neg (by omega), if_neg (by omega), if_neg (by rw [hh]; nofun), hr]
  dsimp only
  rw [hl]
  rfl


/-! ## executions -/

/-- `add_block("a", 3, 10, 5)` is interrupted, `add_block("b", 3, 10, 5)` is not; then the names `a` and `b` read the same cells; `remove_block("b")` is interrupted: the block answers masters, and
    has no name any more that can remove it but `a` -/
theorem C109_example :
    let s0 : SlaveSt := ⟨(Slave.new 1 true none Heap.empty).1, (Slave.new 1 true none Heap.empty).2⟩
    let s1 := cutRun [] [(.add "a" 3 10 5, some 1)] s0
    let s2 := cutRun [] [(.add "b" 3 10 5, none), (.set "b" 11 (.one 7), none)] s1
    let s3 := cutRun [] [(.remove "b", some 1)] s2
    (getValues "a" 10 1 s1.sl s1.heap).1 = .error .generic ∧
    (getValues "a" 11 1 s2.sl s2.heap).1 = .ok [7] ∧ (getValues "b" 11 1 s2.sl s2.heap).1 = .ok [7] ∧
    (getValues "b" 11 1 s3.sl s3.heap).1 = .error .missingKey ∧ (getValues "a" 11 1 s3.sl s3.heap).1 = .ok [7] ∧
    (handleRequest [] s3.sl [3, 0, 11, 0, 1] false s3.heap).1 = .ok [3, 2, 0, 7] := by
  decide +kernel

end Modbus
