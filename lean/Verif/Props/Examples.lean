import Verif.Model.Examples
import Verif.Props.SimRpcAll
/-
# C93: simulators with commands of their own, and programs that write into a simulator
-/
namespace Modbus

/-! ## The commands of `MySimulator` -/

/-- the rule: a value above 30 for register 0 brings a 1 for register 1 -/
def Ruled (a : Int) (vs vs' : List Int) : Prop :=
  (∀ v w rest, a = 0 → 30 < v → vs = v :: w :: rest → vs' = v :: 1 :: rest) ∧ (∀ v, a = 0 → 30 < v → vs = [v] → vs' = [v, 1]) ∧
    ((a ≠ 0 ∨ ∃ v rest, vs = v :: rest ∧ v ≤ 30) → vs' = vs)

theorem ruleValues_ok (a : Int) (vs : List Int) (h : a ≠ 0 ∨ vs ≠ []) : ∃ vs', ruleValues a vs = .ok vs' ∧ Ruled a vs vs' := by
  unfold ruleValues
  by_cases ha : a = 0
  · rw [if_pos ha]
    rcases vs with _ | ⟨v, vs⟩
    · exact absurd ha (by simpa using h)
    dsimp only
    by_cases hv : v > 30
    · rw [if_pos hv]
      rcases vs with _ | ⟨w, vs⟩
      · exact ⟨_, rfl, (fun _ _ _ _ _ h => by cases h), (fun _ _ _ h => by cases h; rfl), (fun h => by
          rcases h with h | ⟨_, _, h1, h2⟩
          · exact absurd ha h
          · cases h1; omega)⟩
      · exact ⟨_, rfl, (fun _ _ _ _ _ h => by cases h; rfl), (fun _ _ _ h => by cases h), (fun h => by
          rcases h with h | ⟨_, _, h1, h2⟩
          · exact absurd ha h
          · cases h1; omega)⟩
    · rw [if_neg hv]
      exact ⟨_, rfl, (fun _ _ _ _ h1 h => by cases h; exact absurd h1 hv), (fun _ _ h1 h => by cases h; exact absurd h1 hv), fun _ => rfl⟩
  · rw [if_neg ha]
    exact ⟨_, rfl, (fun _ _ _ h => absurd h ha), (fun _ h => absurd h ha), fun _ => rfl⟩

section
variable (b0 b1 b2 b3 : UInt8) (errText : PyErr → Text) {eol : Text}

theorem words_ints {first : Text} (hf : IsWord first) (a : Int) (vs : List Int) : ∀ w ∈ first :: intText a :: vs.map intText, IsWord w := by
  refine List.forall_mem_cons.mpr ⟨hf, List.forall_mem_cons.mpr ⟨isWord_intText _, fun w h => ?_⟩⟩
  obtain ⟨v, _, rfl⟩ := List.mem_map.mp h
  exact isWord_intText v

/-- **C93 (`cv`).** `cv <address> <values>` is `server.get_slave(1).set_values("foo", address, values)` with the values after the rule, which are the answer; `cv 0` without values is an error and changes nothing. -/
theorem C93_cv (he : IsEol eol) (s : SimSt) (a : Int) (vs : List Int) :
    (a = 0 ∧ vs = [] → simStep (mySimuCmds b0 b1 b2 b3) errText (typed ("cv".toList :: intText a :: vs.map intText) eol) s = ("cv error: ".toList ++ errText .indexError ++ "\r\n".toList, false, s)) ∧
    (a ≠ 0 ∨ vs ≠ [] → ∃ vs', Ruled a vs vs' ∧ simStep (mySimuCmds b0 b1 b2 b3) errText (typed ("cv".toList :: intText a :: vs.map intText) eol) s =
      report errText "cv".toList (fun _ => numbers vs') (onSlave 1 (onHeap (setValues s.hooks "foo" a (.seq vs'))) s)) := by
  have hstep : simStep (mySimuCmds b0 b1 b2 b3) errText (typed ("cv".toList :: intText a :: vs.map intText) eol) s =
      report errText "cv".toList answerText (changeValue ("cv".toList :: intText a :: vs.map intText) s) :=
    typed_step (mySimuCmds b0 b1 b2 b3) errText (c := 'c') (t := "v".toList) (f := changeValue) (by decide) rfl (words_ints (by decide) a vs) he s
  rw [hstep]
  unfold changeValue
  simp only [PyM.bind_apply, intArg_ok (show ("cv".toList :: intText a :: vs.map intText)[1]? = _ from rfl), List.drop_succ_cons, List.drop_zero, toInts_ok, PyM.lift_apply]
  refine ⟨?_, fun h => ?_⟩
  · rintro ⟨rfl, rfl⟩
    rfl
  · obtain ⟨vs', e1, e2⟩ := ruleValues_ok a vs h
    refine ⟨vs', e2, ?_⟩
    rw [e1]
    simp only [PyM.get_apply]
    cases onSlave 1 (onHeap (setValues s.hooks "foo" a (.seq vs'))) s with
    | mk x s' =>
      cases x with
      | error e => rfl
      | ok u => simp only [report, PyM.pure_apply, answerText, tupleToStr_eq]

theorem pi_word (a b : UInt8) : Spec.word (Spec.toWord (a.toNat * 256 + b.toNat)) = [a, b] := by
  have ha := a.toNat_lt
  have hb := b.toNat_lt
  have h1 : ((a.toNat * 256 + b.toNat : Int) % 65536).toNat = a.toNat * 256 + b.toNat := by omega
  unfold Spec.word Spec.toWord
  rw [h1, UInt16.toNat_ofNat_of_lt' (by show _ < 65536; omega)]
  rw [show (a.toNat * 256 + b.toNat) / 256 = a.toNat by omega, show (a.toNat * 256 + b.toNat) % 256 = b.toNat by omega]
  simp

/-- **C93 (`set_pi`).** When the blocks are well formed (they are in every reachable state: `mySimu_wf`), `set_pi <address>` is `server.get_slave(1).set_values("foo", address, [r1, r2])` and answers the two
    registers; the registers carry the four bytes in their order, as a Modbus master will read them. -/
theorem C93_set_pi (he : IsEol eol) (s : SimSt) (hw : HeapWF s.st.heap) (a : Int) : ∃ r1 r2 : Int,
    simStep (mySimuCmds b0 b1 b2 b3) errText (typed ["set_pi".toList, intText a] eol) s =
      report errText "set_pi".toList (fun _ => numbers [r1, r2]) (onSlave 1 (onHeap (setValues s.hooks "foo" a (.seq [r1, r2]))) s) ∧
    Spec.word (Spec.toWord r1) ++ Spec.word (Spec.toWord r2) = [b0, b1, b2, b3] := by
  have hstep : simStep (mySimuCmds b0 b1 b2 b3) errText (typed ["set_pi".toList, intText a] eol) s =
      report errText "set_pi".toList answerText (setPi b0 b1 b2 b3 ["set_pi".toList, intText a] s) :=
    typed_step (mySimuCmds b0 b1 b2 b3) errText (c := 's') (t := "et_pi".toList) (f := setPi b0 b1 b2 b3) (by decide) rfl (words_ints (by decide) a []) he s
  refine ⟨b0.toNat * 256 + b1.toNat, b2.toNat * 256 + b3.toNat, ?_, ?_⟩
  · rw [hstep]
    unfold setPi
    simp only [PyM.bind_apply, intArg_ok (show ["set_pi".toList, intText a][1]? = _ from rfl), PyM.get_apply]
    cases hg : Dict.get? s.st.db.slaves 1 with
    | none => simp only [onSlave, hg]; rfl
    | some sl =>
      rw [onSlave_some hg]
      cases hs : setValues s.hooks "foo" a (.seq [b0.toNat * 256 + b1.toNat, b2.toNat * 256 + b3.toNat]) sl s.st.heap with
      | mk x h' =>
        cases x with
        | error e => rfl
        | ok u =>
          simp only
          rw [onSlave_some (sl := sl) (by simp only [Dict.get?_set_same])]
          have hget := C01_get_after_set hw hs
          simp only [Values.toList] at hget
          have hget' : getValues "foo" a 2 sl h' = (.ok [(b0.toNat * 256 + b1.toNat : Int), b2.toNat * 256 + b3.toNat], h') := hget
          simp only [hget', dict_set_set]
          simp only [report, PyM.pure_apply, answerText, tupleToStr_eq]
  · rw [pi_word, pi_word]; rfl

/-- **C93 (other commands).** A line with another first word is answered as by a plain simulator. -/
theorem C93_others (s : SimSt) (line : Text) (h1 : (splitOn ' ' (stripChars isCrLf line)).head? ≠ some "cv".toList) (h2 : (splitOn ' ' (stripChars isCrLf line)).head? ≠ some "set_pi".toList) :
    simStep (mySimuCmds b0 b1 b2 b3) errText line s = simStep simCmds errText line s := by
  have e1 := (C51_add_command errText s (eol := []) (fun _ h => by cases h) (addCommand simCmds "cv".toList changeValue) (setPi b0 b1 b2 b3) (c := 's') (by decide) "et_pi".toList [] (by decide)).2 line h2
  have e2 := (C51_add_command errText s (eol := []) (fun _ h => by cases h) simCmds changeValue (c := 'c') (by decide) "v".toList [] (by decide)).2 line h1
  exact e1.trans e2

/-- a new simulator on a server without slaves -/
def mySimuNew (b : Bool) (declared : List (Text × Hook)) : SimSt := (mySimuInit ⟨⟨⟨[], b⟩, Heap.empty⟩, [], declared, 0⟩).2

/-- the states it can reach: command lines and Modbus requests in any order -/
inductive MySimReach (declared : List (Text × Hook)) : SimSt → Prop
  | start (b : Bool) : MySimReach declared (mySimuNew b declared)
  | line {s : SimSt} (h : MySimReach declared s) (l : Text) : MySimReach declared (simStep (mySimuCmds b0 b1 b2 b3) errText l s).2.2
  | frame {s : SimSt} (h : MySimReach declared s) (mac : Mac) (request : Bytes) :
      MySimReach declared { s with st := { s.st with heap := (serverHandle s.hooks mac s.st.db request s.st.heap).2 } }

theorem simKeeps_lift {α : Type} (r : Except PyErr α) : SimKeeps (PyM.lift r) := by
  intro s hw
  rw [PyM.lift_apply]
  exact hw

theorem simKeeps_mine (name : Text) (f : SimCmd) (hf : Dict.get? (mySimuCmds b0 b1 b2 b3) name = some f) (args : List Text) : SimKeeps (f args) := by
  unfold mySimuCmds addCommand at hf
  rw [Dict.get?_set] at hf
  by_cases h1 : name = "set_pi".toList
  · rw [if_pos h1] at hf
    cases hf
    refine .bind (simKeeps_intArg _ _) fun a => .bind .get fun s => .bind (simKeeps_onSlave fun st hw => ?_) fun _ => .bind (simKeeps_onSlave fun st hw => ?_) fun _ => .pure _
    · exact keepsWF_setValues _ _ _ _ _ _ hw
    · exact keepsWF_getValues _ _ _ _ _ hw
  rw [if_neg h1, Dict.get?_set] at hf
  by_cases h2 : name = "cv".toList
  · rw [if_pos h2] at hf
    cases hf
    refine .bind (simKeeps_intArg _ _) fun a => .bind (simKeeps_toInts _) fun vs => .bind (simKeeps_lift _) fun vs => .bind .get fun s => .bind (simKeeps_onSlave fun st hw => ?_) fun _ => .pure _
    exact keepsWF_setValues _ _ _ _ _ _ hw
  rw [if_neg h2] at hf
  exact simKeeps_cmds name f hf args

/-- in every reachable state the blocks are well formed -/
theorem mySimu_wf {declared : List (Text × Hook)} {s : SimSt} (h : MySimReach b0 b1 b2 b3 errText declared s) : HeapWF s.st.heap := by
  induction h with
  | start b =>
    have hk : SimKeeps mySimuInit := by
      refine .bind (simKeeps_onDb fun st hw => ?_) fun _ => simKeeps_onSlave fun st hw => heapWF_block (.add "foo" 3 0 100) st hw
      unfold addSlave
      split
      · exact hw
      split
      · exact hw
      · exact heapWF_slaveNew hw _ _ _
    exact hk _ (simReach_wf (.start (errText := errText) (declared := declared) b))
  | @line s _ l ih =>
    by_cases hq : IsQuit l
    · rw [simStep_quit _ errText hq]; exact ih
    · have := simStep_answer (mySimuCmds b0 b1 b2 b3) errText hq s
      unfold simStep
      split
      · exact ih
      · dsimp only
        cases hf : Dict.get? (mySimuCmds b0 b1 b2 b3) ((splitOn ' ' (stripChars isCrLf l)).headD []) with
        | none => exact ih
        | some f =>
          have hk := simKeeps_mine b0 b1 b2 b3 _ f hf (splitOn ' ' (stripChars isCrLf l)) s ih
          dsimp only
          cases hr : f (splitOn ' ' (stripChars isCrLf l)) s with
          | mk x s' =>
            rw [hr] at hk
            cases x <;> exact hk
  | @frame s _ mac request ih => exact keepsWF_serverHandle _ _ _ _ _ ih

/-- **C93 (the rule).** In every reachable state: `cv 0 v ...` with `v > 30` is refused, or then register 0 holds `v`, register 1 holds 1, and the others the values given for them. -/
theorem C93_rule {declared : List (Text × Hook)} (he : IsEol eol) {s : SimSt} (h : MySimReach b0 b1 b2 b3 errText declared s) (v : Int) (vs : List Int) (hv : 30 < v) :
    let r := simStep (mySimuCmds b0 b1 b2 b3) errText (typed ("cv".toList :: intText 0 :: (v :: vs).map intText) eol) s
    (∃ e, r.1 = "cv error: ".toList ++ errText e ++ "\r\n".toList) ∨
    (r.1 = "cv done: ".toList ++ numbers (v :: 1 :: vs.drop 1) ++ "\r\n".toList ∧
      (onSlave 1 (onHeap (getValues "foo" 0 (2 + (vs.drop 1).length))) r.2.2).1 = .ok (v :: 1 :: vs.drop 1)) := by
  intro r
  obtain ⟨vs', ⟨u1, u2, -⟩, e⟩ := (C93_cv b0 b1 b2 b3 errText he s 0 (v :: vs)).2 (.inr (by simp))
  have hvs : vs' = v :: 1 :: vs.drop 1 := by
    rcases vs with _ | ⟨w, vs⟩
    · exact u2 v rfl hv rfl
    · exact u1 v w vs rfl hv rfl
  subst hvs
  have er : r = _ := e
  rw [er]
  cases hg : Dict.get? s.st.db.slaves 1 with
  | none => left; exact ⟨.missingKey, by simp only [onSlave, hg]; rfl⟩
  | some sl =>
    rw [onSlave_some hg]
    cases hs : setValues s.hooks "foo" 0 (.seq (v :: 1 :: vs.drop 1)) sl s.st.heap with
    | mk x h' =>
      cases x with
      | error e => left; exact ⟨e, rfl⟩
      | ok u =>
        right
        refine ⟨rfl, ?_⟩
        have hget := C01_get_after_set (mySimu_wf b0 b1 b2 b3 errText h) hs
        simp only [Values.toList, List.length_cons] at hget
        unfold report
        dsimp only
        rw [onSlave_some (sl := sl) (by simp only [Dict.get?_set_same])]
        rw [show (2 + ((vs.drop 1).length : Int)) = (((vs.drop 1).length + 1 + 1 : Nat) : Int) by push_cast; omega, hget]

end

/-- **C93, a negative result.** The rule is not kept: `cv 1 0` sets register 1 to 0 while register 0 holds 31. -/
theorem C93_false_rule : (onSlave 1 (onHeap (getValues "foo" 0 2))
    (simRun (mySimuCmds 0xC3 0xF5 0x48 0x40) (fun _ => []) ["cv 0 31\n".toList, "cv 1 0\n".toList] (mySimuNew true [])).2.1).1 = .ok [31, 0] := by decide +kernel

/-- a new simulator holds 100 zeros, and its commands answer -/
example : (onSlave 1 (onHeap (getValues "foo" 0 100)) (mySimuNew true [])).1 = .ok (List.replicate 100 0) := by decide +kernel
example : (simRun (mySimuCmds 0xC3 0xF5 0x48 0x40) (fun _ => "no".toList) ["cv 0 31 7 8\n".toList, "cv 0\n".toList, "set_pi 10\n".toList, "cv 99 1 2\n".toList, "get_values 1 foo 0 3\n".toList] (mySimuNew true [])).1
    = ["cv done: 31 1 8\r\n".toList, "cv error: no\r\n".toList, "set_pi done: 50165 18496\r\n".toList, "cv error: no\r\n".toList, "get_values done: 31 1 8\r\n".toList] := by decide +kernel

/-! ## The system monitor -/

variable {W : Type}

/-- `f` applied `n` times -/
def timesN (f : W → W) : Nat → W → W
  | 0, w => w
  | n + 1, w => timesN f n (f w)

/-- one refresh, whatever comes of it -/
def refreshed (cpus : PyM W (List (Except PyErr (Option Int)))) (set : Int → Int → PyM W Unit) (w : W) : W := ((do let l ← cpus; writeLoads set l 0 : PyM W Unit) w).2

theorem collects_inv (cpus : PyM W (List (Except PyErr (Option Int)))) (set : Int → Int → PyM W Unit) (m : Nat) : ∀ (n c : Nat) (w : W), c < m →
    collects cpus set n (⟨c, m⟩, w) = (⟨((c + n) % m : Nat), m⟩, timesN (refreshed cpus set) ((c + n) / m) w) := by
  intro n
  induction n with
  | zero =>
    intro c w hc
    rw [collects, Nat.add_zero, Nat.mod_eq_of_lt hc, Nat.div_eq_of_lt hc]
    rfl
  | succ n ih =>
    intro c w hc
    rw [collects]
    unfold collectData
    dsimp only
    by_cases h : c + 1 = m
    · rw [if_pos (by omega)]
      have := ih 0 (refreshed cpus set w) (by omega)
      rw [show c + (n + 1) = n + m by omega, Nat.add_mod_right, Nat.add_div_right n (by omega), timesN]
      rw [Nat.zero_add] at this
      exact this
    · rw [if_neg (by omega)]
      have := ih (c + 1) w (by omega)
      rw [show c + (n + 1) = c + 1 + n by omega]
      exact this

/-- **C93 (when the monitor writes).** With a refresh rate of `r` seconds, of `n` calls of `collect` (ten in a second) the first and then every `10 r`-th refreshes; errors do not change that. -/
theorem C93_monitor_when (cpus : PyM W (List (Except PyErr (Option Int)))) (set : Int → Int → PyM W Unit) (r n : Nat) (hr : 0 < r) (w : W) :
    (collects cpus set n (Collector.new r, w)).2 = timesN (refreshed cpus set) ((n + 10 * r - 1) / (10 * r)) w := by
  have := collects_inv cpus set (10 * r) n (10 * r - 1) w (by omega)
  have e : Collector.new r = ⟨((10 * r - 1 : Nat) : Int), ((10 * r : Nat) : Int)⟩ := by
    unfold Collector.new
    congr 1 <;> omega
  rw [e, this, show 10 * r - 1 + n = n + 10 * r - 1 by omega]

/-- the API calls of a refresh: `server.get_slave(1).set_values("Cpu", i, (load, ))` for the first ten processors, up to the first error -/
def loadsSpec : List (Except PyErr (Option Int)) → Nat → SimSt → SimSt
  | .ok load :: rest, i, s =>
    if i < 10 then
      match onSlave 1 (onHeap (setValues s.hooks "Cpu" i (.seq [load.getD 0]))) s with
      | (.ok _, s') => loadsSpec rest (i + 1) s'
      | (.error _, s') => s'
    else s
  | _, _, s => s

theorem setCpu_eq (errText : PyErr → Text) {declared : List (Text × Hook)} {s : SimSt} (h : SimReach errText declared s) (i : Nat) (hi : i < 10) (v : Int) (h0 : 0 ≤ v) (h1 : v ≤ 100) :
    setCpu errText i v s = remote (fun _ => ()) (onSlave 1 (onHeap (setValues s.hooks "Cpu" i (.seq [v]))) s) ∧ SimReach errText declared (setCpu errText i v s).2 := by
  have hlen : ∀ k : Fin 101, (intText (k.val : Int)).length ≤ 3 := by decide +kernel
  have hi3 := hlen ⟨i, by omega⟩
  have hv3 := hlen ⟨v.toNat, by omega⟩
  dsimp only at hi3 hv3
  rw [show ((v.toNat : Nat) : Int) = v by omega] at hv3
  have hq : ("set_values ".toList ++ intText 1 ++ ' ' :: "Cpu".toList ++ ' ' :: intText (i : Int) ++ [v].flatMap fun v => ' ' :: intText v).length ≤ 1024 := by
    have h1 : (intText 1).length ≤ 3 := hlen ⟨1, by omega⟩
    simp only [List.length_append, List.length_cons, List.flatMap_cons, List.flatMap_nil, List.length_nil]
    rw [show "set_values ".toList.length = 11 from rfl, show "Cpu".toList.length = 3 from rfl]
    omega
  have e := C66_set_values_partial h 1 "Cpu".toList ⟨by decide, by decide⟩ (i : Int) [v] hq
  have hs : (setCpu errText i v s).2 = (rpcSetValues simCmds errText 1 "Cpu".toList i [v] s).2 := by
    unfold setCpu
    simp only [PyM.bind_apply]
    cases rpcSetValues simCmds errText 1 "Cpu".toList i [v] s with
    | mk x s' => cases x <;> rfl
  refine ⟨?_, ?_⟩
  · unfold setCpu
    simp only [PyM.bind_apply]
    rw [e]
    rw [show String.ofList "Cpu".toList = "Cpu" from rfl]
    cases onSlave 1 (onHeap (setValues s.hooks "Cpu" i (.seq [v]))) s with
    | mk x s' => cases x <;> rfl
  · rw [hs]
    exact .line h _

theorem loadOf_eq (load : Option Int) : loadOf load = load.getD 0 := by
  cases load with
  | none => rfl
  | some v => by_cases hv : v = 0 <;> simp [loadOf, hv]

theorem writeLoads_spec (errText : PyErr → Text) {declared : List (Text × Hook)} : ∀ (l : List (Except PyErr (Option Int))), (∀ v, Except.ok (some v) ∈ l → 0 ≤ v ∧ v ≤ 100) →
    ∀ (i : Nat) {s : SimSt}, SimReach errText declared s → (writeLoads (setCpu errText) l i s).2 = loadsSpec l i s := by
  intro l
  induction l with
  | nil => exact fun _ i s h => rfl
  | cons x l ih =>
    intro hl i s h
    rw [writeLoads]
    by_cases hi : i < 10
    · rw [if_neg (by omega)]
      cases x with
      | error e => rfl
      | ok load =>
        have hb : 0 ≤ load.getD 0 ∧ load.getD 0 ≤ 100 := by
          cases load with
          | none => decide
          | some v => exact hl v (by simp)
        obtain ⟨e1, e2⟩ := setCpu_eq errText h i hi (load.getD 0) hb.1 hb.2
        simp only [PyM.bind_apply, PyM.lift_apply]
        rw [loadOf_eq, loadsSpec, if_pos hi]
        rw [e1] at e2
        rw [e1]
        cases hr : onSlave 1 (onHeap (setValues s.hooks "Cpu" i (.seq [load.getD 0]))) s with
        | mk y s' =>
          rw [hr] at e2
          cases y with
          | error e => rfl
          | ok u => exact ih (fun v hv => hl v (by simp [hv])) (i + 1) e2
    · rw [if_pos (by omega)]
      cases x with
      | error e => rfl
      | ok load => rw [loadsSpec, if_neg hi]; rfl

/-- **C93 (what the monitor writes).** On every reachable simulator a refresh does what the API calls would do: the load of processor `i` (None counts as 0) goes into register `i` of block `Cpu` of slave 1, for at
    most ten processors, up to the first error. -/
theorem C93_monitor_writes (errText : PyErr → Text) {declared : List (Text × Hook)} (l : List (Except PyErr (Option Int))) (hl : ∀ v, Except.ok (some v) ∈ l → 0 ≤ v ∧ v ≤ 100)
    {s : SimSt} (h : SimReach errText declared s) : refreshed (fun s => (.ok l, s)) (setCpu errText) s = loadsSpec l 0 s := writeLoads_spec errText l hl 0 h

/-- a simulator with the block of the example, and a refresh with three processors -/
def exMonitor0 : SimSt := (simStep simCmds (fun _ => []) "add_slave 1\n".toList ⟨⟨⟨[], false⟩, Heap.empty⟩, [], [], 0⟩).2.2
def exMonitor : SimSt := (simStep simCmds (fun _ => []) "add_block 1 Cpu 4 0 10\n".toList exMonitor0).2.2

example : (onSlave 1 (onHeap (getValues "Cpu" 0 10)) (refreshed (fun s => (.ok [.ok (some 12), .ok none, .ok (some 100)], s)) (setCpu (fun _ => [])) exMonitor)).1
    = .ok [12, 0, 100, 0, 0, 0, 0, 0, 0, 0] := by decide +kernel

example : SimReach (fun _ => []) [] exMonitor := SimReach.line (s := exMonitor0) (SimReach.line (.start false) _) _

end Modbus
