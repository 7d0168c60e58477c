import Verif.Model.SlaveExample
import Verif.Props.Simulator
/-
# C94: the example servers with a console
-/
namespace Modbus

/-! ## Lines that are not stripped -/

/-- the words of a line: its end stays in the last one -/
def withEol : List Text → Text → List Text
  | [], _ => []
  | [w], eol => [w ++ eol]
  | w :: ws, eol => w :: withEol ws eol

theorem unwords_withEol (ws : List Text) (eol : Text) (h : ws ≠ []) : unwords (withEol ws eol) = unwords ws ++ eol := by
  induction ws with
  | nil => exact absurd rfl h
  | cons w ws ih =>
    cases ws with
    | nil => rfl
    | cons w' ws =>
      have := ih (by simp)
      rw [withEol, unwords, unwords, this]
      · simp
      · simp
      · cases ws <;> simp [withEol]
      · simp

theorem mem_withEol {ws : List Text} {eol w : Text} (h : w ∈ withEol ws eol) : w ∈ ws ∨ ∃ w' ∈ ws, w = w' ++ eol := by
  induction ws with
  | nil => cases h
  | cons x ws ih =>
    cases ws with
    | nil => rw [withEol, List.mem_singleton] at h; exact .inr ⟨x, by simp, h⟩
    | cons y ws =>
      rw [withEol, List.mem_cons] at h
      · rcases h with rfl | h
        · exact .inl (by simp)
        · rcases ih h with h | ⟨w', hw, e⟩
          · exact .inl (List.mem_cons_of_mem _ h)
          · exact .inr ⟨w', List.mem_cons_of_mem _ hw, e⟩
      · simp

theorem splitOn_line {ws : List Text} {eol : Text} (hne : ws ≠ []) (hw : ∀ w ∈ ws, IsWord w) (he : IsEol eol) : splitOn ' ' (typed ws eol) = withEol ws eol := by
  unfold typed
  rw [← unwords_withEol ws eol hne, splitOn_unwords]
  · cases ws with
    | nil => exact absurd rfl hne
    | cons w ws => cases ws <;> simp [withEol]
  intro w h hc
  rcases mem_withEol h with h' | ⟨w', h', rfl⟩
  · exact (hw w h' _ hc).1 rfl
  · rcases List.mem_append.mp hc with hc | hc
    · exact (hw w' h' _ hc).1 rfl
    · exact absurd (he _ hc) (by decide)

theorem withEol_get (ws : List Text) (eol : Text) : ∀ i, (withEol ws eol)[i]? = if i + 1 = ws.length then ws[i]?.map (· ++ eol) else ws[i]? := by
  induction ws with
  | nil => intro i; simp [withEol]
  | cons w ws ih =>
    cases ws with
    | nil => intro i; cases i <;> simp [withEol]
    | cons w' ws =>
      intro i
      rw [withEol]
      · cases i with
        | zero => simp
        | succ i => rw [List.getElem?_cons_succ, ih, List.getElem?_cons_succ]; simp only [List.length_cons, Nat.add_right_cancel_iff]
      · simp

theorem parseInt_eol (v : Int) {eol : Text} (he : IsEol eol) : parseInt (intText v ++ eol) = some v := by
  have hs : ∀ c ∈ intText v, isSpace c = false := by
    intro c hc
    rw [Bool.eq_false_iff]
    intro h
    have : c = ' ' ∨ c = '\t' ∨ c = '\n' ∨ c = '\r' ∨ c = '\x0b' ∨ c = '\x0c' := by simpa [isSpace] using h
    rcases this with rfl | rfl | rfl | rfl | rfl | rfl <;> exact intText_free v _ (by decide) (by decide) hc
  have h1 : stripChars isSpace (intText v ++ eol) = intText v := stripChars_tail hs (by
    intro c hc
    have := he c hc
    have : c = '\r' ∨ c = '\n' := by simpa [isCrLf] using this
    rcases this with rfl | rfl <;> decide)
  have h2 : stripChars isSpace (intText v ++ []) = intText v := stripChars_tail hs (by intro c hc; cases hc)
  rw [List.append_nil] at h2
  have := parseInt_intText v
  unfold parseInt at this ⊢
  rw [h1]
  rw [h2] at this
  exact this

theorem intArg_line {ws : List Text} {eol : Text} (he : IsEol eol) {i : Nat} {v : Int} (h : ws[i]? = some (intText v)) (s : SimSt) : intArg (withEol ws eol) i s = (.ok v, s) := by
  simp only [intArg, PyM.bind_apply, arg, withEol_get, h]
  by_cases hi : i + 1 = ws.length
  · rw [if_pos hi]; simp only [Option.map_some, PyM.pure_apply, toInt, parseInt_eol v he]
  · rw [if_neg hi]; simp only [PyM.pure_apply, toInt, parseInt_intText]

theorem arg_line {ws : List Text} {eol : Text} {i : Nat} {t : Text} (h : ws[i]? = some t) (hi : i + 1 ≠ ws.length) (s : SimSt) : arg (withEol ws eol) i s = (.ok t, s) := by
  simp only [arg, withEol_get, if_neg hi, h, PyM.pure_apply]

theorem toInts_line (vs : List Int) {eol : Text} (he : IsEol eol) (s : SimSt) : toInts (withEol (vs.map intText) eol) s = (.ok vs, s) := by
  induction vs with
  | nil => rfl
  | cons v vs ih =>
    cases vs with
    | nil => simp only [List.map_cons, List.map_nil, withEol, toInts, PyM.bind_apply, toInt, parseInt_eol v he, PyM.pure_apply]
    | cons w vs =>
      rw [List.map_cons, withEol, toInts]
      · simp only [PyM.bind_apply, toInt, parseInt_intText, PyM.pure_apply, ih]
      · simp

theorem withEol_drop (ws : List Text) (eol : Text) : ∀ n, (withEol ws eol).drop n = withEol (ws.drop n) eol := by
  induction ws with
  | nil => intro n; simp [withEol]
  | cons w ws ih =>
    intro n
    cases n with
    | zero => simp
    | succ n =>
      cases ws with
      | nil => simp [withEol]
      | cons w' ws =>
        rw [withEol]
        · rw [List.drop_succ_cons, ih, List.drop_succ_cons]
        · simp

theorem withEol_head {w : Text} {w' : Text} {ws : List Text} {eol : Text} : (withEol (w :: w' :: ws) eol).headD [] = w := by
  rw [withEol]
  · rfl
  · simp

/-! ## The commands -/

/-- a tuple as Python writes it: the elements with `, ` between them, and a comma after a single one -/
def shownTuple (vs : List Int) : Text := "(".toList ++ ((vs.map intText).intersperse ", ".toList).flatten ++ (if vs.length = 1 then ",".toList else []) ++ ")".toList

theorem tupleTail_eq (v : Int) (vs : List Int) : (((v :: vs).map intText).intersperse ", ".toList).flatten = intText v ++ tupleTail vs := by
  induction vs generalizing v with
  | nil => simp [tupleTail]
  | cons w vs ih =>
    rw [List.map_cons, List.map_cons, List.intersperse_cons_cons, List.flatten_cons, List.flatten_cons, ← List.map_cons, ih, tupleTail]
    rfl

theorem tupleText_eq (vs : List Int) : tupleText vs = shownTuple vs := by
  unfold shownTuple
  rcases vs with _ | ⟨v, _ | ⟨w, vs⟩⟩
  · rfl
  · simp [tupleText]
  · rw [tupleTail_eq, tupleText]
    · simp
    · simp

/-- the program writes `show_ a`, or the exception leaves it -/
def told {α : Type} (show_ : α → Text) (r : Except PyErr α × SimSt) : Text × Option ConsoleEnd × SimSt :=
  match r with
  | (.ok a, s') => (show_ a, none, s')
  | (.error e, s') => ([], some (.raised e), s')

section
variable {eol : Text}

theorem console_step {c : Char} {t w : Text} {ws : List Text} (hc : c ≠ 'q') (hw : ∀ x ∈ (c :: t) :: w :: ws, IsWord x) (he : IsEol eol) (s : SimSt) :
    consoleStep (typed ((c :: t) :: w :: ws) eol) s = told (fun x => x) (consoleCmd (withEol ((c :: t) :: w :: ws) eol) s) := by
  unfold consoleStep
  have hp : "quit".toList.isPrefixOf (typed ((c :: t) :: w :: ws) eol) = false := by
    rw [Bool.eq_false_iff]
    intro h
    obtain ⟨r, hr⟩ := (isQuit_iff _).mp h
    simp only [typed, unwords, List.cons_append, List.cons.injEq] at hr
    exact hc hr.1
  rw [hp, splitOn_line (by simp) hw he]
  simp only [Bool.false_eq_true, if_false]
  cases consoleCmd (withEol ((c :: t) :: w :: ws) eol) s with
  | mk x s' => cases x <;> rfl

/-- **C94 (`add_slave`).** `add_slave <id>` is `server.add_slave(id)`. -/
theorem C94_add_slave (he : IsEol eol) (s : SimSt) (id : Int) :
    consoleStep (typed ["add_slave".toList, intText id] eol) s =
      told (fun _ => "done: slave ".toList ++ intText id ++ " added\r\n".toList) (onDb (addSlave id true none) s) := by
  rw [show "add_slave".toList = 'a' :: "dd_slave".toList from rfl, console_step (by decide) (by words) he]
  unfold consoleCmd
  rw [withEol_head, if_pos (show 'a' :: "dd_slave".toList = "add_slave".toList from rfl)]
  simp only [PyM.bind_apply, intArg_line (ws := ['a' :: "dd_slave".toList, intText id]) (i := 1) he rfl]
  cases onDb (addSlave id true none) s with
  | mk x s' => cases x <;> rfl

/-- **C94 (`add_block`).** `add_block <id> <name> <type> <address> <length>` is `server.get_slave(id).add_block(name, type, address, length)`. -/
theorem C94_add_block (he : IsEol eol) (s : SimSt) (id : Int) (name : Text) (hn : IsWord name) (bt a n : Int) :
    consoleStep (typed ["add_block".toList, intText id, name, intText bt, intText a, intText n] eol) s =
      told (fun _ => "done: block ".toList ++ name ++ " added\r\n".toList) (onSlave id (addBlock (String.ofList name) bt a n) s) := by
  rw [show "add_block".toList = 'a' :: "dd_block".toList from rfl, console_step (by decide) (by words) he]
  unfold consoleCmd
  rw [withEol_head, if_neg (by decide), if_pos (show 'a' :: "dd_block".toList = "add_block".toList from rfl)]
  simp only [PyM.bind_apply, intArg_line (ws := ['a' :: "dd_block".toList, intText id, name, intText bt, intText a, intText n]) (i := 1) he rfl,
    arg_line (ws := ['a' :: "dd_block".toList, intText id, name, intText bt, intText a, intText n]) (i := 2) rfl (by simp),
    intArg_line (ws := ['a' :: "dd_block".toList, intText id, name, intText bt, intText a, intText n]) (i := 3) he rfl,
    intArg_line (ws := ['a' :: "dd_block".toList, intText id, name, intText bt, intText a, intText n]) (i := 4) he rfl,
    intArg_line (ws := ['a' :: "dd_block".toList, intText id, name, intText bt, intText a, intText n]) (i := 5) he rfl]
  cases onSlave id (addBlock (String.ofList name) bt a n) s with
  | mk x s' => cases x <;> rfl

/-- **C94 (`get_values`).** `get_values <id> <name> <address> <length>` is `server.get_slave(id).get_values(name, address, length)`. -/
theorem C94_get_values (he : IsEol eol) (s : SimSt) (id : Int) (name : Text) (hn : IsWord name) (a n : Int) :
    consoleStep (typed ["get_values".toList, intText id, name, intText a, intText n] eol) s =
      told (fun vs => "done: values read: ".toList ++ shownTuple vs ++ "\r\n".toList) (onSlave id (onHeap (getValues (String.ofList name) a n)) s) := by
  rw [show "get_values".toList = 'g' :: "et_values".toList from rfl, console_step (by decide) (by words) he]
  unfold consoleCmd
  rw [withEol_head, if_neg (by decide), if_neg (by decide), if_neg (by decide), if_pos (show 'g' :: "et_values".toList = "get_values".toList from rfl)]
  simp only [PyM.bind_apply, intArg_line (ws := ['g' :: "et_values".toList, intText id, name, intText a, intText n]) (i := 1) he rfl,
    arg_line (ws := ['g' :: "et_values".toList, intText id, name, intText a, intText n]) (i := 2) rfl (by simp),
    intArg_line (ws := ['g' :: "et_values".toList, intText id, name, intText a, intText n]) (i := 3) he rfl,
    intArg_line (ws := ['g' :: "et_values".toList, intText id, name, intText a, intText n]) (i := 4) he rfl, tupleText_eq]
  cases onSlave id (onHeap (getValues (String.ofList name) a n)) s with
  | mk x s' => cases x <;> rfl

/-- **C94 (`set_values`).** When the blocks are well formed (they are in every reachable state: `console_wf`), `set_values <id> <name> <address> <values>` is
    `server.get_slave(id).set_values(name, address, values)`, and what is written out are these values. -/
theorem set_values_line (he : IsEol eol) {s : SimSt} (hw : HeapWF s.st.heap) (id : Int) (name : Text) (hn : IsWord name) (a : Int) (vs : List Int) :
    consoleStep (typed ("set_values".toList :: intText id :: name :: intText a :: vs.map intText) eol) s =
      told (fun _ => "done: values written: ".toList ++ shownTuple vs ++ "\r\n".toList) (onSlave id (onHeap (setValues s.hooks (String.ofList name) a (.seq vs))) s) := by
  rw [show "set_values".toList = 's' :: "et_values".toList from rfl, console_step (by decide) (by
      refine List.forall_mem_cons.mpr ⟨by decide, List.forall_mem_cons.mpr ⟨isWord_intText _, List.forall_mem_cons.mpr ⟨hn, List.forall_mem_cons.mpr ⟨isWord_intText _, ?_⟩⟩⟩⟩
      intro w h
      obtain ⟨v, _, rfl⟩ := List.mem_map.mp h
      exact isWord_intText v) he]
  unfold consoleCmd
  rw [withEol_head, if_neg (by decide), if_neg (by decide), if_pos (show 's' :: "et_values".toList = "set_values".toList from rfl), withEol_drop]
  simp only [PyM.bind_apply, intArg_line (ws := ('s' :: "et_values".toList) :: intText id :: name :: intText a :: vs.map intText) (i := 1) he rfl,
    arg_line (ws := ('s' :: "et_values".toList) :: intText id :: name :: intText a :: vs.map intText) (i := 2) rfl (by simp),
    intArg_line (ws := ('s' :: "et_values".toList) :: intText id :: name :: intText a :: vs.map intText) (i := 3) he rfl,
    List.drop_succ_cons, List.drop_zero, toInts_line vs he, PyM.get_apply, tupleText_eq]
  cases hg : Dict.get? s.st.db.slaves id with
  | none => simp only [onSlave, hg]; rfl
  | some sl =>
    rw [onSlave_some hg]
    cases hs : setValues s.hooks (String.ofList name) a (.seq vs) sl s.st.heap with
    | mk x h' =>
      cases x with
      | error e => rfl
      | ok u =>
        have hget := C01_get_after_set hw hs
        simp only [Values.toList] at hget
        dsimp only
        rw [onSlave_some (sl := sl) (by simp only [Dict.get?_set_same]), hget]
        dsimp only
        rw [dict_set_set]
        rfl

/-- the states of the program: lines of the console and Modbus requests in any order -/
inductive ConsoleReach : SimSt → Prop
  | start (b : Bool) (v : Int) (R : Registry) (declared : List (Text × Hook)) : ConsoleReach (consoleInit ⟨⟨⟨[], b⟩, Heap.empty⟩, R, declared, v⟩).2
  | line {s : SimSt} (h : ConsoleReach s) (l : Text) : ConsoleReach (consoleStep l s).2.2
  | frame {s : SimSt} (h : ConsoleReach s) (mac : Mac) (request : Bytes) :
      ConsoleReach { s with st := { s.st with heap := (serverHandle s.hooks mac s.st.db request s.st.heap).2 } }

theorem simKeeps_addSlave (id : Int) : SimKeeps (onDb (addSlave id true none)) := by
  refine simKeeps_onDb fun st hw => ?_
  unfold addSlave
  split
  · exact hw
  split
  · exact hw
  · exact heapWF_slaveNew hw _ _ _

theorem simKeeps_console (args : List Text) : SimKeeps (consoleCmd args) := by
  unfold consoleCmd
  dsimp only
  split
  · exact .bind (simKeeps_intArg _ _) fun id => .bind (simKeeps_addSlave id) fun _ => .pure _
  split
  · refine .bind (simKeeps_intArg _ _) fun id => .bind (simKeeps_arg _ _) fun nm => .bind (simKeeps_intArg _ _) fun bt =>
      .bind (simKeeps_intArg _ _) fun a => .bind (simKeeps_intArg _ _) fun n => .bind (simKeeps_onSlave fun st hw => ?_) fun _ => .pure _
    exact heapWF_block (.add (String.ofList nm) bt a n) st hw
  split
  · refine .bind (simKeeps_intArg _ _) fun id => .bind (simKeeps_arg _ _) fun nm => .bind (simKeeps_intArg _ _) fun a =>
      .bind (simKeeps_toInts _) fun vs => .bind .get fun s => .bind (simKeeps_onSlave fun st hw => ?_) fun _ =>
      .bind (simKeeps_onSlave fun st hw => ?_) fun _ => .pure _
    · exact keepsWF_setValues _ _ _ _ _ _ hw
    · exact keepsWF_getValues _ _ _ _ _ hw
  split
  · refine .bind (simKeeps_intArg _ _) fun id => .bind (simKeeps_arg _ _) fun nm => .bind (simKeeps_intArg _ _) fun a =>
      .bind (simKeeps_intArg _ _) fun n => .bind (simKeeps_onSlave fun st hw => ?_) fun _ => .pure _
    exact keepsWF_getValues _ _ _ _ _ hw
  · exact .pure _

/-- in every reachable state the blocks are well formed -/
theorem console_wf {s : SimSt} (h : ConsoleReach s) : HeapWF s.st.heap := by
  induction h with
  | start b v R declared =>
    have hk : SimKeeps consoleInit := .bind (simKeeps_addSlave 1) fun _ => simKeeps_onSlave fun st hw => heapWF_block (.add "0" 3 0 100) st hw
    exact hk _ heapWF_empty
  | @line s _ l ih =>
    unfold consoleStep
    split
    · exact ih
    · have := simKeeps_console (splitOn ' ' l) s ih
      cases hr : consoleCmd (splitOn ' ' l) s with
      | mk x s' =>
        rw [hr] at this
        cases x <;> exact this
  | @frame s _ mac request ih => exact keepsWF_serverHandle _ _ _ _ _ ih

/-- **C94 (`set_values`).** In every state the program can reach, `set_values <id> <name> <address> <values>` is `server.get_slave(id).set_values(name, address, values)`, and what is written out are these values. -/
theorem C94_set_values (he : IsEol eol) {s : SimSt} (h : ConsoleReach s) (id : Int) (name : Text) (hn : IsWord name) (a : Int) (vs : List Int) :
    consoleStep (typed ("set_values".toList :: intText id :: name :: intText a :: vs.map intText) eol) s =
      told (fun _ => "done: values written: ".toList ++ shownTuple vs ++ "\r\n".toList) (onSlave id (onHeap (setValues s.hooks (String.ofList name) a (.seq vs))) s) :=
  set_values_line he (console_wf h) id name hn a vs

end

theorem splitOn_takeWhile (t : Text) : (splitOn ' ' t).headD [] = t.takeWhile (· ≠ ' ') := by
  induction t with
  | nil => rfl
  | cons c t ih =>
    rw [splitOn]
    by_cases hc : c = ' '
    · rw [if_pos hc, List.takeWhile_cons_of_neg (by simp [hc])]; rfl
    · rw [if_neg hc, List.takeWhile_cons_of_pos (by simp [hc]), ← ih]
      cases hs : splitOn ' ' t with
      | nil => exact absurd hs (splitOn_ne_nil _ _)
      | cons w ws => rfl

/-- **C94 (other lines).** A line that begins with `quit` ends the loop; a line whose text up to the first space (or to its end, with the line end) is none of the four commands is unknown, and changes nothing. -/
theorem C94_other (line : Text) (s : SimSt) :
    (IsQuit line → consoleStep line s = ("bye-bye\r\n".toList, some .quit, s)) ∧
    (¬ IsQuit line → line.takeWhile (· ≠ ' ') ∉ ["add_slave".toList, "add_block".toList, "set_values".toList, "get_values".toList] →
      consoleStep line s = ("unknown command ".toList ++ line.takeWhile (· ≠ ' ') ++ "\r\n".toList, none, s)) := by
  refine ⟨fun h => ?_, fun hq h => ?_⟩
  · unfold consoleStep
    rw [if_pos ((isQuit_iff _).mpr h)]
  · unfold consoleStep
    rw [if_neg (fun hp => hq ((isQuit_iff _).mp hp))]
    simp only [List.mem_cons, List.not_mem_nil, or_false, not_or] at h
    unfold consoleCmd
    rw [splitOn_takeWhile, if_neg h.1, if_neg h.2.1, if_neg h.2.2.1, if_neg h.2.2.2]
    rfl

/-! ## The loop -/

/-- every step writes and goes on, or says `bye-bye`, or raises -/
theorem consoleStep_cases (line : Text) (s : SimSt) :
    (¬ IsQuit line ∧ ∃ t s', consoleStep line s = (t, none, s')) ∨ (IsQuit line ∧ consoleStep line s = ("bye-bye\r\n".toList, some .quit, s)) ∨
    (¬ IsQuit line ∧ ∃ e s', consoleStep line s = ([], some (.raised e), s')) := by
  by_cases hq : IsQuit line
  · exact .inr (.inl ⟨hq, (C94_other line s).1 hq⟩)
  · unfold consoleStep
    rw [if_neg (fun hp => hq ((isQuit_iff _).mp hp))]
    cases consoleCmd (splitOn ' ' line) s with
    | mk x s' =>
      cases x with
      | ok t => exact .inl ⟨hq, t, s', rfl⟩
      | error e => exact .inr (.inr ⟨hq, e, s', rfl⟩)

/-- **C94 (the end).** Whatever the server threads do in between: the program reads the lines up to the first that begins with `quit` or that raises an exception, and no line after it; then, and only then, it stops
    the server, once.  So every exception of a command (a wrong number, an unknown slave, a refused block) ends the program and the server. -/
theorem C94_end (work : Nat → SimSt → SimSt) (n : Nat) (lines : List Text) (s : SimSt) :
    let r := consoleRun work n lines s
    (r.ended = none ∧ r.stops = 0 ∧ r.unread = [] ∧ ∀ l ∈ lines, ¬ IsQuit l) ∨
    ∃ before l text e, lines = before ++ l :: r.unread ∧ r.stops = 1 ∧ r.ended = some e ∧
      (consoleRun work n before s).ended = none ∧ consoleStep l (work (n + before.length) (consoleRun work n before s).st) = (text, some e, r.st) ∧
      r.written = (consoleRun work n before s).written ++ text ∧
      (IsQuit l ∧ e = .quit ∧ text = "bye-bye\r\n".toList ∨ ¬ IsQuit l ∧ (∃ x, e = .raised x) ∧ text = []) := by
  induction lines generalizing n s with
  | nil => exact .inl ⟨rfl, rfl, rfl, fun _ h => by cases h⟩
  | cons l lines ih =>
    intro r
    rcases consoleStep_cases l (work n s) with ⟨hq, t, s', h⟩ | ⟨hq, h⟩ | ⟨hq, e, s', h⟩
    · have er : ∀ ls, consoleRun work n (l :: ls) s = { consoleRun work (n + 1) ls s' with written := t ++ (consoleRun work (n + 1) ls s').written } := by
        intro ls
        rw [consoleRun, h]
      have er0 : r = _ := er lines
      rw [er0]
      rcases ih (n + 1) s' with ⟨h1, h2, h3, h4⟩ | ⟨before, l', text, e, h1, h2, h3, h4, h5, h6, h7⟩
      · exact .inl ⟨h1, h2, h3, List.forall_mem_cons.mpr ⟨hq, h4⟩⟩
      · refine .inr ⟨l :: before, l', text, e, by rw [List.cons_append, ← h1], h2, h3, ?_, ?_, ?_, h7⟩
        · rw [er before]; exact h4
        · rw [er before, List.length_cons, show n + (before.length + 1) = n + 1 + before.length by omega]; exact h5
        · rw [er before]; dsimp only; rw [h6, List.append_assoc]
    · have er0 : r = ⟨"bye-bye\r\n".toList, some .quit, 1, lines, work n s⟩ := by
        show consoleRun work n (l :: lines) s = _
        rw [consoleRun, h]
      rw [er0]
      exact .inr ⟨[], l, _, _, rfl, rfl, rfl, rfl, h, rfl, .inl ⟨hq, rfl, rfl⟩⟩
    · have er0 : r = ⟨[], some (.raised e), 1, lines, s'⟩ := by
        show consoleRun work n (l :: lines) s = _
        rw [consoleRun, h]
      rw [er0]
      exact .inr ⟨[], l, _, _, rfl, rfl, rfl, rfl, h, rfl, .inr ⟨hq, ⟨e, rfl⟩, rfl⟩⟩

/-- **C94, a negative result.** At the end of the standard input (`readline()` then returns the empty text, again and again) the program does not end: it writes `unknown command` for ever, and never stops the
    server. -/
theorem C94_false_end_of_input (work : Nat → SimSt → SimSt) (n : Nat) (lines : List Text) (s : SimSt) (h : (consoleRun work n lines s).ended = none) (k : Nat) :
    (consoleRun work n (lines ++ List.replicate k []) s).ended = none ∧ (consoleRun work n (lines ++ List.replicate k []) s).stops = 0 ∧
    (consoleRun work n (lines ++ List.replicate k []) s).written = (consoleRun work n lines s).written ++ (List.replicate k "unknown command \r\n".toList).flatten := by
  induction lines generalizing n s with
  | nil =>
    rw [List.nil_append]
    clear h
    induction k generalizing n s with
    | zero => exact ⟨rfl, rfl, rfl⟩
    | succ k ih =>
      obtain ⟨h1, h2, h3⟩ := ih (n + 1) (work n s)
      rw [List.replicate_succ, consoleRun, consoleRun, (C94_other [] (work n s)).2 (by rintro ⟨r, hr⟩; cases hr) (by decide)]
      refine ⟨h1, h2, ?_⟩
      dsimp only
      rw [h3]
      rfl
  | cons l lines ih =>
    rcases consoleStep_cases l (work n s) with ⟨hq, t, s', hs⟩ | ⟨hq, hs⟩ | ⟨hq, e, s', hs⟩
    · rw [consoleRun, hs] at h
      obtain ⟨h1, h2, h3⟩ := ih (n + 1) s' h
      rw [List.cons_append, consoleRun, consoleRun, hs]
      refine ⟨h1, h2, ?_⟩
      dsimp only
      rw [h3, List.append_assoc]
    · rw [consoleRun, hs] at h; cases h
    · rw [consoleRun, hs] at h; cases h

/-- **C94, a negative result.** Unlike the simulator (C51), the program does not contain errors: after a mistyped number it no longer reads, and the server is stopped. -/
theorem C94_false_contained (work : Nat → SimSt → SimSt) (n : Nat) (s : SimSt) (lines : List Text) :
    (consoleRun work n ("add_slave x\n".toList :: lines) s).ended = some (.raised .valueError) ∧ (consoleRun work n ("add_slave x\n".toList :: lines) s).stops = 1 ∧
    (consoleRun work n ("add_slave x\n".toList :: lines) s).unread = lines := ⟨rfl, rfl, rfl⟩

/-- **C94 (the simulator).** The console does to the databank what the simulator (C52) does for the same line: for the four commands the state is the same, and the simulator answers an error exactly where the console
    program ends. -/
theorem C94_as_simulator {eol : Text} (he : IsEol eol) (errText : PyErr → Text) {s : SimSt} (h : ConsoleReach s) (id : Int) (name : Text) (hn : IsWord name) (bt a n : Int) (vs : List Int) (line : Text)
    (hl : line ∈ [typed ["add_slave".toList, intText id] eol, typed ["add_block".toList, intText id, name, intText bt, intText a, intText n] eol,
      typed ("set_values".toList :: intText id :: name :: intText a :: vs.map intText) eol, typed ["get_values".toList, intText id, name, intText a, intText n] eol]) :
    (consoleStep line s).2.2 = (simStep simCmds errText line s).2.2 ∧
    ((consoleStep line s).2.1 = none ∨ ∃ e c, (consoleStep line s).2.1 = some (.raised e) ∧ (simStep simCmds errText line s).1 = c ++ " error: ".toList ++ errText e ++ "\r\n".toList) := by
  simp only [List.mem_cons, List.not_mem_nil, or_false] at hl
  have gen : ∀ {α : Type} (f g : α → Text) (c : Text) (r : Except PyErr α × SimSt), (told f r).2.2 = (report errText c g r).2.2 ∧
      ((told f r).2.1 = none ∨ ∃ e c', (told f r).2.1 = some (.raised e) ∧ (report errText c g r).1 = c' ++ " error: ".toList ++ errText e ++ "\r\n".toList) := by
    intro α f g c r
    rcases r with ⟨e | a, s'⟩
    · exact ⟨rfl, .inr ⟨e, c, rfl, rfl⟩⟩
    · exact ⟨rfl, .inl rfl⟩
  rcases hl with rfl | rfl | rfl | rfl
  · rw [C94_add_slave he, C52_add_slave errText s he]; exact gen _ _ _ _
  · rw [C94_add_block he s id name hn, C52_add_block errText s he id name hn]; exact gen _ _ _ _
  · rw [C94_set_values he h id name hn, set_values_command errText he (console_wf h) id name hn]; exact gen _ _ _ _
  · rw [C94_get_values he s id name hn, C52_get_values errText s he id name hn]; exact gen _ _ _ _

/-- a session: an added slave, a block, values written and read, an unknown command, quit -/
def exConsole : SimSt := (consoleInit ⟨⟨⟨[], true⟩, Heap.empty⟩, [], [], 0⟩).2

example : ConsoleReach exConsole := .start true 0 [] []

example : (consoleRun (fun _ s => s) 0 ["add_slave 2\n".toList, "add_block 2 a 3 10 4\n".toList, "set_values 2 a 11 7 8\n".toList, "get_values 2 a 12 1\n".toList, "get_values 1 0 0 0\n".toList, "foo\n".toList,
      "quit\n".toList, "add_slave 3\n".toList] exConsole).written =
    "done: slave 2 added\r\ndone: block a added\r\ndone: values written: (7, 8)\r\ndone: values read: (8,)\r\ndone: values read: ()\r\nunknown command foo\n\r\nbye-bye\r\n".toList := by decide +kernel

/-- 100 zeros at the beginning; a refused write ends the program -/
example : (onSlave 1 (onHeap (getValues "0" 0 100)) exConsole).1 = .ok (List.replicate 100 0) := by decide +kernel
example : (consoleRun (fun _ s => s) 0 ["set_values 1 0 99 1 2\n".toList, "quit\n".toList] exConsole).ended ≠ none := by decide +kernel

end Modbus
