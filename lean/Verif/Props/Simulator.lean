import Verif.Model.Simulator
import Verif.Lemmas.Text
import Verif.Lemmas.HeapWF
/-
# The simulator's command line (C51, C52) and its RPC client (C53)
-/
namespace Modbus

/-! ## C51: one answer per line -/

/-- the line asks the simulator to end -/
def IsQuit (line : Text) : Prop := ∃ rest, line = 'q' :: 'u' :: 'i' :: 't' :: rest

/-- Specification of the answer to a line that does not ask to end: `answer` is put in the output queue and the state becomes
    `s'`.  `words`: the line without line ends at both ends, cut at every space. -/
inductive AnswerTo (cmds : List (Text × SimCmd)) (errText : PyErr → Text) (line : Text) (s : SimSt) : Text → SimSt → Prop
  /-- the command is known and returns -/
  | done (words : List Text) (name : Text) (f : SimCmd) (result : Option Text) (s' : SimSt)
      (hw : words = splitOn ' ' (stripChars isCrLf line)) (hn : words.head? = some name) (hf : Dict.get? cmds name = some f)
      (hr : f words s = (.ok result, s')) :
      AnswerTo cmds errText line s (name ++ " done: ".toList ++ answerText result ++ "\r\n".toList) s'
  /-- the command is known and raises -/
  | failed (words : List Text) (name : Text) (f : SimCmd) (e : PyErr) (s' : SimSt)
      (hw : words = splitOn ' ' (stripChars isCrLf line)) (hn : words.head? = some name) (hf : Dict.get? cmds name = some f)
      (hr : f words s = (.error e, s')) :
      AnswerTo cmds errText line s (name ++ " error: ".toList ++ errText e ++ "\r\n".toList) s'
  /-- the command is unknown -/
  | unknown (words : List Text) (name : Text)
      (hw : words = splitOn ' ' (stripChars isCrLf line)) (hn : words.head? = some name) (hf : Dict.get? cmds name = none) :
      AnswerTo cmds errText line s ("error: unknown command ".toList ++ name ++ "\r\n".toList) s

/-- Specification of a session without quit: every line gets its answer, in order, each from the state the previous one left. -/
inductive Session (cmds : List (Text × SimCmd)) (errText : PyErr → Text) : List Text → SimSt → List Text → SimSt → Prop
  | nil (s : SimSt) : Session cmds errText [] s [] s
  | cons {line : Text} {lines : List Text} {s s1 s2 : SimSt} {a : Text} {as : List Text} (hq : ¬ IsQuit line)
      (h : AnswerTo cmds errText line s a s1) (t : Session cmds errText lines s1 as s2) :
      Session cmds errText (line :: lines) s (a :: as) s2

theorem isQuit_iff (line : Text) : "quit".toList.isPrefixOf line = true ↔ IsQuit line := by
  rw [List.isPrefixOf_iff_prefix]
  constructor
  · rintro ⟨t, rfl⟩; exact ⟨t, rfl⟩
  · rintro ⟨t, rfl⟩; exact ⟨t, rfl⟩

theorem simStep_quit (cmds : List (Text × SimCmd)) (errText : PyErr → Text) {line : Text} (hq : IsQuit line) (s : SimSt) :
    simStep cmds errText line s = ("bye-bye\r\n".toList, true, s) := by
  simp only [simStep, (isQuit_iff line).mpr hq, reduceIte]

theorem head_splitOn (sep : Char) (t : Text) : (splitOn sep t).head? = some ((splitOn sep t).headD []) := by
  cases h : splitOn sep t with
  | nil => exact absurd h (splitOn_ne_nil sep t)
  | cons w ws => rfl

theorem simStep_answer (cmds : List (Text × SimCmd)) (errText : PyErr → Text) {line : Text} (hq : ¬ IsQuit line) (s : SimSt) :
    ∃ a s', simStep cmds errText line s = (a, false, s') ∧ AnswerTo cmds errText line s a s' := by
  have hp : "quit".toList.isPrefixOf line = false := by
    rw [Bool.eq_false_iff]; exact fun h => hq ((isQuit_iff line).mp h)
  simp only [simStep, hp, Bool.false_eq_true, reduceIte]
  have hh := head_splitOn ' ' (stripChars isCrLf line)
  cases hf : Dict.get? cmds ((splitOn ' ' (stripChars isCrLf line)).headD []) with
  | none => exact ⟨_, _, rfl, .unknown _ _ rfl hh hf⟩
  | some f =>
    simp only
    cases hr : f (splitOn ' ' (stripChars isCrLf line)) s with
    | mk x s' =>
      cases x with
      | ok a => exact ⟨_, _, rfl, .done _ _ f a s' rfl hh hf hr⟩
      | error e => exact ⟨_, _, rfl, .failed _ _ f e s' rfl hh hf hr⟩

/-- C51: for every table of commands (built-in and added ones, whatever they do) and every list of lines none of which starts with
    `quit`, the simulator puts one answer per line, in order - the result, the error, or "unknown command" - leaves no line unread
    and keeps running; the state is the one the commands left. -/
theorem C51_one_answer_per_line (cmds : List (Text × SimCmd)) (errText : PyErr → Text) (lines : List Text) (s : SimSt)
    (hq : ∀ l ∈ lines, ¬ IsQuit l) :
    ∃ answers s', simRun cmds errText lines s = (answers, s', [], false) ∧ Session cmds errText lines s answers s' ∧
      answers.length = lines.length := by
  induction lines generalizing s with
  | nil => exact ⟨[], s, rfl, .nil s, rfl⟩
  | cons l ls ih =>
    obtain ⟨a, s1, he, ha⟩ := simStep_answer cmds errText (hq l (by simp)) s
    obtain ⟨as, s2, hr, hs, hl⟩ := ih s1 (fun l' h' => hq l' (by simp [h']))
    refine ⟨a :: as, s2, ?_, .cons (hq l (by simp)) ha hs, by simp [hl]⟩
    rw [simRun, he]; simp only; rw [hr]

/-- C51: a line starting with `quit` is answered and ends the loop; the lines before it have been answered, the state is unchanged
    by it and the lines after it stay in the queue. -/
theorem C51_quit (cmds : List (Text × SimCmd)) (errText : PyErr → Text) (before after : List Text) (line : Text) (s : SimSt)
    (hb : ∀ l ∈ before, ¬ IsQuit l) (hq : IsQuit line) :
    ∃ answers s', simRun cmds errText (before ++ line :: after) s = (answers ++ ["bye-bye\r\n".toList], s', after, true) ∧
      Session cmds errText before s answers s' ∧ answers.length = before.length := by
  induction before generalizing s with
  | nil => exact ⟨[], s, by rw [List.nil_append, simRun, simStep_quit _ _ hq]; rfl, .nil s, rfl⟩
  | cons l ls ih =>
    obtain ⟨a, s1, he, ha⟩ := simStep_answer cmds errText (hb l (by simp)) s
    obtain ⟨as, s2, hr, hs, hl⟩ := ih s1 (fun l' h' => hb l' (by simp [h']))
    refine ⟨a :: as, s2, ?_, .cons (hb l (by simp)) ha hs, by simp [hl]⟩
    rw [List.cons_append, simRun, he]; simp only; rw [hr]; rfl

/-- C51: the loop ends only because of such a line. -/
theorem C51_ends_only_on_quit (cmds : List (Text × SimCmd)) (errText : PyErr → Text) (lines : List Text) (s : SimSt)
    (h : (simRun cmds errText lines s).2.2.2 = true) : ∃ l ∈ lines, IsQuit l := by
  by_cases hq : ∀ l ∈ lines, ¬ IsQuit l
  · obtain ⟨_, _, he, _⟩ := C51_one_answer_per_line cmds errText lines s hq
    rw [he] at h; exact absurd h (by simp)
  · simp only [Classical.not_forall, Classical.not_not] at hq
    obtain ⟨l, hl, hq⟩ := hq
    exact ⟨l, hl, hq⟩

/-- non-vacuity: three lines (accepted, unknown, failing), then quit, then one more line that stays in the queue -/
example (s : SimSt) : ∃ answers s', simRun simCmds (fun _ => "no".toList)
    (["add_slave 1\n".toList, "bogus 1\n".toList, "add_slave x\n".toList] ++ "quit\n".toList :: ["add_slave 2\n".toList]) s =
      (answers ++ ["bye-bye\r\n".toList], s', ["add_slave 2\n".toList], true) ∧ answers.length = 3 := by
  obtain ⟨as, s', h1, _, h2⟩ := C51_quit simCmds (fun _ => "no".toList)
    ["add_slave 1\n".toList, "bogus 1\n".toList, "add_slave x\n".toList] ["add_slave 2\n".toList] "quit\n".toList s (by
      intro l hl
      simp only [List.mem_cons, List.not_mem_nil, or_false] at hl
      rcases hl with rfl | rfl | rfl <;> (rintro ⟨r, hr⟩; exact absurd hr (by simp))) ⟨"\n".toList, rfl⟩
  exact ⟨as, s', h1, h2⟩

/-! ## Typed lines -/

/-- the words separated by one space, then the line end -/
def typed (ws : List Text) (eol : Text) : Text := unwords ws ++ eol

/-- a word: no space, no line end -/
def IsWord (w : Text) : Prop := ∀ c ∈ w, c ≠ ' ' ∧ c ≠ '\r' ∧ c ≠ '\n'

theorem isWord_intText (i : Int) : IsWord (intText i) := by
  intro c hc
  refine ⟨?_, ?_, ?_⟩ <;> rintro rfl
  · exact intText_free i _ (by decide) (by decide) hc
  · exact intText_free i _ (by decide) (by decide) hc
  · exact intText_free i _ (by decide) (by decide) hc

theorem isCrLf_eq_false {c : Char} (h1 : c ≠ '\r') (h2 : c ≠ '\n') : isCrLf c = false := by
  simp [isCrLf, h1, h2]

theorem mem_unwords {ws : List Text} {c : Char} (h : c ∈ unwords ws) : c = ' ' ∨ ∃ w ∈ ws, c ∈ w := by
  induction ws with
  | nil => simp [unwords] at h
  | cons w ws ih =>
    cases ws with
    | nil => exact .inr ⟨w, by simp, h⟩
    | cons w' ws =>
      simp only [unwords, List.mem_append, List.mem_cons] at h
      rcases h with h | h | h
      · exact .inr ⟨w, by simp, h⟩
      · exact .inl h
      · rcases ih h with h | ⟨x, hx, hc⟩
        · exact .inl h
        · exact .inr ⟨x, by simp at hx ⊢; tauto, hc⟩

theorem dropWhile_all {p : Char → Bool} {e rest : Text} (h : ∀ c ∈ e, p c = true) : (e ++ rest).dropWhile p = rest.dropWhile p := by
  induction e with
  | nil => rfl
  | cons c e ih =>
    rw [List.cons_append, List.dropWhile_cons_of_pos (h c (by simp))]
    exact ih fun c' hc' => h c' (by simp [hc'])

theorem dropWhile_none {p : Char → Bool} {s : Text} (h : ∀ c ∈ s, p c = false) : s.dropWhile p = s := by
  cases s with
  | nil => rfl
  | cons c s => rw [List.dropWhile_cons_of_neg]; simp [h c (by simp)]

theorem stripChars_tail {p : Char → Bool} {s e : Text} (hs : ∀ c ∈ s, p c = false) (he : ∀ c ∈ e, p c = true) :
    stripChars p (s ++ e) = s := by
  unfold stripChars
  cases s with
  | nil =>
    have : (([] : Text) ++ e).dropWhile p = [] := by
      have := dropWhile_all (rest := []) he
      simpa using this
    rw [this]; rfl
  | cons c s =>
    rw [List.cons_append, List.dropWhile_cons_of_neg (by simp [hs c (by simp)])]
    rw [← List.cons_append, List.reverse_append, dropWhile_all (by simpa using he), dropWhile_none (fun c hc => hs c (List.mem_reverse.mp hc)),
      List.reverse_reverse]

theorem splitOn_typed {ws : List Text} {eol : Text} (hne : ws ≠ []) (hw : ∀ w ∈ ws, IsWord w) (he : ∀ c ∈ eol, isCrLf c = true) :
    splitOn ' ' (stripChars isCrLf (typed ws eol)) = ws := by
  unfold typed
  rw [stripChars_tail _ he]
  · exact splitOn_unwords hne fun w h hc => (hw w h _ hc).1 rfl
  · intro c hc
    rcases mem_unwords hc with rfl | ⟨w, h, hcw⟩
    · decide
    · exact isCrLf_eq_false (hw w h c hcw).2.1 (hw w h c hcw).2.2

/-- what the simulator answers when the command `name` gives `r`; `show_` turns the result into a text -/
def report {α : Type} (errText : PyErr → Text) (name : Text) (show_ : α → Text) (r : Except PyErr α × SimSt) : Text × Bool × SimSt :=
  match r with
  | (.ok a, s') => (name ++ " done: ".toList ++ show_ a ++ "\r\n".toList, false, s')
  | (.error e, s') => (name ++ " error: ".toList ++ errText e ++ "\r\n".toList, false, s')

theorem typed_step (cmds : List (Text × SimCmd)) (errText : PyErr → Text) {c : Char} {t : Text} {ws : List Text} {eol : Text}
    {f : SimCmd} (hc : c ≠ 'q') (hf : Dict.get? cmds (c :: t) = some f) (hw : ∀ w ∈ (c :: t) :: ws, IsWord w)
    (he : ∀ c ∈ eol, isCrLf c = true) (s : SimSt) :
    simStep cmds errText (typed ((c :: t) :: ws) eol) s = report errText (c :: t) answerText (f ((c :: t) :: ws) s) := by
  have hp : "quit".toList.isPrefixOf (typed ((c :: t) :: ws) eol) = false := by
    rw [Bool.eq_false_iff]
    intro h
    obtain ⟨r, hr⟩ := (isQuit_iff _).mp h
    cases ws with
    | nil => simp only [typed, unwords, List.cons_append, List.cons.injEq] at hr; exact hc hr.1
    | cons w ws => simp only [typed, unwords, List.cons_append, List.cons.injEq] at hr; exact hc hr.1
  simp only [simStep, hp, Bool.false_eq_true, reduceIte]
  rw [splitOn_typed (by simp) hw he]
  simp only [List.headD_cons, hf, report]
  cases hr : f ((c :: t) :: ws) s with
  | mk x s' => cases x <;> rfl

/-! ## C52: the commands are the API calls -/

theorem intArg_ok {args : List Text} {i : Nat} {v : Int} (h : args[i]? = some (intText v)) (s : SimSt) :
    intArg args i s = (.ok v, s) := by
  simp only [intArg, PyM.bind_apply, arg, h, PyM.pure_apply, toInt, parseInt_intText]

theorem arg_ok {args : List Text} {i : Nat} {t : Text} (h : args[i]? = some t) (s : SimSt) : arg args i s = (.ok t, s) := by
  simp only [arg, h, PyM.pure_apply]

theorem toInts_ok (vs : List Int) (s : SimSt) : toInts (vs.map intText) s = (.ok vs, s) := by
  induction vs with
  | nil => rfl
  | cons v vs ih => simp only [List.map_cons, toInts, PyM.bind_apply, toInt, parseInt_intText, PyM.pure_apply, ih]

/-- numbers separated by spaces -/
def numbers (vs : List Int) : Text := unwords (vs.map intText)

theorem unwords_cons (w : Text) (ws : List Text) : unwords (w :: ws) = w ++ ws.flatMap (fun x => ' ' :: x) := by
  induction ws generalizing w with
  | nil => simp [unwords]
  | cons x xs ih => rw [unwords, ih] <;> simp

theorem tupleToStr_eq (vs : List Int) : tupleToStr vs = numbers vs := by
  cases vs with
  | nil => rfl
  | cons v vs =>
    unfold tupleToStr numbers
    rw [List.map_cons, unwords_cons, List.flatMap_cons, List.cons_append, List.drop_succ_cons, List.drop_zero, List.flatMap_map]

theorem IsWord.ofList {t : String} (h : ∀ c ∈ t.toList, c ≠ ' ' ∧ c ≠ '\r' ∧ c ≠ '\n') : IsWord t.toList := h

/-- the line end a terminal or a socket may leave -/
def IsEol (eol : Text) : Prop := ∀ c ∈ eol, isCrLf c = true

instance (w : Text) : Decidable (IsWord w) := inferInstanceAs (Decidable (∀ c ∈ w, c ≠ ' ' ∧ c ≠ '\r' ∧ c ≠ '\n'))

/-- the words of a command are words -/
macro "words" : tactic => `(tactic| repeat (first
  | exact List.forall_mem_nil _
  | refine List.forall_mem_cons.mpr ⟨by first | exact isWord_intText _ | assumption | decide, ?_⟩))

section Commands
variable (errText : PyErr → Text) (s : SimSt) {eol : Text}

/-- C52: `add_slave <id>` is `server.add_slave(id)`. -/
theorem C52_add_slave (he : IsEol eol) (id : Int) :
    simStep simCmds errText (typed ["add_slave".toList, intText id] eol) s =
      report errText "add_slave".toList (fun _ => intText id) (onDb (addSlave id true none) s) := by
  rw [show "add_slave".toList = 'a' :: "dd_slave".toList from rfl,
    typed_step simCmds errText (f := doAddSlave) (by decide) rfl (by words) he]
  simp only [doAddSlave, PyM.bind_apply, intArg_ok (show (_ :: [intText id])[1]? = _ from rfl)]
  cases onDb (addSlave id true none) s with
  | mk x s' => cases x <;> rfl

/-- C52: `has_slave <id>` answers 1 exactly if the server has the slave, and changes nothing. -/
theorem C52_has_slave (he : IsEol eol) (id : Int) :
    simStep simCmds errText (typed ["has_slave".toList, intText id] eol) s =
      ("has_slave done: ".toList ++ (if (Dict.get? s.st.db.slaves id).isSome then "1" else "0").toList ++ "\r\n".toList, false, s) := by
  rw [show "has_slave".toList = 'h' :: "as_slave".toList from rfl,
    typed_step simCmds errText (f := doHasSlave) (by decide) rfl (by words) he]
  simp only [doHasSlave, PyM.bind_apply, intArg_ok (show (_ :: [intText id])[1]? = _ from rfl), PyM.tryExcept_apply, onDb, getSlave]
  cases hg : Dict.get? s.st.db.slaves id <;> rfl

/-- C52: `remove_slave <id>` is `server.remove_slave(id)`. -/
theorem C52_remove_slave (he : IsEol eol) (id : Int) :
    simStep simCmds errText (typed ["remove_slave".toList, intText id] eol) s =
      report errText "remove_slave".toList (fun _ => []) (onDb (removeSlave id) s) := by
  rw [show "remove_slave".toList = 'r' :: "emove_slave".toList from rfl,
    typed_step simCmds errText (f := doRemoveSlave) (by decide) rfl (by words) he]
  simp only [doRemoveSlave, PyM.bind_apply, intArg_ok (show (_ :: [intText id])[1]? = _ from rfl)]
  cases onDb (removeSlave id) s with
  | mk x s' => cases x <;> rfl

/-- C52: `remove_all_slaves` is `server.remove_all_slaves()`. -/
theorem C52_remove_all_slaves (he : IsEol eol) :
    simStep simCmds errText (typed ["remove_all_slaves".toList] eol) s =
      report errText "remove_all_slaves".toList (fun _ => []) (onDb removeAllSlaves s) := by
  rw [show "remove_all_slaves".toList = 'r' :: "emove_all_slaves".toList from rfl,
    typed_step simCmds errText (f := doRemoveAllSlaves) (by decide) rfl (by
      intro w hw; simp only [List.mem_cons, List.not_mem_nil, or_false] at hw; subst hw; decide) he]
  rfl

/-- C52: `add_block <id> <name> <type> <address> <length>` is `server.get_slave(id).add_block(name, type, address, length)`. -/
theorem C52_add_block (he : IsEol eol) (id : Int) (name : Text) (hn : IsWord name) (bt a n : Int) :
    simStep simCmds errText (typed ["add_block".toList, intText id, name, intText bt, intText a, intText n] eol) s =
      report errText "add_block".toList (fun _ => name) (onSlave id (addBlock (String.ofList name) bt a n) s) := by
  rw [show "add_block".toList = 'a' :: "dd_block".toList from rfl,
    typed_step simCmds errText (f := doAddBlock) (by decide) rfl (by words) he]
  simp only [doAddBlock, PyM.bind_apply,
    intArg_ok (show ['a' :: "dd_block".toList, intText id, name, intText bt, intText a, intText n][1]? = _ from rfl),
    arg_ok (show ['a' :: "dd_block".toList, intText id, name, intText bt, intText a, intText n][2]? = _ from rfl),
    intArg_ok (show ['a' :: "dd_block".toList, intText id, name, intText bt, intText a, intText n][3]? = _ from rfl),
    intArg_ok (show ['a' :: "dd_block".toList, intText id, name, intText bt, intText a, intText n][4]? = _ from rfl),
    intArg_ok (show ['a' :: "dd_block".toList, intText id, name, intText bt, intText a, intText n][5]? = _ from rfl)]
  cases onSlave id (addBlock (String.ofList name) bt a n) s with
  | mk x s' => cases x <;> rfl

/-- C52: `remove_block <id> <name>` is `server.get_slave(id).remove_block(name)`; the answer is "None". -/
theorem C52_remove_block (he : IsEol eol) (id : Int) (name : Text) (hn : IsWord name) :
    simStep simCmds errText (typed ["remove_block".toList, intText id, name] eol) s =
      report errText "remove_block".toList (fun _ => "None".toList) (onSlave id (removeBlock (String.ofList name)) s) := by
  rw [show "remove_block".toList = 'r' :: "emove_block".toList from rfl,
    typed_step simCmds errText (f := doRemoveBlock) (by decide) rfl (by words) he]
  simp only [doRemoveBlock, PyM.bind_apply,
    intArg_ok (show ['r' :: "emove_block".toList, intText id, name][1]? = _ from rfl),
    arg_ok (show ['r' :: "emove_block".toList, intText id, name][2]? = _ from rfl)]
  cases onSlave id (removeBlock (String.ofList name)) s with
  | mk x s' => cases x <;> rfl

/-- C52: `remove_all_blocks <id>` is `server.get_slave(id).remove_all_blocks()`; the answer is "None". -/
theorem C52_remove_all_blocks (he : IsEol eol) (id : Int) :
    simStep simCmds errText (typed ["remove_all_blocks".toList, intText id] eol) s =
      report errText "remove_all_blocks".toList (fun _ => "None".toList) (onSlave id removeAllBlocks s) := by
  rw [show "remove_all_blocks".toList = 'r' :: "emove_all_blocks".toList from rfl,
    typed_step simCmds errText (f := doRemoveAllBlocks) (by decide) rfl (by words) he]
  simp only [doRemoveAllBlocks, PyM.bind_apply,
    intArg_ok (show ['r' :: "emove_all_blocks".toList, intText id][1]? = _ from rfl)]
  cases onSlave id removeAllBlocks s with
  | mk x s' => cases x <;> rfl

/-- C52: `get_values <id> <name> <address> <n>` is `server.get_slave(id).get_values(name, address, n)`; the answer is the values. -/
theorem C52_get_values (he : IsEol eol) (id : Int) (name : Text) (hn : IsWord name) (a n : Int) :
    simStep simCmds errText (typed ["get_values".toList, intText id, name, intText a, intText n] eol) s =
      report errText "get_values".toList numbers (onSlave id (onHeap (getValues (String.ofList name) a n)) s) := by
  rw [show "get_values".toList = 'g' :: "et_values".toList from rfl,
    typed_step simCmds errText (f := doGetValues) (by decide) rfl (by words) he]
  simp only [doGetValues, PyM.bind_apply,
    intArg_ok (show ['g' :: "et_values".toList, intText id, name, intText a, intText n][1]? = _ from rfl),
    arg_ok (show ['g' :: "et_values".toList, intText id, name, intText a, intText n][2]? = _ from rfl),
    intArg_ok (show ['g' :: "et_values".toList, intText id, name, intText a, intText n][3]? = _ from rfl),
    intArg_ok (show ['g' :: "et_values".toList, intText id, name, intText a, intText n][4]? = _ from rfl)]
  cases onSlave id (onHeap (getValues (String.ofList name) a n)) s with
  | mk x s' =>
    cases x with
    | error e => rfl
    | ok vs => simp only [report, PyM.pure_apply, answerText, tupleToStr_eq]

/-- C52: `install_hook <hook> <function>` is `hooks.install_hook(hook, f)` for the function declared under that name. -/
theorem C52_install_hook (he : IsEol eol) (hook fct : Text) (hh : IsWord hook) (hf : IsWord fct) :
    simStep simCmds errText (typed ["install_hook".toList, hook, fct] eol) s =
      match Dict.get? s.declared fct with
      | some f => ("install_hook done: None\r\n".toList, false, { s with hooks := installHook s.hooks (String.ofList hook) f })
      | none => ("install_hook error: ".toList ++ errText .keyError ++ "\r\n".toList, false, s) := by
  rw [show "install_hook".toList = 'i' :: "nstall_hook".toList from rfl,
    typed_step simCmds errText (f := doInstallHook) (by decide) rfl (by words) he]
  simp only [doInstallHook, PyM.bind_apply, arg_ok (show ['i' :: "nstall_hook".toList, hook, fct][1]? = _ from rfl),
    arg_ok (show ['i' :: "nstall_hook".toList, hook, fct][2]? = _ from rfl), PyM.get_apply]
  cases hd : Dict.get? s.declared fct with
  | none => rfl
  | some f => simp only [PyM.bind_apply, PyM.set_apply, PyM.pure_apply]; rfl

/-- C52: `uninstall_hook <hook>`, with or without more words, removes every function installed on that hook; an unknown hook is no
    error. -/
theorem C52_uninstall_hook (he : IsEol eol) (hook : Text) (hh : IsWord hook) (more : List Text) (hm : ∀ w ∈ more, IsWord w) :
    simStep simCmds errText (typed ("uninstall_hook".toList :: hook :: more) eol) s =
      ("uninstall_hook done: None\r\n".toList, false,
        match Dict.get? s.hooks (String.ofList hook) with
        | some _ => { s with hooks := Dict.set s.hooks (String.ofList hook) [] }
        | none => s) := by
  rw [show "uninstall_hook".toList = 'u' :: "ninstall_hook".toList from rfl,
    typed_step simCmds errText (f := doUninstallHook) (by decide) rfl
      (List.forall_mem_cons.mpr ⟨by decide, List.forall_mem_cons.mpr ⟨hh, hm⟩⟩) he]
  simp only [doUninstallHook, PyM.bind_apply, arg_ok (show (('u' :: "ninstall_hook".toList) :: hook :: more)[1]? = _ from rfl),
    PyM.get_apply, uninstallHook]
  cases hd : Dict.get? s.hooks (String.ofList hook) with
  | none => rfl
  | some f => simp only [PyM.bind_apply, PyM.set_apply, PyM.pure_apply]; rfl

/-- C52: `set_verbose <n>` is `server.set_verbose(n)`. -/
theorem C52_set_verbose (he : IsEol eol) (n : Int) :
    simStep simCmds errText (typed ["set_verbose".toList, intText n] eol) s =
      ("set_verbose done: ".toList ++ intText n ++ "\r\n".toList, false, { s with verbose := n }) := by
  rw [show "set_verbose".toList = 's' :: "et_verbose".toList from rfl,
    typed_step simCmds errText (f := doSetVerbose) (by decide) rfl (by words) he]
  simp only [doSetVerbose, PyM.bind_apply, intArg_ok (show (_ :: [intText n])[1]? = _ from rfl), PyM.modify_apply, PyM.pure_apply]
  rfl

/-- C52: a command on a slave that `server.get_slave(id)` does not find answers with the error `get_slave` raises and changes
    nothing. -/
theorem C52_unknown_slave (he : IsEol eol) (id : Int) {e : PyErr} (hg : (getSlave id s.st).1 = .error e) (name : Text) (hn : IsWord name)
    (bt a n : Int) :
    simStep simCmds errText (typed ["add_block".toList, intText id, name, intText bt, intText a, intText n] eol) s =
      ("add_block error: ".toList ++ errText e ++ "\r\n".toList, false, s) ∧
    simStep simCmds errText (typed ["remove_block".toList, intText id, name] eol) s =
      ("remove_block error: ".toList ++ errText e ++ "\r\n".toList, false, s) ∧
    simStep simCmds errText (typed ["remove_all_blocks".toList, intText id] eol) s =
      ("remove_all_blocks error: ".toList ++ errText e ++ "\r\n".toList, false, s) ∧
    simStep simCmds errText (typed ["get_values".toList, intText id, name, intText a, intText n] eol) s =
      ("get_values error: ".toList ++ errText e ++ "\r\n".toList, false, s) := by
  have key : ∀ {α : Type} (f : PyM SlaveSt α), onSlave id f s = (.error e, s) := by
    intro α f
    unfold getSlave at hg
    unfold onSlave
    cases hx : Dict.get? s.st.db.slaves id with
    | none => rw [hx] at hg; cases hg; rfl
    | some sl => rw [hx] at hg; cases hg
  refine ⟨?_, ?_, ?_, ?_⟩
  · rw [C52_add_block errText s he id name hn, key]; rfl
  · rw [C52_remove_block errText s he id name hn, key]; rfl
  · rw [C52_remove_all_blocks errText s he id, key]; rfl
  · rw [C52_get_values errText s he id name hn, key]; rfl

/-- C51: after `add_command(name, f)`, a line whose first word is `name` (it must not begin with `quit`) runs `f` on the words of
    the line, even if a command of that name existed; every line with another first word is answered as before. -/
theorem C51_add_command (he : IsEol eol) (cmds : List (Text × SimCmd)) (f : SimCmd) {c : Char} (hc : c ≠ 'q') (t : Text) (ws : List Text)
    (hw : ∀ w ∈ (c :: t) :: ws, IsWord w) :
    simStep (addCommand cmds (c :: t) f) errText (typed ((c :: t) :: ws) eol) s =
      report errText (c :: t) answerText (f ((c :: t) :: ws) s) ∧
    ∀ line, (splitOn ' ' (stripChars isCrLf line)).head? ≠ some (c :: t) →
      simStep (addCommand cmds (c :: t) f) errText line s = simStep cmds errText line s := by
  refine ⟨typed_step _ errText hc (Dict.get?_set_same cmds _ f) hw he s, fun line hl => ?_⟩
  have hne : (splitOn ' ' (stripChars isCrLf line)).headD [] ≠ c :: t := by
    intro e
    apply hl
    rw [head_splitOn, e]
  unfold simStep addCommand
  dsimp only
  rw [Dict.get?_set_other cmds _ _ f hne]

end Commands

/-! ### `set_values` -/

theorem dict_set_set {κ ν : Type} [DecidableEq κ] (d : List (κ × ν)) (k : κ) (v w : ν) :
    Dict.set (Dict.set d k v) k w = Dict.set d k w := by
  induction d with
  | nil => simp [Dict.set]
  | cons p d ih =>
    obtain ⟨k', v'⟩ := p
    by_cases h : k' = k
    · simp [Dict.set, h]
    · simp [Dict.set, h, ih]

theorem onSlave_some {α : Type} {id : Int} {sl : Slave} {s : SimSt} (h : Dict.get? s.st.db.slaves id = some sl) (f : Slave → PyM Heap α) :
    onSlave id (onHeap f) s = ((f sl s.st.heap).1, { s with st :=
      { db := { s.st.db with slaves := Dict.set s.st.db.slaves id sl }, heap := (f sl s.st.heap).2 } }) := by
  simp only [onSlave, h, onHeap]

/-- C52: when all blocks are well formed (they are in every state a simulator can reach: `simReach_wf`),
    `set_values <id> <name> <address> <values>` is `server.get_slave(id).set_values(name, address, values)`, and when that is accepted
    the answer is the values just stored. -/
theorem set_values_command (errText : PyErr → Text) {s : SimSt} {eol : Text} (he : IsEol eol) (hw : HeapWF s.st.heap)
    (id : Int) (name : Text) (hn : IsWord name) (a : Int) (vs : List Int) :
    simStep simCmds errText (typed ("set_values".toList :: intText id :: name :: intText a :: vs.map intText) eol) s =
      report errText "set_values".toList (fun _ => numbers vs)
        (onSlave id (onHeap (setValues s.hooks (String.ofList name) a (.seq vs))) s) := by
  rw [show "set_values".toList = 's' :: "et_values".toList from rfl,
    typed_step simCmds errText (f := doSetValues) (by decide) rfl (by
      refine List.forall_mem_cons.mpr ⟨by decide, List.forall_mem_cons.mpr ⟨isWord_intText _, List.forall_mem_cons.mpr ⟨hn,
        List.forall_mem_cons.mpr ⟨isWord_intText _, ?_⟩⟩⟩⟩
      intro w h
      obtain ⟨v, _, rfl⟩ := List.mem_map.mp h
      exact isWord_intText v) he]
  simp only [doSetValues, PyM.bind_apply,
    intArg_ok (show (('s' :: "et_values".toList) :: intText id :: name :: intText a :: vs.map intText)[1]? = _ from rfl),
    arg_ok (show (('s' :: "et_values".toList) :: intText id :: name :: intText a :: vs.map intText)[2]? = _ from rfl),
    intArg_ok (show (('s' :: "et_values".toList) :: intText id :: name :: intText a :: vs.map intText)[3]? = _ from rfl),
    List.drop_succ_cons, List.drop_zero, toInts_ok, PyM.get_apply]
  cases hg : Dict.get? s.st.db.slaves id with
  | none => simp only [onSlave, hg]; rfl
  | some sl =>
    rw [onSlave_some hg]
    cases hs : setValues s.hooks (String.ofList name) a (.seq vs) sl s.st.heap with
    | mk x h' =>
      cases x with
      | error e => rfl
      | ok u =>
        simp only
        rw [onSlave_some (sl := sl) (by simp only [Dict.get?_set_same])]
        have hget := C01_get_after_set hw hs
        simp only [Values.toList] at hget
        simp only [hget, dict_set_set]
        simp only [report, PyM.pure_apply, answerText, tupleToStr_eq]

/-! ### Reachable states -/

/-- a state the simulator can reach: command lines and Modbus requests in any order, from a new server -/
inductive SimReach (errText : PyErr → Text) (declared : List (Text × Hook)) : SimSt → Prop
  | start (b : Bool) : SimReach errText declared ⟨⟨⟨[], b⟩, Heap.empty⟩, [], declared, 0⟩
  | line {s : SimSt} (h : SimReach errText declared s) (l : Text) : SimReach errText declared (simStep simCmds errText l s).2.2
  | frame {s : SimSt} (h : SimReach errText declared s) (mac : Mac) (request : Bytes) :
      SimReach errText declared { s with st := { s.st with heap := (serverHandle s.hooks mac s.st.db request s.st.heap).2 } }

def SimKeeps {α : Type} (m : PyM SimSt α) : Prop := ∀ s, HeapWF s.st.heap → HeapWF (m s).2.st.heap

theorem SimKeeps.bind {α β : Type} {m : PyM SimSt α} {f : α → PyM SimSt β} (hm : SimKeeps m) (hf : ∀ a, SimKeeps (f a)) :
    SimKeeps (m >>= f) := by
  intro s hw
  simp only [PyM.bind_apply]
  have h1 := hm s hw
  cases hr : m s with
  | mk x s' =>
    rw [hr] at h1
    cases x with
    | error e => exact h1
    | ok a => exact hf a s' h1

theorem SimKeeps.pure {α : Type} (a : α) : SimKeeps (Pure.pure a : PyM SimSt α) := fun _ h => h
theorem SimKeeps.raise {α : Type} (e : PyErr) : SimKeeps (PyM.raise e : PyM SimSt α) := fun _ h => h
theorem SimKeeps.get : SimKeeps PyM.get := fun _ h => h

theorem SimKeeps.tryExcept {α : Type} {m : PyM SimSt α} {f : PyErr → PyM SimSt α} (hm : SimKeeps m) (hf : ∀ a, SimKeeps (f a)) :
    SimKeeps (PyM.tryExcept m f) := by
  intro h hw
  simp only [PyM.tryExcept_apply]
  have h1 := hm h hw
  cases hr : m h with
  | mk x h' =>
    rw [hr] at h1
    cases x with
    | error e => exact hf e h' h1
    | ok a => exact h1

theorem simKeeps_arg (args : List Text) (i : Nat) : SimKeeps (arg args i) := by
  unfold arg; split
  · exact .pure _
  · exact .raise _

theorem simKeeps_toInt (t : Text) : SimKeeps (toInt t) := by
  unfold toInt; split
  · exact .pure _
  · exact .raise _

theorem simKeeps_intArg (args : List Text) (i : Nat) : SimKeeps (intArg args i) :=
  .bind (simKeeps_arg _ _) fun _ => simKeeps_toInt _

theorem simKeeps_toInts (args : List Text) : SimKeeps (toInts args) := by
  induction args with
  | nil => exact .pure _
  | cons a as ih => rw [toInts]; exact .bind (simKeeps_toInt _) fun _ => .bind ih fun _ => .pure _

theorem simKeeps_onDb {α : Type} {f : PyM DbSt α} (h : ∀ st, HeapWF st.heap → HeapWF (f st).2.heap) : SimKeeps (onDb f) :=
  fun s hw => h s.st hw

theorem simKeeps_onSlave {α : Type} {id : Int} {f : PyM SlaveSt α} (h : ∀ st, HeapWF st.heap → HeapWF (f st).2.heap) :
    SimKeeps (onSlave id f) := by
  intro s hw
  unfold onSlave
  split
  · exact hw
  · exact h ⟨_, s.st.heap⟩ hw

theorem simKeeps_cmds (name : Text) (f : SimCmd) (hf : Dict.get? simCmds name = some f) (args : List Text) : SimKeeps (f args) := by
  have hm := get?_mem hf
  simp only [simCmds, List.mem_cons, Prod.mk.injEq, List.not_mem_nil, or_false] at hm
  rcases hm with ⟨-, rfl⟩ | ⟨-, rfl⟩ | ⟨-, rfl⟩ | ⟨-, rfl⟩ | ⟨-, rfl⟩ | ⟨-, rfl⟩ | ⟨-, rfl⟩ | ⟨-, rfl⟩ | ⟨-, rfl⟩ | ⟨-, rfl⟩ | ⟨-, rfl⟩ | ⟨-, rfl⟩
  · refine .bind (simKeeps_intArg _ _) fun id => .bind (simKeeps_onDb fun st hw => ?_) fun _ => .pure _
    unfold addSlave
    split
    · exact hw
    split
    · exact hw
    · exact heapWF_slaveNew hw _ _ _
  · refine .bind (simKeeps_intArg _ _) fun id => .tryExcept (.bind (simKeeps_onDb fun st hw => ?_) fun _ => .pure _) fun _ => .pure _
    unfold getSlave; split <;> exact hw
  · refine .bind (simKeeps_intArg _ _) fun id => .bind (simKeeps_onDb fun st hw => ?_) fun _ => .pure _
    unfold removeSlave; split <;> exact hw
  · exact .bind (simKeeps_onDb fun st hw => hw) fun _ => .pure _
  · refine .bind (simKeeps_intArg _ _) fun id => .bind (simKeeps_arg _ _) fun nm => .bind (simKeeps_intArg _ _) fun bt =>
      .bind (simKeeps_intArg _ _) fun a => .bind (simKeeps_intArg _ _) fun n => .bind (simKeeps_onSlave fun st hw => ?_) fun _ => .pure _
    exact heapWF_block (.add (String.ofList nm) bt a n) st hw
  · refine .bind (simKeeps_intArg _ _) fun id => .bind (simKeeps_arg _ _) fun nm => .bind (simKeeps_onSlave fun st hw => ?_) fun _ => .pure _
    exact heapWF_block (.remove (String.ofList nm)) st hw
  · refine .bind (simKeeps_intArg _ _) fun id => .bind (simKeeps_onSlave fun st hw => ?_) fun _ => .pure _
    exact heapWF_block .removeAll st hw
  · refine .bind (simKeeps_intArg _ _) fun id => .bind (simKeeps_arg _ _) fun nm => .bind (simKeeps_intArg _ _) fun a =>
      .bind (simKeeps_toInts _) fun vs => .bind .get fun s => .bind (simKeeps_onSlave fun st hw => ?_) fun _ =>
      .bind (simKeeps_onSlave fun st hw => ?_) fun _ => .pure _
    · exact keepsWF_setValues _ _ _ _ _ _ hw
    · exact keepsWF_getValues _ _ _ _ _ hw
  · refine .bind (simKeeps_intArg _ _) fun id => .bind (simKeeps_arg _ _) fun nm => .bind (simKeeps_intArg _ _) fun a =>
      .bind (simKeeps_intArg _ _) fun n => .bind (simKeeps_onSlave fun st hw => ?_) fun _ => .pure _
    exact keepsWF_getValues _ _ _ _ _ hw
  · intro s hw
    simp only [doInstallHook, PyM.bind_apply, arg]
    cases args[1]? with
    | none => exact hw
    | some x =>
      simp only [PyM.pure_apply]
      cases args[2]? with
      | none => exact hw
      | some y =>
        simp only [PyM.pure_apply, PyM.get_apply]
        cases Dict.get? s.declared y <;> exact hw
  · intro s hw
    simp only [doUninstallHook, PyM.bind_apply, arg]
    cases args[1]? with
    | none => exact hw
    | some x =>
      simp only [PyM.pure_apply, PyM.get_apply, uninstallHook]
      cases Dict.get? s.hooks (String.ofList x) <;> exact hw
  · exact .bind (simKeeps_intArg _ _) fun n => .bind (fun s hw => hw) fun _ => .pure _

/-- in every reachable state the blocks are well formed -/
theorem simReach_wf {errText : PyErr → Text} {declared : List (Text × Hook)} {s : SimSt} (h : SimReach errText declared s) :
    HeapWF s.st.heap := by
  induction h with
  | start b => exact heapWF_empty
  | @line s _ l ih =>
    by_cases hq : IsQuit l
    · rw [simStep_quit _ _ hq]; exact ih
    · obtain ⟨a, s', he, ha⟩ := simStep_answer simCmds errText hq s
      rw [he]
      cases ha with
      | done ws name f r s' _ _ hf hr =>
        have := simKeeps_cmds name f hf ws s ih
        rw [hr] at this; exact this
      | failed ws name f e s' _ _ hf hr =>
        have := simKeeps_cmds name f hf ws s ih
        rw [hr] at this; exact this
      | unknown => exact ih
  | @frame s _ mac request ih => exact keepsWF_serverHandle _ _ _ _ _ ih

/-- C52: in every state the simulator can reach, `set_values <id> <name> <address> <values>` is
    `server.get_slave(id).set_values(name, address, values)`, and when that is accepted the answer is the values just stored. -/
theorem C52_set_values {errText : PyErr → Text} {declared : List (Text × Hook)} {s : SimSt} (h : SimReach errText declared s)
    {eol : Text} (he : IsEol eol) (id : Int) (name : Text) (hn : IsWord name) (a : Int) (vs : List Int) :
    simStep simCmds errText (typed ("set_values".toList :: intText id :: name :: intText a :: vs.map intText) eol) s =
      report errText "set_values".toList (fun _ => numbers vs)
        (onSlave id (onHeap (setValues s.hooks (String.ofList name) a (.seq vs))) s) :=
  set_values_command errText he (simReach_wf h) id name hn a vs

/-! ### Wrong arguments -/

/-- the commands whose first argument is a number -/
def numberFirst : List String := ["add_slave", "has_slave", "remove_slave", "add_block", "remove_block", "remove_all_blocks", "set_values", "get_values", "set_verbose"]

/-- C51: a command without its first argument is answered with an IndexError, a first argument that is no number with a ValueError; nothing is changed. -/
theorem C51_wrong_argument (errText : PyErr → Text) {eol : Text} (he : IsEol eol) (s : SimSt) {name : String} (hm : name ∈ numberFirst) :
    simStep simCmds errText (typed [name.toList] eol) s = (name.toList ++ " error: ".toList ++ errText .indexError ++ "\r\n".toList, false, s) ∧
    ∀ w ws, (∀ x ∈ w :: ws, IsWord x) → parseInt w = none →
      simStep simCmds errText (typed (name.toList :: w :: ws) eol) s = (name.toList ++ " error: ".toList ++ errText .valueError ++ "\r\n".toList, false, s) := by
  have gen : ∀ (c : Char) (t : Text) (f : SimCmd), c ≠ 'q' → Dict.get? simCmds (c :: t) = some f → IsWord (c :: t) →
      (∀ args, (args[1]? = none → f args s = (.error .indexError, s)) ∧ (∀ w, args[1]? = some w → parseInt w = none → f args s = (.error .valueError, s))) →
      simStep simCmds errText (typed [c :: t] eol) s = ((c :: t) ++ " error: ".toList ++ errText .indexError ++ "\r\n".toList, false, s) ∧
      ∀ w ws, (∀ x ∈ w :: ws, IsWord x) → parseInt w = none →
        simStep simCmds errText (typed ((c :: t) :: w :: ws) eol) s = ((c :: t) ++ " error: ".toList ++ errText .valueError ++ "\r\n".toList, false, s) := by
    intro c t f hc hf hw hargs
    refine ⟨?_, fun w ws hws hp => ?_⟩
    · rw [typed_step simCmds errText hc hf (by intro x hx; rw [List.mem_singleton] at hx; rw [hx]; exact hw) he, (hargs [c :: t]).1 rfl]
      rfl
    · rw [typed_step simCmds errText hc hf (List.forall_mem_cons.mpr ⟨hw, hws⟩) he, (hargs ((c :: t) :: w :: ws)).2 w rfl hp]
      rfl
  have first : ∀ {α : Type} (k : Int → PyM SimSt α) (args : List Text),
      (args[1]? = none → (intArg args 1 >>= k) s = (.error .indexError, s)) ∧ (∀ w, args[1]? = some w → parseInt w = none → (intArg args 1 >>= k) s = (.error .valueError, s)) := by
    intro α k args
    refine ⟨fun h => ?_, fun w h hp => ?_⟩
    · simp only [intArg, PyM.bind_apply, arg, h]; rfl
    · simp only [intArg, PyM.bind_apply, arg, h, PyM.pure_apply, toInt, hp]; rfl
  simp only [numberFirst, List.mem_cons, List.not_mem_nil, or_false] at hm
  rcases hm with rfl | rfl | rfl | rfl | rfl | rfl | rfl | rfl | rfl
  · exact gen 'a' "dd_slave".toList doAddSlave (by decide) rfl (by decide) fun args => first _ args
  · exact gen 'h' "as_slave".toList doHasSlave (by decide) rfl (by decide) fun args => first _ args
  · exact gen 'r' "emove_slave".toList doRemoveSlave (by decide) rfl (by decide) fun args => first _ args
  · exact gen 'a' "dd_block".toList doAddBlock (by decide) rfl (by decide) fun args => first _ args
  · exact gen 'r' "emove_block".toList doRemoveBlock (by decide) rfl (by decide) fun args => first _ args
  · exact gen 'r' "emove_all_blocks".toList doRemoveAllBlocks (by decide) rfl (by decide) fun args => first _ args
  · exact gen 's' "et_values".toList doSetValues (by decide) rfl (by decide) fun args => first _ args
  · exact gen 'g' "et_values".toList doGetValues (by decide) rfl (by decide) fun args => first _ args
  · exact gen 's' "et_verbose".toList doSetVerbose (by decide) rfl (by decide) fun args => first _ args

example : parseInt "1x".toList = none ∧ parseInt [] = none := by decide +kernel

end Modbus
