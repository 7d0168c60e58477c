import Verif.Props.SimRpc
/-
# C66: the other methods of the RPC client of the simulator
-/
namespace Modbus

/-- What a call of the RPC client gives when the API call it stands for gives `r`: the client returns `ret` of the result, or raises. -/
def remote {α β : Type} (ret : α → β) (r : Except PyErr α × SimSt) : Except PyErr β × SimSt :=
  match r with
  | (.ok a, s') => (.ok (ret a), s')
  | (.error _, s') => (.error .generic, s')

section
variable {errText : PyErr → Text} {c : Char} {t : Text} {ws : List Text} {s : SimSt}

/-- A query whose first 1024 characters are, without the white space at their ends, a command that reports `r`. -/
theorem rpcCall_report {α : Type} {shw : α → Text} {r : Except PyErr α × SimSt} {query : Text}
    (hquery : stripChars isSpace (query.take 1024) = unwords ((c :: t) :: ws)) (hhead : (splitOn ' ' query).headD [] = c :: t)
    (hw : ∀ w ∈ (c :: t) :: ws, IsToken w)
    (hstep : simStep simCmds errText (typed ((c :: t) :: ws) []) s = report errText (c :: t) shw r)
    (hans : ∀ a, ∀ x ∈ shw a, isCrLf x = false) (hresp : ∀ a, ((c :: t) ++ " done: ".toList ++ shw a).length ≤ 1024) :
    rpcCall simCmds errText query s = remote shw r := by
  have hnames : ∀ x ∈ c :: t, isCrLf x = false := fun x hx =>
    isCrLf_eq_false ((hw _ (List.mem_cons_self)).isWord x hx).2.1 ((hw _ (List.mem_cons_self)).isWord x hx).2.2
  have hh : rpcHandle simCmds errText query s = report errText (c :: t) shw r := by
    unfold rpcHandle recv1024
    rw [hquery, ← hstep, typed, List.append_nil]
  simp only [rpcCall]
  rw [hh, hhead]
  obtain ⟨x, s'⟩ := r
  cases x with
  | ok a =>
    simp only [report, recv1024, remote]
    rw [List.take_append, List.take_of_length_le (hresp a),
      stripChars_tail (e := List.take _ "\r\n".toList) _ (fun x hx => by
        have : ∀ y ∈ "\r\n".toList, isCrLf y = true := by decide
        exact this x (List.mem_of_mem_take hx))]
    · unfold responseToValues
      simp only [List.append_assoc]
      rw [if_pos (by rw [List.isPrefixOf_iff_prefix]; exact ⟨shw a, by simp⟩)]
      rw [show (c :: t) ++ (" done: ".toList ++ shw a) = ((c :: t) ++ " done: ".toList) ++ shw a by simp,
        List.drop_left]
    · intro x hx
      simp only [List.mem_append] at hx
      rcases hx with (hx | hx) | hx
      · exact hnames x hx
      · have : ∀ y ∈ " done: ".toList, isCrLf y = false := by decide
        exact this x hx
      · exact hans a x hx
  | error e =>
    simp only [report, recv1024, remote]
    suffices hn : List.isPrefixOf (c :: t ++ " done: ".toList)
        (stripChars isCrLf (List.take 1024 (c :: t ++ " error: ".toList ++ errText e ++ "\r\n".toList))) = false by
      simp only [responseToValues, hn, Bool.false_eq_true, reduceIte]
    rw [Bool.eq_false_iff, Ne, List.isPrefixOf_iff_prefix]
    intro hp
    have hcl := token_head hw
    have h2 : stripChars isCrLf (((c :: t) ++ " error: ".toList ++ errText e ++ "\r\n".toList).take 1024) <+:
        (c :: t) ++ (" error: ".toList ++ errText e ++ "\r\n".toList) := by
      rw [show (c :: t) ++ " error: ".toList ++ errText e ++ "\r\n".toList =
        c :: (t ++ " error: ".toList ++ errText e ++ "\r\n".toList) by simp, List.take_succ_cons]
      refine (strip_prefix hcl).trans ?_
      rw [← List.take_succ_cons]
      refine (List.take_prefix _ _).trans ?_
      rw [show (c :: t) ++ (" error: ".toList ++ errText e ++ "\r\n".toList) =
        c :: (t ++ " error: ".toList ++ errText e ++ "\r\n".toList) by simp]
      exact List.prefix_refl _
    have h3 := hp.trans h2
    rw [List.prefix_append_right_inj] at h3
    obtain ⟨u, hu⟩ := h3
    have : (" done: ".toList ++ u)[1]? = (" error: ".toList ++ errText e ++ "\r\n".toList)[1]? := by rw [hu]
    exact absurd this (by simp)

/-- the same for a query without white space at its ends -/
theorem rpcCall_words {α : Type} {shw : α → Text} {r : Except PyErr α × SimSt} {query : Text}
    (hquery : query = unwords ((c :: t) :: ws))
    (hw : ∀ w ∈ (c :: t) :: ws, IsToken w) (hlen : query.length ≤ 1024)
    (hstep : simStep simCmds errText (typed ((c :: t) :: ws) []) s = report errText (c :: t) shw r)
    (hans : ∀ a, ∀ x ∈ shw a, isCrLf x = false) (hresp : ∀ a, ((c :: t) ++ " done: ".toList ++ shw a).length ≤ 1024) :
    rpcCall simCmds errText query s = remote shw r :=
  rpcCall_report (by rw [List.take_of_length_le hlen, hquery, strip_unwords (by simp) hw]) (by rw [hquery, rpc_head hw]) hw hstep hans hresp

end

theorem text_noCrLf {w : Text} (h : IsToken w) : ∀ x ∈ w, isCrLf x = false := fun x hx =>
  isCrLf_eq_false (h.isWord x hx).2.1 (h.isWord x hx).2.2

/-- the words of a query are tokens -/
macro "tokens" : tactic => `(tactic| repeat (first
  | exact List.forall_mem_nil _
  | refine List.forall_mem_cons.mpr ⟨by first | exact isToken_intText _ | assumption | exact ⟨by decide, by decide⟩, ?_⟩))

theorem noEol : IsEol [] := fun _ h => absurd h (by simp)

section
variable (errText : PyErr → Text) (s : SimSt)

/-- **C66.** `add_slave(id)` of the client is `server.add_slave(id)`; it returns the text of the id and raises exactly if the server
    does. -/
theorem C66_add_slave (id : Int) (hid : (intText id).length ≤ 1000) :
    rpcAddSlave simCmds errText id s = remote (fun _ => intText id) (onDb (addSlave id true none) s) :=
  rpcCall_words (c := 'a') (t := "dd_slave".toList) (ws := [intText id]) rfl (by tokens)
    (by rw [List.length_append, show "add_slave ".toList.length = 10 from rfl]; omega)
    (C52_add_slave errText s noEol id) (fun _ => text_noCrLf (isToken_intText id))
    (fun _ => by rw [List.length_append, show ('a' :: "dd_slave".toList ++ " done: ".toList).length = 16 from rfl]; omega)

/-- **C66.** `remove_slave(id)` of the client is `server.remove_slave(id)`; it returns the empty text. -/
theorem C66_remove_slave (id : Int) (hid : (intText id).length ≤ 1000) :
    rpcRemoveSlave simCmds errText id s = remote (fun _ => []) (onDb (removeSlave id) s) :=
  rpcCall_words (c := 'r') (t := "emove_slave".toList) (ws := [intText id]) rfl (by tokens)
    (by rw [List.length_append, show "remove_slave ".toList.length = 13 from rfl]; omega)
    (C52_remove_slave errText s noEol id) (fun _ x hx => absurd hx (by simp)) (fun _ => by decide)

/-- a call whose answer is thrown away -/
theorem remote_unit {α : Type} {shw : α → Text} {r : Except PyErr α × SimSt} {q : Text}
    (h : rpcCall simCmds errText q s = remote shw r) :
    (do let _ ← rpcCall simCmds errText q : PyM SimSt Unit) s = remote (fun _ => ()) r := by
  rw [PyM.bind_apply, h]
  obtain ⟨x, s'⟩ := r
  cases x <;> rfl

/-- **C66.** `remove_all_slaves()` of the client is `server.remove_all_slaves()`. -/
theorem C66_remove_all_slaves :
    rpcRemoveAllSlaves simCmds errText s = remote (fun _ => ()) (onDb removeAllSlaves s) :=
  remote_unit errText s (shw := fun _ => []) (rpcCall_words (c := 'r') (t := "emove_all_slaves".toList) (ws := []) rfl (by tokens)
    (by decide) (C52_remove_all_slaves errText s noEol) (fun _ x hx => absurd hx (by simp)) (fun _ => by decide))

/-- **C66.** `add_block(id, name, type, address, length)` of the client is `server.get_slave(id).add_block(name, type, address, length)`;
    it returns the name. -/
theorem C66_add_block (id : Int) (name : Text) (hn : IsToken name) (bt a n : Int)
    (hq : ("add_block ".toList ++ intText id ++ ' ' :: name ++ ' ' :: intText bt ++ ' ' :: intText a ++ ' ' :: intText n).length ≤ 1024) :
    rpcAddBlock simCmds errText id name bt a n s =
      remote (fun _ => name) (onSlave id (addBlock (String.ofList name) bt a n) s) :=
  rpcCall_words (c := 'a') (t := "dd_block".toList) (ws := [intText id, name, intText bt, intText a, intText n])
    (by rw [show "add_block ".toList = 'a' :: "dd_block".toList ++ [' '] from rfl]
        simp only [unwords, List.append_assoc, List.cons_append, List.nil_append])
    (by tokens) hq (C52_add_block errText s noEol id name hn.isWord bt a n) (fun _ => text_noCrLf hn)
    (fun _ => by
      have h1 := List.length_pos_iff.mpr (intText_ne_nil id)
      have h2 := List.length_pos_iff.mpr (intText_ne_nil bt)
      have h3 := List.length_pos_iff.mpr (intText_ne_nil a)
      have h4 := List.length_pos_iff.mpr (intText_ne_nil n)
      simp only [List.length_append, List.length_cons, show "add_block ".toList.length = 10 from rfl] at hq
      rw [List.length_append, show ('a' :: "dd_block".toList ++ " done: ".toList).length = 16 from rfl]; omega)

/-- **C66.** `remove_block(id, name)` of the client is `server.get_slave(id).remove_block(name)`. -/
theorem C66_remove_block (id : Int) (name : Text) (hn : IsToken name)
    (hq : ("remove_block ".toList ++ intText id ++ ' ' :: name).length ≤ 1024) :
    rpcRemoveBlock simCmds errText id name s = remote (fun _ => ()) (onSlave id (removeBlock (String.ofList name)) s) :=
  remote_unit errText s (rpcCall_words (c := 'r') (t := "emove_block".toList) (ws := [intText id, name])
    (by rw [show "remove_block ".toList = 'r' :: "emove_block".toList ++ [' '] from rfl]
        simp only [unwords, List.append_assoc, List.cons_append, List.nil_append])
    (by tokens) hq (C52_remove_block errText s noEol id name hn.isWord) (fun _ => by decide) (fun _ => by decide))

/-- **C66.** `remove_all_blocks(id)` of the client is `server.get_slave(id).remove_all_blocks()`. -/
theorem C66_remove_all_blocks (id : Int) (hid : (intText id).length ≤ 1000) :
    rpcRemoveAllBlocks simCmds errText id s = remote (fun _ => ()) (onSlave id removeAllBlocks s) :=
  remote_unit errText s (rpcCall_words (c := 'r') (t := "emove_all_blocks".toList) (ws := [intText id]) rfl (by tokens)
    (by rw [List.length_append, show "remove_all_blocks ".toList.length = 18 from rfl]; omega)
    (C52_remove_all_blocks errText s noEol id) (fun _ => by decide) (fun _ => by decide))

/-- the call of `install_hook` on the server's side, for a function declared under the name `fct` -/
def installDeclared (hook fct : Text) : PyM SimSt Unit := fun s =>
  match Dict.get? s.declared fct with
  | some f => (.ok (), { s with hooks := installHook s.hooks (String.ofList hook) f })
  | none => (.error .keyError, s)

/-- **C66.** `install_hook(hook, fct)` of the client is `hooks.install_hook(hook, f)` in the simulator, where `f` is the function declared
    there under the name `fct`; it raises if there is none. -/
theorem C66_install_hook (hook fct : Text) (hh : IsToken hook) (hf : IsToken fct)
    (hq : ("install_hook ".toList ++ hook ++ ' ' :: fct).length ≤ 1024) :
    rpcInstallHook simCmds errText hook fct s = remote (fun _ => ()) (installDeclared hook fct s) := by
  refine remote_unit errText s (shw := fun _ => "None".toList) (rpcCall_words (c := 'i') (t := "nstall_hook".toList) (ws := [hook, fct])
    (by rw [show "install_hook ".toList = 'i' :: "nstall_hook".toList ++ [' '] from rfl]
        simp only [unwords, List.append_assoc, List.cons_append, List.nil_append])
    (by tokens) hq ?_ (fun _ => by decide) (fun _ => by decide))
  rw [show 'i' :: "nstall_hook".toList = "install_hook".toList from rfl, C52_install_hook errText s noEol hook fct hh.isWord hf.isWord,
    installDeclared]
  cases Dict.get? s.declared fct <;> rfl

/-- all functions of a hook are removed; an unknown hook is no error -/
def uninstallAll (hook : Text) (s : SimSt) : SimSt :=
  match Dict.get? s.hooks (String.ofList hook) with
  | some _ => { s with hooks := Dict.set s.hooks (String.ofList hook) [] }
  | none => s

/-- white space at the end is stripped -/
theorem strip_blank {ws : List Text} (hne : ws ≠ []) (h : ∀ w ∈ ws, IsToken w) :
    stripChars isSpace (unwords ws ++ [' ']) = unwords ws := by
  have hs := strip_unwords hne h
  unfold stripChars at hs ⊢
  cases ws with
  | nil => exact absurd rfl hne
  | cons w ws =>
    obtain ⟨t, ht⟩ := unwords_first (w := w) (ws := ws)
    obtain ⟨h1, h2⟩ := h w (by simp)
    cases w with
    | nil => exact absurd rfl h1
    | cons c w =>
      rw [ht, List.cons_append] at hs ⊢
      rw [List.cons_append, List.dropWhile_cons_of_neg (by simp [h2 c]), ← List.cons_append, List.reverse_append, List.reverse_singleton,
        List.singleton_append, List.dropWhile_cons_of_pos (by decide)]
      rw [List.dropWhile_cons_of_neg (by simp [h2 c])] at hs
      exact hs

/-- **C66.** `uninstall_hook(hook, fct)` of the client removes every function installed on the hook, whatever `fct` is. -/
theorem C66_uninstall_hook (hook fct : Text) (hh : IsToken hook) (hf : fct = [] ∨ IsToken fct)
    (hq : ("uninstall_hook ".toList ++ hook ++ ' ' :: fct).length ≤ 1024) :
    rpcUninstallHook simCmds errText hook fct s = (.ok (), uninstallAll hook s) := by
  have key : ∀ more : List Text, (∀ w ∈ more, IsWord w) →
      simStep simCmds errText (typed (('u' :: "ninstall_hook".toList) :: hook :: more) []) s =
        report errText ('u' :: "ninstall_hook".toList) (fun _ => "None".toList) (.ok (), uninstallAll hook s) := fun more hm => by
    rw [show 'u' :: "ninstall_hook".toList = "uninstall_hook".toList from rfl, C52_uninstall_hook errText s noEol hook hh.isWord more hm]
    rfl
  have hqs : "uninstall_hook ".toList ++ hook ++ ' ' :: fct = ('u' :: "ninstall_hook".toList) ++ ' ' :: (hook ++ ' ' :: fct) := by
    rw [show "uninstall_hook ".toList = 'u' :: "ninstall_hook".toList ++ [' '] from rfl]
    simp only [List.append_assoc, List.cons_append, List.nil_append]
  unfold rpcUninstallHook
  rcases hf with rfl | hf
  · have htok : ∀ w ∈ ['u' :: "ninstall_hook".toList, hook], IsToken w := by tokens
    refine remote_unit errText s (shw := fun _ => "None".toList) (r := (.ok (), uninstallAll hook s))
      (rpcCall_report (c := 'u') (t := "ninstall_hook".toList) (ws := [hook]) ?_ ?_ htok (key [] (by simp))
        (fun _ => by decide) (fun _ => by decide))
    · rw [List.take_of_length_le hq, hqs, ← strip_blank (by simp) htok]
      simp only [unwords, List.append_assoc, List.cons_append]
    · rw [hqs, show (('u' :: "ninstall_hook".toList) ++ ' ' :: (hook ++ [' '])) = unwords ['u' :: "ninstall_hook".toList, hook, []] from rfl,
        splitOn_unwords (by simp)]
      · rfl
      · intro w hw hs
        simp only [List.mem_cons, List.not_mem_nil, or_false] at hw
        rcases hw with rfl | rfl | rfl
        · exact absurd hs (by decide)
        · exact (hh.isWord _ hs).1 rfl
        · exact absurd hs (by simp)
  · refine remote_unit errText s (shw := fun _ => "None".toList) (r := (.ok (), uninstallAll hook s))
      (rpcCall_words (c := 'u') (t := "ninstall_hook".toList) (ws := [hook, fct]) ?_ (by tokens) hq
        (key [fct] (List.forall_mem_cons.mpr ⟨hf.isWord, List.forall_mem_nil _⟩)) (fun _ => by decide) (fun _ => by decide))
    rw [hqs]; rfl

end

/-- **C66 (partial: the query fits in 1024 characters; `C66_false_long` shows what happens otherwise).**  In every state the simulator can
    reach, `set_values(id, name, address, values)` of the client is `server.get_slave(id).set_values(name, address, values)`; it returns
    the text of the values. -/
theorem C66_set_values_partial {errText : PyErr → Text} {declared : List (Text × Hook)} {s : SimSt} (h : SimReach errText declared s)
    (id : Int) (name : Text) (hn : IsToken name) (a : Int) (vs : List Int)
    (hq : ("set_values ".toList ++ intText id ++ ' ' :: name ++ ' ' :: intText a ++ vs.flatMap fun v => ' ' :: intText v).length ≤ 1024) :
    rpcSetValues simCmds errText id name a vs s =
      remote (fun _ => numbers vs) (onSlave id (onHeap (setValues s.hooks (String.ofList name) a (.seq vs))) s) := by
  have htok : ∀ w ∈ ('s' :: "et_values".toList) :: intText id :: name :: intText a :: vs.map intText, IsToken w := by
    refine List.forall_mem_cons.mpr ⟨⟨by decide, by decide⟩, List.forall_mem_cons.mpr ⟨isToken_intText _, List.forall_mem_cons.mpr ⟨hn,
      List.forall_mem_cons.mpr ⟨isToken_intText _, ?_⟩⟩⟩⟩
    intro w h
    obtain ⟨v, _, rfl⟩ := List.mem_map.mp h
    exact isToken_intText v
  refine rpcCall_words (c := 's') (t := "et_values".toList) (ws := intText id :: name :: intText a :: vs.map intText) ?_ htok hq
    (C52_set_values h noEol id name hn.isWord a vs) (fun _ => numbers_chars vs) (fun _ => ?_)
  · rw [show "set_values ".toList = 's' :: "et_values".toList ++ [' '] from rfl, unwords_cons]
    simp only [List.flatMap_cons, List.flatMap_map, List.append_assoc, List.cons_append, List.nil_append]
  · have h1 := List.length_pos_iff.mpr (intText_ne_nil id)
    have h2 := List.length_pos_iff.mpr (intText_ne_nil a)
    have h3 := List.length_pos_iff.mpr hn.1
    have h4 : (numbers vs).length = (vs.flatMap fun v => ' ' :: intText v).length - 1 := by
      rw [← tupleToStr_eq, tupleToStr, List.length_drop]
    simp only [List.length_append, List.length_cons, show "set_values ".toList.length = 11 from rfl] at hq
    rw [List.length_append, show ('s' :: "et_values".toList ++ " done: ".toList).length = 17 from rfl]; omega

/-! ### Long queries -/

/-- the result of a call that returned -/
def returned {α β : Type} (r : Except PyErr α × β) : Option α :=
  match r with
  | (.ok a, _) => some a
  | (.error _, _) => none

theorem of_returned {α β : Type} {r : Except PyErr α × β} {a : α} (h : returned r = some a) : r.1 = .ok a := by
  obtain ⟨x, s⟩ := r
  cases x <;> simp_all [returned]

/-- 337 values: two ones, then tens -/
def exMany : List Int := [1, 1] ++ List.replicate 335 10

theorem exMany_text : (exMany.flatMap fun v => ' ' :: intText v) =
    exMany.flatMap fun v => ' ' :: (if v = 1 then "1".toList else "10".toList) := by
  have h : ∀ v ∈ exMany, (v = 1 ∨ v = 10) := by decide +kernel
  have h1 : intText 1 = "1".toList := by simp [intText, natText, digitChar]
  have h10 : intText 10 = "10".toList := by simp [intText, natText, digitChar]
  rw [List.flatMap_def, List.flatMap_def]
  refine congrArg _ (List.map_congr_left fun v hv => ?_)
  rcases h v hv with rfl | rfl
  · rw [h1]; rfl
  · rw [h10]; rfl

/-- the query of `set_values(1, "A", 0, exMany)` -/
def exQuery : Text := "set_values 1 A 0".toList ++ exMany.flatMap fun v => ' ' :: (if v = 1 then "1".toList else "10".toList)

theorem exQuery_eq : "set_values ".toList ++ intText 1 ++ ' ' :: "A".toList ++ ' ' :: intText 0 ++
    (exMany.flatMap fun v => ' ' :: intText v) = exQuery := by
  rw [exMany_text, show intText 1 = "1".toList by simp [intText, natText, digitChar],
    show intText 0 = "0".toList by simp [intText, natText, digitChar]]
  rfl

/-- what arrives -/
def exArrived : List Int := [1, 1] ++ List.replicate 334 10 ++ [1]

theorem exArrived_text : (exArrived.flatMap fun v => ' ' :: intText v) =
    exArrived.flatMap fun v => ' ' :: (if v = 1 then "1".toList else "10".toList) := by
  have h : ∀ v ∈ exArrived, (v = 1 ∨ v = 10) := by decide +kernel
  have h1 : intText 1 = "1".toList := by simp [intText, natText, digitChar]
  have h10 : intText 10 = "10".toList := by simp [intText, natText, digitChar]
  rw [List.flatMap_def, List.flatMap_def]
  refine congrArg _ (List.map_congr_left fun v hv => ?_)
  rcases h v hv with rfl | rfl
  · rw [h1]; rfl
  · rw [h10]; rfl

theorem exArrived_eq : stripChars isSpace (exQuery.take 1024) =
    unwords (('s' :: "et_values".toList) :: intText 1 :: "A".toList :: intText 0 :: exArrived.map intText) := by
  rw [unwords_cons]
  simp only [List.flatMap_cons, List.flatMap_map]
  rw [exArrived_text, show intText 1 = "1".toList by simp [intText, natText, digitChar],
    show intText 0 = "0".toList by simp [intText, natText, digitChar]]
  decide +kernel

/-- the write that is made, and its effect -/
theorem exArrived_written :
    (returned (onSlave 1 (onHeap (setValues exSim.hooks (String.ofList "A".toList) 0 (.seq exArrived))) exSim)).isSome = true ∧
    returned (onSlave 1 (onHeap (getValues "A" 334 3))
      (onSlave 1 (onHeap (setValues exSim.hooks (String.ofList "A".toList) 0 (.seq exArrived))) exSim).2) = some [10, 10, 1] := by
  decide +kernel

theorem exQuery_head : (splitOn ' ' exQuery).headD [] = 's' :: "et_values".toList := by decide +kernel

theorem exMany_336 : exMany[336]? = some 10 := by decide +kernel

theorem exArrived_short : ('s' :: "et_values".toList ++ " done: ".toList ++ numbers exArrived).length ≤ 1024 := by
  have h : (numbers exArrived).length = (exArrived.flatMap fun v => ' ' :: intText v).length - 1 := by
    rw [← tupleToStr_eq, tupleToStr, List.length_drop]
  rw [List.length_append, h, exArrived_text]
  decide +kernel

attribute [local irreducible] exSim exQuery exMany exArrived

/-- **C66 is false for long queries**: the interface reads 1024 characters and runs what it has got.  On a reachable simulator, writing 337
    values returns without error, but the last number has lost a digit: the register 336 holds 1 where 10 was to be written. -/
theorem C66_false_long : ∃ s vs text s', SimReach (fun _ => []) [] s ∧
    rpcSetValues simCmds (fun _ => []) 1 "A".toList 0 vs s = (.ok text, s') ∧ vs[336]? = some 10 ∧
    (onSlave 1 (onHeap (getValues "A" 334 3)) s').1 = .ok [10, 10, 1] := by
  obtain ⟨u, hu⟩ := Option.isSome_iff_exists.mp exArrived_written.1
  have htok : ∀ w ∈ ('s' :: "et_values".toList) :: intText 1 :: "A".toList :: intText 0 :: exArrived.map intText, IsToken w := by
    refine List.forall_mem_cons.mpr ⟨⟨by decide, by decide⟩, List.forall_mem_cons.mpr ⟨isToken_intText _, List.forall_mem_cons.mpr
      ⟨⟨by decide, by decide⟩, List.forall_mem_cons.mpr ⟨isToken_intText _, ?_⟩⟩⟩⟩
    intro w h
    obtain ⟨v, _, rfl⟩ := List.mem_map.mp h
    exact isToken_intText v
  have hcall := rpcCall_report exArrived_eq exQuery_head htok
    (C52_set_values exSim_reach noEol 1 "A".toList (by decide) 0 exArrived) (fun _ => numbers_chars exArrived)
    (fun _ => exArrived_short)
  have hset : onSlave 1 (onHeap (setValues exSim.hooks (String.ofList "A".toList) 0 (.seq exArrived))) exSim = (.ok u, _) :=
    Prod.ext (of_returned hu) rfl
  rw [hset] at hcall
  refine ⟨exSim, exMany, numbers exArrived, _, exSim_reach, ?_, exMany_336, of_returned exArrived_written.2⟩
  unfold rpcSetValues
  rw [exQuery_eq]
  exact hcall

/-- non-vacuity of `C66_set_values_partial` and of `C66_add_block` -/
example : ∃ s', rpcSetValues simCmds (fun _ => []) 1 "A".toList 5 [7, 3] exSim = (.ok (numbers [7, 3]), s') := by
  rw [C66_set_values_partial exSim_reach 1 "A".toList ⟨by decide, by decide⟩ 5 [7, 3] (by
    simp only [List.flatMap_cons, List.flatMap_nil]; simp [intText, natText])]
  have : (returned (onSlave 1 (onHeap (setValues exSim.hooks (String.ofList "A".toList) 5 (.seq [7, 3]))) exSim)).isSome = true := by
    decide +kernel
  obtain ⟨u, hu⟩ := Option.isSome_iff_exists.mp this
  exact ⟨_, by rw [show onSlave 1 (onHeap (setValues exSim.hooks (String.ofList "A".toList) 5 (.seq [7, 3]))) exSim = (.ok u, _) from
    Prod.ext (of_returned hu) rfl]; rfl⟩

example : ∃ s', rpcAddBlock simCmds (fun _ => []) 1 "B".toList 4 0 10 exSim = (.ok "B".toList, s') := by
  rw [C66_add_block (fun _ => []) exSim 1 "B".toList ⟨by decide, by decide⟩ 4 0 10 (by simp [intText, natText])]
  have : (returned (onSlave 1 (addBlock (String.ofList "B".toList) 4 0 10) exSim)).isSome = true := by
    decide +kernel
  obtain ⟨u, hu⟩ := Option.isSome_iff_exists.mp this
  exact ⟨_, by rw [show onSlave 1 (addBlock (String.ofList "B".toList) 4 0 10) exSim = (.ok u, _) from
    Prod.ext (of_returned hu) rfl]; rfl⟩

end Modbus
