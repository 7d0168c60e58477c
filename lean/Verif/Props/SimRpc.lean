import Verif.Props.Simulator
/-
# The RPC client of the simulator (C53)
-/
namespace Modbus

/-- a word of an RPC query: not empty, no white space -/
def IsToken (w : Text) : Prop := w ≠ [] ∧ ∀ c ∈ w, isSpace c = false

theorem IsToken.isWord {w : Text} (h : IsToken w) : IsWord w := by
  intro c hc
  have := h.2 c hc
  simp only [isSpace, Bool.decide_or, Bool.or_eq_false_iff, decide_eq_false_iff_not] at this
  exact ⟨this.1, this.2.2.2.1, this.2.2.1⟩

theorem isToken_intText (i : Int) : IsToken (intText i) := ⟨intText_ne_nil i, intText_not_space i⟩

theorem unwords_first {w : Text} {ws : List Text} : ∃ t, unwords (w :: ws) = w ++ t := by
  rw [unwords_cons]; exact ⟨_, rfl⟩

theorem unwords_last {ws : List Text} (hne : ws ≠ []) (h : ∀ w ∈ ws, IsToken w) :
    ∃ init c, unwords ws = init ++ [c] ∧ isSpace c = false := by
  induction ws with
  | nil => exact absurd rfl hne
  | cons w ws ih =>
    cases ws with
    | nil =>
      obtain ⟨h1, h2⟩ := h w (by simp)
      refine ⟨w.dropLast, w.getLast h1, (List.dropLast_concat_getLast h1).symm, h2 _ (List.getLast_mem h1)⟩
    | cons x xs =>
      obtain ⟨init, c, he, hc⟩ := ih (by simp) (fun w hw => h w (by simp at hw ⊢; tauto))
      refine ⟨w ++ ' ' :: init, c, ?_, hc⟩
      show w ++ ' ' :: unwords (x :: xs) = _
      rw [he]; simp

/-- `strip` leaves a text alone whose first and last characters are not stripped -/
theorem stripChars_ends {p : Char → Bool} {c d : Char} {t init : Text} (he : c :: t = init ++ [d]) (hc : p c = false) (hd : p d = false) :
    stripChars p (c :: t) = c :: t := by
  unfold stripChars
  rw [List.dropWhile_cons_of_neg (by simp [hc]), he, List.reverse_append, List.reverse_singleton, List.singleton_append,
    List.dropWhile_cons_of_neg (by simp [hd])]
  simp

theorem strip_unwords {ws : List Text} (hne : ws ≠ []) (h : ∀ w ∈ ws, IsToken w) : stripChars isSpace (unwords ws) = unwords ws := by
  obtain ⟨init, d, hl, hd⟩ := unwords_last hne h
  cases ws with
  | nil => exact absurd rfl hne
  | cons w ws =>
    obtain ⟨t, ht⟩ := unwords_first (w := w) (ws := ws)
    obtain ⟨h1, h2⟩ := h w (by simp)
    cases w with
    | nil => exact absurd rfl h1
    | cons c w =>
      rw [ht, List.cons_append] at hl
      rw [ht, List.cons_append]
      exact stripChars_ends hl (h2 c (by simp)) hd

/-- `strip` at the right end only -/
theorem strip_prefix {p : Char → Bool} {c : Char} {t : Text} (hc : p c = false) : stripChars p (c :: t) <+: c :: t := by
  unfold stripChars
  rw [List.dropWhile_cons_of_neg (by simp [hc])]
  have := List.dropWhile_suffix (l := (c :: t).reverse) p
  have := List.reverse_prefix.mpr this
  rwa [List.reverse_reverse] at this

section
variable {errText : PyErr → Text} {c : Char} {t : Text} {ws : List Text} {f : SimCmd} {s s' : SimSt}

theorem rpcHandle_eq (hc : c ≠ 'q') (hf : Dict.get? simCmds (c :: t) = some f) (hw : ∀ w ∈ (c :: t) :: ws, IsToken w)
    (hlen : (unwords ((c :: t) :: ws)).length ≤ 1024) :
    rpcHandle simCmds errText (unwords ((c :: t) :: ws)) s = report errText (c :: t) answerText (f ((c :: t) :: ws) s) := by
  unfold rpcHandle recv1024
  rw [List.take_of_length_le hlen, strip_unwords (by simp) hw]
  have := typed_step simCmds errText hc hf (fun w h => (hw w h).isWord) (eol := []) (by simp) s
  rw [typed, List.append_nil] at this
  exact this

theorem rpc_head (hw : ∀ w ∈ (c :: t) :: ws, IsToken w) : (splitOn ' ' (unwords ((c :: t) :: ws))).headD [] = c :: t := by
  rw [splitOn_unwords (by simp) (fun w h hs => ((hw w h).isWord _ hs).1 rfl)]; rfl

theorem token_head (hw : ∀ w ∈ (c :: t) :: ws, IsToken w) : isCrLf c = false := by
  have := (hw _ (List.mem_cons_self)).isWord c (by simp)
  exact isCrLf_eq_false this.2.1 this.2.2

theorem done_pos (u : Text) : ("\r\n".toList ++ u) = '\r' :: '\n' :: u := rfl

/-- a command that returns: the client gets its answer -/
theorem rpcCall_ok (hc : c ≠ 'q') (hf : Dict.get? simCmds (c :: t) = some f) (hw : ∀ w ∈ (c :: t) :: ws, IsToken w)
    (hlen : (unwords ((c :: t) :: ws)).length ≤ 1024) {r : Option Text} (hr : f ((c :: t) :: ws) s = (.ok r, s'))
    (hans : ∀ x ∈ answerText r, isCrLf x = false)
    (hresp : ((c :: t) ++ " done: ".toList ++ answerText r).length ≤ 1024) :
    rpcCall simCmds errText (unwords ((c :: t) :: ws)) s = (.ok (answerText r), s') := by
  have hnames : ∀ x ∈ c :: t, isCrLf x = false := fun x hx =>
    isCrLf_eq_false ((hw _ (List.mem_cons_self)).isWord x hx).2.1 ((hw _ (List.mem_cons_self)).isWord x hx).2.2
  simp only [rpcCall]
  rw [rpcHandle_eq hc hf hw hlen, hr, rpc_head hw]
  simp only [report, recv1024]
  rw [List.take_append, List.take_of_length_le hresp,
    stripChars_tail (e := List.take _ "\r\n".toList) _ (fun x hx => by
      have : ∀ y ∈ "\r\n".toList, isCrLf y = true := by decide
      exact this x (List.mem_of_mem_take hx))]
  · unfold responseToValues
    simp only [List.append_assoc]
    rw [if_pos (by rw [List.isPrefixOf_iff_prefix]; exact ⟨answerText r, by simp⟩)]
    rw [show (c :: t) ++ (" done: ".toList ++ answerText r) = ((c :: t) ++ " done: ".toList) ++ answerText r by simp,
      List.drop_left]
  · intro x hx
    simp only [List.mem_append] at hx
    rcases hx with (hx | hx) | hx
    · exact hnames x hx
    · have : ∀ y ∈ " done: ".toList, isCrLf y = false := by decide
      exact this x hx
    · exact hans x hx

/-- a command that raises: the client raises, whatever the length of the error message -/
theorem rpcCall_error (hc : c ≠ 'q') (hf : Dict.get? simCmds (c :: t) = some f) (hw : ∀ w ∈ (c :: t) :: ws, IsToken w)
    (hlen : (unwords ((c :: t) :: ws)).length ≤ 1024) {e : PyErr} (hr : f ((c :: t) :: ws) s = (.error e, s')) :
    rpcCall simCmds errText (unwords ((c :: t) :: ws)) s = (.error .generic, s') := by
  simp only [rpcCall]
  rw [rpcHandle_eq hc hf hw hlen, hr, rpc_head hw]
  simp only [report, recv1024]
  suffices hn : List.isPrefixOf (c :: t ++ " done: ".toList)
      (stripChars isCrLf (List.take 1024 (c :: t ++ " error: ".toList ++ errText e ++ "\r\n".toList))) = false by
    simp only [responseToValues, hn, Bool.false_eq_true, reduceIte]
  rw [Bool.eq_false_iff, Ne, List.isPrefixOf_iff_prefix]
  intro hp
  have hcl := token_head hw
  have h2 : stripChars isCrLf (((c :: t) ++ " error: ".toList ++ errText e ++ "\r\n".toList).take 1024) <+:
      (c :: t) ++ (" error: ".toList ++ errText e ++ "\r\n".toList) := by
    rw [show (c :: t) ++ " error: ".toList ++ errText e ++ "\r\n".toList =
      c :: (t ++ " error: ".toList ++ errText e ++ "\r\n".toList) by simp, List.take_succ_cons]
    refine (strip_prefix hcl).trans ?_
    rw [← List.take_succ_cons]
    refine (List.take_prefix _ _).trans ?_
    rw [show (c :: t) ++ (" error: ".toList ++ errText e ++ "\r\n".toList) =
      c :: (t ++ " error: ".toList ++ errText e ++ "\r\n".toList) by simp]
    exact List.prefix_refl _
  have h3 := hp.trans h2
  rw [List.prefix_append_right_inj] at h3
  obtain ⟨u, hu⟩ := h3
  have : (" done: ".toList ++ u)[1]? = (" error: ".toList ++ errText e ++ "\r\n".toList)[1]? := by rw [hu]
  exact absurd this (by simp)

end

theorem numbers_chars (vs : List Int) : ∀ x ∈ numbers vs, isCrLf x = false := by
  intro x hx
  rcases mem_unwords hx with rfl | ⟨w, hw, hc⟩
  · decide
  · obtain ⟨v, _, rfl⟩ := List.mem_map.mp hw
    have := isWord_intText v x hc
    exact isCrLf_eq_false this.2.1 this.2.2

/-- the answer, without its line end, fits in one `recv(1024)` -/
def AnswerFits (name : Text) (vs : List Int) : Prop := (name ++ " done: ".toList ++ numbers vs).length ≤ 1024

section
variable (errText : PyErr → Text) {s s' : SimSt}

theorem get_command (id : Int) (name : Text) (a n : Int) :
    doGetValues ["get_values".toList, intText id, name, intText a, intText n] s =
      match onSlave id (onHeap (getValues (String.ofList name) a n)) s with
      | (.ok vs, s') => (.ok (some (numbers vs)), s')
      | (.error e, s') => (.error e, s') := by
  simp only [doGetValues, PyM.bind_apply,
    intArg_ok (show ["get_values".toList, intText id, name, intText a, intText n][1]? = _ from rfl),
    arg_ok (show ["get_values".toList, intText id, name, intText a, intText n][2]? = _ from rfl),
    intArg_ok (show ["get_values".toList, intText id, name, intText a, intText n][3]? = _ from rfl),
    intArg_ok (show ["get_values".toList, intText id, name, intText a, intText n][4]? = _ from rfl)]
  cases onSlave id (onHeap (getValues (String.ofList name) a n)) s with
  | mk x s' =>
    cases x with
    | error e => rfl
    | ok vs => simp only [PyM.pure_apply, tupleToStr_eq]

theorem get_query (id : Int) (name : Text) (a n : Int) :
    "get_values ".toList ++ intText id ++ ' ' :: name ++ ' ' :: intText a ++ ' ' :: intText n =
      unwords ["get_values".toList, intText id, name, intText a, intText n] := by
  rw [show "get_values ".toList = "get_values".toList ++ [' '] from rfl]
  simp only [unwords, List.append_assoc, List.cons_append, List.nil_append]

theorem get_tokens (id : Int) {name : Text} (hn : IsToken name) (a n : Int) :
    ∀ w ∈ ["get_values".toList, intText id, name, intText a, intText n], IsToken w := by
  intro w hw
  simp only [List.mem_cons, List.not_mem_nil, or_false] at hw
  rcases hw with rfl | rfl | rfl | rfl | rfl
  · exact ⟨by decide, by decide⟩
  · exact isToken_intText _
  · exact hn
  · exact isToken_intText _
  · exact isToken_intText _

/-- C53 (partial: at least one value, and query and answer within 1024 characters - `C53_false_empty` and `C53_false_long` show that
    neither can be dropped; nobody else talks to the simulator meanwhile): the client's `get_values` returns what the slave's
    `get_values` returns. -/
theorem C53_get_values_partial (id : Int) {name : Text} (hn : IsToken name) (a n : Int)
    (hq : ("get_values ".toList ++ intText id ++ ' ' :: name ++ ' ' :: intText a ++ ' ' :: intText n).length ≤ 1024)
    {vs : List Int} (hvs : onSlave id (onHeap (getValues (String.ofList name) a n)) s = (.ok vs, s')) (hne : vs ≠ [])
    (hfit : AnswerFits "get_values".toList vs) :
    rpcGetValues simCmds errText id name a n s = (.ok vs, s') := by
  have hcmd := get_command (s := s) id name a n
  rw [hvs] at hcmd
  have hcall : rpcCall simCmds errText (unwords ["get_values".toList, intText id, name, intText a, intText n]) s =
      (.ok (numbers vs), s') :=
    rpcCall_ok (c := 'g') (t := "et_values".toList) (f := doGetValues) (by decide) rfl (get_tokens id hn a n)
      (by have := hq; rw [get_query] at this; exact this) hcmd (numbers_chars vs) hfit
  unfold rpcGetValues
  rw [get_query, PyM.bind_apply, hcall]
  simp only
  rw [numbers, splitOn_unwords (by simpa using hne), toInts_ok]
  intro w hw hs
  obtain ⟨v, _, rfl⟩ := List.mem_map.mp hw
  exact (isWord_intText v _ hs).1 rfl

/-- C53: when the slave refuses (unknown slave or block, out of range), the client raises and nothing changes but what the slave did. -/
theorem C53_get_values_error (id : Int) {name : Text} (hn : IsToken name) (a n : Int)
    (hq : ("get_values ".toList ++ intText id ++ ' ' :: name ++ ' ' :: intText a ++ ' ' :: intText n).length ≤ 1024)
    {e : PyErr} (he : onSlave id (onHeap (getValues (String.ofList name) a n)) s = (.error e, s')) :
    rpcGetValues simCmds errText id name a n s = (.error .generic, s') := by
  have hcmd := get_command (s := s) id name a n
  rw [he] at hcmd
  have hcall : rpcCall simCmds errText (unwords ["get_values".toList, intText id, name, intText a, intText n]) s =
      (.error .generic, s') :=
    rpcCall_error (c := 'g') (t := "et_values".toList) (f := doGetValues) (by decide) rfl (get_tokens id hn a n)
      (by have := hq; rw [get_query] at this; exact this) hcmd
  unfold rpcGetValues
  rw [get_query, PyM.bind_apply, hcall]

/-- C53: `has_slave` of the client tells whether the server has the slave. -/
theorem C53_has_slave (id : Int) (hq : (intText id).length ≤ 1000) :
    rpcHasSlave simCmds errText id s = (.ok (Dict.get? s.st.db.slaves id).isSome, s) := by
  have hcmd : doHasSlave ["has_slave".toList, intText id] s =
      (.ok (some (if (Dict.get? s.st.db.slaves id).isSome then "1" else "0").toList), s) := by
    simp only [doHasSlave, PyM.bind_apply, intArg_ok (show ["has_slave".toList, intText id][1]? = _ from rfl), PyM.tryExcept_apply,
      onDb, getSlave]
    cases hg : Dict.get? s.st.db.slaves id <;> rfl
  have hcall : rpcCall simCmds errText (unwords ["has_slave".toList, intText id]) s =
      (.ok (if (Dict.get? s.st.db.slaves id).isSome then "1" else "0").toList, s) := by
    refine rpcCall_ok (c := 'h') (t := "as_slave".toList) (f := doHasSlave) (by decide) rfl ?_ ?_ hcmd ?_ ?_
    · intro w hw
      simp only [List.mem_cons, List.not_mem_nil, or_false] at hw
      rcases hw with rfl | rfl
      · exact ⟨by decide, by decide⟩
      · exact isToken_intText _
    · show ("has_slave".toList ++ ' ' :: intText id).length ≤ 1024
      rw [List.length_append, List.length_cons, show "has_slave".toList.length = 9 from rfl]; omega
    · cases (Dict.get? s.st.db.slaves id).isSome <;> decide
    · cases (Dict.get? s.st.db.slaves id).isSome <;> decide
  unfold rpcHasSlave
  rw [show "has_slave ".toList ++ intText id = unwords ["has_slave".toList, intText id] from rfl, PyM.bind_apply, hcall]
  cases (Dict.get? s.st.db.slaves id).isSome <;> rfl

end

/-! ### Long and empty answers -/

theorem parseNat_prefix (n : Nat) : ∀ {q r : Text} {m : Nat}, natText n = q ++ r → r ≠ [] → parseNat q = some m → m < n := by
  induction n using Nat.strongRecOn with
  | ind n ih =>
    intro q r m he hr hm
    by_cases h : n < 10
    · rw [natText_small h] at he
      cases q with
      | nil => simp [parseNat] at hm
      | cons c q =>
        cases r with
        | nil => exact absurd rfl hr
        | cons d r =>
          have := congrArg List.length he
          simp only [List.length_cons, List.length_nil, List.length_append] at this; omega
    · rw [natText_big h] at he
      -- the last character belongs to r
      obtain ⟨r', d, rfl⟩ : ∃ r' d, r = r' ++ [d] := ⟨r.dropLast, r.getLast hr, (List.dropLast_concat_getLast hr).symm⟩
      rw [← List.append_assoc] at he
      have he' := (List.append_inj' he rfl).1
      by_cases hr' : r' = []
      · subst hr'
        rw [List.append_nil] at he'
        rw [← he', parseNat_natText] at hm
        cases hm; omega
      · have := ih (n / 10) (by omega) he' hr' hm
        omega

theorem natText_head_digit (n : Nat) (t : Text) : ∀ c, natText n = c :: t → digitVal c ≠ none := by
  intro c h hd
  have := parseNat_natText n
  rw [h] at this
  simp [parseNat, hd] at this

/-- a proper prefix of a number in decimal does not read as that number -/
theorem parseInt_prefix {v : Int} {q r : Text} (he : intText v = q ++ r) (hr : r ≠ []) : parseInt q ≠ some v := by
  intro hm
  have hns : stripChars isSpace q = q := stripChars_id fun c hc => intText_not_space v c (by rw [he]; simp [hc])
  unfold parseInt at hm
  rw [hns] at hm
  unfold intText at he
  by_cases hneg : v < 0
  · rw [if_pos hneg] at he
    cases q with
    | nil => simp [parseNat] at hm
    | cons c q =>
      simp only [List.cons_append, List.cons.injEq] at he
      obtain ⟨rfl, he⟩ := he
      simp only [Option.map_eq_some_iff] at hm
      obtain ⟨m, hm, hv⟩ := hm
      have := parseNat_prefix _ he hr hm
      omega
  · rw [if_neg hneg] at he
    have key : ∀ c t, q = c :: t → digitVal c ≠ none := by
      rintro c t rfl
      exact natText_head_digit v.natAbs (t ++ r) c he
    have hq : (parseNat q).map (fun (n : Nat) => (n : Int)) = some v := by
      split at hm
      · exact absurd (by decide) (key '-' _ rfl)
      · exact absurd (by decide) (key '+' _ rfl)
      · exact hm
    simp only [Option.map_eq_some_iff] at hq
    obtain ⟨m, hm, hv⟩ := hq
    have := parseNat_prefix _ he hr hm
    omega

theorem prefix_append_cases {α : Type} {t a b : List α} (h : t <+: a ++ b) : t <+: a ∨ ∃ u, t = a ++ u ∧ u <+: b := by
  obtain ⟨r, hr⟩ := h
  rcases List.append_eq_append_iff.mp hr with ⟨u, h1, h2⟩ | ⟨u, h1, h2⟩
  · exact .inl ⟨u, h1.symm⟩
  · exact .inr ⟨u, h1, ⟨r, h2.symm⟩⟩

/-- the words of a proper prefix of a line -/
theorem splitOn_prefix {ws : List Text} (hne : ws ≠ []) (h : ∀ w ∈ ws, ' ' ∉ w) {t : Text} (hp : t <+: unwords ws)
    (hlt : t ≠ unwords ws) :
    ∃ (k : Nat) (q w : Text), ws[k]? = some w ∧ splitOn ' ' t = ws.take k ++ [q] ∧ q <+: w ∧ (k + 1 = ws.length → q ≠ w) := by
  induction ws generalizing t with
  | nil => exact absurd rfl hne
  | cons w ws ih =>
    have hw := h w (by simp)
    have short : t <+: w → splitOn ' ' t = [t] := fun hpw => splitOn_word fun hc => hw (hpw.subset hc)
    cases ws with
    | nil =>
      exact ⟨0, t, w, rfl, short hp, hp, fun _ => hlt⟩
    | cons x xs =>
      rw [unwords_cons, List.flatMap_cons, List.cons_append, ← List.singleton_append (x := ' '), ← List.append_assoc] at hp
      rcases prefix_append_cases hp with hp | ⟨u, rfl, hu⟩
      · rcases prefix_append_cases hp with hp | ⟨v, rfl, hv⟩
        · exact ⟨0, t, w, rfl, short hp, hp, by simp⟩
        · cases v with
          | nil => rw [List.append_nil] at *; exact ⟨0, w, w, rfl, short (List.prefix_refl _), List.prefix_refl _, by simp⟩
          | cons c v =>
            obtain ⟨r, hr⟩ := hv
            simp only [List.cons_append, List.cons.injEq, List.append_eq_nil_iff] at hr
            obtain ⟨rfl, rfl, rfl⟩ := hr
            refine ⟨1, [], x, rfl, ?_, List.nil_prefix, ?_⟩
            · rw [splitOn_append hw]; rfl
            · intro hk he
              simp only [List.length_cons] at hk
              have : xs = [] := List.eq_nil_of_length_eq_zero (by omega)
              subst this; subst he
              exact hlt rfl
      · have hu' : u <+: unwords (x :: xs) := by rw [unwords_cons]; exact hu
        have hl' : u ≠ unwords (x :: xs) := by
          rintro rfl
          apply hlt
          show _ = w ++ ' ' :: unwords (x :: xs)
          rw [List.append_assoc]; rfl
        obtain ⟨k, q, w', h1, h2, h3, h4⟩ := ih (by simp) (fun w hw => h w (by simp at hw ⊢; tauto)) hu' hl'
        refine ⟨k + 1, q, w', h1, ?_, h3, ?_⟩
        · rw [List.append_assoc, List.singleton_append, splitOn_append hw, h2]; rfl
        · intro hk; exact h4 (by simp only [List.length_cons] at hk ⊢; omega)

theorem toInts_cons_ok {a : Text} {as : List Text} {vs : List Int} {s s' : SimSt} (h : toInts (a :: as) s = (.ok vs, s')) :
    ∃ v vs', vs = v :: vs' ∧ parseInt a = some v ∧ toInts as s = (.ok vs', s') := by
  simp only [toInts, PyM.bind_apply, toInt] at h
  cases hp : parseInt a with
  | none => rw [hp] at h; simp at h
  | some v =>
    rw [hp] at h
    simp only [PyM.pure_apply] at h
    cases hr : toInts as s with
    | mk x s2 =>
      rw [hr] at h
      cases x with
      | error e => simp at h
      | ok vs' =>
        simp only [Prod.mk.injEq, Except.ok.injEq] at h
        exact ⟨v, vs', h.1.symm, rfl, by rw [h.2]⟩

theorem toInts_last {as : List Text} {a : Text} {vs : List Int} {s s' : SimSt} (h : toInts (as ++ [a]) s = (.ok vs, s')) :
    vs.length = as.length + 1 ∧ ∃ v, vs[as.length]? = some v ∧ parseInt a = some v := by
  induction as generalizing vs with
  | nil =>
    obtain ⟨v, vs', rfl, hp, hr⟩ := toInts_cons_ok h
    have hr2 : toInts [] s = (.ok [], s) := rfl
    rw [hr2] at hr
    simp only [Prod.mk.injEq, Except.ok.injEq] at hr
    rw [← hr.1]
    exact ⟨rfl, v, rfl, hp⟩
  | cons b bs ih =>
    obtain ⟨v, vs', rfl, hp, hr⟩ := toInts_cons_ok h
    obtain ⟨h1, u, h2, h3⟩ := ih hr
    exact ⟨by simp [h1], u, by simpa using h2, h3⟩

/-- the result of the client from a proper prefix of the text of the values is never the values -/
theorem toInts_prefix {vs : List Int} {t : Text} (hp : t <+: numbers vs) (hlt : t ≠ numbers vs) (s s' : SimSt) :
    toInts (splitOn ' ' t) s ≠ (.ok vs, s') := by
  intro h
  cases vs with
  | nil =>
    obtain ⟨r, hr⟩ := hp
    simp only [numbers, List.map_nil, unwords, List.append_eq_nil_iff] at hr
    exact hlt (by rw [hr.1]; rfl)
  | cons v0 vs0 =>
    obtain ⟨k, q, w, h1, h2, h3, h4⟩ := splitOn_prefix (ws := (v0 :: vs0).map intText) (by simp)
      (fun w hw hs => by
        obtain ⟨v, _, rfl⟩ := List.mem_map.mp hw
        exact (isWord_intText v _ hs).1 rfl) hp hlt
    rw [h2] at h
    obtain ⟨hl, v, hv, hpv⟩ := toInts_last h
    have hk : k < ((v0 :: vs0).map intText).length := (List.getElem?_eq_some_iff.mp h1).1
    have htk : (((v0 :: vs0).map intText).take k).length = k := by rw [List.length_take]; omega
    rw [htk] at hl hv
    have hne := h4 (by rw [List.length_map]; omega)
    rw [List.getElem?_map, hv] at h1
    simp only [Option.map_some, Option.some.injEq] at h1
    subst h1
    obtain ⟨r, hr⟩ := h3
    exact parseInt_prefix hr.symm (fun hr0 => hne (by rw [← hr, hr0, List.append_nil])) hpv

section
variable (errText : PyErr → Text) {s s' : SimSt}

/-- C53, the exact limit: when the slave answers `vs` and the answer does not fit in 1024 characters, the client does NOT return `vs`
    (it returns other numbers, silently, or raises). -/
theorem C53_long (id : Int) {name : Text} (hn : IsToken name) (a n : Int)
    (hq : ("get_values ".toList ++ intText id ++ ' ' :: name ++ ' ' :: intText a ++ ' ' :: intText n).length ≤ 1024)
    {vs : List Int} (hvs : onSlave id (onHeap (getValues (String.ofList name) a n)) s = (.ok vs, s'))
    (hbig : ¬ AnswerFits "get_values".toList vs) :
    (rpcGetValues simCmds errText id name a n s).1 ≠ .ok vs := by
  have hcmd := get_command (s := s) id name a n
  rw [hvs] at hcmd
  have hw := get_tokens id hn a n
  have hcall : rpcCall simCmds errText (unwords ["get_values".toList, intText id, name, intText a, intText n]) s =
      (.ok ((numbers vs).take 1007), s') := by
    simp only [rpcCall]
    have h1 : rpcHandle simCmds errText (unwords ["get_values".toList, intText id, name, intText a, intText n]) s =
        ("get_values".toList ++ " done: ".toList ++ numbers vs ++ "\r\n".toList, false, s') := by
      have := rpcHandle_eq (c := 'g') (t := "et_values".toList) (f := doGetValues) (errText := errText) (s := s) (by decide) rfl hw
        (by have := hq; rw [get_query] at this; exact this)
      rw [show ['g' :: "et_values".toList, intText id, name, intText a, intText n] =
        ["get_values".toList, intText id, name, intText a, intText n] from rfl, hcmd] at this
      exact this
    have h2 : (splitOn ' ' (unwords ["get_values".toList, intText id, name, intText a, intText n])).headD [] = "get_values".toList :=
      rpc_head (c := 'g') (t := "et_values".toList) hw
    rw [h1, h2]
    simp only [recv1024]
    unfold AnswerFits at hbig
    rw [List.take_append_of_le_length (by omega), List.take_append]
    rw [show ("get_values".toList ++ " done: ".toList).length = 17 from rfl, List.take_of_length_le (by decide)]
    rw [stripChars_id]
    · unfold responseToValues
      simp only
      have : ("get_values".toList ++ " done: ".toList).isPrefixOf
          ("get_values".toList ++ " done: ".toList ++ List.take (1024 - 17) (numbers vs)) = true := by
        rw [List.isPrefixOf_iff_prefix]; exact List.prefix_append _ _
      rw [if_pos this, List.drop_left]
    · intro c hc
      simp only [List.mem_append] at hc
      rcases hc with (hc | hc) | hc
      · have : ∀ c ∈ "get_values".toList, isCrLf c = false := by decide
        exact this c hc
      · have : ∀ c ∈ " done: ".toList, isCrLf c = false := by decide
        exact this c hc
      · exact numbers_chars vs c (List.mem_of_mem_take hc)
  unfold rpcGetValues
  rw [get_query, PyM.bind_apply, hcall]
  simp only
  intro h
  refine toInts_prefix (List.take_prefix 1007 (numbers vs)) ?_ s' (toInts (splitOn ' ' ((numbers vs).take 1007)) s').2 (Prod.ext h rfl)
  intro he
  apply hbig
  unfold AnswerFits
  have := congrArg List.length he
  rw [List.length_take] at this
  rw [List.length_append, show ("get_values".toList ++ " done: ".toList).length = 17 from rfl]
  omega

/-- C53, the other limit: when the slave answers no value at all, the client raises (`int('')`). -/
theorem C53_empty (id : Int) {name : Text} (hn : IsToken name) (a n : Int)
    (hq : ("get_values ".toList ++ intText id ++ ' ' :: name ++ ' ' :: intText a ++ ' ' :: intText n).length ≤ 1024)
    (hvs : onSlave id (onHeap (getValues (String.ofList name) a n)) s = (.ok [], s')) :
    rpcGetValues simCmds errText id name a n s = (.error .valueError, s') := by
  have hcmd := get_command (s := s) id name a n
  rw [hvs] at hcmd
  have hcall : rpcCall simCmds errText (unwords ["get_values".toList, intText id, name, intText a, intText n]) s = (.ok [], s') :=
    rpcCall_ok (c := 'g') (t := "et_values".toList) (f := doGetValues) (by decide) rfl (get_tokens id hn a n)
      (by have := hq; rw [get_query] at this; exact this) hcmd (by intro x hx; cases hx) (by decide)
  unfold rpcGetValues
  rw [get_query, PyM.bind_apply, hcall]
  rfl

end

theorem numbers_length (vs : List Int) : 2 * vs.length ≤ (numbers vs).length + 1 := by
  unfold numbers
  cases vs with
  | nil => simp
  | cons v vs =>
    rw [List.map_cons, unwords_cons, List.length_append, List.length_cons, List.flatMap_map]
    have h1 : ∀ v : Int, 1 ≤ (intText v).length := fun v => List.length_pos_iff.mpr (intText_ne_nil v)
    have h2 : ∀ us : List Int, 2 * us.length ≤ (us.flatMap fun v => ' ' :: intText v).length := by
      intro us
      induction us with
      | nil => simp
      | cons u us ih =>
        rw [List.flatMap_cons, List.length_append, List.length_cons, List.length_cons]
        have := h1 u; omega
    have := h1 v; have := h2 vs; omega

/-- more than 504 values never fit -/
theorem not_fits {vs : List Int} (h : 504 < vs.length) : ¬ AnswerFits "get_values".toList vs := by
  unfold AnswerFits
  rw [List.length_append, show ("get_values".toList ++ " done: ".toList).length = 17 from rfl]
  have := numbers_length vs
  omega

/-- a simulator with a slave and a block of 600 registers, and its reachability -/
def exSim : SimSt :=
  (simStep simCmds (fun _ => []) "add_block 1 A 3 0 600\n".toList
    (simStep simCmds (fun _ => []) "add_slave 1\n".toList ⟨⟨⟨[], true⟩, Heap.empty⟩, [], [], 0⟩).2.2).2.2

theorem exSim_reach : SimReach (fun _ => []) [] exSim := .line (.line (.start true) _) _

theorem exSim_slave : Dict.get? exSim.st.db.slaves 1 = some ⟨1, true, [("A", (3, 0))], 0⟩ := by decide +kernel
theorem exSim_dict : exSim.st.heap.dicts 0 = [(1,0),(2,1),(3,2),(4,3)] := by decide +kernel
theorem exSim_list : exSim.st.heap.lists 2 = [Block.new 0 600] := by decide +kernel
attribute [local irreducible] exSim

theorem exSim_values (n : Nat) (hn : n ≤ 600) :
    onSlave 1 (onHeap (getValues (String.ofList "A".toList) 0 n)) exSim =
      (.ok (List.replicate n 0), (onSlave 1 (onHeap (getValues (String.ofList "A".toList) 0 n)) exSim).2) := by
  refine Prod.ext ?_ rfl
  rw [onSlave_some exSim_slave]
  have hb : getBlock ⟨1, true, [("A", (3, 0))], 0⟩ (String.ofList "A".toList) exSim.st.heap = (.ok ⟨2, 0⟩, exSim.st.heap) := by
    have h1 : Dict.get? (exSim.st.heap.dicts 0) 3 = some 2 := by rw [exSim_dict]; decide
    have h2 : (exSim.st.heap.lists 2).findIdx? (fun b => b.start = 0) = some 0 := by rw [exSim_list]; decide
    simp only [getBlock, String.ofList_toList, Dict.get?, reduceIte, h1, h2]
  have hc : exSim.st.heap.block? ⟨2, 0⟩ = some (Block.new 0 600) := by simp only [Heap.block?, exSim_list]; rfl
  have hwf : (Block.new 0 600).WF := block_new_wf (by decide)
  obtain ⟨vs, h1, h2, h3⟩ := C01_get_values 0 n hb hc hwf
    (show (0:Int) ≤ 0 ∧ (0:Int) + (n : Nat) ≤ 0 + 600 by omega)
  show (getValues (String.ofList "A".toList) 0 n ⟨1, true, [("A", (3, 0))], 0⟩ exSim.st.heap).1 = .ok (List.replicate n 0)
  rw [h1]
  refine congrArg Except.ok ?_
  apply List.ext_getElem?
  intro k
  by_cases hk : k < n
  · rw [h3 k hk, List.getElem?_replicate_of_lt hk]
    simp only [cell]
    have hl : (exSim.st.heap.lists 2)[0]? = some (Block.new 0 600) := hc
    show ((exSim.st.heap.lists 2)[0]?.bind fun b => b.data[((0:Int) - 0).toNat + k]?) = some 0
    rw [hl]
    show (List.replicate 600 (0 : Int))[((0:Int) - 0).toNat + k]? = some 0
    rw [show ((0:Int) - 0).toNat + k = k by simp]
    exact List.getElem?_replicate_of_lt (by omega)
  · rw [List.getElem?_eq_none (by omega), List.getElem?_eq_none (by rw [List.length_replicate]; omega)]

/-- C53 as stated is false: on a reachable simulator the slave returns 600 values and the client something else. -/
theorem C53_false_long (errText : PyErr → Text) : ∃ s vs s', SimReach (fun _ => []) [] s ∧
    onSlave 1 (onHeap (getValues (String.ofList "A".toList) 0 600)) s = (.ok vs, s') ∧
    (rpcGetValues simCmds errText 1 "A".toList 0 600 s).1 ≠ .ok vs :=
  ⟨exSim, _, _, exSim_reach, exSim_values 600 (by decide),
   C53_long errText 1 ⟨by decide, by decide⟩ 0 600 (by simp [intText, natText]) (exSim_values 600 (by decide))
    (not_fits (by rw [List.length_replicate]; decide))⟩

/-- C53 as stated is false: on a reachable simulator the slave returns no value and the client raises. -/
theorem C53_false_empty (errText : PyErr → Text) : ∃ s s', SimReach (fun _ => []) [] s ∧
    onSlave 1 (onHeap (getValues (String.ofList "A".toList) 0 0)) s = (.ok [], s') ∧
    (rpcGetValues simCmds errText 1 "A".toList 0 0 s).1 = .error .valueError :=
  ⟨exSim, _, exSim_reach, exSim_values 0 (by decide), by
    rw [C53_empty errText 1 ⟨by decide, by decide⟩ 0 0 (by simp [intText, natText]) (exSim_values 0 (by decide))]⟩

/-- non-vacuity of `C53_get_values_partial`: three values of that simulator -/
example (errText : PyErr → Text) : ∃ s', rpcGetValues simCmds errText 1 "A".toList 0 3 exSim = (.ok [0, 0, 0], s') :=
  ⟨_, C53_get_values_partial errText 1 ⟨by decide, by decide⟩ 0 3 (by simp [intText, natText]) (exSim_values 3 (by decide)) (by simp)
    (by simp [AnswerFits, numbers, unwords, intText, natText])⟩

-- C52_unknown_slave, C51_add_command
example : (getSlave 2 exSim.st).1.isOk = false ∧ (getSlave 1 exSim.st).1.isOk = true := by decide +kernel
example : ∀ w ∈ ["hello".toList, "x".toList], IsWord w := by decide
end Modbus
