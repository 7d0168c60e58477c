import Verif.Model.Text
/-
# Decimal text: writing and reading numbers
-/
namespace Modbus

theorem digitChar_toNat {d : Nat} (h : d < 10) : (digitChar d).toNat = 48 + d := by
  revert d; decide

theorem digitVal_digitChar {d : Nat} (h : d < 10) : digitVal (digitChar d) = some d := by
  revert d; decide

theorem digitChar_inj {d e : Nat} (hd : d < 10) (he : e < 10) (h : digitChar d = digitChar e) : d = e := by
  have := congrArg Char.toNat h
  rw [digitChar_toNat hd, digitChar_toNat he] at this
  omega

/-- a character that is a digit -/
def IsDigit (c : Char) : Prop := ∃ d, d < 10 ∧ c = digitChar d

theorem natText_small {n : Nat} (h : n < 10) : natText n = [digitChar n] := by rw [natText, if_pos h]
theorem natText_big {n : Nat} (h : ¬ n < 10) : natText n = natText (n / 10) ++ [digitChar (n % 10)] := by
  rw [natText, if_neg h]

theorem natText_digits (n : Nat) : ∀ c ∈ natText n, IsDigit c := by
  induction n using Nat.strongRecOn with
  | ind n ih =>
    by_cases h : n < 10
    · rw [natText_small h]; intro c hc; exact ⟨n, h, by simpa using hc⟩
    · rw [natText_big h]
      intro c hc
      rcases List.mem_append.mp hc with hc | hc
      · exact ih (n / 10) (by omega) c hc
      · exact ⟨n % 10, by omega, by simpa using hc⟩

theorem natText_ne_nil (n : Nat) : natText n ≠ [] := by
  by_cases h : n < 10
  · rw [natText_small h]; simp
  · rw [natText_big h]; simp

/-- digits written one after the other -/
def digitsVal (acc : Nat) (ds : List Nat) : Nat := ds.foldl (fun a d => 10 * a + d) acc

theorem isDigit_ne {c : Char} (h : IsDigit c) (x : Char) (hx : x.toNat < 48 ∨ 57 < x.toNat) : c ≠ x := by
  obtain ⟨d, hd, rfl⟩ := h
  intro he
  have := congrArg Char.toNat he
  rw [digitChar_toNat hd] at this
  omega

theorem parseDigits_digit {d : Nat} (hd : d < 10) (acc : Nat) (rest : Text) :
    parseDigits acc (digitChar d :: rest) = parseDigits (10 * acc + d) rest := by
  rw [parseDigits.eq_def]
  simp only
  rw [if_neg (isDigit_ne ⟨d, hd, rfl⟩ '_' (by decide)), digitVal_digitChar hd]

theorem parseDigits_append (t rest : Text) (ht : ∀ c ∈ t, IsDigit c) (acc : Nat) :
    parseDigits acc (t ++ rest) = (parseDigits acc t).bind fun a => parseDigits a rest := by
  induction t generalizing acc with
  | nil => simp [parseDigits]
  | cons c t ih =>
    obtain ⟨d, hd, rfl⟩ := ht c (List.mem_cons_self ..)
    rw [List.cons_append, parseDigits_digit hd, parseDigits_digit hd]
    exact ih (fun c hc => ht c (List.mem_cons_of_mem _ hc)) _

theorem parseNat_append (t rest : Text) (hne : t ≠ []) (ht : ∀ c ∈ t, IsDigit c) :
    parseNat (t ++ rest) = (parseNat t).bind fun a => parseDigits a rest := by
  cases t with
  | nil => exact absurd rfl hne
  | cons c t =>
    obtain ⟨d, hd, rfl⟩ := ht c (List.mem_cons_self ..)
    rw [List.cons_append, parseNat, parseNat, digitVal_digitChar hd]
    exact parseDigits_append t rest (fun c hc => ht c (List.mem_cons_of_mem _ hc)) _

/-- reading back a written number -/
theorem parseNat_natText (n : Nat) : parseNat (natText n) = some n := by
  induction n using Nat.strongRecOn with
  | ind n ih =>
    by_cases h : n < 10
    · rw [natText_small h, parseNat, digitVal_digitChar h]; rfl
    · rw [natText_big h, parseNat_append _ _ (natText_ne_nil _) (natText_digits _), ih (n / 10) (by omega)]
      simp only [Option.bind_some]
      rw [parseDigits_digit (by omega)]
      simp only [parseDigits]
      congr 1; omega

theorem natText_inj {a b : Nat} (h : natText a = natText b) : a = b := by
  have := congrArg parseNat h
  rw [parseNat_natText, parseNat_natText] at this
  exact Option.some.inj this

theorem stripChars_id {p : Char → Bool} {s : Text} (h : ∀ c ∈ s, p c = false) : stripChars p s = s := by
  have h1 : ∀ s : Text, (∀ c ∈ s, p c = false) → s.dropWhile p = s := by
    intro s hs
    cases s with
    | nil => rfl
    | cons c s => rw [List.dropWhile_cons, hs c (List.mem_cons_self ..)]; rfl
  unfold stripChars
  rw [h1 s h, h1 _ (fun c hc => h c (List.mem_reverse.mp hc)), List.reverse_reverse]

theorem intText_chars (i : Int) : ∀ c ∈ intText i, c = '-' ∨ IsDigit c := by
  intro c hc
  unfold intText at hc
  split at hc
  · rcases List.mem_cons.mp hc with rfl | hc
    · exact .inl rfl
    · exact .inr (natText_digits _ c hc)
  · exact .inr (natText_digits _ c hc)

theorem intText_ne_nil (i : Int) : intText i ≠ [] := by
  unfold intText; split
  · simp
  · exact natText_ne_nil _

/-- a character that does not occur in numbers -/
theorem intText_free (i : Int) (x : Char) (hm : x ≠ '-') (hx : x.toNat < 48 ∨ 57 < x.toNat) : x ∉ intText i := by
  intro h
  rcases intText_chars i x h with h | h
  · exact hm h
  · exact isDigit_ne h x hx rfl

theorem intText_not_space (i : Int) : ∀ c ∈ intText i, isSpace c = false := by
  intro c hc
  have key : ∀ x : Char, x ≠ '-' → (x.toNat < 48 ∨ 57 < x.toNat) → c ≠ x := by
    intro x h1 h2 he; subst he; exact intText_free i c h1 h2 hc
  have h1 := key ' ' (by decide) (by decide)
  have h2 := key '\t' (by decide) (by decide)
  have h3 := key '\n' (by decide) (by decide)
  have h4 := key '\r' (by decide) (by decide)
  have h5 := key '\x0b' (by decide) (by decide)
  have h6 := key '\x0c' (by decide) (by decide)
  simp [isSpace, h1, h2, h3, h4, h5, h6]

/-- reading back a written integer -/
theorem parseInt_intText (i : Int) : parseInt (intText i) = some i := by
  unfold parseInt
  rw [stripChars_id (intText_not_space i)]
  by_cases h : i < 0
  · have : intText i = '-' :: natText i.natAbs := by unfold intText; rw [if_pos h]
    rw [this]
    show (parseNat (natText i.natAbs)).map (fun (n : Nat) => -(n : Int)) = _
    rw [parseNat_natText]
    show some (-(i.natAbs : Int)) = some i
    congr 1; omega
  · have he : intText i = natText i.natAbs := by unfold intText; rw [if_neg h]
    rw [he]
    cases ht : natText i.natAbs with
    | nil => exact absurd ht (natText_ne_nil _)
    | cons c t =>
      have hd : IsDigit c := natText_digits i.natAbs c (by rw [ht]; exact List.mem_cons_self ..)
      have h1 : c ≠ '-' := isDigit_ne hd '-' (by decide)
      have h2 : c ≠ '+' := isDigit_ne hd '+' (by decide)
      split
      · rename_i heq; cases heq; exact absurd rfl h1
      · rename_i heq; cases heq; exact absurd rfl h2
      · rw [← ht, parseNat_natText]; show some (i.natAbs : Int) = some i; congr 1; omega

theorem intText_inj {a b : Int} (h : intText a = intText b) : a = b := by
  have := congrArg parseInt h
  rw [parseInt_intText, parseInt_intText] at this
  exact Option.some.inj this

/-! ## Splitting -/

theorem splitOn_ne_nil (sep : Char) (s : Text) : splitOn sep s ≠ [] := by
  cases s with
  | nil => simp [splitOn]
  | cons c s =>
    rw [splitOn]; split
    · simp
    · split <;> simp

/-- text without the separator is one word -/
theorem splitOn_word {sep : Char} {w : Text} (h : sep ∉ w) : splitOn sep w = [w] := by
  induction w with
  | nil => rfl
  | cons c w ih =>
    have hc : c ≠ sep := fun he => h (he ▸ List.mem_cons_self ..)
    rw [splitOn, if_neg hc, ih (fun hm => h (List.mem_cons_of_mem _ hm))]

theorem splitOn_append {sep : Char} {w : Text} (h : sep ∉ w) (rest : Text) :
    splitOn sep (w ++ sep :: rest) = w :: splitOn sep rest := by
  induction w with
  | nil => rw [List.nil_append, splitOn, if_pos rfl]
  | cons c w ih =>
    have hc : c ≠ sep := fun he => h (he ▸ List.mem_cons_self ..)
    rw [List.cons_append, splitOn, if_neg hc, ih (fun hm => h (List.mem_cons_of_mem _ hm))]

/-- words separated by one space each -/
def unwords : List Text → Text
  | [] => []
  | [w] => w
  | w :: ws => w ++ ' ' :: unwords ws

theorem splitOn_unwords {ws : List Text} (hne : ws ≠ []) (h : ∀ w ∈ ws, ' ' ∉ w) : splitOn ' ' (unwords ws) = ws := by
  induction ws with
  | nil => exact absurd rfl hne
  | cons w ws ih =>
    cases ws with
    | nil => exact splitOn_word (h w (List.mem_cons_self ..))
    | cons w' ws =>
      rw [unwords, splitOn_append (h w (List.mem_cons_self ..)), ih (by simp) (fun x hx => h x (List.mem_cons_of_mem _ hx))]
      simp

end Modbus
