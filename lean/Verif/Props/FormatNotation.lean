import Verif.Props.FormatCalls
import Verif.Lemmas.Text
/-
# C87: what `struct` keeps of the values, and how formats are written
-/
namespace Modbus
open Spec (Call Fits16 Fits8 FitsReg word wordAt toWord toByte)

variable {F : Type} {P : Platform F} {σ : Type}

/-! ## What comes back -/

/-- What of a value packed for the item comes back: integers and characters as they are (`True` as 1), for `?` the truth of the value, for `s` the byte string cut or filled with zeros,
    for floats what the machine keeps of them in so many bytes. -/
def keptAs (P : Platform F) : Item → PyVal F → PyVal F
  | .int _, .int n => .int n
  | .int _, .bool b => .int (if b then 1 else 0)
  | .bool, v => .bool (v.truth P)
  | .str n, .bytes bs => .bytes (bs.take n ++ List.replicate (n - bs.length) 0)
  | .float k, v => match v.asFloat P with
    | some x => match P.pack k x with
      | .ok bs => .float (P.unpack k bs)
      | .error _ => v
    | none => v
  | _, v => v

/-- the integer codes have a size -/
def SizedItems (is : List Item) : Prop := ∀ c, Item.int c ∈ is → 0 < c.size

theorem entry_sized {native : Bool} {long : Nat} (hl : 0 < long) {c : Char} {k : Code} (h : formatEntry native long c = some (.int k)) : 0 < k.size := by
  unfold formatEntry at h
  by_cases e : c = 'x'
  · rw [if_pos e] at h; cases h
  rw [if_neg e] at h; clear e
  by_cases e : c = 'c'
  · rw [if_pos e] at h; cases h
  rw [if_neg e] at h; clear e
  by_cases e : c = 'b'
  · rw [if_pos e] at h; cases h; decide
  rw [if_neg e] at h; clear e
  by_cases e : c = 'B'
  · rw [if_pos e] at h; cases h; decide
  rw [if_neg e] at h; clear e
  by_cases e : c = '?'
  · rw [if_pos e] at h; cases h
  rw [if_neg e] at h; clear e
  by_cases e : c = 'h'
  · rw [if_pos e] at h; cases h; decide
  rw [if_neg e] at h; clear e
  by_cases e : c = 'H'
  · rw [if_pos e] at h; cases h; decide
  rw [if_neg e] at h; clear e
  by_cases e : c = 'i'
  · rw [if_pos e] at h; cases h; decide
  rw [if_neg e] at h; clear e
  by_cases e : c = 'I'
  · rw [if_pos e] at h; cases h; decide
  rw [if_neg e] at h; clear e
  by_cases e : c = 'l'
  · rw [if_pos e] at h; cases h; cases native <;> first | exact hl | exact Nat.succ_pos _
  rw [if_neg e] at h; clear e
  by_cases e : c = 'L'
  · rw [if_pos e] at h; cases h; cases native <;> first | exact hl | exact Nat.succ_pos _
  rw [if_neg e] at h; clear e
  by_cases e : c = 'q'
  · rw [if_pos e] at h; cases h; decide
  rw [if_neg e] at h; clear e
  by_cases e : c = 'Q'
  · rw [if_pos e] at h; cases h; decide
  rw [if_neg e] at h; clear e
  by_cases e : c = 'e'
  · rw [if_pos e] at h; cases h
  rw [if_neg e] at h; clear e
  by_cases e : c = 'f'
  · rw [if_pos e] at h; cases h
  rw [if_neg e] at h; clear e
  by_cases e : c = 'd'
  · rw [if_pos e] at h; cases h
  rw [if_neg e] at h; clear e
  by_cases e : c = 's'
  · rw [if_pos e] at h; cases h
  rw [if_neg e] at h; clear e
  cases h

theorem times_sized {item : Item} {k : Code} {n : Nat} (h : Item.int k ∈ item.times n) : item = .int k := by
  cases item <;> simp [Item.times, List.mem_replicate] at h <;> simp [h]

theorem scan_sized {native : Bool} {long : Nat} (hl : 0 < long) (t : Text) : ∀ {num s is}, scanFormat native long num s t = .ok is → SizedItems is := by
  induction t with
  | nil => intro num s is h; cases num <;> cases h; intro c hc; cases hc
  | cons c t ih =>
    intro num s is h
    rw [scanFormat] at h
    by_cases hs : num = none ∧ isSpace c
    · rw [if_pos hs] at h; exact ih h
    · rw [if_neg hs] at h
      cases hd : digitVal c with
      | some d => rw [hd] at h; exact ih h
      | none =>
        rw [hd] at h
        dsimp only at h
        cases he : formatEntry native long c with
        | none => rw [he] at h; cases h
        | some item =>
          rw [he] at h
          dsimp only at h
          split at h
          · cases h
          · rename_i js hj
            cases h
            intro k hk
            rw [List.mem_append, List.mem_append] at hk
            rcases hk with (hk | hk) | hk
            · unfold padItems at hk; split at hk <;> simp at hk
            · rw [times_sized hk] at he; exact entry_sized hl he
            · exact ih hj k hk

theorem parse_sized {t : Text} {l : TextLayout} (h : parseFormat P t = .ok l) : SizedItems l.items := by
  unfold parseFormat at h
  split at h <;>
  · obtain ⟨is, hi, rfl⟩ := except_map_inv h
    exact scan_sized P.long_pos _ hi

theorem unpackItem_packItem {big : Bool} {i : Item} (hi : ∀ c, i = .int c → 0 < c.size) {v : PyVal F} {bs : Bytes} (h : packItem P big i v = .ok bs) :
    unpackItem P big i bs = keptAs P i v := by
  cases i with
  | pad n => cases h
  | int c =>
    cases v with
    | int n => exact congrArg PyVal.int (unpackOne_packOne (hi c rfl) h)
    | bool b => exact congrArg PyVal.int (unpackOne_packOne (hi c rfl) h)
    | float x => cases h
    | bytes bs => cases h
  | bool =>
    cases h
    show PyVal.bool _ = PyVal.bool _
    cases v.truth P <;> rfl
  | char =>
    cases v with
    | bytes xs =>
      match xs, h with
      | [b], h => cases h; rfl
      | [], h => cases h
      | _ :: _ :: _, h => cases h
    | _ => cases h
  | str n =>
    cases v with
    | bytes xs => cases h; rfl
    | _ => cases h
  | float k =>
    unfold packItem at h
    unfold keptAs
    dsimp only at h ⊢
    cases hv : v.asFloat P with
    | none => rw [hv] at h; cases h
    | some x =>
      rw [hv] at h
      dsimp only at h ⊢
      obtain ⟨ys, hy, rfl⟩ := except_map_inv h
      rw [hy]
      show PyVal.float _ = PyVal.float _
      cases big <;> simp

theorem unpackItems_packItems {big : Bool} {is : List Item} (hi : SizedItems is) {vs : List (PyVal F)} {bs : Bytes} (h : packItems P big is vs = .ok bs) :
    unpackItems P big is bs = List.zipWith (keptAs P) (is.filter Item.takes) vs := by
  induction is generalizing vs bs with
  | nil => cases vs with
    | nil => rfl
    | cons v vs => cases h
  | cons i is ih =>
    have hi2 : SizedItems is := fun c hc => hi c (List.mem_cons_of_mem _ hc)
    by_cases hp : ∃ n, i = .pad n
    · obtain ⟨n, rfl⟩ := hp
      rw [packItems] at h
      obtain ⟨y, hy, rfl⟩ := except_map_inv h
      rw [unpackItems, List.drop_left' (by simp), ih hi2 hy, List.filter_cons_of_neg (by simp [Item.takes])]
    · have hp' : ∀ n, i = .pad n → False := fun n h => hp ⟨n, h⟩
      cases vs with
      | nil => cases i <;> first | exact absurd ⟨_, rfl⟩ hp | cases h
      | cons v vs =>
        rw [packItems.eq_3 _ _ _ _ _ _ hp'] at h
        obtain ⟨x, hx, h⟩ := except_bind_inv h
        obtain ⟨y, hy, h⟩ := except_bind_inv h
        cases h
        have hl := packItem_length hx
        rw [unpackItems.eq_3 _ _ _ _ _ hp', List.take_left' hl, List.drop_left' hl, ih hi2 hy, List.filter_cons_of_pos (by cases i <;> first | rfl | exact absurd ⟨_, rfl⟩ hp), List.zipWith_cons_cons]
        rw [unpackItem_packItem (fun c hc => hi c (by rw [hc]; exact List.mem_cons_self)) hx]

/-- **C87 (what is kept).** Reading with the format that was used for writing gives the values back, as far as their codes keep them. -/
theorem C87_kept {t : Text} {l : TextLayout} (hl : parseFormat P t = .ok l) {vs : List (PyVal F)} {bs : Bytes} (h : sPack P t vs = .ok bs) :
    sUnpack P t bs = .ok (List.zipWith (keptAs P) (l.items.filter Item.takes) vs) := by
  have hc := C87_calcsize h
  unfold sPack at h
  unfold sUnpack
  unfold sCalcsize at hc
  rw [hl] at h hc
  rw [hl, except_bind_ok]
  rw [except_bind_ok] at h
  rw [except_map_ok] at hc
  rw [if_pos (Except.ok.inj hc).symm]
  split at h
  · exact congrArg _ (unpackItems_packItems (parse_sized hl) h)
  · cases h

/-! ## Notation -/

/-- the text does not end in a repeat count -/
def NoCount (t : Text) : Prop := ∀ c, t.getLast? = some c → digitVal c = none

theorem scan_congr {native : Bool} {long : Nat} {x y : Text} (h : ∀ s, scanFormat native long none s x = scanFormat native long none s y) (pre : Text) :
    ∀ num s, (pre = [] → num = none) → NoCount pre → scanFormat native long num s (pre ++ x) = scanFormat native long num s (pre ++ y) := by
  induction pre with
  | nil => intro num s hn _; rw [hn rfl]; exact h s
  | cons c pre ih =>
    intro num s _ hc
    have hc' : NoCount pre := fun d hd => hc d (by rw [List.getLast?_cons, hd]; rfl)
    rw [List.cons_append, List.cons_append, scanFormat, scanFormat]
    split
    · exact ih _ _ (fun _ => rfl) hc'
    · cases hd : digitVal c with
      | some d =>
        dsimp only
        refine ih _ _ (fun hp => ?_) hc'
        subst hp
        rw [hc c rfl] at hd; cases hd
      | none =>
        dsimp only
        cases formatEntry native long c with
        | none => rfl
        | some item =>
          dsimp only
          rw [ih _ _ (fun _ => rfl) hc']

/-- the texts with no prefix for the byte order -/
theorem parse_native {c : Char} (h : c ≠ '<' ∧ c ≠ '>' ∧ c ≠ '!' ∧ c ≠ '=' ∧ c ≠ '@') (t : Text) : parseFormat P (c :: t) = (scanFormat true P.long none 0 (c :: t)).map (⟨P.big, ·⟩) := by
  obtain ⟨h1, h2, h3, h4, h5⟩ := h
  unfold parseFormat
  split
  all_goals first | rfl | (rename_i heq; cases heq; contradiction)

theorem parse_congr {x y : Text} (h : ∀ native s, scanFormat native P.long none s x = scanFormat native P.long none s y) {pre : Text} (hp : pre ≠ []) (hc : NoCount pre) :
    parseFormat P (pre ++ x) = parseFormat P (pre ++ y) := by
  cases pre with
  | nil => exact absurd rfl hp
  | cons c pre =>
    have hc' : NoCount pre := fun d hd => hc d (by rw [List.getLast?_cons, hd]; rfl)
    have h1 := fun native => scan_congr (h native) pre none 0 (fun _ => rfl) hc'
    have h2 := scan_congr (h true) (c :: pre) none 0 (fun _ => rfl) hc
    rw [List.cons_append, List.cons_append] at *
    by_cases hn : c ≠ '<' ∧ c ≠ '>' ∧ c ≠ '!' ∧ c ≠ '=' ∧ c ≠ '@'
    · rw [parse_native hn, parse_native hn, h2]
    · have hcases : c = '<' ∨ c = '>' ∨ c = '!' ∨ c = '=' ∨ c = '@' := by
        by_cases a1 : c = '<'; · exact .inl a1
        by_cases a2 : c = '>'; · exact .inr (.inl a2)
        by_cases a3 : c = '!'; · exact .inr (.inr (.inl a3))
        by_cases a4 : c = '='; · exact .inr (.inr (.inr (.inl a4)))
        by_cases a5 : c = '@'; · exact .inr (.inr (.inr (.inr a5)))
        exact absurd ⟨a1, a2, a3, a4, a5⟩ hn
      rcases hcases with rfl | rfl | rfl | rfl | rfl <;>
      · show Except.map _ (scanFormat _ P.long none 0 (pre ++ x)) = Except.map _ (scanFormat _ P.long none 0 (pre ++ y))
        rw [h1]

/-- **C87 (white space)** between the items of a format says nothing. -/
theorem C87_space {pre : Text} (hp : pre ≠ []) (hc : NoCount pre) {c : Char} (hs : isSpace c = true) (post : Text) : parseFormat P (pre ++ c :: post) = parseFormat P (pre ++ post) := by
  refine parse_congr (fun native s => ?_) hp hc
  rw [scanFormat, if_pos ⟨rfl, hs⟩]

theorem scan_digit {native : Bool} {long d : Nat} (hd : d < 10) (num : Option Nat) (s : Nat) (rest : Text) :
    scanFormat native long num s (digitChar d :: rest) = scanFormat native long (some (10 * num.getD 0 + d)) s rest := by
  have hsp : isSpace (digitChar d) = false := by revert d; decide
  rw [scanFormat, if_neg (by simp [hsp]), digitVal_digitChar hd]

theorem scan_digits {native : Bool} {long : Nat} (n : Nat) : ∀ (rest : Text) (s : Nat), scanFormat native long none s (natText n ++ rest) = scanFormat native long (some n) s rest := by
  induction n using Nat.strongRecOn with
  | ind n ih =>
    intro rest s
    by_cases h : n < 10
    · rw [natText_small h]
      show scanFormat native long none s (digitChar n :: rest) = _
      rw [scan_digit h]
      simp
    · rw [natText_big h, List.append_assoc, ih (n / 10) (by omega)]
      show scanFormat native long _ s (digitChar (n % 10) :: rest) = _
      rw [scan_digit (by omega)]
      congr 2
      simp only [Option.getD_some]
      omega

theorem gap_aligned {k s : Nat} (hk : 0 < k) : gapTo k (s + gapTo k s + k) = 0 ∧ gapTo k (s + gapTo k s) = 0 := by
  have h1 : (s + gapTo k s) % k = 0 := by
    unfold gapTo
    have hs := Nat.mod_lt s hk
    by_cases h0 : s % k = 0
    · rw [h0, Nat.sub_zero, Nat.mod_self, Nat.add_zero, h0]
    · rw [Nat.mod_eq_of_lt (show k - s % k < k by omega)]
      have := Nat.div_add_mod s k
      rw [show s + (k - s % k) = k * (s / k) + k by omega, Nat.add_mod_right, Nat.mul_mod_right]
  have h2 : ∀ m, m % k = 0 → gapTo k m = 0 := by
    intro m hm
    unfold gapTo
    rw [hm, Nat.sub_zero, Nat.mod_self]
  exact ⟨h2 _ (by rw [Nat.add_mod_right, h1]), h2 _ h1⟩

theorem scan_entry {native : Bool} {long : Nat} {c : Char} {item : Item} (hs : isSpace c = false) (hd : digitVal c = none) (he : formatEntry native long c = some item) (num : Option Nat)
    (s : Nat) (rest : Text) : scanFormat native long num s (c :: rest) =
      (scanFormat native long none (s + (if native then gapTo item.size s else 0) + num.getD 1 * item.size) rest).map
        (fun items => padItems (if native then gapTo item.size s else 0) ++ item.times (num.getD 1) ++ items) := by
  rw [scanFormat, if_neg (by simp [hs]), hd]
  dsimp only
  rw [he]
  dsimp only
  cases scanFormat native long none (s + (if native then gapTo item.size s else 0) + num.getD 1 * item.size) rest <;> rfl

/-- an item that is repeated by repeating its character -/
def Repeats : Item → Prop
  | .pad _ => False
  | .str _ => False
  | _ => True

theorem repeats_times {i : Item} (h : Repeats i) (n : Nat) : i.times n = List.replicate n i := by
  cases i <;> first | exact h.elim | rfl

theorem scan_repeat {native : Bool} {long : Nat} {c : Char} {item : Item} (hs : isSpace c = false) (hd : digitVal c = none) (he : formatEntry native long c = some item)
    (hr : Repeats item) (hk : 0 < item.size) (rest : Text) (n : Nat) : ∀ s, (native = true → gapTo item.size s = 0) →
      scanFormat native long none s (List.replicate n c ++ rest) = (scanFormat native long none (s + n * item.size) rest).map (List.replicate n item ++ ·) := by
  induction n with
  | zero =>
    intro s _
    simp only [List.replicate_zero, List.nil_append, Nat.zero_mul, Nat.add_zero]
    cases scanFormat native long none s rest <;> rfl
  | succ n ih =>
    intro s hg
    have hg0 : (if native = true then gapTo item.size s else 0) = 0 := by
      cases native
      · rfl
      · exact hg rfl
    rw [List.replicate_succ, List.cons_append, scan_entry hs hd he, hg0]
    have hg' : native = true → gapTo item.size (s + 0 + (none : Option Nat).getD 1 * item.size) = 0 := by
      intro hn
      have := (gap_aligned (k := item.size) (s := s) hk).1
      rw [hg hn] at this
      simpa using this
    rw [ih _ hg', repeats_times hr]
    rw [show s + 0 + (none : Option Nat).getD 1 * item.size + n * item.size = s + (n + 1) * item.size by simp [Nat.add_mul]; omega]
    cases scanFormat native long none (s + (n + 1) * item.size) rest with
    | error e => rfl
    | ok js => simp [except_map_ok, padItems, List.replicate_succ]

/-- **C87 (repeat counts).** A count before a code (other than `x` and `s`) says that the code is repeated. -/
theorem C87_count {pre : Text} (hp : pre ≠ []) (hc : NoCount pre) {n : Nat} (hn : 1 ≤ n) {c : Char} (hcode : c ∈ "cbB?hHiIlLqQefd".toList) (post : Text) :
    parseFormat P (pre ++ (natText n ++ c :: post)) = parseFormat P (pre ++ (List.replicate n c ++ post)) := by
  refine parse_congr (fun native s => ?_) hp hc
  rw [scan_digits]
  have hl := P.long_pos
  have hall : isSpace c = false ∧ digitVal c = none ∧ ∃ item, formatEntry native P.long c = some item ∧ Repeats item ∧ 0 < item.size := by
    simp only [String.reduceToList, List.mem_cons, List.not_mem_nil, or_false] at hcode
    rcases hcode with rfl | rfl | rfl | rfl | rfl | rfl | rfl | rfl | rfl | rfl | rfl | rfl | rfl | rfl | rfl <;>
      refine ⟨by decide, by decide, _, rfl, trivial, ?_⟩ <;> first | decide | (cases native <;> first | exact hl | exact Nat.succ_pos _)
  obtain ⟨hs, hd, item, he, hr, hk⟩ := hall
  obtain ⟨m, rfl⟩ : ∃ m, n = m + 1 := ⟨n - 1, by omega⟩
  rw [scan_entry hs hd he, List.replicate_succ, List.cons_append, scan_entry hs hd he]
  have hg' : native = true → gapTo item.size (s + (if native = true then gapTo item.size s else 0) + (none : Option Nat).getD 1 * item.size) = 0 := by
    intro hn
    rw [if_pos hn]
    simpa using (gap_aligned (k := item.size) (s := s) hk).1
  rw [scan_repeat hs hd he hr hk _ _ _ hg', repeats_times hr, repeats_times hr]
  rw [show s + (if native = true then gapTo item.size s else 0) + (none : Option Nat).getD 1 * item.size + m * item.size =
    s + (if native = true then gapTo item.size s else 0) + (some (m + 1)).getD 1 * item.size by simp [Nat.add_mul]; omega]
  cases scanFormat native P.long none (s + (if native = true then gapTo item.size s else 0) + (some (m + 1)).getD 1 * item.size) post with
  | error e => rfl
  | ok js => simp [except_map_ok, List.replicate_succ]

/-- **C87 (byte order).** The prefixes: `!` is `>`; `=` is `>` or `<`, as the machine is; no prefix is `@`. -/
theorem C87_prefixes (P : Platform F) (t : Text) :
    parseFormat P ('!' :: t) = parseFormat P ('>' :: t) ∧ parseFormat P ('=' :: t) = parseFormat P ((if P.big then '>' else '<') :: t) ∧
    ((∀ c, t.head? = some c → c ≠ '<' ∧ c ≠ '>' ∧ c ≠ '!' ∧ c ≠ '=' ∧ c ≠ '@') → parseFormat P t = parseFormat P ('@' :: t)) := by
  refine ⟨rfl, ?_, ?_⟩
  · show (scanFormat false P.long none 0 t).map _ = _
    cases h : P.big
    · show _ = (scanFormat false P.long none 0 t).map _
      rfl
    · show _ = (scanFormat false P.long none 0 t).map _
      rfl
  · intro h
    cases t with
    | nil => rfl
    | cons c t => rw [parse_native (h c rfl)]; rfl

end Modbus
