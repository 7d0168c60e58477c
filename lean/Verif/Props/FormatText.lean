import Verif.Model.Format
import Verif.Props.Formats
/-
# C87: the texts of data formats
-/
namespace Modbus
open Spec (Call Fits16 Fits8 FitsReg word wordAt toWord toByte)

variable {F : Type} {P : Platform F}

/-! ## Reading format texts -/

theorem except_map_ok {α β ε : Type} (f : α → β) (x : α) : (Except.ok x : Except ε α).map f = .ok (f x) := rfl
theorem except_map_error {α β ε : Type} (f : α → β) (e : ε) : (Except.error e : Except ε α).map f = .error e := rfl

/-- without alignment the size read so far does not matter -/
theorem scan_size (long : Nat) (t : Text) : ∀ num s s', scanFormat false long num s t = scanFormat false long num s' t := by
  induction t with
  | nil => intro num s s'; cases num <;> rfl
  | cons c t ih =>
    intro num s s'
    rw [scanFormat, scanFormat]
    split
    · exact ih _ _ _
    · cases digitVal c with
      | some d => exact ih _ _ _
      | none =>
        cases formatEntry false long c with
        | none => rfl
        | some item =>
          simp only [Bool.false_eq_true, if_false]
          rw [ih none (s + 0 + num.getD 1 * item.size) (s' + 0 + num.getD 1 * item.size)]

/-- a text behind a text -/
theorem scan_append {long : Nat} {t1 : Text} (t2 : Text) : ∀ {num s i1}, scanFormat false long num s t1 = .ok i1 →
    scanFormat false long num s (t1 ++ t2) = (scanFormat false long none 0 t2).map (i1 ++ ·) := by
  induction t1 with
  | nil =>
    intro num s i1 h
    cases num with
    | some n => cases h
    | none =>
      rw [scanFormat] at h
      cases h
      rw [List.nil_append, scan_size long t2 none s 0]
      cases scanFormat false long none 0 t2 <;> rfl
  | cons c t ih =>
    intro num s i1 h
    rw [List.cons_append]
    rw [scanFormat] at h ⊢
    by_cases hs : num = none ∧ isSpace c
    · rw [if_pos hs] at h ⊢; exact ih h
    · rw [if_neg hs] at h ⊢
      cases hd : digitVal c with
      | some d => rw [hd] at h; dsimp only at h ⊢; exact ih h
      | none =>
        rw [hd] at h
        dsimp only at h ⊢
        cases he : formatEntry false long c with
        | none => rw [he] at h; cases h
        | some item =>
          rw [he] at h
          dsimp only at h ⊢
          cases hr : scanFormat false long none (s + (if false = true then gapTo item.size s else 0) + num.getD 1 * item.size) t with
          | error e => rw [hr] at h; cases h
          | ok is =>
            rw [hr] at h
            dsimp only at h
            cases h
            rw [ih hr]
            cases scanFormat false long none 0 t2 with
            | error e => rfl
            | ok js => simp only [except_map_ok, List.append_assoc]

/-- one character without a count -/
theorem scan_char {long : Nat} {c : Char} {item : Item} (hs : isSpace c = false) (hd : digitVal c = none) (he : formatEntry false long c = some item) (s : Nat) :
    scanFormat false long none s [c] = .ok (item.times 1) := by
  rw [scanFormat, if_neg (by simp [hs]), hd]
  dsimp only
  rw [he]
  dsimp only
  rw [scanFormat]
  simp [padItems]

/-- `n` times one of the integer codes -/
theorem scan_times {long : Nat} {c : Char} {k : Code} (hs : isSpace c = false) (hd : digitVal c = none) (he : formatEntry false long c = some (.int k)) (n : Int) :
    scanFormat false long none 0 (timesText n [c]) = .ok ((List.replicate n.toNat k).map .int) := by
  unfold timesText
  induction n.toNat with
  | zero => rfl
  | succ n ih =>
    rw [List.replicate_succ, List.flatten_cons, scan_append _ (scan_char hs hd he 0), ih]
    rfl

/-- the layout of an integer format -/
def Fmt.layout (f : Fmt) : TextLayout := ⟨f.big, f.codes.map .int⟩

/-- the text denotes the format (an empty text: no format) -/
def Means (P : Platform F) (t : Text) : Option Fmt → Prop
  | none => t = []
  | some f => t ≠ [] ∧ parseFormat P t = .ok f.layout

theorem times_B (P : Platform F) (n : Int) : parseFormat P (">".toList ++ timesText n "B".toList) = .ok (be (List.replicate n.toNat Code.B)).layout := by
  show (scanFormat false P.long none 0 (timesText n ['B'])).map (TextLayout.mk true) = _
  rw [scan_times (k := Code.B) (by decide) (by decide) rfl]; rfl

theorem times_H (P : Platform F) (n : Int) : parseFormat P (">".toList ++ timesText n "H".toList) = .ok (be (List.replicate n.toNat Code.H)).layout := by
  show (scanFormat false P.long none 0 (timesText n ['H'])).map (TextLayout.mk true) = _
  rw [scan_times (k := Code.H) (by decide) (by decide) rfl]; rfl

theorem scan_join (long : Nat) (qs : List Int) : scanFormat false long none 0 (List.intercalate "BB".toList (qs.map (fun q => timesText q "H".toList))) =
    .ok ((List.intercalate [Code.B, Code.B] (qs.map (fun q => List.replicate q.toNat Code.H))).map .int) := by
  have hH : ∀ q : Int, scanFormat false long none 0 (timesText q "H".toList) = .ok ((List.replicate q.toNat Code.H).map .int) := fun q =>
    scan_times (k := Code.H) (by decide) (by decide) rfl q
  have hB : ∀ s, scanFormat false long none s "BB".toList = .ok ([Code.B, Code.B].map .int) := fun s => by
    show scanFormat false long none s (['B'] ++ ['B']) = _
    rw [scan_append _ (scan_char (item := .int Code.B) (by decide) (by decide) rfl s), scan_char (item := .int Code.B) (by decide) (by decide) rfl 0]
    rfl
  induction qs with
  | nil => rfl
  | cons q qs ih =>
    cases qs with
    | nil => simpa [List.intercalate] using hH q
    | cons q' qs =>
      rw [List.map_cons, List.map_cons, List.map_cons, List.map_cons] at *
      rw [List.intercalate_cons_cons, List.intercalate_cons_cons, List.append_assoc, scan_append _ (hH q), scan_append _ (hB 0), ih]
      simp [except_map_ok]

theorem join_text (P : Platform F) (qs : List Int) : parseFormat P (">BB".toList ++ List.intercalate "BB".toList (qs.map (fun q => timesText q "H".toList))) = .ok (recordFormat qs).layout := by
  show (scanFormat false P.long none 0 ("BB".toList ++ _)).map (TextLayout.mk true) = _
  have hB : scanFormat false P.long none 0 "BB".toList = .ok ([Code.B, Code.B].map .int) := by
    show scanFormat false P.long none 0 (['B'] ++ ['B']) = _
    rw [scan_append _ (scan_char (item := .int Code.B) (by decide) (by decide) rfl 0), scan_char (item := .int Code.B) (by decide) (by decide) rfl 0]
    rfl
  rw [scan_append _ hB, scan_join]
  rfl

/-! ## Integer formats -/

theorem packItems_ints (big : Bool) (cs : List Code) (ns : List Int) : packItems P big (cs.map .int) (ns.map .int) = packCodes big cs ns := by
  induction cs generalizing ns with
  | nil => cases ns <;> rfl
  | cons c cs ih =>
    cases ns with
    | nil => rfl
    | cons n ns =>
      rw [List.map_cons, List.map_cons, packItems, packCodes, ih]
      · rfl
      · intro n h; cases h

theorem takes_ints (cs : List Code) : (cs.map Item.int).filter Item.takes = cs.map Item.int := by
  induction cs with
  | nil => rfl
  | cons c cs ih => rw [List.map_cons, List.filter_cons_of_pos rfl, ih]

theorem packCodes_length {big : Bool} {cs : List Code} {ns : List Int} (h : ns.length ≠ cs.length) : packCodes big cs ns = .error .structError := by
  induction cs generalizing ns with
  | nil => cases ns with
    | nil => exact absurd rfl h
    | cons n ns => rfl
  | cons c cs ih => cases ns with
    | nil => rfl
    | cons n ns =>
      rw [packCodes]
      cases h1 : packOne big c n with
      | error e =>
        unfold packOne at h1
        split at h1
        · cases h1
        · cases h1; rfl
      | ok x => rw [except_bind_ok, ih (by simpa using h)]; rfl

/-- `struct.pack` of integers with an integer format -/
theorem sPack_ints {t : Text} {f : Fmt} (h : parseFormat P t = .ok f.layout) (ns : List Int) : sPack P t (ns.map .int) = structPack f ns := by
  unfold sPack
  rw [h, except_bind_ok]
  show (if (ns.map PyVal.int).length = ((f.codes.map Item.int).filter Item.takes).length then packItems P f.big (f.codes.map Item.int) (ns.map .int) else _) = _
  rw [takes_ints, packItems_ints, List.length_map, List.length_map]
  split
  · rfl
  · rename_i hl; exact (packCodes_length hl).symm

theorem unpackItems_ints (big : Bool) (cs : List Code) (bs : Bytes) : unpackItems P big (cs.map .int) bs = (unpackCodes big cs bs).map .int := by
  induction cs generalizing bs with
  | nil => rfl
  | cons c cs ih =>
    rw [List.map_cons, unpackItems, unpackCodes, ih]
    · rfl
    · intro n h; cases h

theorem layout_size (f : Fmt) : f.layout.size = calcsize f := by
  unfold TextLayout.size calcsize Fmt.layout
  rw [List.map_map]
  rfl

/-- `struct.unpack` with an integer format -/
theorem sUnpack_ints {t : Text} {f : Fmt} (h : parseFormat P t = .ok f.layout) (bs : Bytes) : sUnpack P t bs = (structUnpack f bs).map (List.map .int) := by
  unfold sUnpack structUnpack
  rw [h, except_bind_ok, layout_size]
  split
  · rw [except_map_ok, ← unpackItems_ints (P := P)]; rfl
  · rfl

theorem sCalcsize_ints {t : Text} {f : Fmt} (h : parseFormat P t = .ok f.layout) : sCalcsize P t = .ok (calcsize f) := by
  unfold sCalcsize; rw [h, except_map_ok, layout_size]

/-! ## The master with texts is the master with formats -/

def Arg.vals : Arg → ArgV F
  | .int v => .one (.int v)
  | .seq vs => .seq (vs.map .int)

/-- the call `a` with its data format given as the text `t` -/
def ExecArgs.withText (a : ExecArgs) (t : Text) : ExecArgsT F where
  slave := a.slave
  functionCode := a.functionCode
  startingAddress := a.startingAddress.vals
  quantity := a.quantity.vals
  outputValue := a.outputValue.vals
  dataFormat := t
  expectedLength := a.expectedLength
  writeStartingAddressFc23 := a.writeStartingAddressFc23
  numberFile := a.numberFile.map .int
  pdu := a.pdu
  returnsRaw := a.returnsRaw
  andMask := a.andMask
  orMask := a.orMask

/-- the same failure, or the same preparation with a text for the format -/
def SamePrep (P : Platform F) (x : Except PyErr Prepared) (y : Except PyErr PreparedT) : Prop :=
  match x with
  | .error e => y = .error e
  | .ok p => ∃ d, y = .ok ⟨p.pdu, p.isRead, p.nbOfDigits, d, p.expectedLength⟩ ∧ Means P d p.dataFormat

theorem SamePrep.bind {α : Type} {x : Except PyErr α} {f : α → Except PyErr Prepared} {g : α → Except PyErr PreparedT} (h : ∀ v, SamePrep P (f v) (g v)) :
    SamePrep P (x >>= f) (x >>= g) := by
  cases x with
  | error e => exact rfl
  | ok v => exact h v

theorem num_vals (a : Arg) : (a.vals (F := F)).num = a.num.map .int := by cases a <;> rfl
theorem len_vals (a : Arg) : (a.vals (F := F)).len = a.len := by cases a <;> simp [Arg.vals, ArgV.len, Arg.len]
theorem items_vals (a : Arg) : (a.vals (F := F)).items = a.items.map (List.map .int) := by cases a <;> rfl

theorem SamePrep.bindMap {α β : Type} {x : Except PyErr α} {k : α → β} {f : α → Except PyErr Prepared} {g : β → Except PyErr PreparedT} (h : ∀ v, SamePrep P (f v) (g (k v))) :
    SamePrep P (x >>= f) (x.map k >>= g) := by
  cases x with
  | error e => exact rfl
  | ok v => exact h v

theorem means_or {t : Text} {f : Option Fmt} (h : Means P t f) {d : Text} {g : Fmt} (hd : d ≠ []) (hg : parseFormat P d = .ok g.layout) : Means P (orText t d) (orFormat f g) := by
  unfold orText orFormat
  cases f with
  | none => rw [if_pos (show t = [] from h)]; exact ⟨hd, hg⟩
  | some f => rw [if_neg h.1]; exact h

theorem sPack_BHH (P : Platform F) (a b c : Int) : sPack P ">BHH".toList [.int a, .int b, .int c] = structPack (be [Code.B, Code.H, Code.H]) [a, b, c] :=
  sPack_ints (t := ">BHH".toList) rfl [a, b, c]
theorem sPack_BHh (P : Platform F) (a b c : Int) : sPack P ">BHh".toList [.int a, .int b, .int c] = structPack (be [Code.B, Code.H, Code.h]) [a, b, c] :=
  sPack_ints (t := ">BHh".toList) rfl [a, b, c]
theorem sPack_BB (P : Platform F) (a b : Int) : sPack P ">BB".toList [.int a, .int b] = structPack (be [Code.B, Code.B]) [a, b] :=
  sPack_ints (t := ">BB".toList) rfl [a, b]
theorem sPack_B (P : Platform F) (a : Int) : sPack P ">B".toList [.int a] = structPack (be [Code.B]) [a] :=
  sPack_ints (t := ">B".toList) rfl [a]
theorem sPack_BH (P : Platform F) (a b : Int) : sPack P ">BH".toList [.int a, .int b] = structPack (be [Code.B, Code.H]) [a, b] :=
  sPack_ints (t := ">BH".toList) rfl [a, b]
theorem sPack_BHHH (P : Platform F) (a b c d : Int) : sPack P ">BHHH".toList [.int a, .int b, .int c, .int d] = structPack (be [Code.B, Code.H, Code.H, Code.H]) [a, b, c, d] :=
  sPack_ints (t := ">BHHH".toList) rfl [a, b, c, d]
theorem sPack_BHHB (P : Platform F) (a b c d : Int) : sPack P ">BHHB".toList [.int a, .int b, .int c, .int d] = structPack (be [Code.B, Code.H, Code.H, Code.B]) [a, b, c, d] :=
  sPack_ints (t := ">BHHB".toList) rfl [a, b, c, d]
theorem sPack_BBBB (P : Platform F) (a b c d : Int) : sPack P ">BBBB".toList [.int a, .int b, .int c, .int d] = structPack (be [Code.B, Code.B, Code.B, Code.B]) [a, b, c, d] :=
  sPack_ints (t := ">BBBB".toList) rfl [a, b, c, d]
theorem sPack_BHHHHB (P : Platform F) (a b c d e f : Int) :
    sPack P ">BHHHHB".toList [.int a, .int b, .int c, .int d, .int e, .int f] = structPack (be [Code.B, Code.H, Code.H, Code.H, Code.H, Code.B]) [a, b, c, d, e, f] :=
  sPack_ints (t := ">BHHHHB".toList) rfl [a, b, c, d, e, f]

theorem packWordT_int (n : Int) : packWordT P (.int n) = packWordSigned n := by
  unfold packWordT packWordSigned
  show (Except.ok (decide (0 ≤ n)) >>= fun nonneg => _) = _
  rw [except_bind_ok]
  by_cases h : 0 ≤ n
  · rw [decide_eq_true h, if_pos rfl, if_pos (show n ≥ 0 from h)]
    exact sPack_ints (t := ">H".toList) rfl [n]
  · rw [decide_eq_false h, if_neg (show ¬ n ≥ 0 from h)]
    exact sPack_ints (t := ">h".toList) rfl [n]

theorem packAllT_ints {f : PyVal F → Except PyErr Bytes} {g : Int → Except PyErr Bytes} (h : ∀ n, f (.int n) = g n) (ns : List Int) (acc : Bytes) :
    packAllT f (ns.map .int) acc = packAll g ns acc := by
  induction ns generalizing acc with
  | nil => rfl
  | cons n ns ih =>
    rw [List.map_cons, packAllT, packAll, h]
    cases g n with
    | error e => rfl
    | ok b => exact ih _

theorem packCoilsT_ints (ns : List Int) (i bv : Nat) (acc : Bytes) : packCoilsT P (ns.map .int) i bv acc = packCoilsLoop ns i bv acc := by
  induction ns generalizing i bv acc with
  | nil => simp only [List.map_nil, packCoilsT, packCoilsLoop, sPack_B]
  | cons n ns ih =>
    rw [List.map_cons, packCoilsT, packCoilsLoop]
    show (Except.ok (decide (0 < n)) >>= fun pos => _) = _
    rw [except_bind_ok]
    simp only [sPack_B, ih, decide_eq_true_eq, gt_iff_lt]

theorem packRecordsT_ints (fs as qs : List Int) : packRecordsT P (fs.map .int) (as.map .int) (qs.map .int) = packRecords fs as qs := by
  induction fs generalizing as qs with
  | nil => cases as <;> cases qs <;> rfl
  | cons f fs ih =>
    cases as with
    | nil => rfl
    | cons a as =>
      cases qs with
      | nil => rfl
      | cons q qs =>
        rw [List.map_cons, List.map_cons, List.map_cons, packRecordsT, packRecords, ih, sPack_BHHH]

theorem numbersT_ints (ns : List Int) : numbersT (ns.map (PyVal.int (F := F))) = .ok ns := by
  induction ns with
  | nil => rfl
  | cons n ns ih =>
    rw [List.map_cons, numbersT, ih]; rfl

theorem gt_text_ne (t : Text) : ">".toList ++ t ≠ [] := by simp

theorem isZero_vals (a : Arg) : (a.vals (F := F)).isZero P = decide (a = .int 0) := by
  cases a with
  | int v =>
    show (!decide (v ≠ 0)) = _
    by_cases h : v = 0 <;> simp [h]
  | seq vs => simp [Arg.vals, ArgV.isZero]

theorem truth_vals (a : Arg) : (a.vals (F := F)).truth P = decide (¬ (a = .int 0 ∨ a = .seq [])) := by
  cases a with
  | int v =>
    show decide (v ≠ 0) = _
    by_cases h : v = 0 <;> simp [h]
  | seq vs =>
    show decide (vs.map PyVal.int ≠ []) = _
    cases vs <;> simp

/-- **The preparation with texts.** -/
theorem prepareT_same (P : Platform F) (a : ExecArgs) (t : Text) (ht : Means P t a.dataFormat) : SamePrep P (prepare a) (prepareT P (a.withText t)) := by
  unfold prepare prepareT
  simp only [show (a.withText t (F := F)).functionCode = a.functionCode from rfl, show (a.withText t (F := F)).startingAddress = a.startingAddress.vals from rfl,
    show (a.withText t (F := F)).quantity = a.quantity.vals from rfl, show (a.withText t (F := F)).outputValue = a.outputValue.vals from rfl,
    show (a.withText t (F := F)).dataFormat = t from rfl, show (a.withText t (F := F)).expectedLength = a.expectedLength from rfl,
    show (a.withText t (F := F)).writeStartingAddressFc23 = a.writeStartingAddressFc23 from rfl, show (a.withText t (F := F)).numberFile = a.numberFile.map .int from rfl,
    show (a.withText t (F := F)).pdu = a.pdu from rfl, show (a.withText t (F := F)).andMask = a.andMask from rfl, show (a.withText t (F := F)).orMask = a.orMask from rfl,
    num_vals, len_vals, items_vals]
  by_cases h1 : a.functionCode = defines.READ_COILS ∨ a.functionCode = defines.READ_DISCRETE_INPUTS
  · rw [if_pos h1, if_pos h1]
    refine SamePrep.bindMap fun addr => SamePrep.bindMap fun q => ?_
    rw [sPack_BHH]
    refine SamePrep.bind fun pdu => ?_
    exact ⟨_, rfl, means_or ht (gt_text_ne _) (times_B P _)⟩
  rw [if_neg h1, if_neg h1]
  by_cases h2 : a.functionCode = defines.READ_INPUT_REGISTERS ∨ a.functionCode = defines.READ_HOLDING_REGISTERS
  · rw [if_pos h2, if_pos h2]
    refine SamePrep.bindMap fun addr => SamePrep.bindMap fun q => ?_
    rw [sPack_BHH]
    refine SamePrep.bind fun pdu => ?_
    exact ⟨_, rfl, means_or ht (gt_text_ne _) (times_H P _)⟩
  rw [if_neg h2, if_neg h2]
  by_cases h3 : a.functionCode = defines.READ_FILE_RECORD
  · rw [if_pos h3, if_pos h3]
    cases ha : a.startingAddress with
    | int v => exact rfl
    | seq addrs =>
      cases hq : a.quantity with
      | int v => exact rfl
      | seq qs =>
        dsimp only [Arg.vals]
        simp only [List.length_map]
        by_cases hl : a.numberFile.length = addrs.length ∧ addrs.length = qs.length ∧ qs.length > 0
        · rw [if_pos hl, if_pos hl, sPack_BB, packRecordsT_ints, numbersT_ints]
          refine SamePrep.bind fun hd => SamePrep.bind fun rec => ?_
          rw [except_bind_ok]
          exact ⟨_, rfl, means_or ht (by simp) (join_text P _)⟩
        · rw [if_neg hl, if_neg hl]; exact rfl
  rw [if_neg h3, if_neg h3]
  by_cases h4 : a.functionCode = defines.WRITE_SINGLE_COIL ∨ a.functionCode = defines.WRITE_SINGLE_REGISTER
  · rw [if_pos h4, if_pos h4]
    by_cases h5 : a.functionCode = defines.WRITE_SINGLE_COIL
    · rw [if_pos h5, if_pos h5, except_bind_ok, except_bind_ok]
      dsimp only
      rw [isZero_vals]
      refine SamePrep.bindMap fun addr => ?_
      by_cases hz : a.outputValue = .int 0
      · rw [if_pos (decide_eq_true hz), if_neg (not_not.mpr hz), hz]
        show SamePrep P _ (Except.ok (PyVal.int 0) >>= _)
        rw [except_bind_ok, sPack_BHH]
        refine SamePrep.bind fun pdu => ?_
        exact ⟨_, rfl, means_or ht (by decide) rfl⟩
      · rw [if_pos hz, if_neg (show ¬ decide (a.outputValue = .int 0) = true by simp [hz])]
        show SamePrep P _ (Except.ok (PyVal.int 0xff00) >>= _)
        rw [except_bind_ok, sPack_BHH]
        refine SamePrep.bind fun pdu => ?_
        exact ⟨_, rfl, means_or ht (by decide) rfl⟩
    · rw [if_neg h5, if_neg h5]
      cases ho : a.outputValue with
      | seq vs => exact rfl
      | int v =>
        dsimp only [Arg.vals]
        rw [except_bind_ok]
        show SamePrep P _ ((Except.ok (decide (0 ≤ v)) >>= fun _ => _) >>= _)
        rw [except_bind_ok]
        dsimp only
        show SamePrep P _ (Except.ok _ >>= _)
        rw [except_bind_ok]
        dsimp only
        refine SamePrep.bindMap fun addr => ?_
        show SamePrep P _ (Except.ok (PyVal.int v) >>= _)
        rw [except_bind_ok]
        by_cases hv : 0 ≤ v
        · rw [if_pos (decide_eq_true hv), if_pos (show v ≥ 0 from hv)]
          show SamePrep P _ (sPack P ">BHH".toList _ >>= _)
          rw [sPack_BHH]
          refine SamePrep.bind fun pdu => ?_
          exact ⟨_, rfl, means_or ht (by decide) rfl⟩
        · rw [if_neg (show ¬ v ≥ 0 from hv), if_neg (show ¬ decide (0 ≤ v) = true by simpa using hv)]
          show SamePrep P _ (sPack P ">BHh".toList _ >>= _)
          rw [sPack_BHh]
          refine SamePrep.bind fun pdu => ?_
          exact ⟨_, rfl, means_or ht (by decide) rfl⟩
  rw [if_neg h4, if_neg h4]
  by_cases h6 : a.functionCode = defines.MASK_WRITE_REGISTER
  · rw [if_pos h6, if_pos h6]
    split
    · exact rfl
    · split
      · exact rfl
      · refine SamePrep.bindMap fun addr => ?_
        rw [sPack_BHHH]
        refine SamePrep.bind fun pdu => ?_
        exact ⟨_, rfl, means_or ht (by decide) rfl⟩
  rw [if_neg h6, if_neg h6]
  by_cases h7 : a.functionCode = defines.WRITE_MULTIPLE_COILS
  · rw [if_pos h7, if_pos h7]
    refine SamePrep.bind fun n => SamePrep.bindMap fun vs => SamePrep.bindMap fun addr => ?_
    rw [sPack_BHHB]
    refine SamePrep.bind fun hd => ?_
    rw [packCoilsT_ints]
    refine SamePrep.bind fun pdu => ?_
    exact ⟨_, rfl, means_or ht (by decide) rfl⟩
  rw [if_neg h7, if_neg h7]
  by_cases h8 : a.functionCode = defines.WRITE_MULTIPLE_REGISTERS
  · rw [if_pos h8, if_pos h8]
    rw [truth_vals]
    by_cases hc : a.outputValue = .int 0 ∨ a.outputValue = .seq []
    · rw [show customFormat a.outputValue a.dataFormat = none from if_pos hc]
      simp only [hc, not_true_eq_false, decide_false, Bool.false_eq_true, false_and, if_false]
      refine SamePrep.bind fun n => SamePrep.bindMap fun addr => ?_
      rw [sPack_BHHB]
      refine SamePrep.bind fun hd => SamePrep.bindMap fun vs => ?_
      rw [packAllT_ints packWordT_int]
      refine SamePrep.bind fun pdu => ?_
      exact ⟨_, rfl, by decide, rfl⟩
    · rw [show customFormat a.outputValue a.dataFormat = a.dataFormat from if_neg hc]
      cases hf : a.dataFormat with
      | none =>
        rw [hf] at ht
        have ht' : t = [] := ht
        subst ht'
        simp only [ne_eq, not_true_eq_false, and_false, if_false]
        refine SamePrep.bind fun n => SamePrep.bindMap fun addr => ?_
        rw [sPack_BHHB]
        refine SamePrep.bind fun hd => SamePrep.bindMap fun vs => ?_
        rw [packAllT_ints packWordT_int]
        refine SamePrep.bind fun pdu => ?_
        exact ⟨_, rfl, by decide, rfl⟩
      | some f =>
        rw [hf] at ht
        obtain ⟨hne, hp⟩ := ht
        simp only [decide_eq_true_eq]
        rw [if_pos (show ¬ (a.outputValue = .int 0 ∨ a.outputValue = .seq []) ∧ t ≠ [] from ⟨hc, hne⟩), sCalcsize_ints hp, except_map_ok, except_bind_ok, except_bind_ok]
        refine SamePrep.bindMap fun addr => ?_
        rw [sPack_BHHB]
        refine SamePrep.bind fun hd => SamePrep.bindMap fun vs => ?_
        rw [if_pos ⟨hc, hne⟩, sPack_ints hp]
        refine SamePrep.bind fun pdu => ?_
        exact ⟨_, rfl, by decide, rfl⟩
  rw [if_neg h8, if_neg h8]
  by_cases h9 : a.functionCode = defines.READ_EXCEPTION_STATUS
  · rw [if_pos h9, if_pos h9, sPack_B]
    refine SamePrep.bind fun pdu => ?_
    exact ⟨_, rfl, by decide, rfl⟩
  rw [if_neg h9, if_neg h9]
  by_cases h10 : a.functionCode = defines.DIAGNOSTIC
  · rw [if_pos h10, if_pos h10]
    refine SamePrep.bindMap fun addr => ?_
    rw [sPack_BH]
    refine SamePrep.bind fun hd => SamePrep.bind fun n => SamePrep.bindMap fun vs => ?_
    split
    · rw [packAllT_ints (fun n => sPack_B P n)]
      refine SamePrep.bind fun pdu => ?_
      exact ⟨_, rfl, means_or ht (gt_text_ne _) (times_B P _)⟩
    · exact ⟨_, rfl, ht⟩
  rw [if_neg h10, if_neg h10]
  by_cases h11 : a.functionCode = defines.READ_WRITE_MULTIPLE_REGISTERS
  · rw [if_pos h11, if_pos h11]
    refine SamePrep.bind fun n => SamePrep.bindMap fun vs => SamePrep.bindMap fun addr => SamePrep.bindMap fun q => ?_
    rw [sPack_BHHHHB]
    refine SamePrep.bind fun hd => ?_
    rw [packAllT_ints packWordT_int]
    refine SamePrep.bind fun pdu => ?_
    exact ⟨_, rfl, means_or ht (gt_text_ne _) (times_H P _)⟩
  rw [if_neg h11, if_neg h11]
  by_cases h12 : a.functionCode = defines.RAW
  · rw [if_pos h12, if_pos h12]
    exact ⟨_, rfl, ht⟩
  rw [if_neg h12, if_neg h12]
  by_cases h13 : a.functionCode = defines.DEVICE_INFO
  · rw [if_pos h13, if_pos h13]
    refine SamePrep.bindMap fun vs => ?_
    match vs with
    | [] => exact rfl
    | [x] => exact rfl
    | x :: y :: vs =>
      show SamePrep P _ (sPack P ">BBBB".toList [.int a.functionCode, .int 0x0E, .int x, .int y] >>= _)
      rw [sPack_BBBB]
      refine SamePrep.bind fun pdu => ?_
      exact ⟨_, rfl, ht⟩
  rw [if_neg h13, if_neg h13]
  exact rfl

/-! ## The result -/

def ExecResult.vals : ExecResult → ExecResultT F
  | .raw d => .raw d
  | .values vs => .values (vs.map .int)
  | .records rs => .records (rs.map (List.map .int))

theorem digitsInner_append (k : Nat) : ∀ (n : Int) (ds : List Int) (nb : Nat), digitsInner k n ds nb = ds ++ digitsInner k n [] (nb - ds.length) := by
  induction k with
  | zero => intro n ds nb; simp [digitsInner]
  | succ k ih =>
    intro n ds nb
    rw [digitsInner, digitsInner]
    by_cases h : ds.length ≥ nb
    · rw [if_pos h, if_pos (by simp; omega)]; simp
    · rw [if_neg h, if_neg (by simp; omega), ih _ (ds ++ [n % 2]), ih _ ([] ++ [n % 2])]
      simp [Nat.sub_sub]

theorem digitsInner_full {k : Nat} {n : Int} {ds : List Int} {nb : Nat} (h : nb ≤ ds.length) : digitsInner k n ds nb = ds := by
  cases k with
  | zero => rfl
  | succ k => rw [digitsInner, if_pos h]

theorem digitsT_ints (nb : Nat) (ns ds : List Int) : digitsT nb (ns.map (PyVal.int (F := F))) (ds.map .int) =
    .ok ((ns.foldl (fun digits byteVal => digitsInner 8 byteVal digits nb) ds).map .int) := by
  induction ns generalizing ds with
  | nil => rfl
  | cons n ns ih =>
    rw [List.map_cons, digitsT, List.foldl_cons, List.length_map]
    by_cases h : ds.length ≥ nb
    · rw [if_pos h, ih, digitsInner_full h]
    · rw [if_neg h]
      show digitsT nb _ (ds.map .int ++ (digitsInner 8 n [] (nb - ds.length)).map .int) = _
      rw [← List.map_append, ih, ← digitsInner_append]

theorem pyIndexT_ints (l : List Int) (i : Int) : pyIndexT (l.map (PyVal.int (F := F))) i = (pyIndex l i).map .int := by
  unfold pyIndexT pyIndex
  rw [List.length_map]
  generalize (if i < 0 then i + (l.length : Int) else i) = j
  dsimp only
  split
  · rfl
  · rw [List.getElem?_map]
    cases l[j.toNat]? <;> rfl

theorem recordsLoopT_ints (l : List Int) (fuel : Nat) (ptr : Int) (acc : List (Int × Int)) : recordsLoopT (l.map (PyVal.int (F := F))) fuel ptr acc = recordsLoop l fuel ptr acc := by
  induction fuel generalizing ptr acc with
  | zero => rfl
  | succ fuel ih =>
    rw [recordsLoopT, recordsLoop, List.length_map, pyIndexT_ints]
    split
    · cases pyIndex l ptr with
      | error e => rfl
      | ok v => exact ih _ _
    · rfl

theorem pySlice_map_int (l : List Int) (i j : Int) : pySlice (l.map (PyVal.int (F := F))) i j = (pySlice l i j).map .int := by
  unfold pySlice slice
  simp [List.map_take, List.map_drop]

theorem splitRecordsT_ints (l : List Int) : splitRecordsT (l.map (PyVal.int (F := F))) = (splitRecords l).map (List.map (List.map .int)) := by
  unfold splitRecordsT splitRecords
  rw [recordsLoopT_ints, List.length_map]
  cases recordsLoop l (2 * l.length + 2) 0 [] with
  | none => rfl
  | some r =>
    cases r with
    | error e => rfl
    | ok bs =>
      dsimp only
      rw [except_map_ok]
      simp only [List.map_map, Function.comp_def, pySlice_map_int]

theorem means_unpack {d : Text} {f : Option Fmt} (h : Means P d f) (data : Bytes) : sUnpack P d data = (structUnpack (f.getD (be [])) data).map (List.map .int) := by
  cases f with
  | some f => exact sUnpack_ints h.2 data
  | none =>
    have h' : d = [] := h
    subst h'
    unfold sUnpack
    show (Except.ok (⟨P.big, []⟩ : TextLayout) >>= fun l => _) = _
    rw [except_bind_ok]
    unfold structUnpack calcsize TextLayout.size
    show (if data.length = 0 then _ else _) = Except.map _ (if data.length = 0 then _ else _)
    split <;> rfl

theorem analyseDataT_same (a : ExecArgs) (t : Text) (p : Prepared) (d d' : Text) (data : Bytes) (f : Fmt)
    (h : sUnpack P d data = (structUnpack f data).map (List.map .int)) :
    analyseDataT P (a.withText t) ⟨p.pdu, p.isRead, p.nbOfDigits, d', p.expectedLength⟩ data d = (analyseData a p data f).map ExecResult.vals := by
  unfold analyseDataT analyseData
  show (if a.returnsRaw = true then _ else _) = Except.map _ (if a.returnsRaw = true then _ else _)
  split
  · rfl
  · rw [h]
    cases structUnpack f data with
    | error e => rfl
    | ok ns =>
      rw [except_map_ok, except_bind_ok, except_bind_ok]
      dsimp only
      have hd : (if p.nbOfDigits > 0 then digitsT p.nbOfDigits.toNat (ns.map PyVal.int) [] else Except.ok (ns.map PyVal.int) : Except PyErr (List (PyVal F))) =
          .ok ((if p.nbOfDigits > 0 then digitsLoop ns p.nbOfDigits.toNat else ns).map .int) := by
        split
        · exact digitsT_ints _ ns []
        · rfl
      rw [hd, except_bind_ok]
      show (if a.functionCode = _ then _ else _) = _
      split
      · rw [splitRecordsT_ints]
        cases splitRecords (if p.nbOfDigits > 0 then digitsLoop ns p.nbOfDigits.toNat else ns) <;> rfl
      · rfl

theorem analyseT_same (a : ExecArgs) (t : Text) (p : Prepared) (d : Text) (hd : Means P d p.dataFormat) (pdu : Bytes) :
    analyseT P (a.withText t) ⟨p.pdu, p.isRead, p.nbOfDigits, d, p.expectedLength⟩ pdu = (analyse a p pdu).map ExecResult.vals := by
  unfold analyseT analyse
  rw [sUnpack_ints (f := be [Code.B, Code.B]) (t := ">BB".toList) rfl]
  cases h : structUnpack (be [Code.B, Code.B]) (slice pdu 0 2) with
  | error e => rfl
  | ok vs =>
    rw [except_map_ok, except_bind_ok, except_bind_ok]
    match vs with
    | [] => rfl
    | [_] => rfl
    | _ :: _ :: _ :: _ => rfl
    | [rc, b2] =>
      show (if rc > 0x80 then _ else _) = Except.map _ (if rc > 0x80 then _ else _)
      split
      · rfl
      · dsimp only
        by_cases hr : p.isRead = true
        · rw [if_pos hr, if_pos hr]
          split
          · rfl
          · rw [except_bind_ok, except_bind_ok]
            exact analyseDataT_same a t p d _ _ _ (means_unpack hd _)
        · rw [if_neg hr, if_neg hr]
          show ((if a.functionCode = _ then _ else _) >>= _) = _
          split
          · rw [except_bind_ok, except_bind_ok]
            exact analyseDataT_same a t p _ _ _ _ (sUnpack_ints (times_B P (pdu.drop 1).length) _)
          · rw [except_bind_ok, except_bind_ok]
            exact analyseDataT_same a t p d _ _ _ (means_unpack hd _)

/-! ## The exchange between preparation and analysis -/

/-- sending the request and receiving the response, modbus.py:344-369 -/
def exchange {σ : Type} (R : Registry) (mac : Mac) (ch : Chan σ) (slave : Int) (pdu : Bytes) (expected : Int) : PyM (MasterSt σ) Bytes := do
  let (request, q) ← buildRequest mac pdu slave
  let retval ← PyM.lift (callHooks R "modbus.Master.before_send" (.msg request))
  onLink (ch.send (retval.getD request))
  let _ ← PyM.lift (callHooks R "modbus.Master.after_send" .obj)
  let response ← onLink (ch.recv expected)
  let retval ← PyM.lift (callHooks R "modbus.Master.after_recv" (.msg response))
  PyM.lift (mac.parseResponse (retval.getD response) q).1

/-- what comes after the exchange -/
def conclude {α β σ : Type} (r : Except PyErr α × σ) (f : α → Except PyErr β) : Except PyErr β × σ :=
  match r with
  | (.error e, s) => (.error e, s)
  | (.ok v, s) => (f v, s)

variable {σ : Type}

theorem pym_assoc {α β γ : Type} (x : PyM σ α) (f : α → PyM σ β) (g : β → PyM σ γ) : ((x >>= f) >>= g) = (x >>= fun v => f v >>= g) := by
  funext s
  show (match (match x s with | (.ok v, s') => f v s' | (.error e, s') => (.error e, s')) with | (.ok v, s') => g v s' | (.error e, s') => (.error e, s')) = _
  show _ = (match x s with | (.ok v, s') => (f v >>= g) s' | (.error e, s') => (.error e, s'))
  cases x s with
  | mk r s' => cases r <;> rfl

theorem conclude_bind {α β : Type} (x : PyM σ α) (f : α → Except PyErr β) (s : σ) : (x >>= fun v => PyM.lift (f v)) s = conclude (x s) f := by
  show (match x s with | (.ok v, s') => PyM.lift (f v) s' | (.error e, s') => (.error e, s')) = _
  cases x s with
  | mk r s' => cases r <;> rfl

theorem execute_exchange (R : Registry) (mac : Mac) (ch : Chan σ) (a : ExecArgs) (s : MasterSt σ) : execute R mac ch a s =
    match masterOpen ch s with
    | (.error e, s1) => (.error e, s1)
    | (.ok _, s1) => match prepare a with
      | .error e => (.error e, s1)
      | .ok p => match a.slave with
        | none => (.error .typeError, s1)
        | some slave => conclude (exchange R mac ch slave p.pdu p.expectedLength s1) (analyse a p) := by
  rw [execute, PyM.bind_apply]
  cases masterOpen ch s with
  | mk r s1 =>
    cases r with
    | error e => rfl
    | ok u =>
      dsimp only
      rw [PyM.bind_apply, PyM.lift_apply]
      cases prepare a with
      | error e => rfl
      | ok p =>
        dsimp only
        cases a.slave with
        | none => rfl
        | some slave =>
          dsimp only
          rw [← conclude_bind, exchange]
          simp only [pym_assoc]

theorem executeT_exchange (P : Platform F) (R : Registry) (mac : Mac) (ch : Chan σ) (a : ExecArgsT F) (s : MasterSt σ) : executeT P R mac ch a s =
    match masterOpen ch s with
    | (.error e, s1) => (.error e, s1)
    | (.ok _, s1) => match prepareT P a with
      | .error e => (.error e, s1)
      | .ok p => match a.slave with
        | none => (.error .typeError, s1)
        | some slave => conclude (exchange R mac ch slave p.pdu p.expectedLength s1) (analyseT P a p) := by
  rw [executeT, PyM.bind_apply]
  cases masterOpen ch s with
  | mk r s1 =>
    cases r with
    | error e => rfl
    | ok u =>
      dsimp only
      rw [PyM.bind_apply, PyM.lift_apply]
      cases prepareT P a with
      | error e => rfl
      | ok p =>
        dsimp only
        cases a.slave with
        | none => rfl
        | some slave =>
          dsimp only
          rw [← conclude_bind, exchange]
          simp only [pym_assoc]

theorem conclude_map {α β γ σ : Type} (r : Except PyErr α × σ) (f : α → Except PyErr β) (g : β → γ) : conclude (conclude r f) (fun v => .ok (g v)) = conclude r (fun v => (f v).map g) := by
  obtain ⟨r, s⟩ := r
  cases r with
  | error e => rfl
  | ok v => show conclude (f v, s) _ = ((f v).map g, s); cases f v <;> rfl

/-- **C87 (integer formats).** A call whose data format is a text that stands for an integer format does what the call with this format does - for every function, argument, channel,
    server and state: all the properties of `execute` hold for the texts, also for the texts the library builds itself when there is no data format. -/
theorem C87_same (P : Platform F) (R : Registry) (mac : Mac) (ch : Chan σ) (a : ExecArgs) (t : Text) (ht : Means P t a.dataFormat) (s : MasterSt σ) :
    executeT P R mac ch (a.withText t) s = conclude (execute R mac ch a s) (fun r => .ok r.vals) := by
  rw [executeT_exchange, execute_exchange]
  cases masterOpen ch s with
  | mk r s1 =>
    cases r with
    | error e => rfl
    | ok u =>
      dsimp only
      have hp := prepareT_same P a t ht
      cases hq : prepare a with
      | error e => rw [hq] at hp; rw [show prepareT P (a.withText t) = .error e from hp]; rfl
      | ok p =>
        rw [hq] at hp
        obtain ⟨d, hp, hd⟩ := hp
        rw [hp]
        dsimp only
        rw [show (a.withText t (F := F)).slave = a.slave from rfl]
        cases a.slave with
        | none => rfl
        | some slave =>
          dsimp only
          rw [conclude_map]
          congr 1
          funext pdu
          exact analyseT_same a t p d hd pdu

/-! ## Any text in a call that reads -/

/-- every successful preparation has the property -/
def Ensures {α : Type} (Q : α → Prop) (x : Except PyErr α) : Prop := ∀ p, x = .ok p → Q p

theorem Ensures.bind {α β : Type} {Q : β → Prop} {x : Except PyErr α} {f : α → Except PyErr β} (h : ∀ v, Ensures Q (f v)) : Ensures Q (x >>= f) := by
  cases x with
  | error e => intro p hp; cases hp
  | ok v => exact h v

theorem Ensures.ok {α : Type} {Q : α → Prop} {v : α} (h : Q v) : Ensures Q (.ok v) := by intro p hp; cases hp; exact h
theorem Ensures.error {α : Type} {Q : α → Prop} {e : PyErr} : Ensures Q (.error e) := by intro p hp; cases hp

/-- the functions whose response is presented by `struct.unpack(data_format, data)` alone -/
def Unpacked (fc : Int) : Prop :=
  fc = defines.READ_HOLDING_REGISTERS ∨ fc = defines.READ_INPUT_REGISTERS ∨ fc = defines.READ_WRITE_MULTIPLE_REGISTERS ∨ fc = defines.WRITE_SINGLE_COIL ∨
  fc = defines.WRITE_SINGLE_REGISTER ∨ fc = defines.WRITE_MULTIPLE_COILS ∨ fc = defines.MASK_WRITE_REGISTER ∨ fc = defines.DIAGNOSTIC ∨ fc = defines.RAW

theorem prepareT_keeps (P : Platform F) (a : ExecArgsT F) (ht : a.dataFormat ≠ []) (hfc : Unpacked a.functionCode) :
    Ensures (fun p : PreparedT => p.dataFormat = a.dataFormat ∧ p.nbOfDigits = 0) (prepareT P a) := by
  have ho : ∀ d, orText a.dataFormat d = a.dataFormat := fun d => if_neg ht
  have hn1 : ¬ (a.functionCode = defines.READ_COILS ∨ a.functionCode = defines.READ_DISCRETE_INPUTS) := by
    rcases hfc with h | h | h | h | h | h | h | h | h <;> rw [h] <;> decide
  have hn2 : ¬ a.functionCode = defines.READ_FILE_RECORD := by rcases hfc with h | h | h | h | h | h | h | h | h <;> rw [h] <;> decide
  have hn3 : ¬ a.functionCode = defines.WRITE_MULTIPLE_REGISTERS := by rcases hfc with h | h | h | h | h | h | h | h | h <;> rw [h] <;> decide
  have hn4 : ¬ a.functionCode = defines.READ_EXCEPTION_STATUS := by rcases hfc with h | h | h | h | h | h | h | h | h <;> rw [h] <;> decide
  have hn5 : ¬ a.functionCode = defines.DEVICE_INFO := by rcases hfc with h | h | h | h | h | h | h | h | h <;> rw [h] <;> decide
  unfold prepareT
  rw [if_neg hn1, if_neg hn2, if_neg hn3, if_neg hn4, if_neg hn5]
  split
  · exact .bind fun _ => .bind fun _ => .bind fun _ => .bind fun _ => .ok ⟨ho _, rfl⟩
  split
  · exact .bind fun _ => .bind fun _ => .bind fun _ => .bind fun _ => .ok ⟨ho _, rfl⟩
  split
  · split
    · exact .error
    · split
      · exact .error
      · exact .bind fun _ => .bind fun _ => .ok ⟨ho _, rfl⟩
  split
  · exact .bind fun _ => .bind fun _ => .bind fun _ => .bind fun _ => .bind fun _ => .ok ⟨ho _, rfl⟩
  split
  · refine .bind fun _ => .bind fun _ => .bind fun _ => .bind fun _ => ?_
    split
    · exact .bind fun _ => .ok ⟨ho _, rfl⟩
    · exact .ok ⟨rfl, rfl⟩
  split
  · exact .bind fun _ => .bind fun _ => .bind fun _ => .bind fun _ => .bind fun _ => .bind fun _ => .bind fun _ => .ok ⟨ho _, rfl⟩
  split
  · exact .ok ⟨rfl, rfl⟩
  · exact .error

/-- **C87 (any text).** For every function whose response has values, every text, channel, server and state: the call with `data_format=t` does what the call with `returns_raw=True`
    does, and then returns `struct.unpack(t, data)` of the bytes the other call returns.  So a text that is no format, or not of the size of the data, is noticed only after the
    request was executed. -/
theorem C87_any_text (P : Platform F) (R : Registry) (mac : Mac) (ch : Chan σ) (a : ExecArgsT F) (hr : a.returnsRaw = false) (ht : a.dataFormat ≠ []) (hfc : Unpacked a.functionCode)
    (s : MasterSt σ) :
    (∃ e s', executeT P R mac ch { a with returnsRaw := true } s = (.error e, s') ∧ executeT P R mac ch a s = (.error e, s')) ∨
    (∃ data s', executeT P R mac ch { a with returnsRaw := true } s = (.ok (.raw data), s') ∧ executeT P R mac ch a s = ((sUnpack P a.dataFormat data).map .values, s')) := by
  rw [executeT_exchange, executeT_exchange]
  cases masterOpen ch s with
  | mk r s1 =>
    cases r with
    | error e => exact .inl ⟨e, s1, rfl, rfl⟩
    | ok u =>
      dsimp only
      rw [show prepareT P { a with returnsRaw := true } = prepareT P a from rfl]
      have hk := prepareT_keeps P a ht hfc
      cases hp : prepareT P a with
      | error e => exact .inl ⟨e, s1, rfl, rfl⟩
      | ok p =>
        obtain ⟨hd, hn⟩ := hk p hp
        dsimp only
        cases a.slave with
        | none => exact .inl ⟨_, s1, rfl, rfl⟩
        | some slave =>
          dsimp only
          cases exchange R mac ch slave p.pdu p.expectedLength s1 with
          | mk rx s2 =>
            cases rx with
            | error e => exact .inl ⟨e, s2, rfl, rfl⟩
            | ok pdu =>
              show (∃ e s', (analyseT P { a with returnsRaw := true } p pdu, s2) = (.error e, s') ∧ (analyseT P a p pdu, s2) = (.error e, s')) ∨
                (∃ data s', (analyseT P { a with returnsRaw := true } p pdu, s2) = (.ok (.raw data), s') ∧ (analyseT P a p pdu, s2) = (_, s'))
              have hn5 : ¬ a.functionCode = defines.DEVICE_INFO := by rcases hfc with h | h | h | h | h | h | h | h | h <;> rw [h] <;> decide
              have hn2 : ¬ a.functionCode = defines.READ_FILE_RECORD := by rcases hfc with h | h | h | h | h | h | h | h | h <;> rw [h] <;> decide
              have hdata : ∀ data, analyseDataT P { a with returnsRaw := true } p data p.dataFormat = .ok (.raw data) ∧
                  analyseDataT P a p data p.dataFormat = (sUnpack P a.dataFormat data).map .values := by
                intro data
                refine ⟨rfl, ?_⟩
                unfold analyseDataT
                rw [if_neg (by simp [hr]), hd]
                cases sUnpack P a.dataFormat data with
                | error e => rfl
                | ok vs =>
                  rw [except_bind_ok, if_neg (by omega), except_bind_ok, if_neg hn2]
                  rfl
              have hcase : (∃ e, analyseT P { a with returnsRaw := true } p pdu = .error e ∧ analyseT P a p pdu = .error e) ∨
                  ∃ data, analyseT P { a with returnsRaw := true } p pdu = .ok (.raw data) ∧ analyseT P a p pdu = (sUnpack P a.dataFormat data).map .values := by
                unfold analyseT
                cases sUnpack P ">BB".toList (slice pdu 0 2) with
                | error e => exact .inl ⟨e, rfl, rfl⟩
                | ok vs =>
                  rw [except_bind_ok, except_bind_ok]
                  split
                  · rename_i rc b2
                    by_cases h1 : rc > 0x80
                    · exact .inl ⟨.modbusError b2, if_pos h1, if_pos h1⟩
                    · rw [if_neg h1, if_neg h1]
                      by_cases h2 : p.isRead = true
                      · rw [if_pos h2]
                        by_cases h3 : b2 ≠ (pdu.drop 2).length
                        · simp only [if_pos h3]; exact .inl ⟨_, rfl, rfl⟩
                        · simp only [if_neg h3, except_bind_ok]; exact .inr ⟨_, hdata _⟩
                      · rw [if_neg h2]
                        simp only [hn5, if_false, except_bind_ok]
                        exact .inr ⟨_, hdata _⟩
                  · exact .inl ⟨_, rfl, rfl⟩
              rcases hcase with ⟨e, h1, h2⟩ | ⟨d, h1, h2⟩
              · exact .inl ⟨e, s2, by rw [h1], by rw [h2]⟩
              · exact .inr ⟨d, s2, by rw [h1], by rw [h2]⟩

end Modbus
