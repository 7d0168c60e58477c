import Verif.Props.FormatNotation
/-
# C87: native words, and coils with codes of several bytes
-/
namespace Modbus
open Spec (Call Fits16 Fits8 FitsReg word wordAt toWord toByte)

variable {F : Type} {P : Platform F} {σ : Type}

/-! ## Words in the byte order of the machine -/

theorem parse_words (P : Platform F) (n : Nat) (hn : 1 ≤ n) : parseFormat P (List.replicate n 'H') = .ok (Fmt.layout ⟨P.big, List.replicate n Code.H⟩) := by
  obtain ⟨m, rfl⟩ : ∃ m, n = m + 1 := ⟨n - 1, by omega⟩
  have h := scan_repeat (native := true) (long := P.long) (c := 'H') (item := .int Code.H) (by decide) (by decide) rfl trivial (by decide) [] (m + 1) 0 (fun _ => rfl)
  rw [List.append_nil] at h
  rw [List.replicate_succ, parse_native (by decide), ← List.replicate_succ, h]
  show Except.ok _ = Except.ok _
  simp [Fmt.layout]

/-- what a machine that puts the low byte first makes of a register -/
def swapped (w : Int) : Int := w % 256 * 256 + w / 256 % 256

theorem unpack_native (big : Bool) (ws : List Int) :
    unpackCodes big (List.replicate ws.length Code.H) (bytesOf ws) = ws.map (fun w => if big then w % 65536 else swapped w) := by
  induction ws with
  | nil => rfl
  | cons w ws ih =>
    rw [List.length_cons, List.replicate_succ, unpackCodes]
    rw [show bytesOf (w :: ws) = word (toWord w) ++ bytesOf ws from rfl, List.take_left' (show (word (toWord w)).length = Code.H.size from rfl), List.drop_left' (show (word (toWord w)).length = Code.H.size from rfl), ih, List.map_cons]
    congr 1
    have h : (toWord w).toNat = (w % 65536).toNat := by
      unfold Spec.toWord; rw [UInt16.toNat_ofNat', Nat.mod_eq_of_lt]; omega
    unfold unpackOne word
    rw [h]
    have h1 : (UInt8.ofNat ((w % 65536).toNat / 256)).toNat = (w % 65536).toNat / 256 := by
      rw [UInt8.toNat_ofNat', Nat.mod_eq_of_lt (by omega)]
    have h2 : (UInt8.ofNat ((w % 65536).toNat % 256)).toNat = (w % 65536).toNat % 256 := by
      rw [UInt8.toNat_ofNat', Nat.mod_eq_of_lt (by omega)]
    cases big
    · simp [Code.H, beNat, h1, h2, swapped]
      omega
    · simp [Code.H, beNat, h1, h2]
      omega

theorem bytesOf_size (ws : List Int) : (bytesOf ws).length = calcsize ⟨P.big, List.replicate ws.length Code.H⟩ := by
  unfold calcsize
  rw [List.map_replicate, List.sum_replicate]
  induction ws with
  | nil => rfl
  | cons w ws ih =>
    rw [show bytesOf (w :: ws) = word (toWord w) ++ bytesOf ws from rfl, List.length_append, ih, List.length_cons]
    simp [word, Code.H]
    omega

/-- **C87 (native words).** Reading registers with `data_format` = `n * "H"`, without a prefix: the registers as they are where the high byte comes first, with their bytes swapped
    where the low byte comes first. -/
theorem C87_native (P : Platform F) (R : Registry) (mac : Mac) (ch : Chan σ) (s s' : MasterSt σ) (id : Int) (c : Call) (hc : ReadsRegisters c) (ws : List Int) (hw : ws ≠ [])
    (hr : ∀ w ∈ ws, 0 ≤ w ∧ w < 65536) (h : execute R mac ch (Call.args id c) s = (.ok (.values ws), s')) :
    executeT P R mac ch ((Call.args id c).withText (List.replicate ws.length 'H')) s = (.ok (.values (ws.map (fun w => .int (if P.big then w else swapped w)))), s') := by
  have hn : 1 ≤ ws.length := List.length_pos_iff.mpr hw
  rw [C87_reading P R mac ch s s' id c hc _ (by cases ws with | nil => exact absurd rfl hw | cons => simp [List.replicate_succ]) ws h]
  rw [sUnpack_ints (parse_words P ws.length hn)]
  unfold structUnpack
  rw [if_pos, unpack_native]
  · show (Except.ok _, s') = _
    congr 3
    rw [List.map_map]
    apply List.map_congr_left
    intro w hw
    have := hr w hw
    simp only [Function.comp]
    rw [Int.emod_eq_of_lt this.1 this.2]
  · exact bytesOf_size ws

/-! ## Coils -/

/-- the lowest eight bits, the least significant first -/
def lowBits (n : Int) : List Int := (List.range 8).map (fun i => n / 2 ^ i % 2)

theorem digitsInner_bits (k : Nat) : ∀ (n : Int) (ds : List Int) (nb : Nat), ds.length ≤ nb →
    digitsInner k n ds nb = (ds ++ (List.range k).map (fun i => n / 2 ^ i % 2)).take nb := by
  induction k with
  | zero => intro n ds nb h; simp [digitsInner, List.take_of_length_le h]
  | succ k ih =>
    intro n ds nb h
    rw [digitsInner]
    split
    · rename_i hge
      rw [List.take_append_of_le_length (by omega), List.take_of_length_le h]
    · rw [ih _ _ _ (by simp; omega), List.range_succ_eq_map, List.map_cons, List.map_map]
      rw [List.append_assoc]
      congr 2
      simp only [List.cons_append, List.nil_append, pow_zero, Int.ediv_one, List.cons.injEq, true_and]
      apply List.map_congr_left
      intro i _
      simp only [Function.comp]
      rw [Int.ediv_ediv_of_nonneg (by omega), pow_succ']

theorem digits_bits (nb : Nat) (ns : List Int) : ∀ ds : List Int, ds.length ≤ nb → ns.foldl (fun digits byteVal => digitsInner 8 byteVal digits nb) ds = (ds ++ ns.flatMap lowBits).take nb := by
  induction ns with
  | nil => intro ds h; simp [List.take_of_length_le h]
  | cons n ns ih =>
    intro ds h
    rw [List.foldl_cons, digitsInner_bits 8 n ds nb h, ih _ (List.length_take_le _ _), List.flatMap_cons]
    rw [show (List.range 8).map (fun i => n / 2 ^ i % 2) = lowBits n from rfl]
    rw [← List.append_assoc]
    generalize ds ++ lowBits n = xs
    by_cases hx : xs.length ≤ nb
    · rw [List.take_of_length_le hx]
    · rw [List.take_append_of_le_length (l₁ := xs) (by omega), List.take_append_of_le_length (by simp; omega), List.take_take, Nat.min_self]

theorem prepareT_bits (P : Platform F) (a : ExecArgsT F) (ht : a.dataFormat ≠ []) (hfc : a.functionCode = defines.READ_COILS ∨ a.functionCode = defines.READ_DISCRETE_INPUTS)
    {q : Int} (hq : a.quantity = .one (.int q)) : Ensures (fun p : PreparedT => p.dataFormat = a.dataFormat ∧ p.nbOfDigits = q ∧ p.isRead = true) (prepareT P a) := by
  unfold prepareT
  rw [if_pos hfc, hq]
  refine .bind fun addr => ?_
  show Ensures _ (sPack P ">BHH".toList [.int a.functionCode, addr, .int q] >>= fun pdu => Except.ok (PreparedT.mk pdu true q _ _))
  exact .bind fun _ => .ok ⟨if_neg ht, rfl, rfl⟩

/-- **C87 (coils with a data format).** Reading `q` coils or discrete inputs with a data format unpacks the bytes of the response with it and takes eight bits, the lowest, of every
    number: with codes of several bytes the other bits are lost. -/
theorem C87_coils (P : Platform F) (R : Registry) (mac : Mac) (ch : Chan σ) (a : ExecArgsT F) (hr : a.returnsRaw = false) (ht : a.dataFormat ≠ [])
    (hfc : a.functionCode = defines.READ_COILS ∨ a.functionCode = defines.READ_DISCRETE_INPUTS) (q : Int) (hq : a.quantity = .one (.int q)) (hpos : 0 < q) (s : MasterSt σ) :
    (∃ e s', executeT P R mac ch { a with returnsRaw := true } s = (.error e, s') ∧ executeT P R mac ch a s = (.error e, s')) ∨
    (∃ data s', executeT P R mac ch { a with returnsRaw := true } s = (.ok (.raw data), s') ∧
      (∀ e, sUnpack P a.dataFormat data = .error e → executeT P R mac ch a s = (.error e, s')) ∧
      (∀ ns : List Int, sUnpack P a.dataFormat data = .ok (ns.map .int) → executeT P R mac ch a s = (.ok (.values (((ns.flatMap lowBits).take q.toNat).map .int)), s'))) := by
  rw [executeT_exchange, executeT_exchange]
  cases masterOpen ch s with
  | mk r s1 =>
    cases r with
    | error e => exact .inl ⟨e, s1, rfl, rfl⟩
    | ok u =>
      dsimp only
      rw [show prepareT P { a with returnsRaw := true } = prepareT P a from rfl]
      have hk := prepareT_bits P a ht hfc hq
      cases hp : prepareT P a with
      | error e => exact .inl ⟨e, s1, rfl, rfl⟩
      | ok p =>
        obtain ⟨hd, hn, hread⟩ := hk p hp
        dsimp only
        cases a.slave with
        | none => exact .inl ⟨_, s1, rfl, rfl⟩
        | some slave =>
          dsimp only
          cases exchange R mac ch slave p.pdu p.expectedLength s1 with
          | mk rx s2 =>
            cases rx with
            | error e => exact .inl ⟨e, s2, rfl, rfl⟩
            | ok pdu =>
              show (∃ e s', (analyseT P { a with returnsRaw := true } p pdu, s2) = (.error e, s') ∧ (analyseT P a p pdu, s2) = (.error e, s')) ∨
                (∃ data s', (analyseT P { a with returnsRaw := true } p pdu, s2) = (.ok (.raw data), s') ∧
                  (∀ e, sUnpack P a.dataFormat data = .error e → (analyseT P a p pdu, s2) = (.error e, s')) ∧
                  (∀ ns : List Int, sUnpack P a.dataFormat data = .ok (ns.map .int) → (analyseT P a p pdu, s2) = (_, s')))
              have hn2 : ¬ a.functionCode = defines.READ_FILE_RECORD := by rcases hfc with h | h <;> rw [h] <;> decide
              have hcase : (∃ e, analyseT P { a with returnsRaw := true } p pdu = .error e ∧ analyseT P a p pdu = .error e) ∨
                  ∃ data, analyseT P { a with returnsRaw := true } p pdu = .ok (.raw data) ∧ analyseT P a p pdu = analyseDataT P a p data p.dataFormat := by
                unfold analyseT
                cases sUnpack P ">BB".toList (slice pdu 0 2) with
                | error e => exact .inl ⟨e, rfl, rfl⟩
                | ok vs =>
                  rw [except_bind_ok, except_bind_ok]
                  split
                  · rename_i rc b2
                    by_cases h1 : rc > 0x80
                    · exact .inl ⟨.modbusError b2, if_pos h1, if_pos h1⟩
                    · rw [if_neg h1, if_neg h1, if_pos hread]
                      by_cases h3 : b2 ≠ (pdu.drop 2).length
                      · simp only [if_pos h3]; exact .inl ⟨_, rfl, rfl⟩
                      · simp only [if_neg h3, except_bind_ok]; exact .inr ⟨_, rfl, rfl⟩
                  · exact .inl ⟨_, rfl, rfl⟩
              rcases hcase with ⟨e, h1, h2⟩ | ⟨d, h1, h2⟩
              · exact .inl ⟨e, s2, by rw [h1], by rw [h2]⟩
              · refine .inr ⟨d, s2, by rw [h1], fun e he => ?_, fun ns hns => ?_⟩
                · rw [h2, hd]
                  unfold analyseDataT
                  rw [if_neg (by simp [hr]), he]
                  rfl
                · rw [h2, hd]
                  unfold analyseDataT
                  rw [if_neg (by simp [hr]), hns, except_bind_ok, hn, if_pos hpos]
                  have := digitsT_ints (F := F) q.toNat ns []
                  rw [digits_bits _ _ _ (by simp), List.nil_append, List.map_nil] at this
                  rw [this, except_bind_ok, if_neg hn2]
                  rfl

/-! ## The codes one by one -/

/-- **C87 (sizes).** The sizes of the codes with a prefix other than `@` are the same on all machines. -/
theorem C87_sizes (P : Platform F) (p : Char) (hp : p ∈ "<>!=".toList) (c : Char) (k : Nat)
    (h : (c, k) ∈ [('x', 1), ('c', 1), ('b', 1), ('B', 1), ('?', 1), ('h', 2), ('H', 2), ('i', 4), ('I', 4), ('l', 4), ('L', 4), ('q', 8), ('Q', 8), ('e', 2), ('f', 4), ('d', 8), ('s', 1)]) :
    sCalcsize P [p, c] = .ok k := by
  simp only [String.reduceToList, List.mem_cons, List.not_mem_nil, or_false] at hp
  simp only [List.mem_cons, List.not_mem_nil, or_false, Prod.mk.injEq] at h
  rcases hp with rfl | rfl | rfl | rfl <;>
    rcases h with ⟨rfl, rfl⟩ | ⟨rfl, rfl⟩ | ⟨rfl, rfl⟩ | ⟨rfl, rfl⟩ | ⟨rfl, rfl⟩ | ⟨rfl, rfl⟩ | ⟨rfl, rfl⟩ | ⟨rfl, rfl⟩ | ⟨rfl, rfl⟩ | ⟨rfl, rfl⟩ | ⟨rfl, rfl⟩ | ⟨rfl, rfl⟩ |
      ⟨rfl, rfl⟩ | ⟨rfl, rfl⟩ | ⟨rfl, rfl⟩ | ⟨rfl, rfl⟩ | ⟨rfl, rfl⟩ <;> rfl

/-- **C87 (byte strings).** `">ns"` is one byte string of `n` bytes, cut or filled with zeros; it comes back with the zeros. -/
theorem C87_string (P : Platform F) (n : Nat) (bs : Bytes) :
    sPack P ('>' :: (natText n ++ "s".toList)) [.bytes bs] = .ok (bs.take n ++ List.replicate (n - bs.length) 0) ∧
    (bs.length = n → sUnpack P ('>' :: (natText n ++ "s".toList)) bs = .ok [.bytes bs]) := by
  have hp : parseFormat P ('>' :: (natText n ++ "s".toList)) = .ok ⟨true, [.str n]⟩ := by
    show (scanFormat false P.long none 0 (natText n ++ "s".toList)).map (TextLayout.mk true) = _
    rw [scan_digits]
    show (scanFormat false P.long (some n) 0 ('s' :: [])).map _ = _
    rw [scan_entry (item := .str 1) (by decide) (by decide) rfl]
    rfl
  constructor
  · unfold sPack
    rw [hp, except_bind_ok]
    rw [if_pos (show [PyVal.bytes bs].length = ([Item.str n].filter Item.takes).length from rfl), packItems.eq_3 _ _ _ _ _ _ (by intro n h; cases h)]
    show Except.ok ((bs.take n ++ List.replicate (n - bs.length) 0) ++ []) = _
    rw [List.append_nil]
  · intro h
    unfold sUnpack
    rw [hp, except_bind_ok]
    have hsz : bs.length = TextLayout.size ⟨true, [.str n]⟩ := by simpa [TextLayout.size, Item.size] using h
    rw [if_pos hsz, unpackItems.eq_3 _ _ _ _ _ (by intro n h; cases h)]
    show Except.ok [PyVal.bytes (bs.take n)] = _
    rw [List.take_of_length_le (by omega)]

/-- **C87 (flags).** `"?"` packs the truth of a value (0, 0.0, `False` and `b""` are false) and unpacks every byte but 0 as `True`. -/
theorem C87_flag (P : Platform F) :
    (∀ n : Int, sPack P ">?".toList [.int n] = .ok [if n = 0 then 0 else 1]) ∧ (∀ bs : Bytes, sPack P ">?".toList [.bytes bs] = .ok [if bs = [] then 0 else 1]) ∧
    (∀ b : Bool, sPack P ">?".toList [.bool b] = .ok [if b then 1 else 0]) ∧ (∀ x : F, sPack P ">?".toList [.float x] = .ok [if P.isZero x then 0 else 1]) ∧
    (∀ b : UInt8, sUnpack P ">?".toList [b] = .ok [.bool (decide (b ≠ 0))]) := by
  refine ⟨fun n => ?_, fun bs => ?_, fun b => ?_, fun x => ?_, fun b => ?_⟩
  · show Except.ok [if decide (n ≠ 0) = true then (1 : UInt8) else 0] = _
    by_cases h : n = 0 <;> simp [h]
  · show Except.ok [if decide (bs ≠ []) = true then (1 : UInt8) else 0] = _
    by_cases h : bs = [] <;> simp [h]
  · rfl
  · show Except.ok [if (!P.isZero x) = true then (1 : UInt8) else 0] = _
    cases P.isZero x <;> rfl
  · show Except.ok [PyVal.bool (decide ([b] ≠ [0]))] = _
    simp

/-! ## Instances -/

/-- a machine that puts the low byte first; its floats are their bit patterns -/
def exHost : Platform Nat where
  big := false
  long := 8
  long_pos := by decide
  pack k x := packOne true ⟨k, false⟩ x
  unpack _ bs := beNat bs
  pack_length _ _ _ h := packOne_length h
  ofInt n := if 0 ≤ n then some n.toNat else none
  isZero x := x == 0
  nonneg _ := true
  pos x := x != 0

example : Means exHost "> 2H i".toList (some ⟨true, [Code.H, Code.H, Code.i]⟩) ∧ Means exHost "bHl".toList none = False := by
  refine ⟨⟨by decide, by rfl⟩, ?_⟩
  exact eq_false (by intro h; cases h)

/-- `C87_same`: a read with `"<Hh"` -/
example : executeT exHost [] tcpMac (serverLink [] tcpMac) ((withFormat (.readHolding 11 2) 1 exShorts).withText "<Hh".toList) exNet =
    conclude (execute [] tcpMac (serverLink [] tcpMac) (withFormat (.readHolding 11 2) 1 exShorts) exNet) (fun r => .ok r.vals) :=
  C87_same exHost [] tcpMac (serverLink [] tcpMac) (withFormat (.readHolding 11 2) 1 exShorts) "<Hh".toList ⟨by decide, by rfl⟩ exNet

/-- a float and a byte string written, read as words -/
example : ∃ s1 s2, executeT exHost [] rtuMac (serverLink [] rtuMac) (writeText 1 11 ">f3sx".toList [.float 0x40490fdb, .bytes [97, 98]]) exNet = (.ok (.values [.int 11, .int 4]), s1) ∧
    executeT exHost [] rtuMac (serverLink [] rtuMac) ((Call.args 1 (.readHolding 11 4)).withText ">4H".toList) s1 =
      (.ok (.values [.int 0x4049, .int 0x0fdb, .int 0x6162, .int 0]), s2) :=
  C87_two_texts exHost [] quiet_nil rtuMac (.inr rfl) 1 (by decide) (by decide) _ _ exNet exNet_ready 11 (by decide) ">f3sx".toList ">4H".toList (by decide) (by decide)
    [.float 0x40490fdb, .bytes [97, 98]] [0x40, 0x49, 0x0f, 0xdb, 97, 98, 0, 0] (by decide) (by rfl) 4 rfl (by decide) (by decide) (by decide +kernel)

/-- refused by the server: three bytes are no registers -/
example : ∃ s', executeT exHost [] tcpMac (serverLink [] tcpMac) (writeText 1 11 ">3B".toList [.int 1, .int 2, .int 3]) exNet = (.error (.modbusError 3), s') ∧
    absMem s'.link.heap ⟨1, true, [("a", (3, 10))], 0⟩ = absMem exNet.link.heap ⟨1, true, [("a", (3, 10))], 0⟩ := by
  obtain ⟨s', h1, h2, -⟩ := C87_written exHost [] quiet_nil tcpMac (.inl rfl) 1 (by decide) (by decide) _ _ exNet exNet_ready 11 (by decide) ">3B".toList (by decide)
    [.int 1, .int 2, .int 3] (by simp) [1, 2, 3] (by rfl) (by decide)
  exact ⟨s', h1, h2⟩

/-- refused by the master: no format, a value that does not fit, 256 bytes -/
example : (∃ e, executeT exHost [] tcpMac (serverLink [] tcpMac) (writeText 1 11 ">3".toList [.int 1]) exNet = (.error e, { exNet with isOpened := true })) ∧
    (∃ e, executeT exHost [] tcpMac (serverLink [] tcpMac) (writeText 1 11 ">H".toList [.int 70000]) exNet = (.error e, { exNet with isOpened := true })) ∧
    (∃ e, executeT exHost [] tcpMac (serverLink [] tcpMac) (writeText 1 11 ">256s".toList [.bytes [1]]) exNet = (.error e, { exNet with isOpened := true })) := by
  refine ⟨C87_not_sent exHost [] tcpMac _ exNet _ (open_serverLink [] tcpMac exNet) 1 11 _ _ (by decide) (by simp) ?_,
    C87_not_sent exHost [] tcpMac _ exNet _ (open_serverLink [] tcpMac exNet) 1 11 _ _ (by decide) (by simp) ?_,
    C87_not_sent exHost [] tcpMac _ exNet _ (open_serverLink [] tcpMac exNet) 1 11 _ _ (by decide) (by simp) ?_⟩
  · intro bs h; cases h
  · intro bs h; cases h
  · intro bs h hf
    have h2 := C87_calcsize h
    have h3 : sCalcsize exHost ">256s".toList = .ok 256 := by rfl
    rw [h3] at h2
    have := Except.ok.inj h2
    omega

/-- formats without a prefix have gaps, and their words the byte order of the machine -/
example : sPack exHost "BH".toList [.int 1, .int 2] = .ok [1, 0, 2, 0] ∧ sPack exHost ">BH".toList [.int 1, .int 2] = .ok [1, 0, 2] ∧ sCalcsize exHost "bl".toList = .ok 16 ∧
    sCalcsize exHost "=bl".toList = .ok 5 := ⟨rfl, rfl, rfl, rfl⟩

example : sUnpack exHost "<?2sh".toList [7, 97, 98, 255, 255] = .ok [.bool true, .bytes [97, 98], .int (-1)] := rfl

/-- native words of a server -/
example : executeT exHost [] tcpMac (fixedLink [0, 0, 0, 0, 0, 7, 9, 3, 4, 0x12, 0x34, 0, 1]) ((Call.args 9 (.readHolding 0 2)).withText "HH".toList) ⟨false, (), 65535⟩ =
    (.ok (.values [.int 0x3412, .int 0x100]), ⟨true, (), 0⟩) :=
  C87_native exHost [] tcpMac (fixedLink [0, 0, 0, 0, 0, 7, 9, 3, 4, 0x12, 0x34, 0, 1]) _ _ 9 (.readHolding 0 2) trivial [0x1234, 1] (by decide) (by decide) (by rfl)

/-- sixteen coils, all set, read with `">H"`: eight values -/
example : executeT exHost [] tcpMac (fixedLink [0, 0, 0, 0, 0, 5, 9, 1, 2, 0xff, 0xff]) ((Call.args 9 (.readCoils 0 16)).withText ">H".toList) ⟨false, (), 65535⟩ =
    (.ok (.values [.int 1, .int 1, .int 1, .int 1, .int 1, .int 1, .int 1, .int 1]), ⟨true, (), 0⟩) := rfl

example : NoCount ">".toList ∧ NoCount ">2H".toList ∧ ¬ NoCount ">2".toList := by
  refine ⟨?_, ?_, ?_⟩
  · intro c h; cases h; decide
  · intro c h; cases h; decide
  · intro h; have := h '2' rfl; revert this; decide

example : parseFormat exHost ">12h".toList = parseFormat exHost ">hhhhhhhhhhhh".toList := by
  have h12 : natText 12 = "12".toList := by rw [natText_big (by decide), natText_small (by decide)]; rfl
  have := C87_count (P := exHost) (pre := ">".toList) (by decide) (by intro c h; cases h; decide) (n := 12) (by decide) (c := 'h') (by decide) []
  rw [h12] at this
  exact this

end Modbus
