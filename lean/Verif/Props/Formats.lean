import Verif.Props.EndToEnd
/-
# C62: user-defined data formats

`execute(..., data_format=f)` for writing (function 16, modbus.py:264-272) and for reading registers (functions 3, 4 and 23).
Formats are byte order and integer codes of any size; a float code transports its 4 or 8 bytes like `I` or `Q`.
-/
namespace Modbus
open Spec (Call Fits16 Fits8 FitsReg word wordAt toWord toByte)

/-! ## `struct.unpack` undoes `struct.pack` -/

/-- the codes have a size (there is no code of size 0 among the integer codes) -/
def Fmt.Sized (f : Fmt) : Prop := ∀ c ∈ f.codes, 0 < c.size

theorem unpack_pack {f : Fmt} (hf : f.Sized) {vs : List Int} {bs : Bytes} (h : structPack f vs = .ok bs) :
    bs.length = calcsize f ∧ structUnpack f bs = .ok vs := by
  have key : ∀ (cs : List Code) (vs : List Int) (bs : Bytes), (∀ c ∈ cs, 0 < c.size) → packCodes f.big cs vs = .ok bs →
      bs.length = (cs.map Code.size).sum ∧ unpackCodes f.big cs bs = vs := by
    intro cs
    induction cs with
    | nil =>
      intro vs bs _ h
      cases vs with
      | nil => cases h; exact ⟨rfl, rfl⟩
      | cons v vs => cases h
    | cons c cs ih =>
      intro vs bs hc h
      cases vs with
      | nil => cases h
      | cons v vs =>
        rw [packCodes] at h
        cases h1 : packOne f.big c v with
        | error e => rw [h1, except_bind_error] at h; cases h
        | ok x =>
          rw [h1, except_bind_ok] at h
          cases h2 : packCodes f.big cs vs with
          | error e => rw [h2, except_bind_error] at h; cases h
          | ok y =>
            rw [h2, except_bind_ok] at h
            cases h
            have g := And.intro (packOne_length h1) (unpackOne_packOne (hc c List.mem_cons_self) h1)
            have g' := ih vs y (fun c h => hc c (List.mem_cons_of_mem _ h)) h2
            refine ⟨by simp [g.1, g'.1], ?_⟩
            rw [unpackCodes, List.take_left' g.1, List.drop_left' g.1, g.2, g'.2]
  obtain ⟨h1, h2⟩ := key f.codes vs bs hf h
  refine ⟨h1, ?_⟩
  unfold structUnpack
  rw [if_pos (show bs.length = calcsize f from h1), h2]

/-! ## What `execute` depends on -/

theorem execute_args_congr {σ : Type} (R : Registry) (mac : Mac) (ch : Chan σ) (a b : ExecArgs) (hp : prepare a = prepare b) (hs : a.slave = b.slave)
    (hf : a.functionCode = b.functionCode) (hr : a.returnsRaw = b.returnsRaw) : execute R mac ch a = execute R mac ch b := by
  have ha : ∀ p pdu, analyse a p pdu = analyse b p pdu := by
    intro p pdu
    simp only [analyse, analyseData, hf, hr]
  unfold execute
  simp only [hp, hs, ha]

/-- words from bytes -/
theorem bytes_words (bs : Bytes) (n : Nat) (h : bs.length = 2 * n) :
    bs = ((List.range n).map (wordAt bs)).flatMap word := by
  induction n generalizing bs with
  | zero =>
    have : bs = [] := List.length_eq_zero_iff.mp (by omega)
    subst this; rfl
  | succ n ih =>
    match bs, h with
    | x :: y :: bs, h =>
      have := ih bs (by simp at h; omega)
      rw [List.range_succ_eq_map, List.map_cons, List.map_map, List.flatMap_cons]
      have h0 : word (wordAt (x :: y :: bs) 0) = [x, y] := by
        unfold word
        rw [wordAt_zero_toNat]
        have hx := x.toNat_lt
        have hy := y.toNat_lt
        rw [show (x.toNat * 256 + y.toNat) / 256 = x.toNat by omega, show (x.toNat * 256 + y.toNat) % 256 = y.toNat by omega]
        simp
      rw [h0]
      have hc : (wordAt (x :: y :: bs) ∘ Nat.succ) = wordAt bs := by funext i; exact wordAt_drop x y bs i
      rw [hc, ← this]
      rfl

theorem bytes_registers {bs : Bytes} {n : Nat} (h : bs.length = 2 * n) : bs = ((List.range n).map (fun i => ((wordAt bs i).toNat : Int))).flatMap (fun v => word (toWord v)) := by
  have h1 := bytes_words bs n h
  rw [List.flatMap_map] at h1 ⊢
  have : ∀ i, word (toWord ((wordAt bs i).toNat : Int)) = word (wordAt bs i) := by
    intro i
    congr 1
    apply UInt16.toNat_inj.mp
    have := toWord_toNat (v := ((wordAt bs i).toNat : Int)) ⟨by omega, by have := (wordAt bs i).toNat_lt; omega⟩
    omega
  simp only [this]
  exact h1

/-- `execute(slave, WRITE_MULTIPLE_REGISTERS, a, output_value=vs, data_format=f)` -/
def writeWith (id a : Int) (f : Fmt) (vs : List Int) : ExecArgs :=
  { slave := id, functionCode := 16, startingAddress := .int a, outputValue := .seq vs, dataFormat := some f }

/-- `execute(slave, READ_HOLDING_REGISTERS, a, q, data_format=g)` (`input := true`: `READ_INPUT_REGISTERS`) -/
def readWith (id : Int) (input : Bool) (a q : Int) (g : Fmt) : ExecArgs :=
  { slave := id, functionCode := if input then 4 else 3, startingAddress := .int a, quantity := .int q, dataFormat := some g }

/-- the registers a byte string makes, high byte first -/
def registersOf (bs : Bytes) : List Int := (List.range (bs.length / 2)).map (fun i => ((wordAt bs i).toNat : Int))

/-- the byte string a list of registers makes -/
def bytesOf (ws : List Int) : Bytes := ws.flatMap (fun v => word (toWord v))

theorem prepare_writeWith (id a : Int) (f : Fmt) (vs : List Int) (bs : Bytes) (hv : vs ≠ []) (hp : structPack f vs = .ok bs) (hl : bs.length = calcsize f)
    (n : Nat) (hn : bs.length = 2 * n) (h8 : Fits8 (2 * (n : Int))) (ha : Fits16 a) :
    prepare (writeWith id a f vs) = prepare (Call.args id (.writeRegisters a (registersOf bs))) := by
  rw [prepare_writeRegisters]
  have hlen : (registersOf bs).length = n := by simp [registersOf, hn]
  have hfit : ∀ v ∈ registersOf bs, FitsReg v := by
    intro v hv
    obtain ⟨i, _, rfl⟩ := List.mem_map.mp hv
    have := (wordAt bs i).toNat_lt
    exact ⟨by omega, by omega⟩
  rw [hlen, if_pos ⟨ha, h8, hfit⟩]
  unfold writeWith
  prep_branch
  dsimp only [Arg.num, Arg.len, Arg.items]
  have hc : customFormat (.seq vs) (some f) = some f := by
    unfold customFormat
    rw [if_neg (by rintro (h | h); cases h; cases h; exact hv rfl)]
  rw [hc]
  dsimp only
  rw [except_bind_ok, except_bind_ok, structPack_BHHB, ← hl, hn]
  rw [show ((2 * n : Nat) : Int) / 2 = n by omega]
  rw [if_pos ⟨by decide, ha, by unfold Spec.Fits8 at h8; unfold Spec.Fits16; omega, by rw [show ((2 * n : Nat) : Int) = 2 * (n : Int) by omega]; exact h8⟩]
  rw [except_bind_ok, except_bind_ok, hp]
  rw [show ((2 * n : Nat) : Int) = 2 * (n : Int) by omega]
  have hb := bytes_registers hn
  have hr : registersOf bs = (List.range n).map (fun i => ((wordAt bs i).toNat : Int)) := by
    unfold registersOf; rw [show bs.length / 2 = n by omega]
  rw [← hr] at hb
  simp only [Call.prepared, Call.pdu, Spec.Req.encode, orLength, hlen]
  rw [← hb]
  rfl

/-- **C62.** Writing with `data_format=f`: when `struct.pack(f, *vs)` is a non-empty even number of bytes, the master does
    exactly what it does when it writes the registers those bytes make (high byte first) - whatever the channel, the
    server and the state are. -/
theorem C62_write {σ : Type} (R : Registry) (mac : Mac) (ch : Chan σ) (id a : Int) (f : Fmt) (hf : f.Sized) (vs : List Int) (bs : Bytes)
    (hv : vs ≠ []) (hp : structPack f vs = .ok bs) (n : Nat) (hn : bs.length = 2 * n) (h8 : n ≤ 127) (ha : Fits16 a) :
    execute R mac ch (writeWith id a f vs) = execute R mac ch (Call.args id (.writeRegisters a (registersOf bs))) :=
  execute_args_congr R mac ch _ _ (prepare_writeWith id a f vs bs hv hp (unpack_pack hf hp).1 n hn ⟨by omega, by omega⟩ ha) rfl rfl rfl

/-- The same call with `data_format=g`. -/
def withFormat (c : Call) (id : Int) (g : Fmt) : ExecArgs := { Call.args id c with dataFormat := some g }

/-- the calls that read registers -/
def ReadsRegisters : Call → Prop
  | .readHolding _ _ => True
  | .readInput _ _ => True
  | .readWrite _ _ _ _ => True
  | _ => False

/-- what `prepare` gives when a format is added to a reading call -/
theorem prepare_withFormat {c : Call} (hc : ReadsRegisters c) (id : Int) (g : Fmt) {p : Prepared} (hp : prepare (Call.args id c) = .ok p) :
    prepare (withFormat c id g) = .ok { p with dataFormat := some g } ∧ p.isRead = true ∧ p.nbOfDigits = 0 ∧
      (∃ q : Int, p.dataFormat = some (be (List.replicate q.toNat Code.H))) := by
  have key : ∀ (x : Except PyErr Bytes) (F G : Bytes → Prepared), (∀ b, G b = { F b with dataFormat := some g }) →
      (∀ b, (F b).isRead = true ∧ (F b).nbOfDigits = 0 ∧ ∃ q : Int, (F b).dataFormat = some (be (List.replicate q.toNat Code.H))) →
      (x >>= fun b => (pure (F b) : Except PyErr Prepared)) = .ok p →
      (x >>= fun b => (pure (G b) : Except PyErr Prepared)) = .ok { p with dataFormat := some g } ∧ p.isRead = true ∧ p.nbOfDigits = 0 ∧
        (∃ q : Int, p.dataFormat = some (be (List.replicate q.toNat Code.H))) := by
    intro x F G hG hF h
    cases x with
    | error e => cases h
    | ok b =>
      rw [except_bind_ok] at h ⊢
      cases h
      exact ⟨by rw [hG]; rfl, hF b⟩
  cases c with
  | readHolding a q =>
    revert hp
    unfold withFormat
    prep_branch
    dsimp only [Arg.num]
    rw [except_bind_ok, except_bind_ok, except_bind_ok, except_bind_ok]
    exact key _ _ _ (fun _ => rfl) (fun _ => ⟨rfl, rfl, _, rfl⟩)
  | readInput a q =>
    revert hp
    unfold withFormat
    prep_branch
    dsimp only [Arg.num]
    rw [except_bind_ok, except_bind_ok, except_bind_ok, except_bind_ok]
    exact key _ _ _ (fun _ => rfl) (fun _ => ⟨rfl, rfl, _, rfl⟩)
  | readWrite ra rq wa vs =>
    revert hp
    unfold withFormat
    prep_branch
    dsimp only [Arg.num, Arg.len, Arg.items]
    simp only [except_bind_ok]
    generalize structPack _ _ = x
    cases x with
    | error e => intro h; cases h
    | ok hd =>
      simp only [except_bind_ok]
      exact key _ _ _ (fun _ => rfl) (fun _ => ⟨rfl, rfl, _, rfl⟩)
  | _ => exact hc.elim

/-- **C62.** Reading with `data_format=g`: when the call without a format returns the registers `ws`, the call with the
    format returns what `struct.unpack(g, ...)` makes of the bytes of those registers (`struct.error` when their number is
    not the size of `g`), and the state afterwards is the same - for every channel, server and state. -/
theorem C62_read {σ : Type} (R : Registry) (hR : Quiet R) (mac : Mac) (ch : Chan σ) (s s' : MasterSt σ) (id : Int) (c : Call) (hc : ReadsRegisters c)
    (g : Fmt) (ws : List Int) (h : execute R mac ch (Call.args id c) s = (.ok (.values ws), s')) :
    execute R mac ch (withFormat c id g) s = ((structUnpack g (bytesOf ws)).map .values, s') := by
  obtain ⟨s1, s2, p, slave, request, q, l1, l2, resp, pdu, ho, hp, hs, hb, hsend, hrecv, hparse, han, rfl⟩ := execute_ok hR h
  obtain ⟨hp', hr, hd, n, hf⟩ := prepare_withFormat hc id g hp
  have hs' : (withFormat c id g).slave = some slave := hs
  rw [execute_main hR ho hp' hs' hb, hsend]
  dsimp only
  rw [hrecv]
  dsimp only
  rw [hparse]
  dsimp only
  have hraw : (Call.args id c).returnsRaw = false := by cases c <;> rfl
  have hfc : (Call.args id c).functionCode ≠ 20 := by
    cases c <;> first | exact hc.elim | (simp [Call.args])
  have hp2 : p = ⟨p.pdu, true, 0, some (be (List.replicate n.toNat Code.H)), p.expectedLength⟩ := by
    cases p; simp_all
  rw [hp2, analyse_regs _ _ _ _ _ hraw hfc] at han
  obtain ⟨fc, count, data, rfl, hle, hcnt, hlen, hv⟩ := han
  have hw : data = bytesOf ws := by
    have := bytes_registers hlen
    cases hv
    exact this
  rw [analyse_normal _ _ _ _ _ hle]
  simp only [hr, if_true]
  rw [if_neg (by omega), ← hw]
  congr 1
  unfold analyseData
  rw [if_neg (by rw [show (withFormat c id g).returnsRaw = false from hraw]; simp)]
  rw [show (withFormat c id g).functionCode = (Call.args id c).functionCode from rfl]
  rw [show (some g).getD (be []) = g from rfl]
  cases structUnpack g data with
  | error e => rw [except_bind_error]; rfl
  | ok vs =>
    rw [except_bind_ok]
    simp only [hd, Int.lt_irrefl, reduceIte, gt_iff_lt]
    rw [if_neg hfc]
    rfl

/-! ## Round trips -/

theorem registersOf_fits (bs : Bytes) : ∀ v ∈ registersOf bs, 0 ≤ v ∧ v < 65536 := by
  intro v hv
  obtain ⟨i, _, rfl⟩ := List.mem_map.mp hv
  have := (wordAt bs i).toNat_lt
  exact ⟨by omega, by omega⟩

/-- **C62.** Writing with one format and reading with another: `execute(id, WRITE_MULTIPLE_REGISTERS, a, output_value=vs,
    data_format=f)` on existing registers is acknowledged with the number of registers the packed bytes fill, and
    `execute(id, READ_HOLDING_REGISTERS, a, n, data_format=g)` after it returns `struct.unpack(g, struct.pack(f, *vs))`:
    the registers transport the bytes unchanged, whatever the byte order and the sizes in the formats are. -/
theorem C62_two_formats (R : Registry) (hR : Quiet R) (mac : Mac) (hmac : mac = tcpMac ∨ mac = rtuMac) (id : Int) (h0 : 1 ≤ id)
    (h1 : id ≤ 255) (sl : Slave) (r : Refs) (s : MasterSt Net) (hs : Ready id sl r s) (a : Int) (ha : Fits16 a) (f g : Fmt) (hf : f.Sized)
    (vs : List Int) (bs : Bytes) (hv : vs ≠ []) (hp : structPack f vs = .ok bs) (n : Nat) (hn : bs.length = 2 * n) (hn1 : 1 ≤ n)
    (hn2 : n ≤ 123) (hcov : (absMem s.link.heap sl).holding.covers a n = true) :
    ∃ s1 s2, execute R mac (serverLink R mac) (writeWith id a f vs) s = (.ok (.values [a, n]), s1) ∧
      execute R mac (serverLink R mac) (readWith id false a n g) s1 = ((structUnpack g bs).map .values, s2) := by
  have hlen : (registersOf bs).length = n := by simp [registersOf, hn]
  have hreg := C33_registers R hR mac hmac id h0 h1 sl r s hs a (registersOf bs) ha (by rw [hlen]; exact ⟨hn1, hn2⟩)
    (fun v hv => ⟨by have := registersOf_fits bs v hv; omega, (registersOf_fits bs v hv).2⟩) (by rw [hlen]; exact hcov)
  rw [hlen] at hreg
  simp only [runCalls, List.cons.injEq, and_true] at hreg
  obtain ⟨hw, hrd⟩ := hreg
  rw [← C62_write R mac (serverLink R mac) id a f hf vs bs hv hp n hn (by omega) ha] at hw hrd
  have hmod : (registersOf bs).map (fun v => v % 65536) = registersOf bs := by
    conv_rhs => rw [← List.map_id (registersOf bs)]
    apply List.map_congr_left
    intro v hv
    have := registersOf_fits bs v hv
    simp only [id_eq]
    omega
  rw [hmod] at hrd
  have hread := C62_read R hR mac (serverLink R mac) _ _ id (.readHolding a n) trivial g (registersOf bs) (Prod.ext hrd rfl)
  have hb : bytesOf (registersOf bs) = bs := by
    have := bytes_registers hn
    unfold bytesOf registersOf
    rw [show bs.length / 2 = n by omega]
    exact this.symm
  rw [hb] at hread
  exact ⟨_, _, Prod.ext hw rfl, hread⟩

/-- **C62.** With the same format the values come back. -/
theorem C62_round_trip (R : Registry) (hR : Quiet R) (mac : Mac) (hmac : mac = tcpMac ∨ mac = rtuMac) (id : Int) (h0 : 1 ≤ id)
    (h1 : id ≤ 255) (sl : Slave) (r : Refs) (s : MasterSt Net) (hs : Ready id sl r s) (a : Int) (ha : Fits16 a) (f : Fmt) (hf : f.Sized)
    (vs : List Int) (bs : Bytes) (hv : vs ≠ []) (hp : structPack f vs = .ok bs) (n : Nat) (hn : calcsize f = 2 * n) (hn1 : 1 ≤ n)
    (hn2 : n ≤ 123) (hcov : (absMem s.link.heap sl).holding.covers a n = true) :
    ∃ s1 s2, execute R mac (serverLink R mac) (writeWith id a f vs) s = (.ok (.values [a, n]), s1) ∧
      execute R mac (serverLink R mac) (readWith id false a n f) s1 = (.ok (.values vs), s2) := by
  obtain ⟨hl, hu⟩ := unpack_pack hf hp
  have := C62_two_formats R hR mac hmac id h0 h1 sl r s hs a ha f f hf vs bs hv hp n (by omega) hn1 hn2 hcov
  rw [hu] at this
  exact this

/-- A format of the wrong size: the call raises `struct.error`, after the registers have been read. -/
theorem C62_wrong_size {σ : Type} (R : Registry) (hR : Quiet R) (mac : Mac) (ch : Chan σ) (s s' : MasterSt σ) (id : Int) (c : Call)
    (hc : ReadsRegisters c) (g : Fmt) (ws : List Int) (h : execute R mac ch (Call.args id c) s = (.ok (.values ws), s'))
    (hg : calcsize g ≠ 2 * ws.length) : execute R mac ch (withFormat c id g) s = (.error .structError, s') := by
  rw [C62_read R hR mac ch s s' id c hc g ws h]
  have hl : (bytesOf ws).length = 2 * ws.length := by
    unfold bytesOf
    induction ws with
    | nil => rfl
    | cons w ws ih => simp [word_length]; omega
  unfold structUnpack
  rw [if_neg (by omega)]
  rfl

/-! ## Instances -/

/-- `">i"` -/
def exLong : Fmt := ⟨true, [⟨4, true⟩]⟩
/-- `"<Hh"` -/
def exShorts : Fmt := ⟨false, [⟨2, false⟩, ⟨2, true⟩]⟩

example : ∃ s1 s2, execute [] tcpMac (serverLink [] tcpMac) (writeWith 1 11 exLong [-123456]) exNet = (.ok (.values [11, 2]), s1) ∧
    execute [] tcpMac (serverLink [] tcpMac) (readWith 1 false 11 2 exLong) s1 = (.ok (.values [-123456]), s2) :=
  C62_round_trip [] quiet_nil tcpMac (.inl rfl) 1 (by decide) (by decide) _ _ exNet exNet_ready 11 (by decide) exLong
    (by unfold Fmt.Sized; decide) [-123456] [0xff, 0xfe, 0x1d, 0xc0] (by decide) (by decide +kernel) 2 rfl (by decide) (by decide) (by decide +kernel)

example : ∃ s1 s2, execute [] rtuMac (serverLink [] rtuMac) (writeWith 1 11 exLong [-123456]) exNet = (.ok (.values [11, 2]), s1) ∧
    execute [] rtuMac (serverLink [] rtuMac) (readWith 1 false 11 2 exShorts) s1 = (.ok (.values [0xfeff, -16355]), s2) :=
  C62_two_formats [] quiet_nil rtuMac (.inr rfl) 1 (by decide) (by decide) _ _ exNet exNet_ready 11 (by decide) exLong exShorts
    (by unfold Fmt.Sized; decide) [-123456] [0xff, 0xfe, 0x1d, 0xc0] (by decide) (by decide +kernel) 2 rfl (by decide) (by decide) (by decide +kernel)

end Modbus
