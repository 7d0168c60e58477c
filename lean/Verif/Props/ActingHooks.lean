import Verif.Model.ActingHooks
import Verif.Lemmas.Handlers
import Verif.Lemmas.BlockApi
import Verif.Props.AnyLayout
import Verif.Props.SetItemHook
/-
# C86: hook functions that act on the data

The other properties about the slave assume that hook functions only answer.  Here they act: they change registers, other slaves, the program.
-/
namespace Modbus
open Spec (word toWord ofWord fits bytesFor)

variable {ω : Type}

/-! ## Specification -/

/-- the functions called before a request of this function code is executed -/
def handlerHook (fc : UInt8) : Option String :=
  if fc = 1 then some "modbus.Slave.handle_read_coils_request"
  else if fc = 2 then some "modbus.Slave.handle_read_discrete_inputs_request"
  else if fc = 3 then some "modbus.Slave.handle_read_holding_registers_request"
  else if fc = 4 then some "modbus.Slave.handle_read_input_registers_request"
  else if fc = 5 then some "modbus.Slave.handle_write_single_coil_request"
  else if fc = 6 then some "modbus.Slave.handle_write_single_register_request"
  else if fc = 7 then some "modbus.Slave.handle_read_exception_status_request"
  else if fc = 15 then some "modbus.Slave.handle_write_multiple_coils_request"
  else if fc = 16 then some "modbus.Slave.handle_write_multiple_registers_request"
  else if fc = 22 then some "modbus.Slave.handle_mask_write_register_request"
  else if fc = 23 then some "modbus.Slave.handle_read_write_multiple_registers_request"
  else none

/-- the functions of this name do not raise and change nothing (in particular: there are none) -/
def Idle (R : ERegistry ω) (name : String) : Prop := ∀ a s, ∃ v, eCallHooks R name a s = (.ok v, s)

/-- the functions of this name do not raise; they may change anything -/
def Answers (R : ERegistry ω) (name : String) : Prop := ∀ a s, ∃ v s', eCallHooks R name a s = (.ok v, s')

/-- functions that only answer are functions that may act and do not -/
def Registry.still (R : Registry) : ERegistry ω := R.map fun p => (p.1, p.2.map fun f => { id := f.id, fn := fun a => PyM.lift (f.fn a.data) })

/-! ## Lemmas -/

theorem Idle.of_none {R : ERegistry ω} {name : String} (h : Dict.get? R name = none) : Idle R name := by
  intro a s
  refine ⟨none, ?_⟩
  unfold eCallHooks
  rw [h]

theorem still_loop (fs : List Hook) (a : EArg) (s : Heap × ω) :
    eCallLoop (fs.map fun f => { id := f.id, fn := fun a => PyM.lift (f.fn a.data) }) a s = (callLoop fs a.data, s) := by
  induction fs with
  | nil => rfl
  | cons f fs ih =>
    rw [List.map_cons, eCallLoop, callLoop]
    simp only [PyM.lift_apply]
    rcases f.fn a.data with e | _ | v
    · rfl
    · exact ih
    · rfl

theorem still_get (R : Registry) (name : String) :
    Dict.get? (R.still : ERegistry ω) name = (Dict.get? R name).map fun fs => fs.map fun f => { id := f.id, fn := fun a => PyM.lift (f.fn a.data) } := by
  unfold Registry.still
  induction R with
  | nil => rfl
  | cons p R ih =>
    rcases p with ⟨k, fs⟩
    simp only [List.map_cons, Dict.get?] at ih ⊢
    split
    · rfl
    · exact ih

theorem still_hooks (R : Registry) (name : String) (a : EArg) (s : Heap × ω) : eCallHooks R.still name a s = (callHooks R name a.data, s) := by
  unfold eCallHooks callHooks
  rw [still_get]
  cases Dict.get? R name with
  | none => rfl
  | some fs =>
    simp only [Option.map_some, still_loop]
    rcases callLoop fs a.data with e | v
    · cases e <;> rfl
    · rfl

theorem inMemory_sim {α : Type} (f : PyM Heap α) (B : Prop) (s : Heap × ω) : HSim Prod.fst id B s (inMemory f) f := by
  left
  unfold inMemory
  rcases f s.1 with ⟨r, h⟩
  cases r <;> rfl

theorem stillSim (R : Registry) (sl : Slave) : EnvSim (effEnv (ω := ω) R.still sl) (intEnv R sl) Prod.fst id (fun _ => False) True where
  unsigned := rfl
  hook := by
    intro name a s
    left
    show (callHooks R name a, s.1) = ((eCallHooks R.still name _ s).1.map id, (eCallHooks R.still name _ s).2.1)
    rw [still_hooks]
    cases callHooks R name a <;> rfl
  hookKeeps := by
    intro name a s
    show (eCallHooks R.still name _ s).2 = s
    rw [still_hooks]
  locate := fun t a n s => inMemory_sim _ _ s
  locateKeeps := by
    intro t a n s
    show ((getBlockAndOffset sl t a n s.1).2, s.2) = s
    rw [gbo_snd]
  slice := by
    intro b i j s
    rw [List.map_id_fun]
    exact inMemory_sim _ _ s
  sliceKeeps := by
    intro b i j s
    show ((getSlice b i j s.1).2, s.2) = s
    rw [getSlice_snd]
  item := fun b i s => inMemory_sim _ _ s
  itemKeeps := by
    intro b i s
    show ((getItem b i s.1).2, s.2) = s
    rw [getItem_snd]
  assign := by
    intro b i n s
    left
    show setItem R b i n s.1 = ((eAssign R.still b i n s).1.map id, (eAssign R.still b i n s).2.1)
    unfold eAssign setItem
    rcases hb : s.1.block? b with _ | blk
    · rfl
    · simp only [still_hooks]
      rcases callHooks R "modbus.ModbusBlock.setitem" (.setitem blk.start i [n]) with e | v
      · rfl
      · simp only [inMemory, hb]
        have : callHooks [] "modbus.ModbusBlock.setitem" (.setitem blk.start i [n]) = .ok none := rfl
        rw [this]
        dsimp only
        split <;> rfl
  truth := fun _ _ => rfl
  pack := fun _ _ _ _ _ _ _ _ => Or.inl fun _ => rfl
  mask := fun _ _ _ _ _ _ _ => Or.inl rfl

theorem stillPres (R : Registry) (sl : Slave) (w : ω) : EnvPres (effEnv (ω := ω) R.still sl) (fun s => s.2 = w) where
  hook := by
    intro name a s hs
    show (eCallHooks R.still name _ s).2.2 = w
    rw [still_hooks]
    exact hs
  locate := fun _ _ _ _ hs => hs
  slice := fun _ _ _ _ hs => hs
  item := fun _ _ _ hs => hs
  assign := by
    intro b i n s hs
    show (eAssign R.still b i n s).2.2 = w
    unfold eAssign
    cases s.1.block? b with
    | none => exact hs
    | some blk =>
      simp only [still_hooks]
      rcases callHooks R "modbus.ModbusBlock.setitem" (.setitem blk.start i [n]) with e | v
      · exact hs
      · exact hs

/-- **C86 (hooks that do not act).** If the functions only answer, then this is the `handle_request` of all the other properties, and the program is not affected. -/
theorem C86_still (R : Registry) (sl : Slave) (pdu : Bytes) (b : Bool) (s : Heap × ω) :
    eHandleRequest R.still sl pdu b s = ((handleRequest R sl pdu b s.1).1, ((handleRequest R sl pdu b s.1).2, s.2)) := by
  have h1 := gHandle_sim (stillSim (ω := ω) R sl) pdu (fun _ _ _ => trivial) b s
  have h2 := gHandle_preserves (stillPres (ω := ω) R sl s.2) pdu b s rfl
  rcases h1 with h | ⟨⟨_, b⟩, _⟩
  · rw [generic_handle] at h
    show gHandleRequest (effEnv R.still sl) pdu b s = _
    rw [h]
    rcases hr : gHandleRequest (effEnv R.still sl) pdu b s with ⟨r, s'⟩
    rw [hr] at h2
    cases r <;> exact Prod.ext rfl (Prod.ext rfl h2)
  · exact b.elim

/-! ## What the functions see and what they can change -/

section
variable {σ V : Type} (E : Env σ V) (hk : String → HookArg → PyM σ (Option Bytes))

/-- the environment with other hooks -/
def Env.hooked (E : Env σ V) (hk : String → HookArg → PyM σ (Option Bytes)) : Env σ V := { E with hook := hk }

theorem hooked_regsLoop (c : Code) (b : BlockRef) (off : Int) (pdu : Bytes) (base n i : Nat) (cnt : Int) :
    gWriteRegsLoop (E.hooked hk) c b off pdu base n i cnt = gWriteRegsLoop E c b off pdu base n i cnt := by
  induction n generalizing i cnt with
  | zero => rfl
  | succ n ih => rw [gWriteRegsLoop, gWriteRegsLoop]; simp only [ih]; rfl

theorem hooked_inner (b : BlockRef) (off q bv : Int) (i : Nat) (js : List Nat) (cnt : Int) :
    gWriteCoilsInner (E.hooked hk) b off q bv i js cnt = gWriteCoilsInner E b off q bv i js cnt := by
  induction js generalizing cnt with
  | nil => rfl
  | cons j js ih => rw [gWriteCoilsInner, gWriteCoilsInner]; simp only [ih]; rfl

theorem hooked_outer (c : Code) (b : BlockRef) (off q : Int) (pdu : Bytes) (is : List Nat) (cnt : Int) :
    gWriteCoilsOuter (E.hooked hk) c b off q pdu is cnt = gWriteCoilsOuter E c b off q pdu is cnt := by
  induction is generalizing cnt with
  | nil => rfl
  | cons j js ih => rw [gWriteCoilsOuter, gWriteCoilsOuter]; simp only [ih, hooked_inner]

/-- no hooks -/
def noCalls : String → HookArg → PyM σ (Option Bytes) := fun _ _ => PyM.lift (.ok none)

/-- a handler: the functions of its name, then a part that calls no function but those of the assignments -/
theorem handler_split (fc : UInt8) :
    (handlerHook fc = none ∧ ∀ hk, gFnCodeMap (E.hooked hk) fc.toNat = none) ∨
    ∃ name, handlerHook fc = some name ∧ ∀ hk, ∃ f f0, gFnCodeMap (E.hooked hk) fc.toNat = some f ∧ gFnCodeMap (E.hooked noCalls) fc.toNat = some f0 ∧
      ∀ pdu, f pdu = ((E.hooked hk).hook_ name (.msg pdu) >>= fun _ => f0 pdu) := by
  have hn : ∀ k : UInt8, fc ≠ k → ((fc.toNat : Nat) : Int) ≠ ((k.toNat : Nat) : Int) := fun k hk he => hk (UInt8.toNat_inj.mp (by exact_mod_cast he))
  by_cases h1 : fc = 1
  · subst h1; exact Or.inr ⟨_, rfl, fun hk => ⟨_, _, rfl, rfl, fun pdu => rfl⟩⟩
  by_cases h2 : fc = 2
  · subst h2; exact Or.inr ⟨_, rfl, fun hk => ⟨_, _, rfl, rfl, fun pdu => rfl⟩⟩
  by_cases h3 : fc = 3
  · subst h3; exact Or.inr ⟨_, rfl, fun hk => ⟨_, _, rfl, rfl, fun pdu => rfl⟩⟩
  by_cases h4 : fc = 4
  · subst h4; exact Or.inr ⟨_, rfl, fun hk => ⟨_, _, rfl, rfl, fun pdu => rfl⟩⟩
  by_cases h5 : fc = 5
  · subst h5; exact Or.inr ⟨_, rfl, fun hk => ⟨_, _, rfl, rfl, fun pdu => rfl⟩⟩
  by_cases h6 : fc = 6
  · subst h6; exact Or.inr ⟨_, rfl, fun hk => ⟨_, _, rfl, rfl, fun pdu => rfl⟩⟩
  by_cases h7 : fc = 7
  · subst h7; exact Or.inr ⟨_, rfl, fun hk => ⟨_, _, rfl, rfl, fun pdu => rfl⟩⟩
  by_cases h15 : fc = 15
  · subst h15
    refine Or.inr ⟨_, rfl, fun hk => ⟨_, _, rfl, rfl, fun pdu => ?_⟩⟩
    unfold gWriteMultipleCoils
    simp only [hooked_outer]
    rfl
  by_cases h16 : fc = 16
  · subst h16
    refine Or.inr ⟨_, rfl, fun hk => ⟨_, _, rfl, rfl, fun pdu => ?_⟩⟩
    unfold gWriteMultipleRegisters
    simp only [hooked_regsLoop]
    rfl
  by_cases h22 : fc = 22
  · subst h22; exact Or.inr ⟨_, rfl, fun hk => ⟨_, _, rfl, rfl, fun pdu => rfl⟩⟩
  by_cases h23 : fc = 23
  · subst h23
    refine Or.inr ⟨_, rfl, fun hk => ⟨_, _, rfl, rfl, fun pdu => ?_⟩⟩
    unfold gReadWriteMultipleRegisters
    simp only [hooked_regsLoop]
    rfl
  · left
    refine ⟨by simp [handlerHook, *], fun hk => ?_⟩
    have a1 : ((fc.toNat : Nat) : Int) ≠ defines.READ_COILS := hn 1 h1
    have a2 : ((fc.toNat : Nat) : Int) ≠ defines.READ_DISCRETE_INPUTS := hn 2 h2
    have a3 : ((fc.toNat : Nat) : Int) ≠ defines.READ_HOLDING_REGISTERS := hn 3 h3
    have a4 : ((fc.toNat : Nat) : Int) ≠ defines.READ_INPUT_REGISTERS := hn 4 h4
    have a5 : ((fc.toNat : Nat) : Int) ≠ defines.WRITE_SINGLE_COIL := hn 5 h5
    have a6 : ((fc.toNat : Nat) : Int) ≠ defines.WRITE_SINGLE_REGISTER := hn 6 h6
    have a7 : ((fc.toNat : Nat) : Int) ≠ defines.READ_EXCEPTION_STATUS := hn 7 h7
    have a15 : ((fc.toNat : Nat) : Int) ≠ defines.WRITE_MULTIPLE_COILS := hn 15 h15
    have a16 : ((fc.toNat : Nat) : Int) ≠ defines.WRITE_MULTIPLE_REGISTERS := hn 16 h16
    have a22 : ((fc.toNat : Nat) : Int) ≠ defines.MASK_WRITE_REGISTER := hn 22 h22
    have a23 : ((fc.toNat : Nat) : Int) ≠ defines.READ_WRITE_MULTIPLE_REGISTERS := hn 23 h23
    unfold gFnCodeMap
    rw [if_neg a1, if_neg a2, if_neg a4, if_neg a3, if_neg a7, if_neg a5, if_neg a6, if_neg a15, if_neg a16, if_neg a22, if_neg a23]

end


/-! ### The exceptions a handler raises by itself -/

section
variable {σ α β : Type}

/-- a ModbusError raised by the computation has code 2 or 3 -/
def Coded (f : PyM σ α) : Prop := ∀ s c, (f s).1 = .error (.modbusError c) → c = 2 ∨ c = 3

theorem Coded.bind {f : PyM σ α} {k : α → PyM σ β} (hf : Coded f) (hk : ∀ a, Coded (k a)) : Coded (f >>= k) := by
  intro s c
  rw [PyM.bind_apply]
  have h := hf s c
  rcases hr : f s with ⟨r, s'⟩
  rw [hr] at h
  cases r with
  | ok a => exact hk a s' c
  | error e => exact fun hc => h (by cases hc; rfl)

theorem Coded.lift {x : Except PyErr α} (h : ∀ c, x ≠ .error (.modbusError c)) : Coded (PyM.lift x : PyM σ α) := fun _ c hc => absurd hc (h c)
theorem Coded.ret (a : α) : Coded (Pure.pure a : PyM σ α) := fun _ _ hc => by cases hc
theorem Coded.ite {c : Prop} [Decidable c] {f g : PyM σ α} (hf : Coded f) (hg : Coded g) : Coded (if c then f else g) := by split <;> assumption
theorem Coded.value : Coded (PyM.raise (.modbusError defines.ILLEGAL_DATA_VALUE) : PyM σ α) := fun _ c hc => by cases hc; exact Or.inr rfl
theorem Coded.struct : Coded (PyM.raise .structError : PyM σ α) := fun _ _ hc => by cases hc

theorem structUnpack_noErr (f : Fmt) (bs : Bytes) (c : Int) : structUnpack f bs ≠ .error (.modbusError c) := by
  unfold structUnpack
  split <;> simp

theorem packBits_noErr (t : Int → Bool) (u : Bool) (vs : List Int) (i bv : Nat) (acc : Bytes) (c : Int) : gPackBits t u vs i bv acc ≠ .error (.modbusError c) := by
  induction vs generalizing i bv acc with
  | nil =>
    rw [gPackBits]
    split
    · cases hx : structPack (be [if u then Code.B else Code.b]) [(bv : Int)] with
      | ok x => rw [except_bind_ok]; intro h; cases h
      | error e => rw [except_bind_error]; intro h; cases h; exact packCodes_noErr _ _ _ _ hx
    · simp
  | cons v vs ih =>
    rw [gPackBits]
    generalize (if t v = true then bv + 1 <<< i else bv) = bv'
    split
    · cases hx : structPack (be [Code.B]) [(bv' : Int)] with
      | ok x => rw [except_bind_ok]; exact ih _ _ _
      | error e => rw [except_bind_error]; intro h; cases h; exact packCodes_noErr _ _ _ _ hx
    · exact ih _ _ _

theorem packRegs_noErr (cd : Code) (vs : List Int) (acc : Bytes) (c : Int) : gPackRegs (fun c (n : Int) => structPack (be [c]) [n]) cd vs acc ≠ .error (.modbusError c) := by
  induction vs generalizing acc with
  | nil => simp [gPackRegs]
  | cons v vs ih =>
    rw [gPackRegs]
    cases hx : structPack (be [cd]) [v] with
    | ok x => rw [except_bind_ok]; exact ih _
    | error e => rw [except_bind_error]; intro h; cases h; exact packCodes_noErr _ _ _ _ hx

set_option maxHeartbeats 1000000 in
theorem coded_map (sl : Slave) (fc : Int) {f : Bytes → PyM (Heap × ω) Bytes} (hf : gFnCodeMap (effEnv ([] : ERegistry ω) sl) fc = some f) (pdu : Bytes) : Coded (f pdu) := by
  have hk : ∀ name a, Coded ((effEnv ([] : ERegistry ω) sl).hook_ name a) := fun name a s c hc => by cases hc
  have hl : ∀ t a n, Coded ((effEnv ([] : ERegistry ω) sl).locate t a n) := by
    intro t a n s c
    show (getBlockAndOffset sl t a n s.1).1 = _ → _
    unfold getBlockAndOffset
    simp only [PyM.bind_apply, memRef]
    cases Dict.get? (s.1.dicts sl.mem) t with
    | none => intro h; cases h
    | some r =>
      simp only [PyM.get_apply]
      cases findBlock (s.1.lists r) a n with
      | none => intro h; cases h; exact Or.inl rfl
      | some p => intro h; cases h
  have hs : ∀ b i j, Coded ((effEnv ([] : ERegistry ω) sl).slice b i j) := by
    intro b i j s c
    show (getSlice b i j s.1).1 = _ → _
    unfold getSlice
    split <;> (intro h; cases h)
  have hi : ∀ b i, Coded ((effEnv ([] : ERegistry ω) sl).item b i) := by
    intro b i s c
    show (getItem b i s.1).1 = _ → _
    unfold getItem
    split
    · split <;> (intro h; cases h)
    · intro h; cases h
  have ha : ∀ b i v, Coded ((effEnv ([] : ERegistry ω) sl).assign b i v) := by
    intro b i v s c
    show (eAssign [] b i v s).1 = _ → _
    unfold eAssign
    cases s.1.block? b with
    | none => intro h; cases h
    | some blk => exact fun h => absurd h (setItem_noErr (R := []) (Quiet.noModbusErr quiet_nil) b i v s.1 c)
  have hru : ∀ c b off base n i cnt, Coded (gWriteRegsLoop (effEnv ([] : ERegistry ω) sl) c b off pdu base n i cnt) := by
    intro c b off base n
    induction n with
    | zero => exact fun _ _ => Coded.ret _
    | succ n ih => intro i cnt; rw [gWriteRegsLoop]; exact (Coded.lift (unpackSingle_noErr _ _)).bind fun _ => (ha _ _ _).bind fun _ => ih _ _
  have hci : ∀ b off q bv i js cnt, Coded (gWriteCoilsInner (effEnv ([] : ERegistry ω) sl) b off q bv i js cnt) := by
    intro b off q bv i js
    induction js with
    | nil => exact fun _ => Coded.ret _
    | cons j js ih => intro cnt; rw [gWriteCoilsInner]; exact Coded.ite (Coded.ret _) ((ha _ _ _).bind fun _ => ih _)
  have hco : ∀ c b off q is cnt, Coded (gWriteCoilsOuter (effEnv ([] : ERegistry ω) sl) c b off q pdu is cnt) := by
    intro c b off q is
    induction is with
    | nil => exact fun _ => Coded.ret _
    | cons j js ih =>
      intro cnt; rw [gWriteCoilsOuter]
      exact Coded.ite (Coded.ret _) ((Coded.lift (unpackSingle_noErr _ _)).bind fun _ => (hci _ _ _ _ _ _ _).bind fun _ => ih _)
  have hpk : ∀ cs vs, Coded (PyM.lift (structPack (be cs) vs) : PyM (Heap × ω) Bytes) := fun cs vs => Coded.lift (packCodes_noErr _ _ _)
  have hup : ∀ cs bs, Coded (PyM.lift (structUnpack (be cs) bs) : PyM (Heap × ω) (List Int)) := fun cs bs => Coded.lift (structUnpack_noErr _ _)
  have hrd : ∀ bt, Coded (gReadDigital (effEnv ([] : ERegistry ω) sl) bt pdu) := by
    intro bt
    unfold gReadDigital
    refine (hup _ _).bind fun l => ?_
    split
    · refine Coded.ite Coded.value ((hl _ _ _).bind fun p => ?_)
      exact (hs _ _ _).bind fun _ => (hpk _ _).bind fun _ => Coded.lift (packBits_noErr _ _ _ _ _ _)
    · exact Coded.struct
  have hrr : ∀ bt, Coded (gReadRegisters (effEnv ([] : ERegistry ω) sl) bt pdu) := by
    intro bt
    unfold gReadRegisters
    refine (hup _ _).bind fun l => ?_
    split
    · refine Coded.ite Coded.value ((hl _ _ _).bind fun p => ?_)
      exact (hs _ _ _).bind fun _ => (hpk _ _).bind fun _ => Coded.lift (packRegs_noErr _ _ _)
    · exact Coded.struct
  unfold gFnCodeMap at hf
  split at hf
  · cases hf; exact (hk _ _).bind fun _ => hrd _
  split at hf
  · cases hf; exact (hk _ _).bind fun _ => hrd _
  split at hf
  · cases hf; exact (hk _ _).bind fun _ => hrr _
  split at hf
  · cases hf; exact (hk _ _).bind fun _ => hrr _
  split at hf
  · cases hf; exact (hk _ _).bind fun _ => hpk _ _
  split at hf
  · cases hf
    unfold gWriteSingleCoil
    refine (hk _ _).bind fun _ => (hup _ _).bind fun l => ?_
    split
    · refine (hl _ _ _).bind fun p => ?_
      refine Coded.ite ((ha _ _ _).bind fun _ => Coded.ret _) (Coded.ite ((ha _ _ _).bind fun _ => Coded.ret _) (Coded.value.bind fun _ => Coded.ret _))
    · exact Coded.struct
  split at hf
  · cases hf
    unfold gWriteSingleRegister
    refine (hk _ _).bind fun _ => (hup _ _).bind fun l => ?_
    split
    · exact (hl _ _ _).bind fun p => (ha _ _ _).bind fun _ => Coded.ret _
    · exact Coded.struct
  split at hf
  · cases hf
    unfold gWriteMultipleCoils
    refine (hk _ _).bind fun _ => (hup _ _).bind fun l => ?_
    split
    · exact Coded.ite Coded.value ((hl _ _ _).bind fun p => (hco _ _ _ _ _ _).bind fun _ => hpk _ _)
    · exact Coded.struct
  split at hf
  · cases hf
    unfold gWriteMultipleRegisters
    refine (hk _ _).bind fun _ => (hup _ _).bind fun l => ?_
    split
    · exact Coded.ite Coded.value ((hl _ _ _).bind fun p => (hru _ _ _ _ _ _ _).bind fun _ => hpk _ _)
    · exact Coded.struct
  split at hf
  · cases hf
    unfold gMaskWriteRegister
    refine (hk _ _).bind fun _ => (hup _ _).bind fun l => ?_
    split
    · exact (hl _ _ _).bind fun p => (hi _ _).bind fun _ => (Coded.lift (by intro c h; cases h)).bind fun _ => (ha _ _ _).bind fun _ => Coded.ret _
    · exact Coded.struct
  split at hf
  · cases hf
    unfold gReadWriteMultipleRegisters
    refine (hk _ _).bind fun _ => (hup _ _).bind fun l => ?_
    split
    · refine Coded.ite Coded.value ((hl _ _ _).bind fun p => (hs _ _ _).bind fun _ => (hpk _ _).bind fun _ => (Coded.lift (packRegs_noErr _ _ _)).bind fun _ => ?_)
      exact Coded.ite Coded.value ((hl _ _ _).bind fun p => (hru _ _ _ _ _ _ _).bind fun _ => Coded.ret _)
    · exact Coded.struct
  · cases hf

end


theorem assign_idle {R : ERegistry ω} (h : Idle R "modbus.ModbusBlock.setitem") : eAssign R = eAssign [] := by
  funext b i v s
  unfold eAssign
  cases s.1.block? b with
  | none => rfl
  | some blk =>
    dsimp only
    obtain ⟨v', hv⟩ := h { block := some b, data := .setitem blk.start i [v] } s
    rw [hv]
    rfl

theorem effEnv_hooked {R : ERegistry ω} (sl : Slave) (h : Idle R "modbus.ModbusBlock.setitem") :
    effEnv R sl = (effEnv [] sl).hooked (fun name a => eCallHooks R name { slave := some sl, data := a }) := by
  unfold effEnv Env.hooked
  rw [assign_idle h]

theorem effEnv_none (sl : Slave) : effEnv ([] : ERegistry ω) sl = (effEnv [] sl).hooked noCalls := rfl

theorem unpack_fc (fc : UInt8) (rest : Bytes) : unpackSingle Code.B (slice (fc :: rest) 0 1) = .ok (fc.toNat : Int) := by
  have hs : Modbus.slice (fc :: rest) 0 1 = [fc] := by simp [Modbus.slice]
  rw [hs, unpackSingle_ok rfl, unpackOne_B]

theorem handlerHook_lt {fc : UInt8} {name : String} (h : handlerHook fc = some name) : fc.toNat < 128 := by
  unfold handlerHook at h
  repeat (split at h; · rename_i he; subst he; decide)
  cases h

theorem cant_iff (fc : UInt8) : cantBeBroadcasted fc.toNat = true ↔ fc = 1 ∨ fc = 2 ∨ fc = 3 ∨ fc = 4 := by
  unfold cantBeBroadcasted
  simp only [defines.READ_COILS, defines.READ_DISCRETE_INPUTS, defines.READ_INPUT_REGISTERS, defines.READ_HOLDING_REGISTERS, decide_eq_true_eq, ← UInt8.toNat_inj]
  have h1 : (1 : UInt8).toNat = 1 := rfl
  have h2 : (2 : UInt8).toNat = 2 := rfl
  have h3 : (3 : UInt8).toNat = 3 := rfl
  have h4 : (4 : UInt8).toNat = 4 := rfl
  omega

theorem fc_ne (fc : UInt8) : fc ≠ fc + 128 := by
  intro h
  have := congrArg UInt8.toNat h
  rw [UInt8.toNat_add] at this
  have h1 : (128 : UInt8).toNat = 128 := rfl
  have := fc.toNat_lt
  omega

section
variable {R : ERegistry ω} {sl : Slave} {fc : UInt8} {rest : Bytes} {b : Bool} {s s1 s2 : Heap × ω} {name : String} {v : Option Bytes}

/-- **C86 (before).** The functions of `handle_request`, then those of the function code, are called before the request is looked at: a request is executed on the data as they
    left it, whatever they changed, and its answer is the one the slave gives on this data.  Afterwards, and only if the answer is an exception response, the functions of
    `on_exception` are called with the code of the exception. -/
theorem C86_before (hset : Idle R "modbus.ModbusBlock.setitem") (hbc : Idle R "modbus.Slave.on_handle_broadcast") (hexc : Answers R "modbus.Slave.on_exception")
    (h0 : eCallHooks R "modbus.Slave.handle_request" { slave := some sl, data := .msg (fc :: rest) } s = (.ok none, s1)) (hname : handlerHook fc = some name)
    (hb : b = true → ¬(fc = 1 ∨ fc = 2 ∨ fc = 3 ∨ fc = 4)) (h1 : eCallHooks R name { slave := some sl, data := .msg (fc :: rest) } s1 = (.ok v, s2)) :
    (eHandleRequest R sl (fc :: rest) b s).1 = (handleRequest [] sl (fc :: rest) b s2.1).1 ∧
    ((∀ c, (handleRequest [] sl (fc :: rest) b s2.1).1 ≠ .ok [fc + 128, c]) →
      (eHandleRequest R sl (fc :: rest) b s).2 = ((handleRequest [] sl (fc :: rest) b s2.1).2, s2.2)) ∧
    (∀ c, (handleRequest [] sl (fc :: rest) b s2.1).1 = .ok [fc + 128, c] →
      (eHandleRequest R sl (fc :: rest) b s).2 = (eCallHooks R "modbus.Slave.on_exception" { slave := some sl, data := .exc (.modbusError c.toNat) (fc :: rest) }
        ((handleRequest [] sl (fc :: rest) b s2.1).2, s2.2)).2) := by
  have hst := C86_still [] sl (fc :: rest) b s2
  rw [show (Registry.still [] : ERegistry ω) = [] from rfl] at hst
  have g1 : (handleRequest [] sl (fc :: rest) b s2.1).1 = (eHandleRequest [] sl (fc :: rest) b s2).1 := by rw [hst]
  have g2 : ((handleRequest [] sl (fc :: rest) b s2.1).2, s2.2) = (eHandleRequest [] sl (fc :: rest) b s2).2 := by rw [hst]
  rw [g1, g2]
  clear g1 g2 hst
  rcases handler_split (effEnv ([] : ERegistry ω) sl) fc with ⟨hn, _⟩ | ⟨name', hn, hs⟩
  · rw [hname] at hn; cases hn
  rw [hname] at hn
  cases hn
  obtain ⟨f, f0, hf, hf0, hff⟩ := hs (fun name a => eCallHooks R name { slave := some sl, data := a })
  rw [← effEnv_hooked sl hset] at hf
  rw [← effEnv_none] at hf0
  have hcant : ¬(b = true ∧ cantBeBroadcasted fc.toNat = true) := fun ⟨x, y⟩ => hb x ((cant_iff fc).mp y)
  have hrun : f (fc :: rest) s1 = f0 (fc :: rest) s2 := by
    rw [hff, ← effEnv_hooked sl hset, PyM.bind_apply]
    unfold Env.hook_
    rw [PyM.bind_apply]
    rw [show (effEnv R sl).hook name (.msg (fc :: rest)) s1 = (.ok v, s2) from h1]
    rfl
  have hcode := coded_map sl fc.toNat hf0 (fc :: rest) s2
  have hlt := handlerHook_lt hname
  have e0 : eHandleRequest R sl (fc :: rest) b s = PyM.tryExcept (gDispatch (effEnv R sl) fc.toNat (fc :: rest) b) (fun e =>
        match e with
        | .modbusError code => do
            (effEnv R sl).hook_ "modbus.Slave.on_exception" (.exc (.modbusError code) (fc :: rest))
            PyM.lift (structPack (be [Code.B, Code.B]) [(fc.toNat : Int) + 128, code])
        | e => PyM.raise e) s1 := by
    unfold eHandleRequest gHandleRequest
    rw [show (effEnv R sl).hook "modbus.Slave.handle_request" (.msg (fc :: rest)) s = (.ok none, s1) from h0, unpack_fc]
    rfl
  have e1 : eHandleRequest [] sl (fc :: rest) b s2 = PyM.tryExcept (gDispatch (effEnv ([] : ERegistry ω) sl) fc.toNat (fc :: rest) b) (fun e =>
        match e with
        | .modbusError code => do
            (effEnv ([] : ERegistry ω) sl).hook_ "modbus.Slave.on_exception" (.exc (.modbusError code) (fc :: rest))
            PyM.lift (structPack (be [Code.B, Code.B]) [(fc.toNat : Int) + 128, code])
        | e => PyM.raise e) s2 := by
    unfold eHandleRequest gHandleRequest
    rw [show (effEnv ([] : ERegistry ω) sl).hook "modbus.Slave.handle_request" (.msg (fc :: rest)) s2 = (.ok none, s2) from rfl, unpack_fc]
    rfl
  have d0 : gDispatch (effEnv R sl) fc.toNat (fc :: rest) b s1 =
      (f (fc :: rest) >>= fun responsePdu => if responsePdu ≠ [] then
        if b then do
          (effEnv R sl).hook_ "modbus.Slave.on_handle_broadcast" (.msg responsePdu)
          return []
        else do
          let hd ← PyM.lift (structPack (be [Code.B]) [(fc.toNat : Int)])
          return hd ++ responsePdu
      else PyM.raise .generic) s1 := by
    unfold gDispatch
    rw [hf]
    dsimp only
    rw [if_neg hcant]
  have d1 : gDispatch (effEnv ([] : ERegistry ω) sl) fc.toNat (fc :: rest) b s2 =
      (f0 (fc :: rest) >>= fun responsePdu => if responsePdu ≠ [] then
        if b then do
          (effEnv ([] : ERegistry ω) sl).hook_ "modbus.Slave.on_handle_broadcast" (.msg responsePdu)
          return []
        else do
          let hd ← PyM.lift (structPack (be [Code.B]) [(fc.toNat : Int)])
          return hd ++ responsePdu
      else PyM.raise .generic) s2 := by
    unfold gDispatch
    rw [hf0]
    dsimp only
    rw [if_neg hcant]
  rw [PyM.bind_apply] at d0 d1
  rw [e0, e1, PyM.tryExcept_apply, PyM.tryExcept_apply, d0, d1, hrun]
  clear d0 d1 e0 e1 hrun hf hf0 hff hs
  rcases hr : f0 (fc :: rest) s2 with ⟨r, s3⟩
  rw [hr] at hcode
  rcases r with e | d
  · cases e
    case modbusError code =>
      have hc := hcode code rfl
      obtain ⟨c, rfl⟩ : ∃ c : UInt8, code = (c.toNat : Int) := by
        rcases hc with rfl | rfl
        · exact ⟨2, rfl⟩
        · exact ⟨3, rfl⟩
      obtain ⟨v', s4, hx⟩ := hexc { slave := some sl, data := .exc (.modbusError c.toNat) (fc :: rest) } s3
      have hk : ∀ k : PyM (Heap × ω) Bytes, ((effEnv R sl).hook_ "modbus.Slave.on_exception" (.exc (.modbusError c.toNat) (fc :: rest)) >>= fun _ => k) s3 = k s4 := by
        intro k
        rw [PyM.bind_apply]
        unfold Env.hook_
        rw [PyM.bind_apply, show (effEnv R sl).hook "modbus.Slave.on_exception" (.exc (.modbusError c.toNat) (fc :: rest)) s3 = (.ok v', s4) from hx]
        rfl
      have hk0 : ∀ k : PyM (Heap × ω) Bytes, ((effEnv ([] : ERegistry ω) sl).hook_ "modbus.Slave.on_exception" (.exc (.modbusError c.toNat) (fc :: rest)) >>= fun _ => k) s3 = k s3 :=
        fun k => rfl
      dsimp only
      rw [hk, hk0, PyM.lift_apply, PyM.lift_apply, packBB_exc fc c hlt]
      refine ⟨rfl, fun h => absurd rfl (h c), fun c' hc' => ?_⟩
      cases hc'
      rw [hx]
    all_goals exact ⟨rfl, fun _ => rfl, fun c hc => by cases hc⟩
  · dsimp only
    by_cases hd : d = []
    · subst hd
      exact ⟨rfl, fun _ => rfl, fun c hc => by cases hc⟩
    · rw [if_pos hd, if_pos hd]
      cases b with
      | true =>
        obtain ⟨v', hx⟩ := hbc { slave := some sl, data := .msg d } s3
        have hk : ((effEnv R sl).hook_ "modbus.Slave.on_handle_broadcast" (.msg d) >>= fun _ => (Pure.pure [] : PyM (Heap × ω) Bytes)) s3 = (.ok [], s3) := by
          rw [PyM.bind_apply]
          unfold Env.hook_
          rw [PyM.bind_apply, show (effEnv R sl).hook "modbus.Slave.on_handle_broadcast" (.msg d) s3 = (.ok v', s3) from hx]
          rfl
        rw [if_pos rfl, if_pos rfl, hk]
        exact ⟨rfl, fun _ => rfl, fun c hc => by cases hc⟩
      | false =>
        rw [if_neg (by simp), if_neg (by simp), PyM.bind_apply, PyM.lift_apply, packB_u8]
        refine ⟨rfl, fun _ => rfl, fun c hc => ?_⟩
        have : fc :: d = [fc + 128, c] := by
          have := hc
          simpa using hc
        exact absurd (List.cons.inj this).1 (fc_ne fc)

end


section
variable {R : ERegistry ω} {sl : Slave} {fc : UInt8} {rest : Bytes} {b : Bool} {s s1 s2 s3 : Heap × ω} {name : String} {v : Option Bytes}

/-- **C86 (instead).** A function of `handle_request` that answers replaces the slave: its answer is the response, and nothing happens but what it did. -/
theorem C86_instead {pdu response : Bytes} (h0 : eCallHooks R "modbus.Slave.handle_request" { slave := some sl, data := .msg pdu } s = (.ok (some response), s1)) :
    eHandleRequest R sl pdu b s = (.ok response, s1) := by
  unfold eHandleRequest gHandleRequest
  rw [show (effEnv R sl).hook "modbus.Slave.handle_request" (.msg pdu) s = (.ok (some response), s1) from h0]

/-- **C86 (refusing).** A function of the function code that raises ModbusError refuses the request: the answer is the exception response with its code, the request is not executed,
    and what the functions did stays. -/
theorem C86_refused {c : UInt8} (h0 : eCallHooks R "modbus.Slave.handle_request" { slave := some sl, data := .msg (fc :: rest) } s = (.ok none, s1))
    (hname : handlerHook fc = some name) (hb : b = true → ¬(fc = 1 ∨ fc = 2 ∨ fc = 3 ∨ fc = 4))
    (h1 : eCallHooks R name { slave := some sl, data := .msg (fc :: rest) } s1 = (.error (.modbusError c.toNat), s2))
    (h2 : eCallHooks R "modbus.Slave.on_exception" { slave := some sl, data := .exc (.modbusError c.toNat) (fc :: rest) } s2 = (.ok v, s3)) :
    eHandleRequest R sl (fc :: rest) b s = (.ok [fc + 128, c], s3) := by
  rcases handler_split (effEnv R sl) fc with ⟨hn, _⟩ | ⟨name', hn, hs⟩
  · rw [hname] at hn; cases hn
  rw [hname] at hn
  cases hn
  obtain ⟨f, f0, hf, hf0, hff⟩ := hs (effEnv R sl).hook
  rw [show (effEnv R sl).hooked (effEnv R sl).hook = effEnv R sl from rfl] at hf hff
  have hcant : ¬(b = true ∧ cantBeBroadcasted fc.toNat = true) := fun ⟨x, y⟩ => hb x ((cant_iff fc).mp y)
  have hrun : f (fc :: rest) s1 = (.error (.modbusError c.toNat), s2) := by
    rw [hff, PyM.bind_apply]
    unfold Env.hook_
    rw [PyM.bind_apply, show (effEnv R sl).hook name (.msg (fc :: rest)) s1 = (.error (.modbusError c.toNat), s2) from h1]
  have hd : gDispatch (effEnv R sl) fc.toNat (fc :: rest) b s1 = (.error (.modbusError c.toNat), s2) := by
    unfold gDispatch
    rw [hf]
    dsimp only
    rw [if_neg hcant, PyM.bind_apply, hrun]
  unfold eHandleRequest gHandleRequest
  rw [show (effEnv R sl).hook "modbus.Slave.handle_request" (.msg (fc :: rest)) s = (.ok none, s1) from h0, unpack_fc]
  dsimp only
  rw [PyM.bind_apply, PyM.lift_apply]
  dsimp only
  rw [PyM.tryExcept_apply, hd]
  dsimp only
  rw [PyM.bind_apply]
  unfold Env.hook_
  rw [PyM.bind_apply, show (effEnv R sl).hook "modbus.Slave.on_exception" (.exc (.modbusError c.toNat) (fc :: rest)) s2 = (.ok v, s3) from h2]
  show (structPack (be [Code.B, Code.B]) [(fc.toNat : Int) + 128, c.toNat], s3) = _
  rw [packBB_exc fc c (handlerHook_lt hname)]

theorem eHandle_ok {f : Bytes → PyM (Heap × ω) Bytes} {d : Bytes} (h0 : eCallHooks R "modbus.Slave.handle_request" { slave := some sl, data := .msg (fc :: rest) } s = (.ok none, s1))
    (hf : gFnCodeMap (effEnv R sl) fc.toNat = some f) (hd : d ≠ []) (he : f (fc :: rest) s1 = (.ok d, s2)) : eHandleRequest R sl (fc :: rest) false s = (.ok (fc :: d), s2) := by
  have hdp : gDispatch (effEnv R sl) fc.toNat (fc :: rest) false s1 = (.ok (fc :: d), s2) := by
    unfold gDispatch
    rw [hf]
    dsimp only
    rw [if_neg (by simp), PyM.bind_apply, he]
    dsimp only
    rw [if_pos hd, if_neg (by simp), PyM.bind_apply, PyM.lift_apply, packB_u8]
    rfl
  unfold eHandleRequest gHandleRequest
  rw [show (effEnv R sl).hook "modbus.Slave.handle_request" (.msg (fc :: rest)) s = (.ok none, s1) from h0, unpack_fc]
  dsimp only
  rw [PyM.bind_apply, PyM.lift_apply]
  dsimp only
  rw [PyM.tryExcept_apply, hdp]

/-! ## Functions called before a cell is assigned -/

/-- between the two memories: the same tables, the blocks at the same places, with the same addresses and sizes; the values may differ -/
structure SameBlocks (h h' : Heap) : Prop where
  dicts : h'.dicts = h.dicts
  shape : ∀ r, (h'.lists r).map (fun b => (b.start, b.size, b.data.length)) = (h.lists r).map (fun b => (b.start, b.size, b.data.length))

/-- the functions called before an assignment do not raise, and add, remove and move no blocks; they may change every value in them -/
def KeepsBlocks (R : ERegistry ω) : Prop := ∀ a s, ∃ v s', eCallHooks R "modbus.ModbusBlock.setitem" a s = (.ok v, s') ∧ SameBlocks s.1 s'.1

theorem SameBlocks.refl {h : Heap} : SameBlocks h h := ⟨rfl, fun _ => rfl⟩
theorem SameBlocks.trans {h1 h2 h3 : Heap} (a : SameBlocks h1 h2) (b : SameBlocks h2 h3) : SameBlocks h1 h3 :=
  ⟨b.dicts.trans a.dicts, fun r => (b.shape r).trans (a.shape r)⟩

theorem SameBlocks.block {h h' : Heap} (a : SameBlocks h h') {b : BlockRef} {blk : Block} (hb : h.block? b = some blk) :
    ∃ blk', h'.block? b = some blk' ∧ blk'.start = blk.start ∧ blk'.size = blk.size ∧ blk'.data.length = blk.data.length := by
  obtain ⟨blk', h1, h2⟩ := shape_at (a.shape b.list).symm (n := b.idx) hb
  simp only [Prod.mk.injEq] at h2
  exact ⟨blk', h1, h2.1, h2.2.1, h2.2.2⟩

theorem sameBlocks_set {h : Heap} {b : BlockRef} {blk : Block} (hb : h.block? b = some blk) (k : Nat) (v : Int) :
    SameBlocks h (h.setBlock b { blk with data := blk.data.set k v }) := by
  have := announced_setBlock (allowed := fun _ _ _ => True) hb (blk' := { blk with data := blk.data.set k v }) rfl rfl (by simp) ?_
  · exact ⟨this.dicts, this.shape⟩
  · intro k' w hw
    right
    exact ⟨k', [w], trivial, by omega, by simp⟩

/-- an assignment: the functions, then the cell -/
theorem eAssign_keeps {bk : BlockRef} {blk : Block} (hb : s.1.block? bk = some blk) {i : Nat} (hi : i < blk.data.length) (w : Int)
    (hh : eCallHooks R "modbus.ModbusBlock.setitem" { block := some bk, data := .setitem blk.start i [w] } s = (.ok v, s1)) (hs : SameBlocks s.1 s1.1) :
    ∃ blk1, s1.1.block? bk = some blk1 ∧ blk1.start = blk.start ∧ blk1.size = blk.size ∧ blk1.data.length = blk.data.length ∧
      eAssign R bk i w s = (.ok (), (s1.1.setBlock bk { blk1 with data := blk1.data.set i w }, s1.2)) := by
  obtain ⟨blk1, h1, h2, h3, h4⟩ := hs.block hb
  refine ⟨blk1, h1, h2, h3, h4, ?_⟩
  unfold eAssign
  rw [hb]
  dsimp only
  rw [hh]
  show ((setItem [] bk i w s1.1).1, ((setItem [] bk i w s1.1).2, s1.2)) = _
  rw [setItem_quiet quiet_nil h1 (by omega) (by omega)]
  rfl

/-- a cell -/
def Heap.cell? (h : Heap) (b : BlockRef) (k : Nat) : Option Int := (h.block? b).bind fun blk => blk.data[k]?

/-- the loop that stores the registers of a request -/
theorem eRegsLoop_inv {c : Code} (hc : c.size = 2) {bk : BlockRef} {off : Int} {pdu : Bytes} {base n : Nat} (hp : base + 2 * n ≤ pdu.length) {J : Nat → Heap × ω → Prop}
    (hstep : ∀ k s, k < n → J k s → ∃ s', eAssign R bk (off + k) (regAt c pdu base k) s = (.ok (), s') ∧ J (k + 1) s') (m i : Nat) (cnt : Int) (s : Heap × ω)
    (hm : i + m = n) (hj : J i s) : ∃ s', gWriteRegsLoop (effEnv R sl) c bk off pdu base m i cnt s = (.ok (cnt + m), s') ∧ J n s' := by
  induction m generalizing i cnt s with
  | zero =>
    refine ⟨s, ?_, by rw [← hm]; exact hj⟩
    rw [gWriteRegsLoop]
    simp
  | succ m ih =>
    obtain ⟨s', h1, h2⟩ := hstep i s (by omega) hj
    obtain ⟨s'', h3, h4⟩ := ih (i + 1) (cnt + 1) s' (by omega) h2
    refine ⟨s'', ?_, h4⟩
    have hs := (regSlice_length pdu base i).mpr (by omega)
    rw [gWriteRegsLoop, PyM.bind_apply, PyM.lift_apply, unpackSingle_ok (c := c) (hs.trans hc.symm)]
    dsimp only
    rw [PyM.bind_apply, show (effEnv R sl).assign bk (off + i) ((effEnv R sl).cell (unpackOne true c (slice pdu (base + 2*i) (base + 2 + 2*i)))) s = (.ok (), s') from h1]
    dsimp only
    rw [h3]
    congr 2
    push_cast
    omega

theorem write_values (u : Slave) (a q : UInt16) (bc : UInt8) (p : Bytes) {k : Nat} (hk : 2 * k + 2 ≤ p.length) :
    regAt (regCode u) (16 :: (word a ++ word q ++ [bc] ++ p)) 6 k = ofWord u.unsigned (Spec.wordAt p k) :=
  regAt_payload u (pre := 16 :: (word a ++ word q ++ [bc])) (by omega)

/-- function 16, cell by cell -/
theorem eWriteRegisters_inv {r : Refs} (a q : UInt16) (bc : UInt8) (p : Bytes)
    (h0 : eCallHooks R "modbus.Slave.handle_request" { slave := some sl, data := .msg (16 :: (word a ++ word q ++ [bc] ++ p)) } s = (.ok none, s1))
    (h1 : eCallHooks R "modbus.Slave.handle_write_multiple_registers_request" { slave := some sl, data := .msg (16 :: (word a ++ word q ++ [bc] ++ p)) } s1 = (.ok v, s2))
    (g : HasRefs s2.1 sl r) (hq : 1 ≤ q.toNat ∧ q.toNat ≤ 123) (hbc : bc.toNat = 2 * q.toNat) (hp : p.length = 2 * q.toNat) {i : Nat} {blk : Block}
    (hi : addressed (blocksOf s2.1 sl 3) a.toNat q.toNat = some i) (hblk : (blocksOf s2.1 sl 3)[i]? = some blk) {J : Nat → Heap × ω → Prop}
    (hstep : ∀ k s, k < q.toNat → J k s → ∃ s', eAssign R ⟨r.holding, i⟩ ((a.toNat : Int) - blk.start + k) (ofWord sl.unsigned (Spec.wordAt p k)) s = (.ok (), s') ∧ J (k + 1) s')
    (hj : J 0 s2) :
    ∃ s', eHandleRequest R sl (16 :: (word a ++ word q ++ [bc] ++ p)) false s = (.ok (16 :: (word a ++ word q)), s') ∧ J q.toNat s' := by
  rw [(tables g).2.2.1] at hi hblk
  obtain ⟨blk', hg, f, hb1, hb2⟩ := gbo_addressed g.holding hi
  rw [hblk] at hb1
  cases hb1
  have hlen : (16 :: (word a ++ word q ++ [bc] ++ p)).length = 6 + p.length := by simp [word_length]; omega
  have e : Modbus.slice (16 :: (word a ++ word q ++ [bc] ++ p)) 1 6 = word a ++ word q ++ [bc] := by simp [Modbus.slice, word]
  obtain ⟨s', hl, hj'⟩ := eRegsLoop_inv (R := R) (sl := sl) (regCode_size sl) (bk := ⟨r.holding, i⟩) (off := (a.toNat : Int) - blk.start)
    (pdu := 16 :: (word a ++ word q ++ [bc] ++ p)) (base := 6) (n := q.toNat) (by omega) (J := J)
    (fun k s hk hJ => by rw [write_values sl a q bc p (by omega)]; exact hstep k s hk hJ) q.toNat 0 0 s2 (by omega) hj
  refine ⟨s', eHandle_ok h0 (f := gWriteMultipleRegisters (effEnv R sl)) rfl (by simp [word]) ?_, hj'⟩
  unfold gWriteMultipleRegisters
  rw [PyM.bind_apply]
  unfold Env.hook_
  rw [PyM.bind_apply, show (effEnv R sl).hook "modbus.Slave.handle_write_multiple_registers_request" _ s1 = (.ok v, s2) from h1]
  show ((PyM.lift (structUnpack (be [Code.H, Code.H, Code.B]) (slice (16 :: (word a ++ word q ++ [bc] ++ p)) 1 6)) >>= _ : PyM (Heap × ω) Bytes) s2) = _
  rw [PyM.bind_apply, e, structUnpack_HHB]
  dsimp only [PyM.lift_apply]
  rw [if_neg (by omega), PyM.bind_apply,
    show (effEnv R sl).locate defines.HOLDING_REGISTERS a.toNat q.toNat s2 = (.ok (⟨r.holding, i⟩, (a.toNat : Int) - blk.start), s2) from by
      show ((getBlockAndOffset sl _ _ _ s2.1).1, ((getBlockAndOffset sl _ _ _ s2.1).2, s2.2)) = _
      rw [hg]]
  dsimp only
  rw [PyM.bind_apply, show (effEnv R sl).regCode = regCode sl from rfl, Int.toNat_natCast, hl]
  simp only [PyM.lift_apply, Int.zero_add, structPack_HH]

/-- the cells of a range of a block -/
theorem cells_of_cell? {h : Heap} {bk : BlockRef} {b : Block} (hb : h.block? bk = some b) {a : Int} {vs : List Int} (h0 : b.start ≤ a)
    (hc : ∀ k (hk : k < vs.length), h.cell? bk ((a - b.start).toNat + k) = some vs[k]) : b.cells a vs.length = vs := by
  unfold Block.cells
  apply List.ext_getElem?
  intro k
  rw [List.getElem?_take]
  split
  · rename_i hk
    rw [List.getElem?_drop, List.getElem?_eq_getElem hk, ← hc k hk]
    simp [Heap.cell?, hb]
  · rename_i hk
    rw [List.getElem?_eq_none (by omega)]

/-- **C86 (several registers).** The functions called before each assignment of a function-16 request may change everything but the layout and the registers of this request, and do
    not raise: then the request is answered, and its registers hold the values of the request. -/
theorem C86_write_registers {r : Refs} (a q : UInt16) (bc : UInt8) (p : Bytes)
    (h0 : eCallHooks R "modbus.Slave.handle_request" { slave := some sl, data := .msg (16 :: (word a ++ word q ++ [bc] ++ p)) } s = (.ok none, s1))
    (h1 : eCallHooks R "modbus.Slave.handle_write_multiple_registers_request" { slave := some sl, data := .msg (16 :: (word a ++ word q ++ [bc] ++ p)) } s1 = (.ok v, s2))
    (g : Sound s2.1 sl r) (hq : 1 ≤ q.toNat ∧ q.toNat ≤ 123) (hbc : bc.toNat = 2 * q.toNat) (hp : p.length = 2 * q.toNat) {i : Nat} {blk : Block}
    (hi : addressed (blocksOf s2.1 sl 3) a.toNat q.toNat = some i) (hblk : (blocksOf s2.1 sl 3)[i]? = some blk)
    (hset : ∀ x s, ∃ v s', eCallHooks R "modbus.ModbusBlock.setitem" x s = (.ok v, s') ∧ SameBlocks s.1 s'.1 ∧
      ∀ k : Nat, (a.toNat : Int) ≤ blk.start + k → blk.start + k < (a.toNat : Int) + q.toNat → s'.1.cell? ⟨r.holding, i⟩ k = s.1.cell? ⟨r.holding, i⟩ k) :
    ∃ s' b', eHandleRequest R sl (16 :: (word a ++ word q ++ [bc] ++ p)) false s = (.ok (16 :: (word a ++ word q)), s') ∧
      SameBlocks s2.1 s'.1 ∧ (s'.1.lists r.holding)[i]? = some b' ∧ b'.cells a.toNat q.toNat = Spec.payloadValues sl.unsigned p q.toNat := by
  have hi' := hi
  have hblk' := hblk
  rw [(tables g.refs).2.2.1] at hi' hblk'
  obtain ⟨blk', _, f, hb1, hb2⟩ := gbo_addressed g.refs.holding hi'
  rw [hblk'] at hb1
  cases hb1
  have hwf := (g.block (by simp) hb2).len
  have hle := f.le
  have hnn := f.nonneg
  have hstep : ∀ k s, k < q.toNat → (SameBlocks s2.1 s.1 ∧ ∀ j < k, s.1.cell? ⟨r.holding, i⟩ (((a.toNat : Int) - blk.start).toNat + j) = some (ofWord sl.unsigned (Spec.wordAt p j))) →
      ∃ s', eAssign R ⟨r.holding, i⟩ ((a.toNat : Int) - blk.start + k) (ofWord sl.unsigned (Spec.wordAt p k)) s = (.ok (), s') ∧
        (SameBlocks s2.1 s'.1 ∧ ∀ j < k + 1, s'.1.cell? ⟨r.holding, i⟩ (((a.toNat : Int) - blk.start).toNat + j) = some (ofWord sl.unsigned (Spec.wordAt p j))) := by
    rintro n t hn ⟨hs, hc⟩
    obtain ⟨b1, hb1, e1, e2, e3⟩ := hs.block (b := ⟨r.holding, i⟩) f.isBlk
    have hcast : (a.toNat : Int) - blk.start + n = (((a.toNat : Int) - blk.start).toNat + n : Nat) := by push_cast; omega
    rw [hcast]
    obtain ⟨v', t1, hx, hsb, hkeep⟩ := hset { block := some ⟨r.holding, i⟩, data := .setitem b1.start (((a.toNat : Int) - blk.start).toNat + n : Nat) [ofWord sl.unsigned (Spec.wordAt p n)] } t
    obtain ⟨b2, hb2, f1, f2, f3, hass⟩ := eAssign_keeps hb1 (i := ((a.toNat : Int) - blk.start).toNat + n) (by omega) _ hx hsb
    refine ⟨_, hass, (hs.trans hsb).trans (sameBlocks_set hb2 _ _), ?_⟩
    intro k hk
    dsimp only
    unfold Heap.cell?
    rw [block?_setBlock hb2]
    simp only [Option.bind_some]
    by_cases hkn : k = n
    · subst hkn
      rw [List.getElem?_set_self (by omega)]
    · rw [List.getElem?_set_ne (by omega)]
      have h2 := hkeep (((a.toNat : Int) - blk.start).toNat + k) (by omega) (by omega)
      unfold Heap.cell? at h2
      rw [hb2] at h2
      simp only [Option.bind_some] at h2
      rw [h2]
      exact hc k (by omega)
  obtain ⟨s', he, hJ⟩ := eWriteRegisters_inv (R := R) (sl := sl) (J := fun n s => SameBlocks s2.1 s.1 ∧
      ∀ k < n, s.1.cell? ⟨r.holding, i⟩ (((a.toNat : Int) - blk.start).toNat + k) = some (ofWord sl.unsigned (Spec.wordAt p k)))
    a q bc p h0 h1 g.refs hq hbc hp hi hblk hstep ⟨SameBlocks.refl, fun k hk => absurd hk (by omega)⟩
  obtain ⟨b', hb', e1, e2, e3⟩ := hJ.1.block (b := ⟨r.holding, i⟩) f.isBlk
  refine ⟨s', b', he, hJ.1, hb', ?_⟩
  have hl : (Spec.payloadValues sl.unsigned p q.toNat).length = q.toNat := by simp [Spec.payloadValues]
  have := cells_of_cell? hb' (a := a.toNat) (vs := Spec.payloadValues sl.unsigned p q.toNat) (by omega) (fun k hk => by
    rw [hl] at hk
    rw [e1, hJ.2 k hk]
    simp [Spec.payloadValues])
  rwa [hl] at this

/-- **C86 (one register).** Whatever the functions called before the assignment change - also the register itself - the register holds the value of the request afterwards: a function
    cannot replace the value, it can only refuse it by raising. -/
theorem C86_write_register {r : Refs} (a w : UInt16)
    (h0 : eCallHooks R "modbus.Slave.handle_request" { slave := some sl, data := .msg (6 :: (word a ++ word w)) } s = (.ok none, s1))
    (h1 : eCallHooks R "modbus.Slave.handle_write_single_register_request" { slave := some sl, data := .msg (6 :: (word a ++ word w)) } s1 = (.ok v, s2))
    (g : Sound s2.1 sl r) {i : Nat} (hi : addressed (blocksOf s2.1 sl 3) a.toNat 1 = some i) (hset : KeepsBlocks R) :
    ∃ s' b', eHandleRequest R sl (6 :: (word a ++ word w)) false s = (.ok (6 :: (word a ++ word w)), s') ∧
      SameBlocks s2.1 s'.1 ∧ (s'.1.lists r.holding)[i]? = some b' ∧ b'.cells a.toNat 1 = [ofWord sl.unsigned w] := by
  rw [(tables g.refs).2.2.1] at hi
  obtain ⟨blk, hg, f, hb1, hb2⟩ := gbo_addressed g.refs.holding hi
  have hwf := (g.block (by simp) hb2).len
  have hle := f.le
  have hnn := f.nonneg
  obtain ⟨v', t1, hx, hsb⟩ := hset { block := some ⟨r.holding, i⟩, data := .setitem blk.start (((a.toNat : Int) - blk.start).toNat : Nat) [ofWord sl.unsigned w] } s2
  obtain ⟨b2, hb2, f1, f2, f3, hass⟩ := eAssign_keeps (bk := ⟨r.holding, i⟩) f.isBlk (i := ((a.toNat : Int) - blk.start).toNat) (by omega) _ hx hsb
  have e : Modbus.slice (6 :: (word a ++ word w)) 1 5 = word a ++ word w := by simp [Modbus.slice, word]
  have hn := block?_setBlock hb2 { b2 with data := b2.data.set ((a.toNat : Int) - blk.start).toNat (ofWord sl.unsigned w) }
  refine ⟨(t1.1.setBlock ⟨r.holding, i⟩ { b2 with data := b2.data.set ((a.toNat : Int) - blk.start).toNat (ofWord sl.unsigned w) }, t1.2), _, eHandle_ok h0 (f := gWriteSingleRegister (effEnv R sl)) rfl (by simp [word]) ?_, hsb.trans (sameBlocks_set hb2 _ _), hn, ?_⟩
  · unfold gWriteSingleRegister
    rw [PyM.bind_apply]
    unfold Env.hook_
    rw [PyM.bind_apply, show (effEnv R sl).hook "modbus.Slave.handle_write_single_register_request" _ s1 = (.ok v, s2) from h1]
    show ((PyM.lift (structUnpack (be [Code.H, regCode sl]) (slice (6 :: (word a ++ word w)) 1 5)) >>= _ : PyM (Heap × ω) Bytes) s2) = _
    rw [PyM.bind_apply, e, structUnpack_HReg]
    dsimp only [PyM.lift_apply]
    rw [PyM.bind_apply,
      show (effEnv R sl).locate defines.HOLDING_REGISTERS a.toNat 1 s2 = (.ok (⟨r.holding, i⟩, (a.toNat : Int) - blk.start), s2) from by
        show ((getBlockAndOffset sl _ _ _ s2.1).1, ((getBlockAndOffset sl _ _ _ s2.1).2, s2.2)) = _
        rw [hg]]
    dsimp only
    rw [PyM.bind_apply]
    rw [show (a.toNat : Int) - blk.start = (((a.toNat : Int) - blk.start).toNat : Nat) by omega]
    rw [show (effEnv R sl).assign ⟨r.holding, i⟩ _ ((effEnv R sl).cell (ofWord sl.unsigned w)) s2 = _ from hass]
    rfl
  · refine cells_of_cell? hn (vs := [ofWord sl.unsigned w]) (by dsimp only; omega) ?_
    intro k hk
    have : k = 0 := by simpa using hk
    subst this
    unfold Heap.cell?
    rw [hn]
    simp only [Option.bind_some, f1, Nat.add_zero, List.getElem_cons_zero]
    rw [List.getElem?_set_self (by omega)]

end

/-! ## Functions that only watch -/

section
variable {α β : Type}

/-- what the program may go through: reflexive and transitive -/
class Passing (Q : ω → ω → Prop) : Prop where
  refl : ∀ w, Q w w
  trans : ∀ a b c, Q a b → Q b c → Q a c

instance : Passing (fun _ _ : ω => True) := ⟨fun _ => trivial, fun _ _ _ _ _ => trivial⟩

variable (Q : ω → ω → Prop)

/-- `g` does to the memory what `f` does, and gives the same result; the program changes within `Q` -/
def Track (f : PyM (Heap × ω) α) (g : PyM Heap α) : Prop := ∀ s, g s.1 = ((f s).1, (f s).2.1) ∧ Q s.2 (f s).2.2

variable {Q} [Passing Q]

theorem Track.bind {f : PyM (Heap × ω) α} {g : PyM Heap α} {k : α → PyM (Heap × ω) β} {k' : α → PyM Heap β} (hf : Track Q f g) (hk : ∀ a, Track Q (k a) (k' a)) :
    Track Q (f >>= k) (g >>= k') := by
  intro s
  obtain ⟨h, hq⟩ := hf s
  rw [PyM.bind_apply, PyM.bind_apply, h]
  rcases hr : f s with ⟨r, s'⟩
  rw [hr] at hq
  cases r with
  | ok a => exact ⟨(hk a s').1, Passing.trans _ _ _ hq (hk a s').2⟩
  | error e => exact ⟨rfl, hq⟩

theorem Track.lift (x : Except PyErr α) : Track Q (PyM.lift x : PyM (Heap × ω) α) (PyM.lift x) := fun _ => ⟨rfl, Passing.refl _⟩
theorem Track.raise (e : PyErr) : Track Q (PyM.raise e : PyM (Heap × ω) α) (PyM.raise e) := fun _ => ⟨rfl, Passing.refl _⟩
theorem Track.ret (a : α) : Track Q (Pure.pure a : PyM (Heap × ω) α) (Pure.pure a) := fun _ => ⟨rfl, Passing.refl _⟩
omit [Passing Q] in
theorem Track.ite {c : Prop} [Decidable c] {f1 f2 : PyM (Heap × ω) α} {g1 g2 : PyM Heap α} (h1 : Track Q f1 g1) (h2 : Track Q f2 g2) : Track Q (if c then f1 else f2) (if c then g1 else g2) := by
  split <;> assumption
theorem Track.tryExcept {f : PyM (Heap × ω) α} {g : PyM Heap α} {k : PyErr → PyM (Heap × ω) α} {k' : PyErr → PyM Heap α} (hf : Track Q f g) (hk : ∀ e, Track Q (k e) (k' e)) :
    Track Q (PyM.tryExcept f k) (PyM.tryExcept g k') := by
  intro s
  obtain ⟨h, hq⟩ := hf s
  rw [PyM.tryExcept_apply, PyM.tryExcept_apply, h]
  rcases hr : f s with ⟨r, s'⟩
  rw [hr] at hq
  cases r with
  | ok a => exact ⟨rfl, hq⟩
  | error e => exact ⟨(hk e s').1, Passing.trans _ _ _ hq (hk e s').2⟩

/-- the functions of this name do not raise and leave the memory of the slaves alone; they may change the program -/
def Watches (R : ERegistry ω) (name : String) : Prop := ∀ a s, ∃ v w, eCallHooks R name a s = (.ok v, (s.1, w))

variable (Q) in
/-- they change the program within `Q` -/
def WatchesQ (R : ERegistry ω) (name : String) : Prop := ∀ a s, ∃ v w, eCallHooks R name a s = (.ok v, (s.1, w)) ∧ Q s.2 w

variable {R : ERegistry ω} {sl : Slave}

theorem WatchesQ.hook {name : String} (h : WatchesQ Q R name) (a : HookArg) : Track Q ((effEnv R sl).hook_ name a) ((intEnv [] sl).hook_ name a) := by
  intro s
  obtain ⟨v, w, hv, hq⟩ := h { slave := some sl, data := a } s
  unfold Env.hook_
  rw [PyM.bind_apply, PyM.bind_apply, show (effEnv R sl).hook name a s = (.ok v, (s.1, w)) from hv]
  exact ⟨rfl, hq⟩

variable (hw : ∀ name, name ∉ ["modbus.Slave.handle_request", "modbus.Server.before_handle_request", "modbus.Server.after_handle_request"] → WatchesQ Q R name)
include hw

theorem track_assign (b : BlockRef) (i v : Int) : Track Q ((effEnv R sl).assign b i v) ((intEnv [] sl).assign b i v) := by
  intro s
  show setItem [] b i v s.1 = ((eAssign R b i v s).1, (eAssign R b i v s).2.1) ∧ Q s.2 (eAssign R b i v s).2.2
  unfold eAssign
  rcases hb : s.1.block? b with _ | blk
  · unfold setItem; rw [hb]; exact ⟨rfl, Passing.refl _⟩
  · obtain ⟨v', w, hv, hq⟩ := hw "modbus.ModbusBlock.setitem" (by decide) { block := some b, data := .setitem blk.start i [v] } s
    dsimp only
    rw [hv]
    exact ⟨rfl, hq⟩

theorem track_regs (c : Code) (b : BlockRef) (off : Int) (pdu : Bytes) (base n i : Nat) (cnt : Int) :
    Track Q (gWriteRegsLoop (effEnv R sl) c b off pdu base n i cnt) (gWriteRegsLoop (intEnv [] sl) c b off pdu base n i cnt) := by
  induction n generalizing i cnt with
  | zero => exact Track.ret _
  | succ n ih => rw [gWriteRegsLoop, gWriteRegsLoop]; exact (Track.lift _).bind fun v => (track_assign hw b _ v).bind fun _ => ih _ _

theorem track_inner (b : BlockRef) (off q bv : Int) (i : Nat) (js : List Nat) (cnt : Int) :
    Track Q (gWriteCoilsInner (effEnv R sl) b off q bv i js cnt) (gWriteCoilsInner (intEnv [] sl) b off q bv i js cnt) := by
  induction js generalizing cnt with
  | nil => exact Track.ret _
  | cons j js ih => rw [gWriteCoilsInner, gWriteCoilsInner]; exact Track.ite (Track.ret _) ((track_assign hw _ _ _).bind fun _ => ih _)

theorem track_outer (c : Code) (b : BlockRef) (off q : Int) (pdu : Bytes) (is : List Nat) (cnt : Int) :
    Track Q (gWriteCoilsOuter (effEnv R sl) c b off q pdu is cnt) (gWriteCoilsOuter (intEnv [] sl) c b off q pdu is cnt) := by
  induction is generalizing cnt with
  | nil => exact Track.ret _
  | cons j js ih =>
    rw [gWriteCoilsOuter, gWriteCoilsOuter]
    exact Track.ite (Track.ret _) ((Track.lift _).bind fun _ => (track_inner hw _ _ _ _ _ _ _).bind fun _ => ih _)

theorem track_digital (bt : Int) (pdu : Bytes) : Track Q (gReadDigital (effEnv R sl) bt pdu) (gReadDigital (intEnv [] sl) bt pdu) := by
  unfold gReadDigital
  refine (Track.lift _).bind fun l => ?_
  split
  · exact Track.ite (Track.raise _) (Track.bind (fun _ => ⟨rfl, Passing.refl _⟩) fun p => Track.bind (fun _ => ⟨rfl, Passing.refl _⟩) fun _ => (Track.lift _).bind fun _ => Track.lift _)
  · exact Track.raise _

theorem track_registers (bt : Int) (pdu : Bytes) : Track Q (gReadRegisters (effEnv R sl) bt pdu) (gReadRegisters (intEnv [] sl) bt pdu) := by
  unfold gReadRegisters
  refine (Track.lift _).bind fun l => ?_
  split
  · exact Track.ite (Track.raise _) (Track.bind (fun _ => ⟨rfl, Passing.refl _⟩) fun p => Track.bind (fun _ => ⟨rfl, Passing.refl _⟩) fun _ => (Track.lift _).bind fun _ => Track.lift _)
  · exact Track.raise _

theorem track_map (fc : Int) : (gFnCodeMap (effEnv R sl) fc = none ∧ gFnCodeMap (intEnv [] sl) fc = none) ∨
    ∃ f g, gFnCodeMap (effEnv R sl) fc = some f ∧ gFnCodeMap (intEnv [] sl) fc = some g ∧ ∀ pdu, Track Q (f pdu) (g pdu) := by
  unfold gFnCodeMap
  by_cases h1 : fc = defines.READ_COILS
  · rw [if_pos h1, if_pos h1]; exact .inr ⟨_, _, rfl, rfl, fun pdu => ((hw _ (by decide)).hook _).bind fun _ => track_digital hw _ _⟩
  rw [if_neg h1, if_neg h1]
  by_cases h2 : fc = defines.READ_DISCRETE_INPUTS
  · rw [if_pos h2, if_pos h2]; exact .inr ⟨_, _, rfl, rfl, fun pdu => ((hw _ (by decide)).hook _).bind fun _ => track_digital hw _ _⟩
  rw [if_neg h2, if_neg h2]
  by_cases h3 : fc = defines.READ_INPUT_REGISTERS
  · rw [if_pos h3, if_pos h3]; exact .inr ⟨_, _, rfl, rfl, fun pdu => ((hw _ (by decide)).hook _).bind fun _ => track_registers hw _ _⟩
  rw [if_neg h3, if_neg h3]
  by_cases h4 : fc = defines.READ_HOLDING_REGISTERS
  · rw [if_pos h4, if_pos h4]; exact .inr ⟨_, _, rfl, rfl, fun pdu => ((hw _ (by decide)).hook _).bind fun _ => track_registers hw _ _⟩
  rw [if_neg h4, if_neg h4]
  by_cases h5 : fc = defines.READ_EXCEPTION_STATUS
  · rw [if_pos h5, if_pos h5]; exact .inr ⟨_, _, rfl, rfl, fun pdu => ((hw _ (by decide)).hook _).bind fun _ => Track.lift _⟩
  rw [if_neg h5, if_neg h5]
  by_cases h6 : fc = defines.WRITE_SINGLE_COIL
  · rw [if_pos h6, if_pos h6]
    refine .inr ⟨_, _, rfl, rfl, fun pdu => ?_⟩
    unfold gWriteSingleCoil
    refine ((hw _ (by decide)).hook _).bind fun _ => (Track.lift _).bind fun l => ?_
    split
    · refine Track.bind (fun _ => ⟨rfl, Passing.refl _⟩) fun p => ?_
      exact Track.ite ((track_assign hw _ _ _).bind fun _ => Track.ret _) (Track.ite ((track_assign hw _ _ _).bind fun _ => Track.ret _) ((Track.raise _).bind fun _ => Track.ret _))
    · exact Track.raise _
  rw [if_neg h6, if_neg h6]
  by_cases h7 : fc = defines.WRITE_SINGLE_REGISTER
  · rw [if_pos h7, if_pos h7]
    refine .inr ⟨_, _, rfl, rfl, fun pdu => ?_⟩
    unfold gWriteSingleRegister
    refine ((hw _ (by decide)).hook _).bind fun _ => (Track.lift _).bind fun l => ?_
    split
    · exact Track.bind (fun _ => ⟨rfl, Passing.refl _⟩) fun p => (track_assign hw _ _ _).bind fun _ => Track.ret _
    · exact Track.raise _
  rw [if_neg h7, if_neg h7]
  by_cases h8 : fc = defines.WRITE_MULTIPLE_COILS
  · rw [if_pos h8, if_pos h8]
    refine .inr ⟨_, _, rfl, rfl, fun pdu => ?_⟩
    unfold gWriteMultipleCoils
    refine ((hw _ (by decide)).hook _).bind fun _ => (Track.lift _).bind fun l => ?_
    split
    · exact Track.ite (Track.raise _) (Track.bind (fun _ => ⟨rfl, Passing.refl _⟩) fun p => (track_outer hw _ _ _ _ _ _ _).bind fun _ => Track.lift _)
    · exact Track.raise _
  rw [if_neg h8, if_neg h8]
  by_cases h9 : fc = defines.WRITE_MULTIPLE_REGISTERS
  · rw [if_pos h9, if_pos h9]
    refine .inr ⟨_, _, rfl, rfl, fun pdu => ?_⟩
    unfold gWriteMultipleRegisters
    refine ((hw _ (by decide)).hook _).bind fun _ => (Track.lift _).bind fun l => ?_
    split
    · exact Track.ite (Track.raise _) (Track.bind (fun _ => ⟨rfl, Passing.refl _⟩) fun p => (track_regs hw _ _ _ _ _ _ _ _).bind fun _ => Track.lift _)
    · exact Track.raise _
  rw [if_neg h9, if_neg h9]
  by_cases h10 : fc = defines.MASK_WRITE_REGISTER
  · rw [if_pos h10, if_pos h10]
    refine .inr ⟨_, _, rfl, rfl, fun pdu => ?_⟩
    unfold gMaskWriteRegister
    refine ((hw _ (by decide)).hook _).bind fun _ => (Track.lift _).bind fun l => ?_
    split
    · exact Track.bind (fun _ => ⟨rfl, Passing.refl _⟩) fun p => Track.bind (fun _ => ⟨rfl, Passing.refl _⟩) fun _ => (Track.lift _).bind fun _ => (track_assign hw _ _ _).bind fun _ => Track.ret _
    · exact Track.raise _
  rw [if_neg h10, if_neg h10]
  by_cases h11 : fc = defines.READ_WRITE_MULTIPLE_REGISTERS
  · rw [if_pos h11, if_pos h11]
    refine .inr ⟨_, _, rfl, rfl, fun pdu => ?_⟩
    unfold gReadWriteMultipleRegisters
    refine ((hw _ (by decide)).hook _).bind fun _ => (Track.lift _).bind fun l => ?_
    split
    · refine Track.ite (Track.raise _) (Track.bind (fun _ => ⟨rfl, Passing.refl _⟩) fun p => Track.bind (fun _ => ⟨rfl, Passing.refl _⟩) fun _ => (Track.lift _).bind fun _ => (Track.lift _).bind fun _ => ?_)
      exact Track.ite (Track.raise _) (Track.bind (fun _ => ⟨rfl, Passing.refl _⟩) fun p => (track_regs hw _ _ _ _ _ _ _ _).bind fun _ => Track.ret _)
    · exact Track.raise _
  rw [if_neg h11, if_neg h11]
  exact .inl ⟨rfl, rfl⟩

theorem watch_gen (h0 : ∀ a s, ∃ w, eCallHooks R "modbus.Slave.handle_request" a s = (.ok none, (s.1, w)) ∧ Q s.2 w) (pdu : Bytes) (b : Bool) (s : Heap × ω) :
    (eHandleRequest R sl pdu b s).1 = (handleRequest [] sl pdu b s.1).1 ∧ (eHandleRequest R sl pdu b s).2.1 = (handleRequest [] sl pdu b s.1).2 ∧ Q s.2 (eHandleRequest R sl pdu b s).2.2 := by
  have hd : ∀ fc, Track Q (gDispatch (effEnv R sl) fc pdu b) (gDispatch (intEnv [] sl) fc pdu b) := by
    intro fc
    unfold gDispatch
    rcases track_map (sl := sl) hw fc with ⟨h1, h2⟩ | ⟨f, g, h1, h2, h3⟩
    · rw [h1, h2]; exact Track.raise _
    · rw [h1, h2]
      dsimp only
      refine Track.ite (Track.raise _) ((h3 pdu).bind fun d => Track.ite (Track.ite (((hw _ (by decide)).hook _).bind fun _ => Track.ret _) ?_) (Track.raise _))
      exact (Track.lift _).bind fun _ => Track.ret _
  have hk : Track Q (do
      let fc ← PyM.lift (unpackSingle Code.B (slice pdu 0 1))
      PyM.tryExcept (gDispatch (effEnv R sl) fc pdu b) (fun e =>
        match e with
        | .modbusError code => do
            (effEnv R sl).hook_ "modbus.Slave.on_exception" (.exc (.modbusError code) pdu)
            PyM.lift (structPack (be [Code.B, Code.B]) [fc + 128, code])
        | e => PyM.raise e)) (do
      let fc ← PyM.lift (unpackSingle Code.B (slice pdu 0 1))
      PyM.tryExcept (gDispatch (intEnv [] sl) fc pdu b) (fun e =>
        match e with
        | .modbusError code => do
            (intEnv [] sl).hook_ "modbus.Slave.on_exception" (.exc (.modbusError code) pdu)
            PyM.lift (structPack (be [Code.B, Code.B]) [fc + 128, code])
        | e => PyM.raise e)) := by
    refine (Track.lift _).bind fun fc => (hd fc).tryExcept fun e => ?_
    cases e <;> first | exact Track.raise _ | exact ((hw _ (by decide)).hook _).bind fun _ => Track.lift _
  obtain ⟨w, hx, hq⟩ := h0 { slave := some sl, data := .msg pdu } s
  have := hk (s.1, w)
  rw [← generic_handle]
  unfold eHandleRequest gHandleRequest
  rw [show (effEnv R sl).hook "modbus.Slave.handle_request" (.msg pdu) s = (.ok none, (s.1, w)) from hx,
    show (intEnv [] sl).hook "modbus.Slave.handle_request" (.msg pdu) s.1 = (.ok none, s.1) from rfl]
  exact ⟨(congrArg Prod.fst this.1).symm, (congrArg Prod.snd this.1).symm, Passing.trans _ _ _ hq this.2⟩

omit hw in
/-- **C86 (watching).** Functions that leave the memory of the slaves alone and do not raise, and of which those of `handle_request` answer None, have no influence on the slave: every
    request gets the answer, and has the effect on the memory, that it has without them. -/
theorem C86_watch (hw : ∀ name, name ≠ "modbus.Slave.handle_request" → Watches R name)
    (h0 : ∀ a s, ∃ w, eCallHooks R "modbus.Slave.handle_request" a s = (.ok none, (s.1, w))) (pdu : Bytes) (b : Bool) (s : Heap × ω) :
    (eHandleRequest R sl pdu b s).1 = (handleRequest [] sl pdu b s.1).1 ∧ (eHandleRequest R sl pdu b s).2.1 = (handleRequest [] sl pdu b s.1).2 := by
  obtain ⟨h1, h2, -⟩ := watch_gen (Q := fun _ _ => True) (sl := sl) (fun name hn a s => by
    obtain ⟨v, w, h⟩ := hw name (fun e => hn (by simp [e])) a s
    exact ⟨v, w, h, trivial⟩) (fun a s => by obtain ⟨w, h⟩ := h0 a s; exact ⟨w, h, trivial⟩) pdu b s
  exact ⟨h1, h2⟩

end

/-- **C86 (every write is announced).** Functions that write down what they are told: for a function-16 request that is executed they are called once for every register, in ascending order, each time
    with the block, the index in it and the value about to be stored. -/
theorem C86_announced {R : ERegistry ω} {sl : Slave} {r : Refs} {h : Heap} {w : ω} (note : ω → EArg → ω)
    (hset : ∀ x s, eCallHooks R "modbus.ModbusBlock.setitem" x s = (.ok none, (s.1, note s.2 x)))
    (h0 : ∀ a s, eCallHooks R "modbus.Slave.handle_request" a s = (.ok none, s)) (h1 : Idle R "modbus.Slave.handle_write_multiple_registers_request") (g : Sound h sl r)
    (a q : UInt16) (bc : UInt8) (p : Bytes) (hq : 1 ≤ q.toNat ∧ q.toNat ≤ 123) (hbc : bc.toNat = 2 * q.toNat) (hp : p.length = 2 * q.toNat) {i : Nat} {blk : Block}
    (hi : addressed (blocksOf h sl 3) a.toNat q.toNat = some i) (hblk : (blocksOf h sl 3)[i]? = some blk) :
    ∃ h', eHandleRequest R sl (16 :: (word a ++ word q ++ [bc] ++ p)) false (h, w) = (.ok (16 :: (word a ++ word q)), (h',
      ((List.range q.toNat).map fun (k : Nat) => ({ block := some ⟨r.holding, i⟩, data := .setitem blk.start ((a.toNat : Int) - blk.start + k) [ofWord sl.unsigned (Spec.wordAt p k)] } : EArg)).foldl note w)) := by
  have hi' := hi
  have hblk' := hblk
  rw [(tables g.refs).2.2.1] at hi' hblk'
  obtain ⟨blk', _, f, hb1, hb2⟩ := gbo_addressed g.refs.holding hi'
  rw [hblk'] at hb1
  cases hb1
  have hwf := (g.block (by simp) hb2).len
  have hle := f.le
  have hnn := f.nonneg
  obtain ⟨v1, hv1⟩ := h1 { slave := some sl, data := .msg (16 :: (word a ++ word q ++ [bc] ++ p)) } (h, w)
  obtain ⟨s', he, hJ⟩ := eWriteRegisters_inv (R := R) (sl := sl) (s := (h, w)) (J := fun n s => SameBlocks h s.1 ∧ s.2 =
      ((List.range n).map fun (k : Nat) => ({ block := some ⟨r.holding, i⟩, data := .setitem blk.start ((a.toNat : Int) - blk.start + k) [ofWord sl.unsigned (Spec.wordAt p k)] } : EArg)).foldl note w)
    a q bc p (h0 _ _) hv1 g.refs hq hbc hp hi hblk (by
      rintro n t hn ⟨hs, hc⟩
      obtain ⟨b1, hb1, e1, e2, e3⟩ := hs.block (b := ⟨r.holding, i⟩) f.isBlk
      have hcast : (a.toNat : Int) - blk.start + n = (((a.toNat : Int) - blk.start).toNat + n : Nat) := by push_cast; omega
      have hx := hset { block := some ⟨r.holding, i⟩, data := .setitem b1.start (((a.toNat : Int) - blk.start).toNat + n : Nat) [ofWord sl.unsigned (Spec.wordAt p n)] } t
      obtain ⟨b2, hb2, f1, f2, f3, hass⟩ := eAssign_keeps hb1 (i := ((a.toNat : Int) - blk.start).toNat + n) (by omega) _ hx SameBlocks.refl
      rw [hcast]
      refine ⟨_, hass, hs.trans (sameBlocks_set hb2 _ _), ?_⟩
      dsimp only
      rw [List.range_succ, List.map_append, List.foldl_append, ← hc, List.map_singleton, List.foldl_cons, List.foldl_nil, hcast, e1]) ⟨SameBlocks.refl, rfl⟩
  refine ⟨s'.1, ?_⟩
  rw [he, ← hJ.2]

/-! ## Fresh values -/

/-- A function that, called with a slave, stores what the program measures now: `slave.set_values(name, a0, measured)`. -/
def refresh (name : String) (a0 : Int) (measured : ω → List Int) : EHook ω where
  id := 0
  fn := fun x s =>
    match x.slave with
    | none => (.ok none, s)
    | some sl =>
      match setValues [] name a0 (.seq (measured s.2)) sl s.1 with
      | (.ok _, h) => (.ok none, (h, s.2))
      | (.error e, h) => (.error e, (h, s.2))

/-- `install_hook("modbus.Slave.handle_read_holding_registers_request", refresh)` -/
def refreshing (name : String) (a0 : Int) (measured : ω → List Int) : ERegistry ω :=
  [("modbus.Slave.handle_read_holding_registers_request", [refresh name a0 measured])]

/-- requests to read holding registers, one after the other; before each the world has changed -/
def polls (R : ERegistry ω) (sl : Slave) : List (ω × UInt16 × UInt16) → Heap × ω → List (Except PyErr Bytes)
  | [], _ => []
  | (w, a, q) :: ps, s =>
    (eHandleRequest R sl (3 :: (word a ++ word q)) false (s.1, w)).1 :: polls R sl ps (eHandleRequest R sl (3 :: (word a ++ word q)) false (s.1, w)).2

/-- the part of the measured values, which start at address `a0`, that a request asks for -/
def part (a0 : Int) (vs : List Int) (a : Int) (n : Nat) : List Int := (vs.drop (a - a0).toNat).take n

theorem overwritten_part {b : Block} (hw : b.WF) {a0 a : Int} {vs : List Int} {n : Nat} (h0 : b.start ≤ a0) (h1 : a0 + vs.length ≤ b.start + b.size) (h2 : a0 ≤ a)
    (h3 : a + n ≤ a0 + vs.length) : (b.overwritten a0 vs).cells a n = part a0 vs a n := by
  have hl := hw.len
  have e : (b.data.take (a0 - b.start).toNat).length = (a0 - b.start).toNat := by simp; omega
  unfold Block.cells Block.overwritten part
  dsimp only
  rw [List.append_assoc, show (a - b.start).toNat = (b.data.take (a0 - b.start).toNat).length + (a - a0).toNat by omega, List.drop_length_add_append,
    List.drop_append_of_le_length (by omega), List.take_append_of_le_length (by simp; omega)]

/-- the same blocks of a table -/
def Layout (L : List Block) : List (Int × Int) := L.map fun b => (b.start, b.size)

theorem layout_set {L : List Block} {i : Nat} {b : Block} (hb : L[i]? = some b) {c : Block} (h1 : c.start = b.start) (h2 : c.size = b.size) : Layout (L.set i c) = Layout L := by
  unfold Layout
  rw [List.map_set, h1, h2]
  apply List.ext_getElem?
  intro k
  rw [List.getElem?_set]
  split
  · rename_i hk
    subst hk
    rw [List.getElem?_map, hb]
    split
    · rfl
    · rename_i hn
      have := (List.getElem?_eq_some_iff.mp hb).1
      simp at hn; omega
  · rfl

theorem addressed_layout {L L' : List Block} (h : Layout L' = Layout L) (a n : Int) : addressed L' a n = addressed L a n := by
  have key : ∀ L : List Block, addressed L a n = (Layout L).findIdx? (fun p => decide (p.1 ≤ a ∧ a + n ≤ p.1 + p.2)) := by
    intro L
    unfold addressed Layout
    rw [List.findIdx?_map]
    rfl
  rw [key, key, h]

theorem findStart_layout {L L' : List Block} (h : Layout L' = Layout L) (st : Int) : L'.findIdx? (fun b => b.start = st) = L.findIdx? (fun b => b.start = st) := by
  have key : ∀ L : List Block, L.findIdx? (fun b => b.start = st) = (Layout L).findIdx? (fun p => decide (p.1 = st)) := by
    intro L
    unfold Layout
    rw [List.findIdx?_map]
    rfl
  rw [key, key, h]

/-- the block of holding registers called `name` is number `i` of the table, starts at `st` and has `n` registers -/
structure Named (h : Heap) (sl : Slave) (name : String) (i : Nat) (st n : Int) : Prop where
  name : Dict.get? sl.names name = some (3, st)
  first : (blocksOf h sl 3).findIdx? (fun b => b.start = st) = some i
  size : ∃ b, (blocksOf h sl 3)[i]? = some b ∧ b.start = st ∧ b.size = n

theorem set_named {h : Heap} {sl : Slave} {r : Refs} (g : Sound h sl r) {name : String} {i : Nat} {st n : Int} (hn : Named h sl name i st n) {a0 : Int} {vs : List Int} (h0 : st ≤ a0)
    (h1 : a0 + vs.length ≤ st + n) (hf : ∀ v ∈ vs, fits sl.unsigned v) :
    ∃ h', setValues [] name a0 (.seq vs) sl h = (.ok (), h') ∧ Sound h' sl r ∧ StoredIn h h' sl 3 i a0 vs := by
  obtain ⟨b, hb, hs, hz⟩ := hn.size
  have hfi := hn.first
  rw [(tables g.refs).2.2.1] at hb hfi
  have hbm : b ∈ h.lists r.holding := List.mem_of_getElem? hb
  have hwf := g.block (by simp) hbm
  have hl := hwf.len
  have hblk : h.block? ⟨r.holding, i⟩ = some b := hb
  have hgb : getBlock sl name h = (.ok ⟨r.holding, i⟩, h) := by
    unfold getBlock
    rw [hn.name]
    dsimp only
    rw [show Dict.get? (h.dicts sl.mem) 3 = some r.holding from g.refs.holding]
    dsimp only
    rw [hfi]
  have he : setValues [] name a0 (.seq vs) sl h = (.ok (), (setValues [] name a0 (.seq vs) sl h).2) := by
    have : (setValues [] name a0 (.seq vs) sl h).1 = .ok () := by
      simp only [setValues, PyM.bind_apply, hgb, PyM.get_apply, hblk]
      rw [if_neg (by omega)]
      unfold setSlice
      rw [hblk]
      rfl
    exact Prod.ext this rfl
  obtain ⟨b', blk', e1, e2, e3, e4, e5⟩ := setValues_ok he
  rw [hgb] at e1
  cases e1
  rw [hblk] at e2
  cases e2
  have hst := g.setHolding (a := a0) (n := vs.length) (i := i) (off := a0 - b.start) (blk := b) ⟨rfl, hblk, rfl, e3, by simpa [Values.toList] using e4⟩ (vs := vs) rfl
  have e6 := e5 hwf
  refine ⟨_, he, ?_, ?_⟩
  · rw [e6]; exact hst.1 hf
  · rw [e6]; exact hst.2

theorem StoredIn.layout {h h' : Heap} {sl : Slave} {t : Int} {i : Nat} {a : Int} {vs : List Int} (hs : StoredIn h h' sl t i a vs) : Layout (blocksOf h' sl t) = Layout (blocksOf h sl t) := by
  obtain ⟨b, h1, h2⟩ := hs.table
  rw [h2]
  exact layout_set h1 rfl rfl

theorem Named.layout {h h' : Heap} {sl : Slave} {name : String} {i : Nat} {st n : Int} (hn : Named h sl name i st n) (hl : Layout (blocksOf h' sl 3) = Layout (blocksOf h sl 3)) :
    Named h' sl name i st n := by
  refine ⟨hn.name, by rw [findStart_layout hl]; exact hn.first, ?_⟩
  obtain ⟨b, h1, h2, h3⟩ := hn.size
  have : (Layout (blocksOf h' sl 3))[i]? = some (st, n) := by
    rw [hl]
    unfold Layout
    rw [List.getElem?_map, h1, ← h2, ← h3]
    rfl
  unfold Layout at this
  rw [List.getElem?_map] at this
  cases hb : (blocksOf h' sl 3)[i]? with
  | none => rw [hb] at this; cases this
  | some b' => rw [hb] at this; cases this; exact ⟨b', rfl, rfl, rfl⟩

theorem fresh_one {sl : Slave} {r : Refs} {name : String} {a0 : Int} {measured : ω → List Int} {h : Heap} (g : Sound h sl r) {i : Nat} {st n : Int} (hn : Named h sl name i st n)
    (w : ω) (h0 : st ≤ a0) (h1 : a0 + (measured w).length ≤ st + n) (hf : ∀ v ∈ measured w, fits sl.unsigned v) (a q : UInt16) (hq : 1 ≤ q.toNat ∧ q.toNat ≤ 125) (ha : a0 ≤ a.toNat)
    (hq2 : (a.toNat : Int) + q.toNat ≤ a0 + (measured w).length) (hi : addressed (blocksOf h sl 3) a.toNat q.toNat = some i) :
    ∃ h', eHandleRequest (refreshing name a0 measured) sl (3 :: (word a ++ word q)) false (h, w) =
      (.ok (3 :: UInt8.ofNat (2 * q.toNat) :: (part a0 (measured w) a.toNat q.toNat).flatMap fun v => word (toWord v)), (h', w)) ∧ Sound h' sl r ∧
      Layout (blocksOf h' sl 3) = Layout (blocksOf h sl 3) := by
  obtain ⟨h', he, g', hs⟩ := set_named g hn h0 h1 hf
  obtain ⟨b, hb1, hb2⟩ := hs.table
  obtain ⟨b', hb1', hst, hsz⟩ := hn.size
  rw [hb1] at hb1'
  cases hb1'
  have hwf : b.WF := by
    rw [(tables g.refs).2.2.1] at hb1
    exact g.block (by simp) (List.mem_of_getElem? hb1)
  have hi' : addressed (blocksOf h' sl 3) a.toNat q.toNat = some i := by rw [addressed_layout hs.layout]; exact hi
  have hget : (blocksOf h' sl 3)[i]? = some (b.overwritten a0 (measured w)) := by
    rw [hb2]
    have := (List.getElem?_eq_some_iff.mp hb1).1
    simp [this]
  have hread := C81_read_registers quiet_nil g' 3 (.inl rfl) a q hq hi' hget
  rw [overwritten_part hwf (by omega) (by omega) ha hq2] at hread
  have hk : eCallHooks (refreshing name a0 measured) "modbus.Slave.handle_read_holding_registers_request" { slave := some sl, data := .msg (3 :: (word a ++ word q)) } (h, w) = (.ok none, (h', w)) := by
    have hc : eCallLoop [refresh name a0 measured] { slave := some sl, data := .msg (3 :: (word a ++ word q)) } (h, w) = (.ok none, (h', w)) := by
      rw [eCallLoop]
      unfold refresh
      dsimp only
      rw [he]
      rfl
    unfold eCallHooks refreshing
    rw [Dict.get?, if_pos rfl]
    dsimp only
    rw [hc]
  have hbf := C86_before (R := refreshing name a0 measured) (sl := sl) (fc := 3) (rest := word a ++ word q) (b := false) (s := (h, w)) (s1 := (h, w)) (s2 := (h', w))
    (Idle.of_none (by rfl)) (Idle.of_none (by rfl)) (fun x s => ⟨none, s, rfl⟩) rfl rfl (by simp) hk
  refine ⟨h', ?_, g', hs.layout⟩
  have e2 := hbf.2.1 (by
    intro c hc
    rw [hread] at hc
    injection hc with hc
    injection hc with hc
    exact absurd hc (by decide))
  rw [hread] at hbf e2
  exact Prod.ext hbf.1 e2

/-- **C86 (fresh values).** A function installed for the reading of holding registers that stores what the program measures at that moment: every request, in every history of requests, is answered
    with the values measured when it is handled - not with those of the previous request. -/
theorem C86_fresh {sl : Slave} {r : Refs} {name : String} {a0 : Int} (measured : ω → List Int) {h : Heap} (g : Sound h sl r) {i : Nat} {st n : Int} (hn : Named h sl name i st n) (h0 : st ≤ a0)
    (hm : ∀ w, a0 + (measured w).length ≤ st + n ∧ ∀ v ∈ measured w, fits sl.unsigned v) (ps : List (ω × UInt16 × UInt16))
    (hps : ∀ x ∈ ps, 1 ≤ x.2.2.toNat ∧ x.2.2.toNat ≤ 125 ∧ a0 ≤ x.2.1.toNat ∧ (x.2.1.toNat : Int) + x.2.2.toNat ≤ a0 + (measured x.1).length ∧
      addressed (blocksOf h sl 3) x.2.1.toNat x.2.2.toNat = some i) (w0 : ω) :
    polls (refreshing name a0 measured) sl ps (h, w0) =
      ps.map fun x => .ok (3 :: UInt8.ofNat (2 * x.2.2.toNat) :: (part a0 (measured x.1) x.2.1.toNat x.2.2.toNat).flatMap fun v => word (toWord v)) := by
  induction ps generalizing h w0 with
  | nil => rfl
  | cons p ps ih =>
    rcases p with ⟨w, a, q⟩
    obtain ⟨q1, q2, q3, q4, q5⟩ := hps (w, a, q) (by simp)
    obtain ⟨h', he, g', hl⟩ := fresh_one (measured := measured) g hn w h0 (hm w).1 (hm w).2 a q ⟨q1, q2⟩ q3 q4 q5
    rw [polls, List.map_cons, he]
    dsimp only
    rw [ih g' (hn.layout hl) (fun x hx => ?_)]
    obtain ⟨a1, a2, a3, a4, a5⟩ := hps x (List.mem_cons_of_mem _ hx)
    exact ⟨a1, a2, a3, a4, by rw [addressed_layout hl]; exact a5⟩

/-! ## Instances -/

/-- a clock that the function copies into registers 100 and 101 whenever holding registers are read -/
def exClock : Nat → List Int := fun t => [(t % 65536 : Nat), (t / 65536 % 65536 : Nat)]

/-- the hypotheses of `C86_fresh`, for every history of requests -/
example (ts : List Nat) :
    polls (refreshing "B" 100 exClock) exOverlap.sl (ts.map fun t => (t, 100, 2)) (exOverlap.heap, 0) =
      ts.map fun t => .ok (3 :: 4 :: (word (toWord (t % 65536 : Nat)) ++ word (toWord (t / 65536 % 65536 : Nat)))) := by
  rw [C86_fresh exClock exOverlap_sound (name := "B") (i := 1) (st := 100) (n := 10) ⟨by decide, by decide, by decide⟩ (by omega) ?_ _ ?_ 0]
  · rw [List.map_map]
    apply List.map_congr_left
    intro t _
    simp [part, exClock]
  · intro t
    refine ⟨by simp [exClock], ?_⟩
    have hu : exOverlap.sl.unsigned = true := by decide
    rw [hu]
    intro v hv
    simp only [exClock, List.mem_cons, List.not_mem_nil, or_false] at hv
    rcases hv with rfl | rfl <;> (simp only [fits, Spec.fits, if_true]; omega)
  · intro x hx
    obtain ⟨t, _, rfl⟩ := List.mem_map.mp hx
    refine ⟨(by decide : 1 ≤ (2 : UInt16).toNat), (by decide : (2 : UInt16).toNat ≤ 125), (by decide : (100 : Int) ≤ (100 : UInt16).toNat), by simp [exClock], ?_⟩
    show addressed (blocksOf exOverlap.heap exOverlap.sl 3) 100 2 = some 1
    decide

/-- `C86_fresh` run: three reads while the clock shows 5, 70000 and 7 -/
example : polls (refreshing "B" 100 exClock) exOverlap.sl [(5, 100, 2), (70000, 100, 2), (7, 100, 1)] (exOverlap.heap, 0) =
    [.ok [3, 4, 0, 5, 0, 0], .ok [3, 4, 0x11, 0x70, 0, 1], .ok [3, 2, 0, 7]] := by decide +kernel

/-- a function that counts its calls -/
def exCounter : EHook Nat := { id := 1, fn := fun _ s => (.ok none, (s.1, s.2 + 1)) }
def exCounting : ERegistry Nat := [("modbus.ModbusBlock.setitem", [exCounter]), ("modbus.Slave.handle_request", [exCounter]), ("modbus.Slave.on_exception", [exCounter])]

theorem exCounting_calls (name : String) (a : EArg) (s : Heap × Nat) : ∃ w, eCallHooks exCounting name a s = (.ok none, (s.1, w)) := by
  have hg : Dict.get? exCounting name = some [exCounter] ∨ Dict.get? exCounting name = none := by
    unfold exCounting
    rw [Dict.get?]
    split
    · exact .inl rfl
    · rw [Dict.get?]
      split
      · exact .inl rfl
      · rw [Dict.get?]
        split
        · exact .inl rfl
        · exact .inr rfl
  unfold eCallHooks
  rcases hg with h | h
  · rw [h]; exact ⟨_, rfl⟩
  · rw [h]; exact ⟨_, rfl⟩

/-- the hypotheses of `C86_watch` -/
example (pdu : Bytes) (b : Bool) (s : Heap × Nat) : (eHandleRequest exCounting exOverlap.sl pdu b s).1 = (handleRequest [] exOverlap.sl pdu b s.1).1 :=
  (C86_watch (R := exCounting) (fun name _ a s => let ⟨w, h⟩ := exCounting_calls name a s; ⟨none, w, h⟩) (fun a s => exCounting_calls _ a s) pdu b s).1

/-- counted: one call for the request, one for each of the two registers; for a refused request one and one -/
example : (eHandleRequest exCounting exOverlap.sl [16, 0, 100, 0, 2, 4, 0, 1, 0, 2] false (exOverlap.heap, 0)).2.2 = 3 ∧
    (eHandleRequest exCounting exOverlap.sl [16, 0, 200, 0, 2, 4, 0, 1, 0, 2] false (exOverlap.heap, 0)).2.2 = 2 := by decide +kernel

/-- a function that, before every assignment, sets the register at index `k` of the block to 99 -/
def exMeddler (k : Int) : EHook Unit where
  id := 2
  fn := fun a s => match a.block with
    | none => (.ok none, s)
    | some b => (.ok none, ((setItem [] b k 99 s.1).2, s.2))
def exMeddling (k : Int) : ERegistry Unit := [("modbus.ModbusBlock.setitem", [exMeddler k])]

theorem exMeddling_keeps (k : Int) : KeepsBlocks (exMeddling k) := by
  intro a s
  rcases a with ⟨sl, bk, d⟩
  cases bk with
  | none => exact ⟨none, s, rfl, SameBlocks.refl⟩
  | some b =>
    refine ⟨none, ((setItem [] b k 99 s.1).2, s.2), rfl, ?_⟩
    have := asks_setItem (allowed := fun _ _ _ => True) (R := []) (fun _ _ _ _ _ => trivial) b k 99 s.1
    exact ⟨this.dicts, this.shape⟩

/-- the hypotheses of `C86_write_register`: the function sets the very register the request writes; the register holds the value of the request -/
example : ∃ s' b', eHandleRequest (exMeddling 2) exOverlap.sl (6 :: (word 102 ++ word 7)) false (exOverlap.heap, ()) = (.ok (6 :: (word 102 ++ word 7)), s') ∧
    SameBlocks exOverlap.heap s'.1 ∧ (s'.1.lists 2)[1]? = some b' ∧ b'.cells 102 1 = [7] :=
  C86_write_register (R := exMeddling 2) (s := (exOverlap.heap, ())) 102 7 rfl rfl exOverlap_sound (i := 1) (by decide) (exMeddling_keeps 2)

/-- The condition of `C86_write_registers` is needed: a function that, when the second register is about to be stored, changes the first one, which was stored already. -/
theorem C86_meddling : let s' := (eHandleRequest (exMeddling 0) exOverlap.sl [16, 0, 100, 0, 2, 4, 0, 1, 0, 2] false (exOverlap.heap, ())).2
    (handleRequest [] exOverlap.sl [3, 0, 100, 0, 2] false s'.1).1 = .ok [3, 4, 0, 99, 0, 2] := by decide +kernel

/-- the hypotheses of `C86_write_registers` -/
example : ∃ s' b', eHandleRequest (exMeddling 5) exOverlap.sl (16 :: (word 100 ++ word 2 ++ [4] ++ [0, 1, 0, 2])) false (exOverlap.heap, ()) = (.ok (16 :: (word 100 ++ word 2)), s') ∧
    SameBlocks exOverlap.heap s'.1 ∧ (s'.1.lists 2)[1]? = some b' ∧ b'.cells 100 2 = [1, 2] := by
  have hblk : (blocksOf exOverlap.heap exOverlap.sl 3)[1]? = some (Block.new 100 10) := by decide
  refine C86_write_registers (R := exMeddling 5) (s := (exOverlap.heap, ())) 100 2 4 [0, 1, 0, 2] rfl rfl exOverlap_sound (by decide) (by decide) (by decide) (i := 1) (by decide) hblk ?_
  intro x s
  obtain ⟨v, s', h1, h2⟩ := exMeddling_keeps 5 x s
  refine ⟨v, s', h1, h2, ?_⟩
  intro k k1 k2
  have hk : k < 2 := by
    have e1 : (100 : UInt16).toNat = 100 := rfl
    have e2 : (2 : UInt16).toNat = 2 := rfl
    have e3 : (Block.new 100 10).start = 100 := rfl
    omega
  rcases x with ⟨sl, bk, d⟩
  cases bk with
  | none =>
    have : s' = s := (congrArg Prod.snd h1).symm
    rw [this]
  | some b =>
    have : s' = ((setItem [] b 5 99 s.1).2, s.2) := (congrArg Prod.snd h1).symm
    rw [this]
    show Heap.cell? (setItem [] b 5 99 s.1).2 ⟨2, 1⟩ k = Heap.cell? s.1 ⟨2, 1⟩ k
    unfold setItem
    split
    · rename_i blk hb
      split
      · rfl
      · split
        · by_cases hbe : b = ⟨2, 1⟩
          · subst hbe
            unfold Heap.cell?
            rw [block?_setBlock hb, hb]
            simp only [Option.bind_some]
            rw [List.getElem?_set_ne (by simp; omega)]
          · unfold Heap.cell? Heap.block?
            by_cases hbl : b.list = 2
            · have hbi : b.idx ≠ 1 := fun h => hbe (by cases b; simp_all)
              dsimp only
              rw [← hbl, setBlock_lists_same]
              rw [List.getElem?_set_ne hbi]
            · rw [setBlock_lists_other _ _ _ (fun h => hbl h.symm)]
        · rfl
    · rfl

/-- a function that refuses: input registers may be read, holding registers 0..9 not before the program is ready -/
def exGate : EHook Bool := { id := 3, fn := fun _ s => if s.2 then (.ok none, s) else (.error (.modbusError 6), s) }
def exGated : ERegistry Bool := [("modbus.Slave.handle_read_holding_registers_request", [exGate])]

/-- `C86_refused`, `C86_before` run: exception 6 (device busy) until the program is ready -/
example : (eHandleRequest exGated exOverlap.sl [3, 0, 0, 0, 1] false (exOverlap.heap, false)).1 = .ok [0x83, 6] ∧
    (eHandleRequest exGated exOverlap.sl [3, 0, 0, 0, 1] false (exOverlap.heap, true)).1 = .ok [3, 2, 0, 0] := by decide +kernel

/-- the hypotheses of `C86_refused` -/
example (rest : Bytes) (h : Heap) : eHandleRequest exGated exOverlap.sl (3 :: rest) false (h, false) = (.ok [0x83, 6], (h, false)) :=
  C86_refused (R := exGated) (c := 6) (s1 := (h, false)) (s2 := (h, false)) (v := none) rfl rfl (by simp) rfl rfl

/-- the hypotheses of `C86_announced` -/
example : ∃ h', eHandleRequest [("modbus.ModbusBlock.setitem", [{ id := 4, fn := fun a s => (.ok none, (s.1, s.2 ++ [a.data])) }])] exOverlap.sl
    (16 :: (word 100 ++ word 2 ++ [4] ++ [0, 1, 0, 2])) false (exOverlap.heap, []) =
    (.ok (16 :: (word 100 ++ word 2)), (h', [HookArg.setitem 100 0 [1], .setitem 100 1 [2]])) :=
  C86_announced (r := ⟨0, 1, 2, 3⟩) (blk := Block.new 100 10) (i := 1) (fun w x => w ++ [x.data]) (fun _ _ => rfl) (fun _ _ => rfl) (Idle.of_none rfl) exOverlap_sound 100 2 4 [0, 1, 0, 2]
    (by decide) (by decide) (by decide) (by decide) (by decide)

/-! ## What calling the functions of a hook means -/

/-- the functions of a hook are called one after the other, each in the state the previous one left, until one answers or raises -/
inductive Called {ω : Type} (a : EArg) : List (EHook ω) → Heap × ω → Except PyErr (Option Bytes) → Heap × ω → Prop
  | done (s : Heap × ω) : Called a [] s (.ok none) s
  | answers {f : EHook ω} {fs : List (EHook ω)} {s s' : Heap × ω} {v : Bytes} (h : f.fn a s = (.ok (some v), s')) : Called a (f :: fs) s (.ok (some v)) s'
  | raises {f : EHook ω} {fs : List (EHook ω)} {s s' : Heap × ω} {e : PyErr} (h : f.fn a s = (.error e, s')) : Called a (f :: fs) s (.error e) s'
  | next {f : EHook ω} {fs : List (EHook ω)} {s s1 s' : Heap × ω} {r : Except PyErr (Option Bytes)} (h : f.fn a s = (.ok none, s1)) (hr : Called a fs s1 r s') :
      Called a (f :: fs) s r s'

theorem called_loop {ω : Type} {a : EArg} {fs : List (EHook ω)} {s s' : Heap × ω} {r : Except PyErr (Option Bytes)} (h : Called a fs s r s') : eCallLoop fs a s = (r, s') := by
  induction h with
  | done s => rfl
  | answers h => rw [eCallLoop]; dsimp only; rw [h]
  | raises h => rw [eCallLoop]; dsimp only; rw [h]
  | next h _ ih => rw [eCallLoop]; dsimp only; rw [h]; exact ih

/-- **C86 (calling).** The functions of a hook are called in their order, each in the state the previous one left, until one answers or raises; what they did stays, whatever the end is.
    A KeyError of a function counts as no answer (and ends the calls); a hook without functions does nothing. -/
theorem C86_called {ω : Type} (R : ERegistry ω) (name : String) (a : EArg) (s : Heap × ω) :
    (Dict.get? R name = none → eCallHooks R name a s = (.ok none, s)) ∧
    ∀ fs, Dict.get? R name = some fs →
      (∃ r s', Called a fs s r s') ∧
      (∀ r s', Called a fs s r s' → r ≠ .error .keyError → eCallHooks R name a s = (r, s')) ∧
      (∀ s', Called a fs s (.error .keyError) s' → eCallHooks R name a s = (.ok none, s')) := by
  refine ⟨fun h => by rw [eCallHooks, h], fun fs hf => ⟨?_, fun r s' hc hne => ?_, fun s' hc => ?_⟩⟩
  · clear hf
    induction fs generalizing s with
    | nil => exact ⟨_, _, .done s⟩
    | cons f fs ih =>
      cases h : f.fn a s with
      | mk r s1 =>
        match r with
        | .error e => exact ⟨_, _, .raises h⟩
        | .ok (some v) => exact ⟨_, _, .answers h⟩
        | .ok none =>
          obtain ⟨r, s', hr⟩ := ih s1
          exact ⟨r, s', .next h hr⟩
  · rw [eCallHooks, hf]
    dsimp only
    rw [called_loop hc]
    match r with
    | .ok v => rfl
    | .error e => cases e <;> first | rfl | exact absurd rfl hne
  · rw [eCallHooks, hf]
    dsimp only
    rw [called_loop hc]

/-- three functions: the first counts, the second raises after it has counted, the third is not called -/
example : Called (ω := Nat) { data := .obj } [{ id := 0, fn := fun _ s => (.ok none, (s.1, s.2 + 1)) }, { id := 1, fn := fun _ s => (.error .keyError, (s.1, s.2 + 1)) },
    { id := 2, fn := fun _ s => (.ok none, (s.1, 0)) }] (exOverlap.heap, 0) (.error .keyError) (exOverlap.heap, 2) := .next rfl (.raises rfl)

end Modbus
