import Verif.Lemmas.Refine
/- What any request (any bytes, any hooks) can change. -/
namespace Modbus
open Spec (word toWord ofWord fits)

/-- positions and sizes of the blocks of a list -/
def shape (L : List Block) : List (Int × Int × Nat) := L.map (fun b => (b.start, b.size, b.data.length))

/-- only values of cells in the list `ref` changed, and every new value satisfies `V` -/
structure TouchList (V : Int → Prop) (ref : Nat) (h h' : Heap) : Prop where
  dicts : h'.dicts = h.dicts
  nextList : h'.nextList = h.nextList
  nextDict : h'.nextDict = h.nextDict
  other : ∀ r, r ≠ ref → h'.lists r = h.lists r
  shape : Modbus.shape (h'.lists ref) = Modbus.shape (h.lists ref)
  values : ∀ b ∈ h'.lists ref, ∀ v ∈ b.data, (∃ b0 ∈ h.lists ref, v ∈ b0.data) ∨ V v

theorem TouchList.refl (V : Int → Prop) (ref : Nat) (h : Heap) : TouchList V ref h h :=
  ⟨rfl, rfl, rfl, fun _ _ => rfl, rfl, fun b hb _ hv => .inl ⟨b, hb, hv⟩⟩

theorem TouchList.trans {V : Int → Prop} {ref : Nat} {h1 h2 h3 : Heap} (a : TouchList V ref h1 h2)
    (b : TouchList V ref h2 h3) : TouchList V ref h1 h3 :=
  ⟨b.dicts.trans a.dicts, b.nextList.trans a.nextList, b.nextDict.trans a.nextDict,
   fun r hr => (b.other r hr).trans (a.other r hr), b.shape.trans a.shape, fun x hx v hv => by
    rcases b.values x hx v hv with ⟨y, hy, hvy⟩ | h
    · exact a.values y hy v hvy
    · exact .inr h⟩

theorem shape_set {L : List Block} {i : Nat} {b : Block} (hb : L[i]? = some b) {d : List Int}
    (hd : d.length = b.data.length) : shape (L.set i (b.withData d)) = shape L := by
  unfold shape
  apply List.ext_getElem?
  intro k
  simp only [List.getElem?_map, List.getElem?_set]
  split
  · rename_i h; subst h
    obtain ⟨hlt, hget⟩ := List.getElem?_eq_some_iff.mp hb
    subst hget
    simp [hlt, hd]
  · rfl

theorem touch_setBlock {V : Int → Prop} {h : Heap} {b : BlockRef} {blk : Block} (hb : h.block? b = some blk)
    {d : List Int} (hd : d.length = blk.data.length) (hv : ∀ v ∈ d, v ∈ blk.data ∨ V v) :
    TouchList V b.list h (h.setBlock b (blk.withData d)) := by
  refine ⟨rfl, rfl, rfl, fun r hr => setBlock_lists_other _ _ _ hr, ?_, ?_⟩
  · rw [setBlock_lists_same]; exact shape_set hb hd
  · rw [setBlock_lists_same]
    intro c hc v hvc
    rcases List.mem_or_eq_of_mem_set hc with h1 | rfl
    · exact .inl ⟨c, h1, hvc⟩
    · rcases hv v hvc with h2 | h2
      · exact .inl ⟨blk, List.mem_of_getElem? hb, h2⟩
      · exact .inr h2

theorem setItem_touch (R : Registry) (b : BlockRef) (i v : Int) {V : Int → Prop} (hv : V v) (h : Heap) :
    TouchList V b.list h (setItem R b i v h).2 := by
  unfold setItem
  split
  · rename_i blk hb
    split
    · exact .refl ..
    · split
      · refine touch_setBlock hb (by simp) ?_
        intro x hx
        rcases List.mem_or_eq_of_mem_set hx with h1 | rfl
        · exact .inl h1
        · exact .inr hv
      · exact .refl ..
  · exact .refl ..

/-- no installed hook raises ModbusError -/
def NoModbusErr (R : Registry) : Prop := ∀ name a c, callHooks R name a ≠ .error (.modbusError c)

theorem Quiet.noModbusErr {R : Registry} (hR : Quiet R) : NoModbusErr R := by
  intro name a c; rw [hR]; simp

theorem setItem_noErr {R : Registry} (hR : NoModbusErr R) (b : BlockRef) (i v : Int) (h : Heap) (c : Int) :
    (setItem R b i v h).1 ≠ .error (.modbusError c) := by
  unfold setItem
  split
  · split
    · rename_i e he
      intro hh; simp only [Except.error.injEq] at hh; subst hh; exact hR _ _ _ he
    · split <;> simp
  · simp

theorem unpackSingle_noErr (cd : Code) (bs : Bytes) (c : Int) : unpackSingle cd bs ≠ .error (.modbusError c) := by
  by_cases h : bs.length = cd.size
  · rw [unpackSingle_ok h]; simp
  · rw [unpackSingle_error h]; simp

theorem packOne_noErr (big : Bool) (cd : Code) (v c : Int) : packOne big cd v ≠ .error (.modbusError c) := by
  unfold packOne; split <;> simp

theorem packCodes_noErr (big : Bool) (cs : List Code) (vs : List Int) (c : Int) :
    packCodes big cs vs ≠ .error (.modbusError c) := by
  induction cs generalizing vs with
  | nil => cases vs <;> simp [packCodes]
  | cons cd cs ih =>
    cases vs with
    | nil => simp [packCodes]
    | cons v vs =>
      rw [packCodes]
      cases h : packOne big cd v with
      | error e =>
        rw [except_bind_error]; intro hh; simp only [Except.error.injEq] at hh; subst hh
        exact packOne_noErr _ _ _ _ h
      | ok x =>
        rw [except_bind_ok]
        cases h2 : packCodes big cs vs with
        | error e =>
          rw [except_bind_error]; intro hh; simp only [Except.error.injEq] at hh; subst hh
          exact ih vs h2
        | ok y => rw [except_bind_ok]; intro hh; cases hh

/-- values a register write can store -/
def RegVal (c : Code) (v : Int) : Prop := ∃ a b : UInt8, v = unpackOne true c [a, b]

theorem unpackSingle_regVal {c : Code} (hc : c.size = 2) {bs : Bytes} {v : Int} (h : unpackSingle c bs = .ok v) :
    RegVal c v := by
  by_cases hl : bs.length = c.size
  · rw [unpackSingle_ok hl] at h
    simp only [Except.ok.injEq] at h
    match bs, hl.trans hc with
    | [a, b], _ => exact ⟨a, b, h.symm⟩
  · rw [unpackSingle_error hl] at h; cases h

theorem writeRegsLoop_touch (R : Registry) {c : Code} (hc : c.size = 2) (b : BlockRef) (off : Int) (pdu : Bytes)
    (base n i : Nat) (count : Int) (h : Heap) :
    TouchList (RegVal c) b.list h (writeRegsLoop R c b off pdu base n i count h).2 ∧
    (NoModbusErr R → ∀ e, (writeRegsLoop R c b off pdu base n i count h).1 ≠ .error (.modbusError e)) := by
  induction n generalizing i count h with
  | zero => exact ⟨.refl .., by simp [writeRegsLoop]⟩
  | succ n ih =>
    rw [writeRegsLoop]
    simp only [PyM.bind_apply, PyM.lift_apply]
    cases hu : unpackSingle c (slice pdu (base + 2*i) (base + 2 + 2*i)) with
    | error e =>
      refine ⟨.refl .., fun _ x hx => ?_⟩
      simp only [Except.error.injEq] at hx; subst hx; exact unpackSingle_noErr _ _ _ hu
    | ok v =>
      simp only
      have ht := setItem_touch R b (off + i) v (V := RegVal c) (unpackSingle_regVal hc hu) h
      have hn := fun hR => setItem_noErr (R := R) hR b (off + i) v h
      cases hs : setItem R b (off + i) v h with
      | mk r h2 =>
        rw [hs] at ht hn
        cases r with
        | error e => exact ⟨ht, fun hR x hx => by simp only [Except.error.injEq] at hx; subst hx; exact hn hR x rfl⟩
        | ok u =>
          obtain ⟨h3, h4⟩ := ih (i+1) (count+1) h2
          exact ⟨ht.trans h3, h4⟩

/-- values a coil write can store -/
def BitVal (v : Int) : Prop := v = 0 ∨ v = 1

theorem writeCoilsInner_touch (R : Registry) (b : BlockRef) (off q bv : Int) (i : Nat) (js : List Nat) (count : Int)
    (h : Heap) :
    TouchList BitVal b.list h (writeCoilsInner R b off q bv i js count h).2 ∧
    (NoModbusErr R → ∀ e, (writeCoilsInner R b off q bv i js count h).1 ≠ .error (.modbusError e)) := by
  induction js generalizing count h with
  | nil => exact ⟨.refl .., by simp [writeCoilsInner]⟩
  | cons j js ih =>
    rw [writeCoilsInner]
    split
    · exact ⟨.refl .., by simp⟩
    · simp only [PyM.bind_apply]
      have hb : BitVal (if pyBit bv j then 1 else 0) := by unfold BitVal; split <;> simp
      have ht := setItem_touch R b (off + i*8 + j) _ hb h
      have hn := fun hR => setItem_noErr (R := R) hR b (off + i*8 + j) (if pyBit bv j then 1 else 0) h
      cases hs : setItem R b (off + i*8 + j) (if pyBit bv j then 1 else 0) h with
      | mk r h2 =>
        rw [hs] at ht hn
        cases r with
        | error e => exact ⟨ht, fun hR x hx => by simp only [Except.error.injEq] at hx; subst hx; exact hn hR x rfl⟩
        | ok u =>
          obtain ⟨h3, h4⟩ := ih (count+1) h2
          exact ⟨ht.trans h3, h4⟩

theorem writeCoilsOuter_touch (R : Registry) (c : Code) (b : BlockRef) (off q : Int) (pdu : Bytes) (is : List Nat)
    (count : Int) (h : Heap) :
    TouchList BitVal b.list h (writeCoilsOuter R c b off q pdu is count h).2 ∧
    (NoModbusErr R → ∀ e, (writeCoilsOuter R c b off q pdu is count h).1 ≠ .error (.modbusError e)) := by
  induction is generalizing count h with
  | nil => exact ⟨.refl .., by simp [writeCoilsOuter]⟩
  | cons i is ih =>
    rw [writeCoilsOuter]
    split
    · exact ⟨.refl .., by simp⟩
    · simp only [PyM.bind_apply, PyM.lift_apply]
      cases hu : unpackSingle c (slice pdu (6+i) (7+i)) with
      | error e =>
        refine ⟨.refl .., fun _ x hx => ?_⟩
        simp only [Except.error.injEq] at hx; subst hx; exact unpackSingle_noErr _ _ _ hu
      | ok v =>
        simp only
        obtain ⟨ht, hn⟩ := writeCoilsInner_touch R b off q v i (List.range 8) count h
        cases hs : writeCoilsInner R b off q v i (List.range 8) count h with
        | mk r h2 =>
          rw [hs] at ht hn
          cases r with
          | error e => exact ⟨ht, fun hR x hx => by simp only [Except.error.injEq] at hx; subst hx; exact hn hR x rfl⟩
          | ok u =>
            obtain ⟨h3, h4⟩ := ih u h2
            exact ⟨ht.trans h3, h4⟩

/-! ### Handlers -/

/-- Effect of a request handler: nothing, or new values in the list registered for `bt`; nothing if it raises
    ModbusError (unless a hook raises one). -/
structure Eff (R : Registry) (sl : Slave) (bt : Int) (V : Int → Prop) (h : Heap) (res : Except PyErr Bytes × Heap) :
    Prop where
  touch : res.2 = h ∨ ∃ ref, Dict.get? (h.dicts sl.mem) bt = some ref ∧ TouchList V ref h res.2
  exc : NoModbusErr R → ∀ c, res.1 = .error (.modbusError c) → res.2 = h

theorem Eff.same {R : Registry} {sl : Slave} {bt : Int} {V : Int → Prop} {h : Heap} (x : Except PyErr Bytes) :
    Eff R sl bt V h (x, h) := ⟨.inl rfl, fun _ _ _ => rfl⟩

theorem Eff.bind {R : Registry} {sl : Slave} {bt : Int} {V : Int → Prop} {h : Heap} {α : Type} {m : PyM Heap α}
    {f : α → PyM Heap Bytes} (hm : (m h).2 = h) (hf : ∀ a, m h = (.ok a, h) → Eff R sl bt V h (f a h)) :
    Eff R sl bt V h ((m >>= f) h) := by
  rw [PyM.bind_apply]
  cases hmh : m h with
  | mk x h2 =>
    rw [hmh] at hm
    simp only at hm
    subst hm
    cases x with
    | error e => exact .same _
    | ok a => exact hf a hmh

theorem callHook_snd (R : Registry) (name : String) (a : HookArg) (h : Heap) : (callHook_ R name a h).2 = h := by
  simp only [callHook_, PyM.bind_apply, PyM.lift_apply, PyM.pure_apply]
  cases callHooks R name a <;> rfl

theorem gbo_snd (sl : Slave) (bt a n : Int) (h : Heap) : (getBlockAndOffset sl bt a n h).2 = h := by
  simp only [getBlockAndOffset, PyM.bind_apply, memRef]
  cases Dict.get? (h.dicts sl.mem) bt with
  | none => rfl
  | some r =>
    simp only [PyM.get_apply]
    cases findBlock (h.lists r) a n <;> rfl

theorem gbo_ref {sl : Slave} {bt a n : Int} {h h' : Heap} {b : BlockRef} {off : Int}
    (he : getBlockAndOffset sl bt a n h = (.ok (b, off), h')) : Dict.get? (h.dicts sl.mem) bt = some b.list := by
  simp only [getBlockAndOffset, PyM.bind_apply, memRef] at he
  cases hd : Dict.get? (h.dicts sl.mem) bt with
  | none => rw [hd] at he; simp at he
  | some r =>
    rw [hd] at he
    simp only [PyM.get_apply] at he
    cases hf : findBlock (h.lists r) a n with
    | none => rw [hf] at he; simp at he
    | some p =>
      rw [hf] at he
      simp only [PyM.pure_apply, Prod.mk.injEq, Except.ok.injEq] at he
      rw [← he.1.1]

theorem getSlice_snd (b : BlockRef) (i j : Int) (h : Heap) : (getSlice b i j h).2 = h := by
  unfold getSlice; split <;> rfl
theorem getItem_snd (b : BlockRef) (i : Int) (h : Heap) : (getItem b i h).2 = h := by
  unfold getItem; split
  · split <;> rfl
  · rfl

variable {R : Registry} {sl : Slave} {h : Heap}

theorem snd_bind {α β : Type} {m : PyM Heap α} {f : α → PyM Heap β} (hm : (m h).2 = h)
    (hf : ∀ a, (f a h).2 = h) : ((m >>= f) h).2 = h := by
  rw [PyM.bind_apply]
  cases hmh : m h with
  | mk x h2 =>
    rw [hmh] at hm
    simp only at hm
    subst hm
    cases x with
    | error e => rfl
    | ok a => exact hf a

theorem readDigital_snd (bt : Int) (pdu : Bytes) : (readDigital sl bt pdu h).2 = h := by
  refine snd_bind rfl fun vals => ?_
  split
  · split
    · rfl
    · exact snd_bind (gbo_snd ..) fun _ => snd_bind (getSlice_snd ..) fun _ => snd_bind rfl fun _ => rfl
  · rfl

theorem readRegisters_snd (bt : Int) (pdu : Bytes) : (readRegisters sl bt pdu h).2 = h := by
  refine snd_bind rfl fun vals => ?_
  split
  · split
    · rfl
    · exact snd_bind (gbo_snd ..) fun _ => snd_bind (getSlice_snd ..) fun _ => snd_bind rfl fun _ => rfl
  · rfl

/-- a read-only computation has no effect -/
theorem Eff.of_snd {bt : Int} {V : Int → Prop} {x : Except PyErr Bytes × Heap} (hx : x.2 = h) :
    Eff R sl bt V h x := ⟨.inl hx, fun _ _ _ => hx⟩

theorem readCoils_eff (bt : Int) (V : Int → Prop) (pdu : Bytes) : Eff R sl bt V h (readCoils R sl pdu h) :=
  .bind (callHook_snd ..) fun _ _ => .of_snd (readDigital_snd ..)
theorem readDiscreteInputs_eff (bt : Int) (V : Int → Prop) (pdu : Bytes) :
    Eff R sl bt V h (readDiscreteInputs R sl pdu h) :=
  .bind (callHook_snd ..) fun _ _ => .of_snd (readDigital_snd ..)
theorem readHoldingRegisters_eff (bt : Int) (V : Int → Prop) (pdu : Bytes) :
    Eff R sl bt V h (readHoldingRegisters R sl pdu h) :=
  .bind (callHook_snd ..) fun _ _ => .of_snd (readRegisters_snd ..)
theorem readInputRegisters_eff (bt : Int) (V : Int → Prop) (pdu : Bytes) :
    Eff R sl bt V h (readInputRegisters R sl pdu h) :=
  .bind (callHook_snd ..) fun _ _ => .of_snd (readRegisters_snd ..)
theorem readExceptionStatus_eff (bt : Int) (V : Int → Prop) (pdu : Bytes) :
    Eff R sl bt V h (readExceptionStatus R sl pdu h) :=
  .bind (callHook_snd ..) fun _ _ => .same _

/-- after a write, an answer that cannot raise ModbusError -/
theorem eff_write {α : Type} {bt : Int} {V : Int → Prop} {ref : Nat} (hd : Dict.get? (h.dicts sl.mem) bt = some ref)
    {m : PyM Heap α} {f : α → PyM Heap Bytes} (ht : TouchList V ref h (m h).2)
    (hn : NoModbusErr R → ∀ c, (m h).1 ≠ .error (.modbusError c))
    (hf : ∀ a h2, (f a h2).2 = h2 ∧ ∀ c, (f a h2).1 ≠ .error (.modbusError c)) :
    Eff R sl bt V h ((m >>= f) h) := by
  rw [PyM.bind_apply]
  cases hm : m h with
  | mk x h2 =>
    rw [hm] at ht hn
    cases x with
    | error e => exact ⟨.inr ⟨ref, hd, ht⟩, fun hR c hc => by simp only [Except.error.injEq] at hc; subst hc; exact absurd rfl (hn hR c)⟩
    | ok a =>
      obtain ⟨h3, h4⟩ := hf a h2
      refine ⟨.inr ⟨ref, hd, ?_⟩, fun hR c hc => absurd hc (h4 c)⟩
      rw [h3]; exact ht

theorem writeMultipleRegisters_eff (pdu : Bytes) :
    Eff R sl defines.HOLDING_REGISTERS (RegVal (regCode sl)) h (writeMultipleRegisters R sl pdu h) := by
  refine .bind (callHook_snd ..) fun _ _ => .bind rfl fun vals _ => ?_
  split
  · split
    · exact .same _
    · refine .bind (gbo_snd ..) fun p hp => ?_
      have hd := gbo_ref hp
      have hl := writeRegsLoop_touch R (regCode_size sl) p.1 p.2 pdu 6
      exact eff_write hd (hl _ _ _ _).1 (hl _ _ _ _).2 fun a h2 => ⟨rfl, packCodes_noErr _ _ _⟩
  · exact .same _

theorem readWriteMultipleRegisters_eff (pdu : Bytes) :
    Eff R sl defines.HOLDING_REGISTERS (RegVal (regCode sl)) h (readWriteMultipleRegisters R sl pdu h) := by
  refine .bind (callHook_snd ..) fun _ _ => .bind rfl fun vals _ => ?_
  split
  · split
    · exact .same _
    · refine .bind (gbo_snd ..) fun p hp => .bind (getSlice_snd ..) fun _ _ => .bind rfl fun _ _ =>
        .bind rfl fun _ _ => ?_
      split
      · exact .same _
      · refine .bind (gbo_snd ..) fun p hp => ?_
        have hd := gbo_ref hp
        have hl := writeRegsLoop_touch R (regCode_size sl) p.1 p.2 pdu 10
        exact eff_write hd (hl _ _ _ _).1 (hl _ _ _ _).2 fun a h2 => ⟨rfl, by simp⟩
  · exact .same _

theorem writeMultipleCoils_eff (pdu : Bytes) :
    Eff R sl defines.COILS BitVal h (writeMultipleCoils R sl pdu h) := by
  refine .bind (callHook_snd ..) fun _ _ => .bind rfl fun vals _ => ?_
  split
  · split
    · exact .same _
    · refine .bind (gbo_snd ..) fun p hp => ?_
      have hd := gbo_ref hp
      have hl := writeCoilsOuter_touch R (if sl.unsigned then Code.B else Code.b) p.1 p.2
      exact eff_write hd (hl _ _ _ _ _).1 (hl _ _ _ _ _).2 fun a h2 => ⟨rfl, packCodes_noErr _ _ _⟩
  · exact .same _

theorem writeSingleRegister_eff (pdu : Bytes) :
    Eff R sl defines.HOLDING_REGISTERS (RegVal (regCode sl)) h (writeSingleRegister R sl pdu h) := by
  refine .bind (callHook_snd ..) fun _ _ => .bind rfl fun vals hv => ?_
  split
  · rename_i a v
    have hval : RegVal (regCode sl) v := by
      simp only [PyM.lift_apply, Prod.mk.injEq, and_true] at hv
      unfold structUnpack at hv
      split at hv
      · rename_i hlen
        have hl : (slice pdu 1 5).length = 4 := by simpa [calcsize, be, regCode_size] using hlen
        match hsl : slice pdu 1 5, hl with
        | [w, x, y, z], _ =>
          rw [hsl] at hv
          simp only [be, unpackCodes, regCode_size, Code.H_size, Except.ok.injEq, List.cons.injEq] at hv
          exact ⟨y, z, hv.2.1.symm⟩
      · cases hv
    refine .bind (gbo_snd ..) fun p hp => ?_
    exact eff_write (gbo_ref hp) (setItem_touch R p.1 p.2 v hval h) (fun hR => setItem_noErr hR _ _ _ _)
      fun a h2 => ⟨rfl, by simp⟩
  · exact .same _

theorem writeSingleCoil_eff (pdu : Bytes) :
    Eff R sl defines.COILS BitVal h (writeSingleCoil R sl pdu h) := by
  refine .bind (callHook_snd ..) fun _ _ => .bind rfl fun vals hv => ?_
  split
  · rename_i a v
    refine .bind (gbo_snd ..) fun p hp => ?_
    obtain ⟨b, off⟩ := p
    dsimp only
    split
    · exact eff_write (gbo_ref hp) (setItem_touch R b off 0 (V := BitVal) (.inl rfl) h)
        (fun hR => setItem_noErr hR _ _ _ _) fun a h2 => ⟨rfl, by simp⟩
    · split
      · exact eff_write (gbo_ref hp) (setItem_touch R b off 1 (V := BitVal) (.inr rfl) h)
          (fun hR => setItem_noErr hR _ _ _ _) fun a h2 => ⟨rfl, by simp⟩
      · exact .same _
  · exact .same _

/-- values a mask write can store -/
def WordVal (v : Int) : Prop := 0 ≤ v ∧ v < 65536

theorem natAndNot_le (a b : Nat) : natAndNot a b ≤ a := by
  unfold natAndNot
  apply Nat.le_of_testBit
  intro i
  rw [Nat.testBit_xor, Nat.testBit_and]
  cases a.testBit i <;> cases b.testBit i <;> simp

theorem pyAnd_word {x m : Int} (h0 : 0 ≤ m) (h1 : m < 65536) : WordVal (pyAnd x m) := by
  obtain ⟨n, rfl⟩ := Int.eq_ofNat_of_zero_le h0
  unfold WordVal
  cases x with
  | ofNat a =>
    have : a &&& n ≤ n := Nat.and_le_right
    show 0 ≤ ((a &&& n : Nat) : Int) ∧ ((a &&& n : Nat) : Int) < 65536
    omega
  | negSucc a =>
    have := natAndNot_le n a
    show 0 ≤ ((natAndNot n a : Nat) : Int) ∧ ((natAndNot n a : Nat) : Int) < 65536
    omega

theorem pyAnd_word' {x m : Int} (h0 : 0 ≤ m) (h1 : m < 65536) : WordVal (pyAnd m x) := by
  obtain ⟨n, rfl⟩ := Int.eq_ofNat_of_zero_le h0
  unfold WordVal
  cases x with
  | ofNat a =>
    have : n &&& a ≤ n := Nat.and_le_left
    show 0 ≤ ((n &&& a : Nat) : Int) ∧ ((n &&& a : Nat) : Int) < 65536
    omega
  | negSucc a =>
    have := natAndNot_le n a
    show 0 ≤ ((natAndNot n a : Nat) : Int) ∧ ((natAndNot n a : Nat) : Int) < 65536
    omega

theorem pyOr_word {x y : Int} (hx : WordVal x) (hy : WordVal y) : WordVal (pyOr x y) := by
  unfold WordVal at *
  obtain ⟨a, rfl⟩ := Int.eq_ofNat_of_zero_le hx.1
  obtain ⟨b, rfl⟩ := Int.eq_ofNat_of_zero_le hy.1
  have : a ||| b < 2^16 := Nat.or_lt_two_pow (by omega) (by omega)
  show 0 ≤ ((a ||| b : Nat) : Int) ∧ ((a ||| b : Nat) : Int) < 65536
  omega

theorem unpackOne_H_range {bs : Bytes} (h : bs.length = 2) :
    0 ≤ unpackOne true Code.H bs ∧ unpackOne true Code.H bs < 65536 := by
  match bs, h with
  | [a, b], _ =>
    have := u8_lt a; have := u8_lt b
    rw [unpackOne_H]; omega

theorem maskWriteRegister_eff (pdu : Bytes) :
    Eff R sl defines.HOLDING_REGISTERS WordVal h (maskWriteRegister R sl pdu h) := by
  refine .bind (callHook_snd ..) fun _ _ => .bind rfl fun vals hv => ?_
  split
  · rename_i a am om
    have hval : (0 ≤ am ∧ am < 65536) ∧ (0 ≤ om ∧ om < 65536) := by
      simp only [PyM.lift_apply, Prod.mk.injEq, and_true] at hv
      unfold structUnpack at hv
      split at hv
      · rename_i hlen
        have hl : (slice pdu 1 7).length = 6 := by simpa [calcsize, be] using hlen
        match hsl : slice pdu 1 7, hl with
        | [a1, a2, a3, a4, a5, a6], _ =>
          rw [hsl] at hv
          simp only [be, unpackCodes, Code.H_size, Except.ok.injEq, List.cons.injEq] at hv
          obtain ⟨_, h2, h3, _⟩ := hv
          rw [← h2, ← h3]
          exact ⟨unpackOne_H_range rfl, unpackOne_H_range rfl⟩
      · cases hv
    refine .bind (gbo_snd ..) fun p hp => .bind (getItem_snd ..) fun cur _ => ?_
    refine eff_write (gbo_ref hp) (setItem_touch R p.1 p.2 _ ?_ h)
      (fun hR => setItem_noErr hR _ _ _ _) fun a h2 => ⟨rfl, by simp⟩
    exact pyOr_word (pyAnd_word hval.1.1 hval.1.2) (pyAnd_word' hval.2.1 hval.2.2)
  · exact .same _

/-- which values a function may store -/
def StoreVal (sl : Slave) (fc : Int) (v : Int) : Prop :=
  if fc = defines.MASK_WRITE_REGISTER then WordVal v
  else if fc = defines.WRITE_SINGLE_COIL ∨ fc = defines.WRITE_MULTIPLE_COILS then BitVal v
  else RegVal (regCode sl) v

/-- which table a function writes -/
def storeTable (fc : Int) : Int :=
  if fc = defines.WRITE_SINGLE_COIL ∨ fc = defines.WRITE_MULTIPLE_COILS then defines.COILS
  else defines.HOLDING_REGISTERS

theorem fnCodeMap_eff {fc : Int} {f : Bytes → PyM Heap Bytes} (hf : fnCodeMap R sl fc = some f) (pdu : Bytes) :
    Eff R sl (storeTable fc) (StoreVal sl fc) h (f pdu h) := by
  unfold fnCodeMap at hf
  split at hf
  · simp only [Option.some.injEq] at hf; subst hf; exact readCoils_eff ..
  split at hf
  · simp only [Option.some.injEq] at hf; subst hf; exact readDiscreteInputs_eff ..
  split at hf
  · simp only [Option.some.injEq] at hf; subst hf; exact readInputRegisters_eff ..
  split at hf
  · simp only [Option.some.injEq] at hf; subst hf; exact readHoldingRegisters_eff ..
  split at hf
  · simp only [Option.some.injEq] at hf; subst hf; exact readExceptionStatus_eff ..
  split at hf
  · rename_i e; simp only [Option.some.injEq] at hf; subst hf; subst e
    exact writeSingleCoil_eff pdu
  split at hf
  · rename_i e; simp only [Option.some.injEq] at hf; subst hf; subst e
    exact writeSingleRegister_eff pdu
  split at hf
  · rename_i e; simp only [Option.some.injEq] at hf; subst hf; subst e
    exact writeMultipleCoils_eff pdu
  split at hf
  · rename_i e; simp only [Option.some.injEq] at hf; subst hf; subst e
    exact writeMultipleRegisters_eff pdu
  split at hf
  · rename_i e; simp only [Option.some.injEq] at hf; subst hf; subst e
    exact maskWriteRegister_eff pdu
  split at hf
  · rename_i e; simp only [Option.some.injEq] at hf; subst hf; subst e
    exact readWriteMultipleRegisters_eff pdu
  · cases hf

theorem fnCodeMap_lt {fc : Int} {f : Bytes → PyM Heap Bytes} (hf : fnCodeMap R sl fc = some f) :
    0 < fc ∧ fc < 128 := by
  unfold fnCodeMap at hf
  simp only [defines.READ_COILS, defines.READ_DISCRETE_INPUTS, defines.READ_INPUT_REGISTERS,
    defines.READ_HOLDING_REGISTERS, defines.READ_EXCEPTION_STATUS, defines.WRITE_SINGLE_COIL,
    defines.WRITE_SINGLE_REGISTER, defines.WRITE_MULTIPLE_COILS, defines.WRITE_MULTIPLE_REGISTERS,
    defines.MASK_WRITE_REGISTER, defines.READ_WRITE_MULTIPLE_REGISTERS] at hf
  repeat' split at hf
  all_goals first | omega | cases hf

/-- effect of the body of `handle_request` -/
structure ReqEff (R : Registry) (sl : Slave) (fc : Int) (h : Heap) (res : Except PyErr Bytes × Heap) : Prop where
  touch : res.2 = h ∨ ∃ ref, Dict.get? (h.dicts sl.mem) (storeTable fc) = some ref ∧
    TouchList (StoreVal sl fc) ref h res.2
  exc : NoModbusErr R → ∀ x rest, res.1 = .ok (x :: rest) → 128 ≤ x.toNat → res.2 = h

theorem ReqEff.same {fc : Int} (x : Except PyErr Bytes) : ReqEff R sl fc h (x, h) := ⟨.inl rfl, fun _ _ _ _ _ => rfl⟩

theorem dispatch_eff (fc : UInt8) (pdu : Bytes) (bc : Bool) :
    (((dispatch R sl fc.toNat pdu bc h).2 = h ∨ ∃ ref, Dict.get? (h.dicts sl.mem) (storeTable fc.toNat) = some ref ∧
      TouchList (StoreVal sl fc.toNat) ref h (dispatch R sl fc.toNat pdu bc h).2)) ∧
    (NoModbusErr R → ∀ c, (dispatch R sl fc.toNat pdu bc h).1 = .error (.modbusError c) →
      (dispatch R sl fc.toNat pdu bc h).2 = h) ∧
    (∀ x rest, (dispatch R sl fc.toNat pdu bc h).1 = .ok (x :: rest) → x.toNat < 128) := by
  unfold dispatch
  cases hf : fnCodeMap R sl fc.toNat with
  | none => exact ⟨.inl rfl, fun _ _ _ => rfl, by intro x rest hx; cases hx⟩
  | some f =>
    simp only
    have hlt := fnCodeMap_lt hf
    have he := fnCodeMap_eff (h := h) hf pdu
    split
    · exact ⟨.inl rfl, fun _ _ _ => rfl, by intro x rest hx; cases hx⟩
    · rw [PyM.bind_apply]
      cases hfp : f pdu h with
      | mk x h2 =>
        rw [hfp] at he
        cases x with
        | error e => exact ⟨he.touch, fun hR c hc => he.exc hR c hc, by intro x rest hx; cases hx⟩
        | ok d =>
          simp only
          split
          · split
            · rw [PyM.bind_apply]
              have h3 : (callHook_ R "modbus.Slave.on_handle_broadcast" (.msg d) h2).2 = h2 := callHook_snd ..
              cases h4 : callHook_ R "modbus.Slave.on_handle_broadcast" (.msg d) h2 with
              | mk y h5 =>
                rw [h4] at h3; simp only at h3; subst h3
                cases y with
                | error e =>
                  refine ⟨he.touch, fun hR c hc => ?_, by intro x rest hx; cases hx⟩
                  exfalso
                  simp only [Except.error.injEq] at hc; subst hc
                  simp only [callHook_, PyM.bind_apply, PyM.lift_apply, PyM.pure_apply] at h4
                  cases h6 : callHooks R "modbus.Slave.on_handle_broadcast" (HookArg.msg d) with
                  | error e => rw [h6] at h4; simp only [Prod.mk.injEq, Except.error.injEq] at h4; rw [h4.1] at h6; exact hR _ _ _ h6
                  | ok v => rw [h6] at h4; simp at h4
                | ok u => exact ⟨he.touch, fun _ c hc => by (simp at hc), by intro x rest hx; simp at hx⟩
            · simp only [PyM.bind_apply, PyM.lift_apply, packB_u8, PyM.pure_apply]
              refine ⟨he.touch, fun _ c hc => by (simp at hc), ?_⟩
              intro x rest hx
              simp only [List.cons_append, List.nil_append, Except.ok.injEq, List.cons.injEq] at hx
              rw [← hx.1]; omega
          · exact ⟨he.touch, fun _ c hc => by (simp at hc), by intro x rest hx; simp at hx⟩

theorem handleRequest_eff (fc : UInt8) (rest : Bytes) (bc : Bool) :
    ReqEff R sl fc.toNat h (handleRequest R sl (fc :: rest) bc h) := by
  unfold handleRequest
  cases hhook : callHooks R "modbus.Slave.handle_request" (.msg (fc :: rest)) with
  | error e => cases e <;> exact .same _
  | ok v =>
    cases v with
    | some v => exact .same _
    | none =>
      have hs : slice (fc :: rest) 0 1 = [fc] := by simp [slice]
      have hu : unpackSingle Code.B [fc] = .ok (fc.toNat : Int) := by rw [unpackSingle_ok rfl, unpackOne_B]
      simp only [hs, hu, PyM.bind_apply, PyM.lift_apply, PyM.tryExcept_apply]
      obtain ⟨h1, h2, h3⟩ := dispatch_eff (R := R) (sl := sl) (h := h) fc (fc :: rest) bc
      cases hd : dispatch R sl fc.toNat (fc :: rest) bc h with
      | mk x h' =>
        rw [hd] at h1 h2 h3
        cases x with
        | ok d =>
          refine ⟨h1, fun _ x rest' hx hge => ?_⟩
          have := h3 x rest' hx
          omega
        | error e =>
          cases e with
          | modbusError c =>
            simp only [PyM.bind_apply]
            have h4 := callHook_snd R "modbus.Slave.on_exception" (.exc (.modbusError c) (fc :: rest)) h'
            cases h5 : callHook_ R "modbus.Slave.on_exception" (.exc (.modbusError c) (fc :: rest)) h' with
            | mk y h6 =>
              rw [h5] at h4; simp only at h4; subst h4
              cases y with
              | error e => exact ⟨h1, fun hR _ _ _ _ => h2 hR c rfl⟩
              | ok u => exact ⟨h1, fun hR _ _ _ _ => h2 hR c rfl⟩
          | _ => exact ⟨h1, fun _ _ _ hx => by simp at hx⟩

theorem handleRequest_empty (bc : Bool) : (handleRequest R sl [] bc h).2 = h := by
  unfold handleRequest
  cases hhook : callHooks R "modbus.Slave.handle_request" (.msg []) with
  | error e => cases e <;> rfl
  | ok v => cases v <;> rfl

end Modbus
