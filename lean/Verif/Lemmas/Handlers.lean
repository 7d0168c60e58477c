import Verif.Model.Handlers
import Verif.Lemmas.Slave
import Verif.Lemmas.Codec
/-
# Lemmas about the generic handlers (Model/Handlers.lean)

`generic_handle`: over `intEnv` they are the handlers of Model/Slave.lean.  `EnvSim`: two environments such that what one sees is a picture of what the other sees; the
handlers preserve this.
-/
namespace Modbus

/-! ## The generic handlers over integer cells are those of Model/Slave.lean -/

theorem gPackBits_int (u : Bool) (vs : List Int) (i bv : Nat) (acc : Bytes) :
    gPackBits (fun n : Int => decide (n ≠ 0)) u vs i bv acc = packBitsLoop u vs i bv acc := by
  induction vs generalizing i bv acc with
  | nil => rfl
  | cons v vs ih =>
    rw [gPackBits, packBitsLoop]
    simp only [decide_eq_true_eq, ih]

theorem gPackRegs_int (c : Code) (vs : List Int) (acc : Bytes) : gPackRegs (fun c (n : Int) => structPack (be [c]) [n]) c vs acc = packRegsLoop c vs acc := by
  induction vs generalizing acc with
  | nil => rfl
  | cons v vs ih => rw [gPackRegs, packRegsLoop]; simp only [ih]

section
variable (R : Registry) (sl : Slave)

theorem generic_digital (bt : Int) (pdu : Bytes) : gReadDigital (intEnv R sl) bt pdu = readDigital sl bt pdu := by
  unfold gReadDigital readDigital intEnv
  simp only [gPackBits_int]
  rfl

theorem generic_registers (bt : Int) (pdu : Bytes) : gReadRegisters (intEnv R sl) bt pdu = readRegisters sl bt pdu := by
  unfold gReadRegisters readRegisters Env.regCode regCode intEnv
  simp only [gPackRegs_int]
  rfl

theorem generic_regsLoop (c : Code) (b : BlockRef) (off : Int) (pdu : Bytes) (base n i : Nat) (cnt : Int) :
    gWriteRegsLoop (intEnv R sl) c b off pdu base n i cnt = writeRegsLoop R c b off pdu base n i cnt := by
  induction n generalizing i cnt with
  | zero => rfl
  | succ n ih => rw [gWriteRegsLoop, writeRegsLoop]; simp only [ih]; rfl

theorem generic_inner (b : BlockRef) (off q bv : Int) (i : Nat) (js : List Nat) (cnt : Int) :
    gWriteCoilsInner (intEnv R sl) b off q bv i js cnt = writeCoilsInner R b off q bv i js cnt := by
  induction js generalizing cnt with
  | nil => rfl
  | cons j js ih => rw [gWriteCoilsInner, writeCoilsInner]; simp only [ih]; rfl

theorem generic_outer (c : Code) (b : BlockRef) (off q : Int) (pdu : Bytes) (is : List Nat) (cnt : Int) :
    gWriteCoilsOuter (intEnv R sl) c b off q pdu is cnt = writeCoilsOuter R c b off q pdu is cnt := by
  induction is generalizing cnt with
  | nil => rfl
  | cons j js ih => rw [gWriteCoilsOuter, writeCoilsOuter]; simp only [ih, generic_inner]

theorem generic_map (fc : Int) : gFnCodeMap (intEnv R sl) fc = fnCodeMap R sl fc := by
  unfold gFnCodeMap fnCodeMap
  have e1 : gReadCoils (intEnv R sl) = readCoils R sl := by funext pdu; unfold gReadCoils readCoils; rw [generic_digital]; rfl
  have e2 : gReadDiscreteInputs (intEnv R sl) = readDiscreteInputs R sl := by funext pdu; unfold gReadDiscreteInputs readDiscreteInputs; rw [generic_digital]; rfl
  have e3 : gReadHoldingRegisters (intEnv R sl) = readHoldingRegisters R sl := by funext pdu; unfold gReadHoldingRegisters readHoldingRegisters; rw [generic_registers]; rfl
  have e4 : gReadInputRegisters (intEnv R sl) = readInputRegisters R sl := by funext pdu; unfold gReadInputRegisters readInputRegisters; rw [generic_registers]; rfl
  have e5 : gReadExceptionStatus (intEnv R sl) = readExceptionStatus R sl := rfl
  have e6 : gReadWriteMultipleRegisters (intEnv R sl) = readWriteMultipleRegisters R sl := by
    funext pdu
    unfold gReadWriteMultipleRegisters readWriteMultipleRegisters Env.regCode regCode
    simp only [generic_regsLoop]
    unfold intEnv
    simp only [gPackRegs_int]
    rfl
  have e7 : gMaskWriteRegister (intEnv R sl) = maskWriteRegister R sl := rfl
  have e8 : gWriteMultipleRegisters (intEnv R sl) = writeMultipleRegisters R sl := by
    funext pdu
    unfold gWriteMultipleRegisters writeMultipleRegisters Env.regCode regCode
    simp only [generic_regsLoop]
    rfl
  have e9 : gWriteMultipleCoils (intEnv R sl) = writeMultipleCoils R sl := by
    funext pdu
    unfold gWriteMultipleCoils writeMultipleCoils
    simp only [generic_outer]
    rfl
  have e10 : gWriteSingleRegister (intEnv R sl) = writeSingleRegister R sl := rfl
  have e11 : gWriteSingleCoil (intEnv R sl) = writeSingleCoil R sl := rfl
  rw [e1, e2, e3, e4, e5, e6, e7, e8, e9, e10, e11]

theorem generic_dispatch (fc : Int) (pdu : Bytes) (b : Bool) : gDispatch (intEnv R sl) fc pdu b = dispatch R sl fc pdu b := by
  unfold gDispatch dispatch
  rw [generic_map]
  cases fnCodeMap R sl fc <;> rfl

/-- with integers in the cells and hooks that do not act, the generic handlers are the handlers of Model/Slave.lean -/
theorem generic_handle (pdu : Bytes) (b : Bool) : gHandleRequest (intEnv R sl) pdu b = handleRequest R sl pdu b := by
  funext h
  unfold gHandleRequest handleRequest
  simp only [generic_dispatch]
  have e : (intEnv R sl).hook "modbus.Slave.handle_request" (.msg pdu) h = (callHooks R "modbus.Slave.handle_request" (.msg pdu), h) := rfl
  rw [e]
  rcases callHooks R "modbus.Slave.handle_request" (.msg pdu) with e | _ | v
  · cases e <;> rfl
  · rfl
  · rfl

end

/-! ## Simulation -/

section
variable {σ σ' V V' α β γ δ : Type}

/-- from state `s`: `g` does what `f` does, seen through `sh` and `m`; or `f` stops with struct.error or TypeError, having changed nothing, and this is permitted -/
def HSim (sh : σ → σ') (m : α → β) (B : Prop) (s : σ) (f : PyM σ α) (g : PyM σ' β) : Prop :=
  g (sh s) = ((f s).1.map m, sh (f s).2) ∨ (B ∧ ∃ e, f s = (.error e, s) ∧ (e = .structError ∨ e = .typeError))

variable {sh : σ → σ'} {m : α → β} {m' : γ → δ} {B B' : Prop} {s : σ}

theorem HSim.mono {f : PyM σ α} {g : PyM σ' β} (h : HSim sh m B s f g) (hb : B → B') : HSim sh m B' s f g :=
  h.imp id (fun ⟨b, e⟩ => ⟨hb b, e⟩)

theorem HSim.of_strict {f : PyM σ α} {g : PyM σ' β} (h : HSim sh m False s f g) : HSim sh m B s f g := h.mono False.elim

theorem HSim.bind_keeps {f : PyM σ α} {g : PyM σ' β} {k : α → PyM σ γ} {k' : β → PyM σ' δ} (hf : HSim sh m B s f g) (hs : (f s).2 = s)
    (hk : ∀ a, f s = (.ok a, s) → HSim sh m' B s (k a) (k' (m a))) : HSim sh m' B s (f >>= k) (g >>= k') := by
  rcases hr : f s with ⟨r, s'⟩
  rw [hr] at hs
  dsimp only at hs
  subst hs
  rcases hf with h | ⟨b, e, he, ht⟩
  · rw [hr] at h
    cases r with
    | ok a =>
      rcases hk a hr with h2 | ⟨b, e, he, ht⟩
      · left
        rw [PyM.bind_apply, PyM.bind_apply, h, hr]
        exact h2
      · right
        refine ⟨b, e, ?_, ht⟩
        rw [PyM.bind_apply, hr]
        exact he
    | error e =>
      left
      rw [PyM.bind_apply, PyM.bind_apply, h, hr]
      rfl
  · right
    refine ⟨b, e, ?_, ht⟩
    rw [PyM.bind_apply, he]

theorem HSim.bind_strict {f : PyM σ α} {g : PyM σ' β} {k : α → PyM σ γ} {k' : β → PyM σ' δ} (hf : HSim sh m False s f g)
    (hk : ∀ a s', f s = (.ok a, s') → HSim sh m' False s' (k a) (k' (m a))) : HSim sh m' False s (f >>= k) (g >>= k') := by
  rcases hr : f s with ⟨r, s'⟩
  rcases hf with h | ⟨b, _⟩
  · rw [hr] at h
    cases r with
    | ok a =>
      rcases hk a s' hr with h2 | ⟨b, _⟩
      · left
        rw [PyM.bind_apply, PyM.bind_apply, h, hr]
        exact h2
      · exact b.elim
    | error e =>
      left
      rw [PyM.bind_apply, PyM.bind_apply, h, hr]
      rfl
  · exact b.elim

theorem HSim.lift (x : Except PyErr α) : HSim sh id B s (PyM.lift x) (PyM.lift x) := by
  left; cases x <;> rfl

theorem HSim.lift_bind {x : Except PyErr α} {k : α → PyM σ γ} {k' : α → PyM σ' δ} (hk : ∀ a, x = .ok a → HSim sh m' B s (k a) (k' a)) :
    HSim sh m' B s (PyM.lift x >>= k) (PyM.lift x >>= k') := by
  refine HSim.bind_keeps (m := id) (HSim.lift x) rfl ?_
  intro a ha
  exact hk a (by simpa [PyM.lift] using ha)

theorem HSim.raise (e : PyErr) : HSim sh m B s (PyM.raise e) (PyM.raise e) := Or.inl rfl

theorem HSim.ret (a : α) : HSim sh m B s (Pure.pure a) (Pure.pure (m a)) := Or.inl rfl

theorem HSim.ite {c : Prop} [Decidable c] {f1 f2 : PyM σ α} {g1 g2 : PyM σ' β} (h1 : c → HSim sh m B s f1 g1) (h2 : ¬c → HSim sh m B s f2 g2) :
    HSim sh m B s (if c then f1 else f2) (if c then g1 else g2) := by
  by_cases h : c
  · rw [if_pos h, if_pos h]; exact h1 h
  · rw [if_neg h, if_neg h]; exact h2 h

/-- the second environment sees a picture of what the first one sees; a value found in a cell may refuse to be packed or masked if `B` permits it -/
structure EnvSim (E : Env σ V) (E' : Env σ' V') (sh : σ → σ') (m : V → V') (B : σ → Prop) (T : Prop) : Prop where
  unsigned : E'.unsigned = E.unsigned
  hook : ∀ name a s, HSim sh id False s (E.hook name a) (E'.hook name a)
  hookKeeps : ∀ name a s, (E.hook name a s).2 = s
  locate : ∀ t a n s, HSim sh id False s (E.locate t a n) (E'.locate t a n)
  locateKeeps : ∀ t a n s, (E.locate t a n s).2 = s
  slice : ∀ b i j s, HSim sh (List.map m) False s (E.slice b i j) (E'.slice b i j)
  sliceKeeps : ∀ b i j s, (E.slice b i j s).2 = s
  item : ∀ b i s, HSim sh m False s (E.item b i) (E'.item b i)
  itemKeeps : ∀ b i s, (E.item b i s).2 = s
  assign : ∀ b i n s, HSim sh id False s (E.assign b i (E.cell n)) (E'.assign b i (E'.cell n))
  truth : T → ∀ v, E'.truth (m v) = E.truth v
  pack : ∀ s b i j vs, E.slice b i j s = (.ok vs, s) → ∀ v ∈ vs, (∀ c, E'.pack c (m v) = E.pack c v) ∨ (B s ∧ ∀ c, E.pack c v = .error .structError)
  mask : ∀ s b i v, E.item b i s = (.ok v, s) → ∀ x y, E'.mask (m v) x y = E.mask v x y ∨ (B s ∧ E.mask v x y = .error .typeError)

variable {E : Env σ V} {E' : Env σ' V'} {m : V → V'} {B : σ → Prop} {T : Prop}

theorem EnvSim.regCode (S : EnvSim E E' sh m B T) : E'.regCode = E.regCode := by unfold Env.regCode; rw [S.unsigned]

theorem EnvSim.hook_ (S : EnvSim E E' sh m B T) (name : String) (a : HookArg) (s : σ) (C : Prop) : HSim sh id C s (E.hook_ name a) (E'.hook_ name a) :=
  HSim.of_strict (HSim.bind_keeps (S.hook name a s) (S.hookKeeps name a s) (fun _ _ => HSim.ret ()))

theorem hook_keeps (hk : ∀ name a (s : σ), (E.hook name a s).2 = s) (name : String) (a : HookArg) (s : σ) : (E.hook_ name a s).2 = s := by
  have h := hk name a s
  unfold Env.hook_
  rw [PyM.bind_apply]
  rcases hr : E.hook name a s with ⟨r, s'⟩
  rw [hr] at h
  cases r <;> exact h

theorem EnvSim.hooked (S : EnvSim E E' sh m B T) {C : Prop} {name : String} {a : HookArg} {k : Unit → PyM σ γ} {k' : Unit → PyM σ' δ}
    (hk : HSim sh m' C s (k ()) (k' ())) : HSim sh m' C s (E.hook_ name a >>= k) (E'.hook_ name a >>= k') :=
  HSim.bind_keeps (S.hook_ name a s C) (hook_keeps S.hookKeeps name a s) (fun _ _ => hk)

theorem gPackBits_sim (S : EnvSim E E' sh m B T) (hT : T) (u : Bool) (vs : List V) (i bv : Nat) (acc : Bytes) : gPackBits E'.truth u (vs.map m) i bv acc = gPackBits E.truth u vs i bv acc := by
  induction vs generalizing i bv acc with
  | nil => rfl
  | cons v vs ih =>
    rw [List.map_cons, gPackBits, gPackBits]
    simp only [S.truth hT, ih]

theorem gPackRegs_sim {P : Prop} {c : Code} {vs : List V} (hv : ∀ v ∈ vs, (∀ c, E'.pack c (m v) = E.pack c v) ∨ (P ∧ ∀ c, E.pack c v = .error .structError)) (acc : Bytes) :
    gPackRegs E'.pack c (vs.map m) acc = gPackRegs E.pack c vs acc ∨ (P ∧ gPackRegs E.pack c vs acc = .error .structError) := by
  induction vs generalizing acc with
  | nil => exact Or.inl rfl
  | cons v vs ih =>
    rw [List.map_cons, gPackRegs, gPackRegs]
    rcases hv v (by simp) with h | ⟨p, h⟩
    · rw [h]
      cases hp : E.pack c v with
      | error e => exact Or.inl rfl
      | ok x => exact ih (fun w hw => hv w (by simp [hw])) (acc ++ x)
    · exact Or.inr ⟨p, by rw [h]; rfl⟩

theorem packRegs_bind (S : EnvSim E E' sh m B T) {b : BlockRef} {i j : Int} {vs : List V} (h : E.slice b i j s = (.ok vs, s)) {c : Code} (acc : Bytes) {k : Bytes → PyM σ γ}
    {k' : Bytes → PyM σ' δ} (hk : ∀ a, HSim sh m' (B s) s (k a) (k' a)) :
    HSim sh m' (B s) s (PyM.lift (gPackRegs E.pack c vs acc) >>= k) (PyM.lift (gPackRegs E'.pack c (vs.map m) acc) >>= k') := by
  rcases gPackRegs_sim (P := B s) (S.pack s b i j vs h) acc (c := c) with e | ⟨p, e⟩
  · rw [e]; exact HSim.lift_bind (fun a _ => hk a)
  · right; exact ⟨p, .structError, by rw [e]; rfl, Or.inl rfl⟩

variable (S : EnvSim E E' sh m B T)
include S

theorem gReadDigital_sim (hT : T) (bt : Int) (pdu : Bytes) (s : σ) : HSim sh id False s (gReadDigital E bt pdu) (gReadDigital E' bt pdu) := by
  unfold gReadDigital
  refine HSim.lift_bind fun l _ => ?_
  split
  · rename_i a q
    refine HSim.ite (fun _ => HSim.raise _) (fun _ => ?_)
    refine HSim.bind_keeps (S.locate _ _ _ s) (S.locateKeeps _ _ _ s) (fun p _ => ?_)
    obtain ⟨b, off⟩ := p
    refine HSim.bind_keeps (S.slice _ _ _ s) (S.sliceKeeps _ _ _ s) (fun vs _ => ?_)
    refine HSim.lift_bind fun hd _ => ?_
    rw [S.unsigned, gPackBits_sim S hT]
    exact HSim.lift _
  · exact HSim.raise _

theorem gReadRegisters_sim (bt : Int) (pdu : Bytes) (s : σ) : HSim sh id (B s) s (gReadRegisters E bt pdu) (gReadRegisters E' bt pdu) := by
  unfold gReadRegisters
  refine HSim.lift_bind fun l _ => ?_
  split
  · rename_i a q
    refine HSim.ite (fun _ => HSim.raise _) (fun _ => ?_)
    refine HSim.bind_keeps (S.locate _ _ _ s).of_strict (S.locateKeeps _ _ _ s) (fun p _ => ?_)
    obtain ⟨b, off⟩ := p
    refine HSim.bind_keeps (S.slice _ _ _ s).of_strict (S.sliceKeeps _ _ _ s) (fun vs hvs => ?_)
    refine HSim.lift_bind fun hd _ => ?_
    rw [S.regCode]
    have := packRegs_bind S hvs (c := E.regCode) hd (k := fun x => PyM.lift (.ok x)) (k' := fun x => PyM.lift (.ok x)) (m' := id) (fun a => HSim.lift _)
    have e : ∀ {τ : Type} (x : Except PyErr Bytes), (PyM.lift x >>= fun x => PyM.lift (.ok x) : PyM τ Bytes) = PyM.lift x := by
      intro τ x; cases x <;> rfl
    rwa [e, e] at this
  · exact HSim.raise _

theorem gWriteRegsLoop_sim (c : Code) (b : BlockRef) (off : Int) (pdu : Bytes) (base n i : Nat) (cnt : Int) (s : σ) :
    HSim sh id False s (gWriteRegsLoop E c b off pdu base n i cnt) (gWriteRegsLoop E' c b off pdu base n i cnt) := by
  induction n generalizing i cnt s with
  | zero => exact HSim.ret cnt
  | succ n ih =>
    rw [gWriteRegsLoop, gWriteRegsLoop]
    refine HSim.lift_bind fun v _ => ?_
    exact HSim.bind_strict (S.assign _ _ _ s) (fun _ s' _ => ih _ _ s')

theorem gWriteCoilsInner_sim (b : BlockRef) (off q bv : Int) (i : Nat) (js : List Nat) (cnt : Int) (s : σ) :
    HSim sh id False s (gWriteCoilsInner E b off q bv i js cnt) (gWriteCoilsInner E' b off q bv i js cnt) := by
  induction js generalizing cnt s with
  | nil => exact HSim.ret cnt
  | cons j js ih =>
    rw [gWriteCoilsInner, gWriteCoilsInner]
    refine HSim.ite (fun _ => HSim.ret cnt) (fun _ => ?_)
    exact HSim.bind_strict (S.assign _ _ _ s) (fun _ s' _ => ih _ s')

theorem gWriteCoilsOuter_sim (c : Code) (b : BlockRef) (off q : Int) (pdu : Bytes) (is : List Nat) (cnt : Int) (s : σ) :
    HSim sh id False s (gWriteCoilsOuter E c b off q pdu is cnt) (gWriteCoilsOuter E' c b off q pdu is cnt) := by
  induction is generalizing cnt s with
  | nil => exact HSim.ret cnt
  | cons j js ih =>
    rw [gWriteCoilsOuter, gWriteCoilsOuter]
    refine HSim.ite (fun _ => HSim.ret cnt) (fun _ => ?_)
    refine HSim.lift_bind fun v _ => ?_
    exact HSim.bind_strict (gWriteCoilsInner_sim S _ _ _ _ _ _ _ s) (fun _ s' _ => ih _ s')

theorem gReadWrite_sim (pdu : Bytes) (s : σ) : HSim sh id (B s) s (gReadWriteMultipleRegisters E pdu) (gReadWriteMultipleRegisters E' pdu) := by
  unfold gReadWriteMultipleRegisters
  refine S.hooked (HSim.lift_bind fun l _ => ?_)
  split
  · refine HSim.ite (fun _ => HSim.raise _) (fun _ => ?_)
    refine HSim.bind_keeps (S.locate _ _ _ s).of_strict (S.locateKeeps _ _ _ s) (fun p _ => ?_)
    obtain ⟨b, off⟩ := p
    refine HSim.bind_keeps (S.slice _ _ _ s).of_strict (S.sliceKeeps _ _ _ s) (fun vs hvs => ?_)
    refine HSim.lift_bind fun hd _ => ?_
    rw [S.regCode]
    refine packRegs_bind S hvs _ (fun a => HSim.of_strict ?_)
    refine HSim.ite (fun _ => HSim.raise _) (fun _ => ?_)
    refine HSim.bind_keeps (S.locate _ _ _ s) (S.locateKeeps _ _ _ s) (fun p _ => ?_)
    obtain ⟨b, off⟩ := p
    exact HSim.bind_strict (gWriteRegsLoop_sim S _ _ _ _ _ _ _ _ s) (fun _ s' _ => HSim.ret a)
  · exact HSim.raise _

theorem gMask_sim (pdu : Bytes) (s : σ) : HSim sh id (B s) s (gMaskWriteRegister E pdu) (gMaskWriteRegister E' pdu) := by
  unfold gMaskWriteRegister
  refine S.hooked (HSim.lift_bind fun l _ => ?_)
  split
  · rename_i a x y _
    refine HSim.bind_keeps (S.locate _ _ _ s).of_strict (S.locateKeeps _ _ _ s) (fun p _ => ?_)
    obtain ⟨b, off⟩ := p
    refine HSim.bind_keeps (S.item _ _ s).of_strict (S.itemKeeps _ _ s) (fun v hv => ?_)
    rcases S.mask s _ _ v hv x y with e | ⟨p, e⟩
    · refine HSim.of_strict ?_
      rw [e]
      refine HSim.lift_bind fun w _ => ?_
      · exact HSim.bind_strict (S.assign _ _ _ s) (fun _ s' _ => HSim.ret _)
    · right; exact ⟨p, .typeError, by rw [e]; rfl, Or.inr rfl⟩
  · exact HSim.raise _

theorem gWriteRegs_sim (pdu : Bytes) (s : σ) : HSim sh id False s (gWriteMultipleRegisters E pdu) (gWriteMultipleRegisters E' pdu) := by
  unfold gWriteMultipleRegisters
  refine S.hooked (HSim.lift_bind fun l _ => ?_)
  split
  · refine HSim.ite (fun _ => HSim.raise _) (fun _ => ?_)
    refine HSim.bind_keeps (S.locate _ _ _ s) (S.locateKeeps _ _ _ s) (fun p _ => ?_)
    obtain ⟨b, off⟩ := p
    rw [S.regCode]
    exact HSim.bind_strict (gWriteRegsLoop_sim S _ _ _ _ _ _ _ _ s) (fun _ s' _ => HSim.lift _)
  · exact HSim.raise _

theorem gWriteCoils_sim (pdu : Bytes) (s : σ) : HSim sh id False s (gWriteMultipleCoils E pdu) (gWriteMultipleCoils E' pdu) := by
  unfold gWriteMultipleCoils
  refine S.hooked (HSim.lift_bind fun l _ => ?_)
  split
  · refine HSim.ite (fun _ => HSim.raise _) (fun _ => ?_)
    refine HSim.bind_keeps (S.locate _ _ _ s) (S.locateKeeps _ _ _ s) (fun p _ => ?_)
    obtain ⟨b, off⟩ := p
    rw [S.unsigned]
    exact HSim.bind_strict (gWriteCoilsOuter_sim S _ _ _ _ _ _ _ s) (fun _ s' _ => HSim.lift _)
  · exact HSim.raise _

theorem gWriteReg_sim (pdu : Bytes) (s : σ) : HSim sh id False s (gWriteSingleRegister E pdu) (gWriteSingleRegister E' pdu) := by
  unfold gWriteSingleRegister
  rw [S.regCode]
  refine S.hooked (HSim.lift_bind fun l _ => ?_)
  split
  · refine HSim.bind_keeps (S.locate _ _ _ s) (S.locateKeeps _ _ _ s) (fun p _ => ?_)
    obtain ⟨b, off⟩ := p
    exact HSim.bind_strict (S.assign _ _ _ s) (fun _ s' _ => HSim.ret _)
  · exact HSim.raise _

theorem gWriteCoil_sim (pdu : Bytes) (s : σ) : HSim sh id False s (gWriteSingleCoil E pdu) (gWriteSingleCoil E' pdu) := by
  unfold gWriteSingleCoil
  refine S.hooked (HSim.lift_bind fun l _ => ?_)
  split
  · refine HSim.bind_keeps (S.locate _ _ _ s) (S.locateKeeps _ _ _ s) (fun p _ => ?_)
    obtain ⟨b, off⟩ := p
    refine HSim.ite (fun _ => ?_) (fun _ => HSim.ite (fun _ => ?_) (fun _ => ?_))
    · exact HSim.bind_strict (S.assign _ _ _ s) (fun _ s' _ => Or.inl rfl)
    · exact HSim.bind_strict (S.assign _ _ _ s) (fun _ s' _ => Or.inl rfl)
    · exact Or.inl rfl
  · exact HSim.raise _

/-- the function codes of the requests that read registers -/
def readsRegisters (fc : Int) : Prop := fc = 3 ∨ fc = 4 ∨ fc = 22 ∨ fc = 23

omit S in
theorem simMap_some {C : Prop} {o : Option (Bytes → PyM σ Bytes)} {o' : Option (Bytes → PyM σ' Bytes)} :
    (o = none ∧ o' = none) ∨ (∃ f f', o = some f ∧ o' = some f' ∧ ∀ pdu s, HSim sh id (C ∧ B s) s (f pdu) (f' pdu)) →
    ∀ f, o = some f → ∃ f', o' = some f' ∧ ∀ pdu s, HSim sh id (C ∧ B s) s (f pdu) (f' pdu) := by
  rintro (⟨h, _⟩ | ⟨f, f', h1, h2, h3⟩) g hg
  · rw [h] at hg; cases hg
  · rw [h1] at hg; cases hg; exact ⟨f', h2, h3⟩

theorem gMap_sim (fc : Int) (hT : fc = 1 ∨ fc = 2 → T) : (gFnCodeMap E fc = none ∧ gFnCodeMap E' fc = none) ∨
    (∃ f f', gFnCodeMap E fc = some f ∧ gFnCodeMap E' fc = some f' ∧ ∀ pdu s, HSim sh id (readsRegisters fc ∧ B s) s (f pdu) (f' pdu)) := by
  unfold gFnCodeMap
  by_cases h : fc = defines.READ_COILS
  · right; simp only [if_pos h]
    exact ⟨_, _, rfl, rfl, fun pdu s => HSim.of_strict (S.hooked (gReadDigital_sim S (hT (Or.inl h)) _ pdu s))⟩
  simp only [if_neg h]; clear h
  by_cases h : fc = defines.READ_DISCRETE_INPUTS
  · right; simp only [if_pos h]
    exact ⟨_, _, rfl, rfl, fun pdu s => HSim.of_strict (S.hooked (gReadDigital_sim S (hT (Or.inr h)) _ pdu s))⟩
  simp only [if_neg h]; clear h
  by_cases h : fc = defines.READ_INPUT_REGISTERS
  · right; simp only [if_pos h]
    exact ⟨_, _, rfl, rfl, fun pdu s => HSim.mono (S.hooked (gReadRegisters_sim S _ pdu s)) (fun b => ⟨Or.inr (Or.inl h), b⟩)⟩
  simp only [if_neg h]; clear h
  by_cases h : fc = defines.READ_HOLDING_REGISTERS
  · right; simp only [if_pos h]
    exact ⟨_, _, rfl, rfl, fun pdu s => HSim.mono (S.hooked (gReadRegisters_sim S _ pdu s)) (fun b => ⟨Or.inl h, b⟩)⟩
  simp only [if_neg h]; clear h
  by_cases h : fc = defines.READ_EXCEPTION_STATUS
  · right; simp only [if_pos h]
    exact ⟨_, _, rfl, rfl, fun pdu s => HSim.of_strict (S.hooked (HSim.lift _))⟩
  simp only [if_neg h]; clear h
  by_cases h : fc = defines.WRITE_SINGLE_COIL
  · right; simp only [if_pos h]
    exact ⟨_, _, rfl, rfl, fun pdu s => HSim.of_strict (gWriteCoil_sim S pdu s)⟩
  simp only [if_neg h]; clear h
  by_cases h : fc = defines.WRITE_SINGLE_REGISTER
  · right; simp only [if_pos h]
    exact ⟨_, _, rfl, rfl, fun pdu s => HSim.of_strict (gWriteReg_sim S pdu s)⟩
  simp only [if_neg h]; clear h
  by_cases h : fc = defines.WRITE_MULTIPLE_COILS
  · right; simp only [if_pos h]
    exact ⟨_, _, rfl, rfl, fun pdu s => HSim.of_strict (gWriteCoils_sim S pdu s)⟩
  simp only [if_neg h]; clear h
  by_cases h : fc = defines.WRITE_MULTIPLE_REGISTERS
  · right; simp only [if_pos h]
    exact ⟨_, _, rfl, rfl, fun pdu s => HSim.of_strict (gWriteRegs_sim S pdu s)⟩
  simp only [if_neg h]; clear h
  by_cases h : fc = defines.MASK_WRITE_REGISTER
  · right; simp only [if_pos h]
    exact ⟨_, _, rfl, rfl, fun pdu s => HSim.mono (gMask_sim S pdu s) (fun b => ⟨Or.inr (Or.inr (Or.inl h)), b⟩)⟩
  simp only [if_neg h]; clear h
  by_cases h : fc = defines.READ_WRITE_MULTIPLE_REGISTERS
  · right; simp only [if_pos h]
    exact ⟨_, _, rfl, rfl, fun pdu s => HSim.mono (gReadWrite_sim S pdu s) (fun b => ⟨Or.inr (Or.inr (Or.inr h)), b⟩)⟩
  rw [if_neg h, if_neg h]
  exact Or.inl ⟨rfl, rfl⟩

omit S in
theorem HSim.andThen {C : Prop} {f : PyM σ Bytes} {g : PyM σ' Bytes} {k : Bytes → PyM σ γ} {k' : Bytes → PyM σ' δ} (hf : HSim sh id C s f g)
    (hk : ∀ a s', f s = (.ok a, s') → HSim sh m' False s' (k a) (k' a)) : HSim sh m' C s (f >>= k) (g >>= k') := by
  rcases hf with h | ⟨b, e, he, ht⟩
  · exact HSim.of_strict (HSim.bind_strict (Or.inl h) hk)
  · right
    refine ⟨b, e, ?_, ht⟩
    rw [PyM.bind_apply, he]

theorem gDispatch_sim (fc : Int) (hT : fc = 1 ∨ fc = 2 → T) (pdu : Bytes) (b : Bool) (s : σ) : HSim sh id (readsRegisters fc ∧ B s) s (gDispatch E fc pdu b) (gDispatch E' fc pdu b) := by
  unfold gDispatch
  rcases gMap_sim S fc hT with ⟨h1, h2⟩ | ⟨f, f', h1, h2, h3⟩
  · rw [h1, h2]; exact HSim.raise _
  · rw [h1, h2]
    dsimp only
    refine HSim.ite (fun _ => HSim.raise _) (fun _ => ?_)
    refine HSim.andThen (h3 pdu s) (fun a s' _ => ?_)
    refine HSim.ite (fun _ => ?_) (fun _ => HSim.raise _)
    refine HSim.ite (fun _ => ?_) (fun _ => ?_)
    · exact S.hooked (HSim.ret [])
    · exact HSim.lift_bind (fun hd _ => HSim.ret _)

omit S in
theorem HSim.tryExcept {C : Prop} {f : PyM σ α} {g : PyM σ' α} {k : PyErr → PyM σ α} {k' : PyErr → PyM σ' α} (hf : HSim sh id C s f g)
    (hk : ∀ e s', HSim sh id False s' (k e) (k' e)) (hre : ∀ e s', e = .structError ∨ e = .typeError → k e s' = (.error e, s')) :
    HSim sh id C s (PyM.tryExcept f k) (PyM.tryExcept g k') := by
  rcases hf with h | ⟨b, e, he, ht⟩
  · rcases hr : f s with ⟨r, s'⟩
    rw [hr] at h
    cases r with
    | ok a =>
      left
      rw [PyM.tryExcept_apply, PyM.tryExcept_apply, h, hr]
      rfl
    | error e =>
      rcases hk e s' with h2 | ⟨b, _⟩
      · left
        rw [PyM.tryExcept_apply, PyM.tryExcept_apply, h, hr]
        exact h2
      · exact b.elim
  · right
    refine ⟨b, e, ?_, ht⟩
    rw [PyM.tryExcept_apply, he]
    exact hre e s ht

/-- the answers of the two environments: the same up to the picture; or a request that reads registers met a value that does not go into a frame -/
theorem gHandle_sim (pdu : Bytes) (hT : ∀ fc, pdu[0]? = some fc → fc = 1 ∨ fc = 2 → T) (b : Bool) (s : σ) :
    HSim sh id ((∃ fc, pdu[0]? = some fc ∧ readsRegisters fc.toNat) ∧ B s) s (gHandleRequest E pdu b) (gHandleRequest E' pdu b) := by
  unfold gHandleRequest
  have h := S.hook "modbus.Slave.handle_request" (.msg pdu) s
  have hk := S.hookKeeps "modbus.Slave.handle_request" (.msg pdu) s
  rcases h with h | ⟨b, _⟩
  swap
  · exact b.elim
  rcases hr : E.hook "modbus.Slave.handle_request" (.msg pdu) s with ⟨r, s'⟩
  rw [hr] at h hk
  dsimp only at hk
  subst hk
  rcases r with e | _ | v
  · left
    dsimp only
    rw [h, hr]
    cases e <;> rfl
  · have key : HSim sh id ((∃ fc, pdu[0]? = some fc ∧ readsRegisters fc.toNat) ∧ B s') s'
        (do
          let fc ← PyM.lift (unpackSingle Code.B (slice pdu 0 1))
          PyM.tryExcept (gDispatch E fc pdu b) (fun e =>
            match e with
            | .modbusError code => do
                E.hook_ "modbus.Slave.on_exception" (.exc (.modbusError code) pdu)
                PyM.lift (structPack (be [Code.B, Code.B]) [fc + 128, code])
            | e => PyM.raise e))
        (do
          let fc ← PyM.lift (unpackSingle Code.B (slice pdu 0 1))
          PyM.tryExcept (gDispatch E' fc pdu b) (fun e =>
            match e with
            | .modbusError code => do
                E'.hook_ "modbus.Slave.on_exception" (.exc (.modbusError code) pdu)
                PyM.lift (structPack (be [Code.B, Code.B]) [fc + 128, code])
            | e => PyM.raise e)) := by
      refine HSim.lift_bind fun fc hfc => ?_
      have hpdu : ∃ c, pdu[0]? = some c ∧ fc = c.toNat := by
        cases pdu with
        | nil =>
          rw [show unpackSingle Code.B (slice [] 0 1) = .error .structError from by decide] at hfc
          cases hfc
        | cons c rest =>
          have hs : Modbus.slice (c :: rest) 0 1 = [c] := by simp [Modbus.slice]
          rw [hs, unpackSingle_ok rfl, unpackOne_B] at hfc
          cases hfc
          exact ⟨c, rfl, rfl⟩
      obtain ⟨c, hc, rfl⟩ := hpdu
      refine HSim.tryExcept (C := _) ?_ ?_ ?_
      · refine (gDispatch_sim S _ (fun h => hT c hc ?_) pdu b s').mono ?_
        · rcases h with h | h
          · left; exact UInt8.toNat_inj.mp (by have : (1 : UInt8).toNat = 1 := rfl; omega)
          · right; exact UInt8.toNat_inj.mp (by have : (2 : UInt8).toNat = 2 := rfl; omega)
        · exact fun h => ⟨⟨c, hc, h.1⟩, h.2⟩
      · intro e s2
        cases e <;> first | exact HSim.raise _ | exact S.hooked (HSim.lift _)
      · rintro e s2 (rfl | rfl) <;> rfl
    rcases key with k | ⟨hb, e, he, ht⟩
    · left
      dsimp only
      rw [h, hr]
      exact k
    · right
      refine ⟨hb, e, ?_, ht⟩
      dsimp only
      rw [hr]
      exact he
  · left
    dsimp only
    rw [h, hr]
    rfl

end

/-! ## What the handlers preserve -/

section
variable {σ V α β : Type} {P : σ → Prop}

/-- the computation preserves `P`, whether it succeeds or raises -/
def Pres (P : σ → Prop) (f : PyM σ α) : Prop := ∀ s, P s → P (f s).2

theorem Pres.bind {f : PyM σ α} {k : α → PyM σ β} (hf : Pres P f) (hk : ∀ a, Pres P (k a)) : Pres P (f >>= k) := by
  intro s hs
  have h := hf s hs
  rw [PyM.bind_apply]
  rcases hr : f s with ⟨r, s'⟩
  rw [hr] at h
  cases r with
  | ok a => exact hk a s' h
  | error e => exact h

theorem Pres.lift (x : Except PyErr α) : Pres P (PyM.lift x) := fun _ h => h
theorem Pres.raise (e : PyErr) : Pres P (PyM.raise e : PyM σ α) := fun _ h => h
theorem Pres.ret (a : α) : Pres P (Pure.pure a) := fun _ h => h
theorem Pres.ite {c : Prop} [Decidable c] {f g : PyM σ α} (hf : Pres P f) (hg : Pres P g) : Pres P (if c then f else g) := by
  split <;> assumption
theorem Pres.tryExcept {f : PyM σ α} {k : PyErr → PyM σ α} (hf : Pres P f) (hk : ∀ e, Pres P (k e)) : Pres P (PyM.tryExcept f k) := by
  intro s hs
  have h := hf s hs
  rw [PyM.tryExcept_apply]
  rcases hr : f s with ⟨r, s'⟩
  rw [hr] at h
  cases r with
  | ok a => exact h
  | error e => exact hk e s' h

/-- what the operations of the environment preserve -/
structure EnvPres (E : Env σ V) (P : σ → Prop) : Prop where
  hook : ∀ name a, Pres P (E.hook name a)
  locate : ∀ t a n, Pres P (E.locate t a n)
  slice : ∀ b i j, Pres P (E.slice b i j)
  item : ∀ b i, Pres P (E.item b i)
  assign : ∀ b i n, Pres P (E.assign b i (E.cell n))

variable {E : Env σ V} (S : EnvPres E P)
include S

theorem EnvPres.hook_ (name : String) (a : HookArg) : Pres P (E.hook_ name a) := (S.hook name a).bind fun _ => Pres.ret ()

theorem gReadDigital_pres (bt : Int) (pdu : Bytes) : Pres P (gReadDigital E bt pdu) := by
  unfold gReadDigital
  refine (Pres.lift _).bind fun l => ?_
  split
  · refine Pres.ite (Pres.raise _) ((S.locate _ _ _).bind fun p => ?_)
    exact (S.slice _ _ _).bind fun _ => (Pres.lift _).bind fun _ => Pres.lift _
  · exact Pres.raise _

theorem gReadRegisters_pres (bt : Int) (pdu : Bytes) : Pres P (gReadRegisters E bt pdu) := by
  unfold gReadRegisters
  refine (Pres.lift _).bind fun l => ?_
  split
  · refine Pres.ite (Pres.raise _) ((S.locate _ _ _).bind fun p => ?_)
    exact (S.slice _ _ _).bind fun _ => (Pres.lift _).bind fun _ => Pres.lift _
  · exact Pres.raise _

theorem gWriteRegsLoop_pres (c : Code) (b : BlockRef) (off : Int) (pdu : Bytes) (base n i : Nat) (cnt : Int) : Pres P (gWriteRegsLoop E c b off pdu base n i cnt) := by
  induction n generalizing i cnt with
  | zero => exact Pres.ret _
  | succ n ih => rw [gWriteRegsLoop]; exact (Pres.lift _).bind fun _ => (S.assign _ _ _).bind fun _ => ih _ _

theorem gWriteCoilsInner_pres (b : BlockRef) (off q bv : Int) (i : Nat) (js : List Nat) (cnt : Int) : Pres P (gWriteCoilsInner E b off q bv i js cnt) := by
  induction js generalizing cnt with
  | nil => exact Pres.ret _
  | cons j js ih => rw [gWriteCoilsInner]; exact Pres.ite (Pres.ret _) ((S.assign _ _ _).bind fun _ => ih _)

theorem gWriteCoilsOuter_pres (c : Code) (b : BlockRef) (off q : Int) (pdu : Bytes) (is : List Nat) (cnt : Int) : Pres P (gWriteCoilsOuter E c b off q pdu is cnt) := by
  induction is generalizing cnt with
  | nil => exact Pres.ret _
  | cons j js ih => rw [gWriteCoilsOuter]; exact Pres.ite (Pres.ret _) ((Pres.lift _).bind fun _ => (gWriteCoilsInner_pres S _ _ _ _ _ _ _).bind fun _ => ih _)

theorem gMap_pres (fc : Int) {f : Bytes → PyM σ Bytes} (hf : gFnCodeMap E fc = some f) (pdu : Bytes) : Pres P (f pdu) := by
  unfold gFnCodeMap at hf
  split at hf
  · cases hf; exact (S.hook_ _ _).bind fun _ => gReadDigital_pres S _ _
  split at hf
  · cases hf; exact (S.hook_ _ _).bind fun _ => gReadDigital_pres S _ _
  split at hf
  · cases hf; exact (S.hook_ _ _).bind fun _ => gReadRegisters_pres S _ _
  split at hf
  · cases hf; exact (S.hook_ _ _).bind fun _ => gReadRegisters_pres S _ _
  split at hf
  · cases hf; exact (S.hook_ _ _).bind fun _ => Pres.lift _
  split at hf
  · cases hf
    unfold gWriteSingleCoil
    refine (S.hook_ _ _).bind fun _ => (Pres.lift _).bind fun l => ?_
    split
    · refine (S.locate _ _ _).bind fun p => ?_
      refine Pres.ite ((S.assign _ _ _).bind fun _ => Pres.ret _) (Pres.ite ((S.assign _ _ _).bind fun _ => Pres.ret _) ((Pres.raise _).bind fun _ => Pres.ret _))
    · exact Pres.raise _
  split at hf
  · cases hf
    unfold gWriteSingleRegister
    refine (S.hook_ _ _).bind fun _ => (Pres.lift _).bind fun l => ?_
    split
    · exact (S.locate _ _ _).bind fun p => (S.assign _ _ _).bind fun _ => Pres.ret _
    · exact Pres.raise _
  split at hf
  · cases hf
    unfold gWriteMultipleCoils
    refine (S.hook_ _ _).bind fun _ => (Pres.lift _).bind fun l => ?_
    split
    · exact Pres.ite (Pres.raise _) ((S.locate _ _ _).bind fun p => (gWriteCoilsOuter_pres S _ _ _ _ _ _ _).bind fun _ => Pres.lift _)
    · exact Pres.raise _
  split at hf
  · cases hf
    unfold gWriteMultipleRegisters
    refine (S.hook_ _ _).bind fun _ => (Pres.lift _).bind fun l => ?_
    split
    · exact Pres.ite (Pres.raise _) ((S.locate _ _ _).bind fun p => (gWriteRegsLoop_pres S _ _ _ _ _ _ _ _).bind fun _ => Pres.lift _)
    · exact Pres.raise _
  split at hf
  · cases hf
    unfold gMaskWriteRegister
    refine (S.hook_ _ _).bind fun _ => (Pres.lift _).bind fun l => ?_
    split
    · exact (S.locate _ _ _).bind fun p => (S.item _ _).bind fun _ => (Pres.lift _).bind fun _ => (S.assign _ _ _).bind fun _ => Pres.ret _
    · exact Pres.raise _
  split at hf
  · cases hf
    unfold gReadWriteMultipleRegisters
    refine (S.hook_ _ _).bind fun _ => (Pres.lift _).bind fun l => ?_
    split
    · refine Pres.ite (Pres.raise _) ((S.locate _ _ _).bind fun p => (S.slice _ _ _).bind fun _ => (Pres.lift _).bind fun _ => (Pres.lift _).bind fun _ => ?_)
      exact Pres.ite (Pres.raise _) ((S.locate _ _ _).bind fun p => (gWriteRegsLoop_pres S _ _ _ _ _ _ _ _).bind fun _ => Pres.ret _)
    · exact Pres.raise _
  · cases hf

/-- what the hooks, the look-ups and the assignments of integers preserve, `handle_request` preserves -/
theorem gHandle_preserves (pdu : Bytes) (b : Bool) : Pres P (gHandleRequest E pdu b) := by
  have hd : ∀ fc, Pres P (gDispatch E fc pdu b) := by
    intro fc
    unfold gDispatch
    cases hf : gFnCodeMap E fc with
    | none => exact Pres.raise _
    | some f =>
      dsimp only
      refine Pres.ite (Pres.raise _) ((gMap_pres S fc hf pdu).bind fun r => ?_)
      exact Pres.ite (Pres.ite ((S.hook_ _ _).bind fun _ => Pres.ret _) ((Pres.lift _).bind fun _ => Pres.ret _)) (Pres.raise _)
  have hk : Pres P (do
      let fc ← PyM.lift (unpackSingle Code.B (slice pdu 0 1))
      PyM.tryExcept (gDispatch E fc pdu b) (fun e =>
        match e with
        | .modbusError code => do
            E.hook_ "modbus.Slave.on_exception" (.exc (.modbusError code) pdu)
            PyM.lift (structPack (be [Code.B, Code.B]) [fc + 128, code])
        | e => PyM.raise e)) := by
    refine (Pres.lift _).bind fun fc => (hd fc).tryExcept fun e => ?_
    cases e <;> first | exact Pres.raise _ | exact (S.hook_ _ _).bind fun _ => Pres.lift _
  intro s hs
  have h0 := S.hook "modbus.Slave.handle_request" (.msg pdu) s hs
  unfold gHandleRequest
  rcases hr : E.hook "modbus.Slave.handle_request" (.msg pdu) s with ⟨r, s'⟩
  rw [hr] at h0
  rcases r with e | _ | v
  · cases e <;> exact h0
  · exact hk s' h0
  · exact h0

end

end Modbus
