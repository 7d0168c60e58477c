import Verif.Lemmas.Frame
/- Locality: what a slave does depends only on, and touches only, the lists of its own memory dictionary. -/
namespace Modbus

/-- the list object is one of the dictionary's -/
def InDict (D : List (Int × Nat)) (r : Nat) : Prop := ∃ bt, Dict.get? D bt = some r

/-- both heaps have the dictionary `D` at `mem` and the same lists behind it -/
structure Agree (mem : Nat) (D : List (Int × Nat)) (h1 h2 : Heap) : Prop where
  left : h1.dicts mem = D
  right : h2.dicts mem = D
  lists : ∀ r, InDict D r → h1.lists r = h2.lists r

theorem Agree.symm {mem : Nat} {D} {h1 h2 : Heap} (a : Agree mem D h1 h2) : Agree mem D h2 h1 :=
  ⟨a.right, a.left, fun r hr => (a.lists r hr).symm⟩

theorem Agree.trans {mem : Nat} {D} {h1 h2 h3 : Heap} (a : Agree mem D h1 h2) (b : Agree mem D h2 h3) :
    Agree mem D h1 h3 := ⟨a.left, b.right, fun r hr => (a.lists r hr).trans (b.lists r hr)⟩

theorem Agree.refl {mem : Nat} {h : Heap} : Agree mem (h.dicts mem) h h := ⟨rfl, rfl, fun _ _ => rfl⟩

/-- only lists of the dictionary changed -/
structure Within (D : List (Int × Nat)) (h h' : Heap) : Prop where
  dicts : h'.dicts = h.dicts
  nextList : h'.nextList = h.nextList
  nextDict : h'.nextDict = h.nextDict
  other : ∀ r, ¬ InDict D r → h'.lists r = h.lists r

theorem Within.refl {D} {h : Heap} : Within D h h := ⟨rfl, rfl, rfl, fun _ _ => rfl⟩

theorem Within.trans {D} {h1 h2 h3 : Heap} (a : Within D h1 h2) (b : Within D h2 h3) : Within D h1 h3 :=
  ⟨b.dicts.trans a.dicts, b.nextList.trans a.nextList, b.nextDict.trans a.nextDict,
   fun r hr => (b.other r hr).trans (a.other r hr)⟩

/-- a computation is local to a memory; its results satisfy `P` -/
def Loc {α : Type} (mem : Nat) (D : List (Int × Nat)) (P : α → Prop) (f : PyM Heap α) : Prop :=
  ∀ h1 h2, Agree mem D h1 h2 →
    (f h1).1 = (f h2).1 ∧ (∀ a, (f h1).1 = .ok a → P a) ∧ Agree mem D (f h1).2 (f h2).2 ∧ Within D h1 (f h1).2

variable {α β : Type} {mem : Nat} {D : List (Int × Nat)}

theorem Loc.bind {P : α → Prop} {Q : β → Prop} {m : PyM Heap α} {f : α → PyM Heap β} (hm : Loc mem D P m)
    (hf : ∀ a, P a → Loc mem D Q (f a)) : Loc mem D Q (m >>= f) := by
  intro h1 h2 ha
  obtain ⟨e, hp, ha', hw⟩ := hm h1 h2 ha
  simp only [PyM.bind_apply]
  rcases hx : m h1 with ⟨x, g1⟩
  rcases hy : m h2 with ⟨y, g2⟩
  rw [hx, hy] at e ha'
  rw [hx] at hp hw
  dsimp only at e ha' hp hw
  subst e
  cases x with
  | error e => exact ⟨rfl, by simp, ha', hw⟩
  | ok a =>
    obtain ⟨e2, hq, ha2, hw2⟩ := hf a (hp a rfl) g1 g2 ha'
    exact ⟨e2, hq, ha2, hw.trans hw2⟩

theorem Loc.const {P : α → Prop} (x : Except PyErr α) (hp : ∀ a, x = .ok a → P a) :
    Loc mem D P (fun h => (x, h)) :=
  fun _ _ ha => ⟨rfl, hp, ha, .refl⟩

theorem Loc.pure {P : α → Prop} {a : α} (hp : P a) : Loc mem D P (Pure.pure a : PyM Heap α) :=
  Loc.const (.ok a) (fun b hb => by cases hb; exact hp)

theorem Loc.raise {P : α → Prop} (e : PyErr) : Loc mem D P (PyM.raise e : PyM Heap α) :=
  Loc.const (.error e) (by simp)

theorem Loc.lift (x : Except PyErr α) : Loc mem D (fun _ => True) (PyM.lift x : PyM Heap α) :=
  Loc.const x (by simp)

theorem Loc.tryExcept {P : α → Prop} {m : PyM Heap α} {hd : PyErr → PyM Heap α} (hm : Loc mem D P m)
    (hh : ∀ e, Loc mem D P (hd e)) : Loc mem D P (PyM.tryExcept m hd) := by
  intro h1 h2 ha
  obtain ⟨e, hp, ha', hw⟩ := hm h1 h2 ha
  simp only [PyM.tryExcept_apply]
  rcases hx : m h1 with ⟨x, g1⟩
  rcases hy : m h2 with ⟨y, g2⟩
  rw [hx, hy] at e ha'
  rw [hx] at hp hw
  dsimp only at e ha' hp hw
  subst e
  cases x with
  | ok a => exact ⟨rfl, hp, ha', hw⟩
  | error e =>
    obtain ⟨e2, hq, ha2, hw2⟩ := hh e g1 g2 ha'
    exact ⟨e2, hq, ha2, hw.trans hw2⟩

theorem Loc.weaken {P Q : α → Prop} {m : PyM Heap α} (hm : Loc mem D P m) (h : ∀ a, P a → Q a) : Loc mem D Q m :=
  fun h1 h2 ha => let ⟨a, b, c, d⟩ := hm h1 h2 ha; ⟨a, fun x hx => h x (b x hx), c, d⟩

/-- a computation that only reads through its memory -/
theorem Loc.reader {P : α → Prop} {m : PyM Heap α} (hs : ∀ h, (m h).2 = h)
    (hr : ∀ h1 h2, Agree mem D h1 h2 → (m h1).1 = (m h2).1 ∧ ∀ a, (m h1).1 = .ok a → P a) : Loc mem D P m :=
  fun h1 h2 ha => ⟨(hr h1 h2 ha).1, (hr h1 h2 ha).2, by rw [hs, hs]; exact ha, by rw [hs]; exact .refl⟩

theorem loc_callHook (R : Registry) (name : String) (a : HookArg) : Loc mem D (fun _ => True) (callHook_ R name a) :=
  Loc.bind (Loc.lift _) (fun _ _ => Loc.pure trivial)

/-- results of the block lookup are in the dictionary -/
def InD (D : List (Int × Nat)) (p : BlockRef × Int) : Prop := InDict D p.1.list

theorem loc_gbo {sl : Slave} (hm : sl.mem = mem) (bt a n : Int) : Loc mem D (InD D) (getBlockAndOffset sl bt a n) := by
  refine Loc.reader (gbo_snd sl bt a n) ?_
  intro h1 h2 ha
  simp only [getBlockAndOffset, memRef, PyM.bind_apply, hm, ha.left, ha.right]
  cases hg : Dict.get? D bt with
  | none => simp
  | some r =>
    simp only [PyM.get_apply]
    rw [ha.lists r ⟨bt, hg⟩]
    cases findBlock (h2.lists r) a n with
    | none => simp
    | some p => exact ⟨rfl, fun x hx => by cases hx; exact ⟨bt, hg⟩⟩

theorem loc_getSlice {b : BlockRef} (hb : InDict D b.list) (i j : Int) : Loc mem D (fun _ => True) (getSlice b i j) := by
  refine Loc.reader (getSlice_snd b i j) ?_
  intro h1 h2 ha
  simp only [getSlice, Heap.block?, ha.lists _ hb]
  cases (h2.lists b.list)[b.idx]? <;> simp

theorem loc_getItem {b : BlockRef} (hb : InDict D b.list) (i : Int) : Loc mem D (fun _ => True) (getItem b i) := by
  refine Loc.reader (getItem_snd b i) ?_
  intro h1 h2 ha
  simp only [getItem, Heap.block?, ha.lists _ hb]
  cases (h2.lists b.list)[b.idx]? with
  | none => simp
  | some blk => dsimp only; split <;> simp

theorem agree_setBlock {h1 h2 : Heap} (ha : Agree mem D h1 h2) {b : BlockRef} (hb : InDict D b.list) (blk : Block) :
    Agree mem D (h1.setBlock b blk) (h2.setBlock b blk) := by
  refine ⟨ha.left, ha.right, fun r hr => ?_⟩
  by_cases e : r = b.list
  · subst e; rw [setBlock_lists_same, setBlock_lists_same, ha.lists _ hb]
  · rw [setBlock_lists_other _ _ _ e, setBlock_lists_other _ _ _ e, ha.lists _ hr]

theorem within_setBlock {h : Heap} {b : BlockRef} (hb : InDict D b.list) (blk : Block) :
    Within D h (h.setBlock b blk) :=
  ⟨rfl, rfl, rfl, fun _ hr => setBlock_lists_other _ _ _ (fun e => hr (e ▸ hb))⟩

theorem loc_setItem {b : BlockRef} (hb : InDict D b.list) (R : Registry) (i v : Int) :
    Loc mem D (fun _ => True) (setItem R b i v) := by
  intro h1 h2 ha
  simp only [setItem, Heap.block?, ha.lists _ hb]
  cases (h2.lists b.list)[b.idx]? with
  | none => exact ⟨rfl, by simp, ha, .refl⟩
  | some blk =>
    dsimp only
    cases callHooks R "modbus.ModbusBlock.setitem" (.setitem blk.start i [v]) with
    | error e => exact ⟨rfl, by simp, ha, .refl⟩
    | ok _ =>
      dsimp only
      split
      · exact ⟨rfl, by simp, agree_setBlock ha hb _, within_setBlock hb _⟩
      · exact ⟨rfl, by simp, ha, .refl⟩

theorem loc_setSlice {b : BlockRef} (hb : InDict D b.list) (R : Registry) (i : Int) (vs : List Int) :
    Loc mem D (fun _ => True) (setSlice R b i vs) := by
  intro h1 h2 ha
  simp only [setSlice, Heap.block?, ha.lists _ hb]
  cases (h2.lists b.list)[b.idx]? with
  | none => exact ⟨rfl, by simp, ha, .refl⟩
  | some blk =>
    dsimp only
    cases callHooks R "modbus.ModbusBlock.setitem" (.setitem blk.start i vs) with
    | error e => exact ⟨rfl, by simp, ha, .refl⟩
    | ok _ => exact ⟨rfl, by simp, agree_setBlock ha hb _, within_setBlock hb _⟩

section
variable {sl : Slave} (hm : sl.mem = mem) {R : Registry}
abbrev LocT {α : Type} (mem : Nat) (D : List (Int × Nat)) (f : PyM Heap α) : Prop := Loc mem D (fun _ => True) f

include hm

theorem loc_readDigital (bt : Int) (pdu : Bytes) : LocT mem D (readDigital sl bt pdu) := by
  refine Loc.bind (Loc.lift _) fun vals _ => ?_
  split
  · split
    · exact Loc.raise _
    · refine Loc.bind (loc_gbo hm _ _ _) fun p hp => ?_
      exact Loc.bind (loc_getSlice hp _ _) fun _ _ => Loc.bind (Loc.lift _) fun _ _ => Loc.lift _
  · exact Loc.raise _

theorem loc_readRegisters (bt : Int) (pdu : Bytes) : LocT mem D (readRegisters sl bt pdu) := by
  refine Loc.bind (Loc.lift _) fun vals _ => ?_
  split
  · split
    · exact Loc.raise _
    · refine Loc.bind (loc_gbo hm _ _ _) fun p hp => ?_
      exact Loc.bind (loc_getSlice hp _ _) fun _ _ => Loc.bind (Loc.lift _) fun _ _ => Loc.lift _
  · exact Loc.raise _

omit hm in
theorem loc_writeRegsLoop {b : BlockRef} (hb : InDict D b.list) (c : Code) (off : Int) (pdu : Bytes) (base n i : Nat)
    (count : Int) : LocT mem D (writeRegsLoop R c b off pdu base n i count) := by
  induction n generalizing i count with
  | zero => exact Loc.pure trivial
  | succ n ih =>
    exact Loc.bind (Loc.lift _) fun v _ => Loc.bind (loc_setItem hb R _ _) fun _ _ => ih _ _

omit hm in
theorem loc_writeCoilsInner {b : BlockRef} (hb : InDict D b.list) (off q bv : Int) (i : Nat) (js : List Nat)
    (count : Int) : LocT mem D (writeCoilsInner R b off q bv i js count) := by
  induction js generalizing count with
  | nil => exact Loc.pure trivial
  | cons j js ih =>
    unfold writeCoilsInner
    split
    · exact Loc.pure trivial
    · exact Loc.bind (loc_setItem hb R _ _) fun _ _ => ih _

omit hm in
theorem loc_writeCoilsOuter {b : BlockRef} (hb : InDict D b.list) (c : Code) (off q : Int) (pdu : Bytes)
    (is : List Nat) (count : Int) : LocT mem D (writeCoilsOuter R c b off q pdu is count) := by
  induction is generalizing count with
  | nil => exact Loc.pure trivial
  | cons i is ih =>
    unfold writeCoilsOuter
    split
    · exact Loc.pure trivial
    · exact Loc.bind (Loc.lift _) fun v _ => Loc.bind (loc_writeCoilsInner hb _ _ _ _ _ _) fun _ _ => ih _

theorem loc_readWrite (pdu : Bytes) : LocT mem D (readWriteMultipleRegisters R sl pdu) := by
  refine Loc.bind (loc_callHook _ _ _) fun _ _ => Loc.bind (Loc.lift _) fun vals _ => ?_
  split
  · split
    · exact Loc.raise _
    · refine Loc.bind (loc_gbo hm _ _ _) fun p hp => ?_
      refine Loc.bind (loc_getSlice hp _ _) fun _ _ => Loc.bind (Loc.lift _) fun _ _ => Loc.bind (Loc.lift _) fun _ _ => ?_
      split
      · exact Loc.raise _
      · refine Loc.bind (loc_gbo hm _ _ _) fun p hp => ?_
        exact Loc.bind (loc_writeRegsLoop hp _ _ _ _ _ _ _) fun _ _ => Loc.pure trivial
  · exact Loc.raise _

theorem loc_maskWrite (pdu : Bytes) : LocT mem D (maskWriteRegister R sl pdu) := by
  refine Loc.bind (loc_callHook _ _ _) fun _ _ => Loc.bind (Loc.lift _) fun vals _ => ?_
  split
  · refine Loc.bind (loc_gbo hm _ _ _) fun p hp => ?_
    exact Loc.bind (loc_getItem hp _) fun _ _ => Loc.bind (loc_setItem hp _ _ _) fun _ _ => Loc.pure trivial
  · exact Loc.raise _

theorem loc_writeMultipleRegisters (pdu : Bytes) : LocT mem D (writeMultipleRegisters R sl pdu) := by
  refine Loc.bind (loc_callHook _ _ _) fun _ _ => Loc.bind (Loc.lift _) fun vals _ => ?_
  split
  · split
    · exact Loc.raise _
    · refine Loc.bind (loc_gbo hm _ _ _) fun p hp => ?_
      exact Loc.bind (loc_writeRegsLoop hp _ _ _ _ _ _ _) fun _ _ => Loc.lift _
  · exact Loc.raise _

theorem loc_writeMultipleCoils (pdu : Bytes) : LocT mem D (writeMultipleCoils R sl pdu) := by
  refine Loc.bind (loc_callHook _ _ _) fun _ _ => Loc.bind (Loc.lift _) fun vals _ => ?_
  split
  · split
    · exact Loc.raise _
    · refine Loc.bind (loc_gbo hm _ _ _) fun p hp => ?_
      exact Loc.bind (loc_writeCoilsOuter hp _ _ _ _ _ _) fun _ _ => Loc.lift _
  · exact Loc.raise _

theorem loc_writeSingleRegister (pdu : Bytes) : LocT mem D (writeSingleRegister R sl pdu) := by
  refine Loc.bind (loc_callHook _ _ _) fun _ _ => Loc.bind (Loc.lift _) fun vals _ => ?_
  split
  · refine Loc.bind (loc_gbo hm _ _ _) fun p hp => ?_
    exact Loc.bind (loc_setItem hp _ _ _) fun _ _ => Loc.pure trivial
  · exact Loc.raise _

theorem loc_writeSingleCoil (pdu : Bytes) : LocT mem D (writeSingleCoil R sl pdu) := by
  refine Loc.bind (loc_callHook _ _ _) fun _ _ => Loc.bind (Loc.lift _) fun vals _ => ?_
  split
  · refine Loc.bind (loc_gbo hm _ _ _) fun p hp => ?_
    obtain ⟨b, off⟩ := p
    dsimp only
    split
    · exact Loc.bind (loc_setItem hp _ _ _) fun _ _ => Loc.pure trivial
    · split
      · exact Loc.bind (loc_setItem hp _ _ _) fun _ _ => Loc.pure trivial
      · exact Loc.bind (P := fun _ => True) (Loc.raise _) fun _ _ => Loc.pure trivial
  · exact Loc.raise _

theorem loc_fnCodeMap {fc : Int} {f : Bytes → PyM Heap Bytes} (hf : fnCodeMap R sl fc = some f) (pdu : Bytes) :
    LocT mem D (f pdu) := by
  unfold fnCodeMap at hf
  repeat' split at hf
  all_goals first | (simp only [Option.some.injEq] at hf; subst hf) | cases hf
  · exact Loc.bind (loc_callHook _ _ _) fun _ _ => loc_readDigital hm _ _
  · exact Loc.bind (loc_callHook _ _ _) fun _ _ => loc_readDigital hm _ _
  · exact Loc.bind (loc_callHook _ _ _) fun _ _ => loc_readRegisters hm _ _
  · exact Loc.bind (loc_callHook _ _ _) fun _ _ => loc_readRegisters hm _ _
  · exact Loc.bind (loc_callHook _ _ _) fun _ _ => Loc.lift _
  · exact loc_writeSingleCoil hm pdu
  · exact loc_writeSingleRegister hm pdu
  · exact loc_writeMultipleCoils hm pdu
  · exact loc_writeMultipleRegisters hm pdu
  · exact loc_maskWrite hm pdu
  · exact loc_readWrite hm pdu

theorem loc_dispatch (fc : Int) (pdu : Bytes) (bc : Bool) : LocT mem D (dispatch R sl fc pdu bc) := by
  unfold dispatch
  split
  · exact Loc.raise _
  · rename_i f hf
    split
    · exact Loc.raise _
    · refine Loc.bind (loc_fnCodeMap hm hf pdu) fun r _ => ?_
      split
      · split
        · exact Loc.bind (loc_callHook _ _ _) fun _ _ => Loc.pure trivial
        · exact Loc.bind (Loc.lift _) fun _ _ => Loc.pure trivial
      · exact Loc.raise _

/-- `handle_request` is local to the slave's memory, whatever the bytes and the hooks. -/
theorem loc_handleRequest (pdu : Bytes) (bc : Bool) : LocT mem D (handleRequest R sl pdu bc) := by
  unfold handleRequest
  split
  · exact Loc.raise _
  · exact Loc.raise _
  · exact Loc.pure trivial
  · refine Loc.bind (Loc.lift _) fun fc _ => Loc.tryExcept (loc_dispatch hm _ _ _) fun e => ?_
    split
    · exact Loc.bind (loc_callHook _ _ _) fun _ _ => Loc.lift _
    · exact Loc.raise _

theorem loc_getBlock (name : String) : Loc mem D (fun b => InDict D b.list) (getBlock sl name) := by
  have hs : ∀ h, (getBlock sl name h).2 = h := by
    intro h
    unfold getBlock
    split
    · rfl
    · split
      · rfl
      · split <;> rfl
  refine Loc.reader hs ?_
  intro h1 h2 ha
  simp only [getBlock, hm, ha.left, ha.right]
  cases Dict.get? sl.names name with
  | none => simp
  | some p =>
    obtain ⟨bt, start⟩ := p
    dsimp only
    cases hg : Dict.get? D bt with
    | none => simp
    | some r =>
      dsimp only
      rw [ha.lists r ⟨bt, hg⟩]
      cases (h2.lists r).findIdx? (fun b => b.start = start) with
      | none => simp
      | some i => exact ⟨rfl, fun x hx => by cases hx; exact ⟨bt, hg⟩⟩

theorem loc_setValues (name : String) (a : Int) (vs : Values) : LocT mem D (setValues R name a vs sl) := by
  intro h1 h2 ha
  obtain ⟨e, hp, ha', hw⟩ := loc_getBlock hm name h1 h2 ha
  have es : ∀ h, (getBlock sl name h).2 = h := by
    intro h
    unfold getBlock
    split
    · rfl
    · split
      · rfl
      · split <;> rfl
  simp only [setValues, PyM.bind_apply]
  rcases hx : getBlock sl name h1 with ⟨x, g1⟩
  rcases hy : getBlock sl name h2 with ⟨y, g2⟩
  have e1 := es h1; have e2 := es h2
  rw [hx] at e1 e hp; rw [hy] at e2 e
  dsimp only at e1 e2 e hp
  subst e1 e2 e
  cases x with
  | error e => exact ⟨rfl, by simp, ha, .refl⟩
  | ok b =>
    have hb := hp b rfl
    simp only [PyM.get_apply, Heap.block?, ha.lists _ hb]
    cases (g2.lists b.list)[b.idx]? with
    | none => exact ⟨rfl, by simp, ha, .refl⟩
    | some blk =>
      dsimp only
      cases vs with
      | seq vs =>
        dsimp only
        split
        · exact ⟨rfl, by simp, ha, .refl⟩
        · exact loc_setSlice hb R _ _ g1 g2 ha
      | one v =>
        dsimp only
        split
        · exact ⟨rfl, by simp, ha, .refl⟩
        · exact loc_setItem hb R _ _ g1 g2 ha

theorem loc_getValues (name : String) (a n : Int) : LocT mem D (getValues name a n sl) := by
  intro h1 h2 ha
  obtain ⟨e, hp, ha', hw⟩ := loc_getBlock hm name h1 h2 ha
  have es : ∀ h, (getBlock sl name h).2 = h := by
    intro h
    unfold getBlock
    split
    · rfl
    · split
      · rfl
      · split <;> rfl
  simp only [getValues, PyM.bind_apply]
  rcases hx : getBlock sl name h1 with ⟨x, g1⟩
  rcases hy : getBlock sl name h2 with ⟨y, g2⟩
  have e1 := es h1; have e2 := es h2
  rw [hx] at e1 e hp; rw [hy] at e2 e
  dsimp only at e1 e2 e hp
  subst e1 e2 e
  cases x with
  | error e => exact ⟨rfl, by simp, ha, .refl⟩
  | ok b =>
    have hb := hp b rfl
    simp only [PyM.get_apply, Heap.block?, ha.lists _ hb]
    cases (g2.lists b.list)[b.idx]? with
    | none => exact ⟨rfl, by simp, ha, .refl⟩
    | some blk =>
      dsimp only
      split
      · exact ⟨rfl, by simp, ha, .refl⟩
      · split
        · exact Loc.bind (loc_getItem hb _) (fun _ _ => Loc.pure trivial) g1 g2 ha
        · exact loc_getSlice hb _ _ g1 g2 ha
end

end Modbus
