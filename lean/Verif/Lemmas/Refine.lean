import Verif.Lemmas.Codec
/- The request handlers refine the specification. -/
namespace Modbus
open Spec (word toWord ofWord fits wordAt bitAt packBits bitByte bytesFor)

variable {R : Registry} {h : Heap} {sl : Slave} {r : Refs}

/-! ### Block lookup -/

theorem gbo_none {bt : Int} {ref : Nat} (hd : Dict.get? (h.dicts sl.mem) bt = some ref) {a n : Int}
    (hc : (absTable (h.lists ref)).covers a n = false) :
    getBlockAndOffset sl bt a n h = (.error (.modbusError 2), h) := by
  simp [getBlockAndOffset, memRef, hd, findBlock_none hc]

/-- what a successful lookup says -/
structure Found (h : Heap) (ref : Nat) (a n : Int) (b : BlockRef) (off : Int) (blk : Block) : Prop where
  list : b.list = ref
  isBlk : h.block? b = some blk
  offEq : off = a - blk.start
  nonneg : 0 ≤ off
  le : off + n ≤ blk.size

theorem gbo_some {bt : Int} {ref : Nat} (hd : Dict.get? (h.dicts sl.mem) bt = some ref) {a n : Int}
    (hc : (absTable (h.lists ref)).covers a n = true) :
    ∃ b off blk, getBlockAndOffset sl bt a n h = (.ok (b, off), h) ∧ Found h ref a n b off blk := by
  obtain ⟨⟨i, off⟩, hf⟩ := findBlock_covers hc
  obtain ⟨blk, h1, h2, h3, h4, _⟩ := findBlock_some hf
  exact ⟨⟨ref, i⟩, off, blk, by simp [getBlockAndOffset, memRef, hd, hf], rfl, h1, h2, h3, h4⟩

theorem getSlice_eq {b : BlockRef} {blk : Block} (hb : h.block? b = some blk) (i j : Int) :
    getSlice b i j h = (.ok (pySlice blk.data i j), h) := by simp [getSlice, hb]

namespace Found
variable {ref : Nat} {a n : Int} {b : BlockRef} {off : Int} {blk : Block}

theorem idx (f : Found h ref a n b off blk) : (h.lists ref)[b.idx]? = some blk := by
  have := f.isBlk; unfold Heap.block? at this; rw [f.list] at this; exact this

theorem mem (f : Found h ref a n b off blk) : blk ∈ h.lists ref := List.mem_of_getElem? f.idx

theorem read (f : Found h ref a n b off blk) (hw : ListWF (h.lists ref)) {m : Nat} (hm : (m : Int) = n) :
    pySlice blk.data off (off + n) = (absTable (h.lists ref)).read a m := by
  subst hm; exact absTable_read f.idx hw f.offEq f.nonneg f.le

theorem lenEq (f : Found h ref a n b off blk) (hw : ListWF (h.lists ref)) : off + n ≤ blk.data.length := by
  have := (hw.blocks blk f.mem).len; have := f.le; omega

theorem write (f : Found h ref a n b off blk) (hw : ListWF (h.lists ref)) {vs : List Int} (hv : (vs.length : Int) = n) :
    absTable ((h.setBlock b (blk.withData (setMany blk.data off.toNat vs))).lists ref)
      = (absTable (h.lists ref)).write a vs := by
  have e := f.list
  subst e
  rw [setBlock_lists_same]
  exact absTable_write f.idx hw f.offEq f.nonneg (by rw [hv]; exact f.le)

theorem wf (f : Found h ref a n b off blk) (hw : ListWF (h.lists ref)) (vs : List Int) :
    ListWF ((h.setBlock b (blk.withData (setMany blk.data off.toNat vs))).lists ref) := by
  have e := f.list
  subst e
  rw [setBlock_lists_same]
  exact listWF_set f.idx (by simp) hw

theorem fitsList (f : Found h ref a n b off blk) {u : Bool} (hw : ListFits u (h.lists ref)) {vs : List Int}
    (hv : ∀ v ∈ vs, fits u v) :
    ListFits u ((h.setBlock b (blk.withData (setMany blk.data off.toNat vs))).lists ref) := by
  have e := f.list
  subst e
  rw [setBlock_lists_same]
  exact listFits_set hw f.idx hv

theorem other (f : Found h ref a n b off blk) (blk' : Block) {ref' : Nat} (hne : ref' ≠ ref) :
    (h.setBlock b blk').lists ref' = h.lists ref' :=
  setBlock_lists_other _ _ _ (by rw [f.list]; exact hne)
end Found

theorem HasRefs.absMem (hr : HasRefs h sl r) : absMem h sl =
    ⟨absTable (h.lists r.coils), absTable (h.lists r.discrete), absTable (h.lists r.holding),
      absTable (h.lists r.input)⟩ := by
  simp [Modbus.absMem, blocksOf, hr.coils, hr.discrete, hr.holding, hr.input]

theorem HasRefs.setBlock (hr : HasRefs h sl r) (b : BlockRef) (blk : Block) : HasRefs (h.setBlock b blk) sl r :=
  ⟨hr.coils, hr.discrete, hr.holding, hr.input, hr.distinct⟩

/-- a write to the coils -/
theorem Good.writeCoils (g : Good h sl r) {a n : Int} {b : BlockRef} {off : Int} {blk : Block}
    (f : Found h r.coils a n b off blk) {vs : List Int} (hv : (vs.length : Int) = n) :
    Good (h.setBlock b (blk.withData (setMany blk.data off.toNat vs))) sl r ∧
    absMem (h.setBlock b (blk.withData (setMany blk.data off.toNat vs))) sl
      = { absMem h sl with coils := (absMem h sl).coils.write a vs } := by
  have hd := g.refs.distinct
  simp only [List.nodup_cons, List.mem_cons, List.not_mem_nil, or_false, not_or] at hd
  obtain ⟨⟨h1, h2, h3⟩, _⟩ := hd
  have hr := g.refs.setBlock b (blk.withData (setMany blk.data off.toNat vs))
  refine ⟨⟨hr, f.wf g.coils vs, ?_, ?_, ?_, ?_, ?_⟩, ?_⟩
  · rw [f.other _ (Ne.symm h1)]; exact g.discrete
  · rw [f.other _ (Ne.symm h2)]; exact g.holding
  · rw [f.other _ (Ne.symm h3)]; exact g.input
  · rw [f.other _ (Ne.symm h2)]; exact g.holdingFits
  · rw [f.other _ (Ne.symm h3)]; exact g.inputFits
  · rw [hr.absMem, g.refs.absMem, f.other _ (Ne.symm h1), f.other _ (Ne.symm h2), f.other _ (Ne.symm h3),
      f.write g.coils hv]

/-- a write to the holding registers -/
theorem Good.writeHolding (g : Good h sl r) {a n : Int} {b : BlockRef} {off : Int} {blk : Block}
    (f : Found h r.holding a n b off blk) {vs : List Int} (hv : (vs.length : Int) = n)
    (hfit : ∀ v ∈ vs, fits sl.unsigned v) :
    Good (h.setBlock b (blk.withData (setMany blk.data off.toNat vs))) sl r ∧
    absMem (h.setBlock b (blk.withData (setMany blk.data off.toNat vs))) sl
      = { absMem h sl with holding := (absMem h sl).holding.write a vs } := by
  have hd := g.refs.distinct
  simp only [List.nodup_cons, List.mem_cons, List.not_mem_nil, or_false, not_or] at hd
  obtain ⟨⟨h1, h2, h3⟩, ⟨h4, h5⟩, h6, _⟩ := hd
  have hr := g.refs.setBlock b (blk.withData (setMany blk.data off.toNat vs))
  refine ⟨⟨hr, ?_, ?_, f.wf g.holding vs, ?_, f.fitsList g.holdingFits hfit, ?_⟩, ?_⟩
  · rw [f.other _ h2]; exact g.coils
  · rw [f.other _ h4]; exact g.discrete
  · rw [f.other _ (Ne.symm h6)]; exact g.input
  · rw [f.other _ (Ne.symm h6)]; exact g.inputFits
  · rw [hr.absMem, g.refs.absMem, f.other _ h2, f.other _ h4, f.other _ (Ne.symm h6), f.write g.holding hv]

/-! ### Handlers -/

/-- the result of a handler agrees with the specification -/
def Refines (h : Heap) (sl : Slave) (r : Refs) (res : Except PyErr Bytes × Heap) (spec : Spec.Reply × Spec.Mem) : Prop :=
  match spec.1 with
  | .exc c => res = (.error (.modbusError c.toNat), h) ∧ spec.2 = absMem h sl
  | .ok d => res.1 = .ok d ∧ d ≠ [] ∧ absMem res.2 sl = spec.2 ∧ Good res.2 sl r

theorem fits_read {u : Bool} {L : List Block} (hf : ListFits u L) {a : Int} {n : Nat} :
    ∀ v ∈ (absTable L).read a n, fits u v := by
  intro v hv
  simp only [Spec.Table.read, List.mem_map, List.mem_range, absTable] at hv
  obtain ⟨k, _, rfl⟩ := hv
  unfold cellAt
  split
  · rename_i b hb
    have hm := List.mem_of_find?_eq_some hb
    rw [List.getD_eq_getElem?_getD]
    cases hg : b.data[(a + ↑k - b.start).toNat]? with
    | none => unfold fits; cases u <;> simp
    | some x => exact hf b hm x (List.mem_of_getElem? hg)
  · unfold fits; cases u <;> simp

theorem readDigital_refines (g : Good h sl r) {bt : Int} {ref : Nat} (hd : Dict.get? (h.dicts sl.mem) bt = some ref)
    (hw : ListWF (h.lists ref)) (fc : UInt8) (a q : UInt16) :
    Refines h sl r (readDigital sl bt (fc :: (word a ++ word q)) h)
      (Spec.readBits (absTable (h.lists ref)) a q, absMem h sl) := by
  have hq := q.toNat_lt
  have e : slice (fc :: (word a ++ word q)) 1 5 = word a ++ word q := by simp [slice, word]
  simp only [readDigital, e, structUnpack_HH, PyM.bind_apply, PyM.lift_apply, Spec.readBits]
  by_cases hlim : q.toNat = 0 ∨ q.toNat > 2000
  · rw [if_pos hlim, if_pos (by omega)]
    exact ⟨rfl, rfl⟩
  · rw [if_neg hlim, if_neg (by omega)]
    cases hc : (absTable (h.lists ref)).covers a.toNat q.toNat
    · simp only [PyM.bind_apply, gbo_none hd hc]
      exact ⟨rfl, rfl⟩
    · obtain ⟨b, off, blk, hg, f⟩ := gbo_some hd hc
      simp only [PyM.bind_apply, hg, getSlice_eq f.isBlk, f.read hw rfl, byteCount_eq, structPack_single]
      have hbf : bytesFor q.toNat ≤ 250 := by unfold bytesFor; omega
      rw [packOne_B (by omega) (by omega)]
      simp only [PyM.lift_apply]
      have := packBitsLoop_eq sl.unsigned ((absTable (h.lists ref)).read a.toNat q.toNat) [] (by simp)
        [UInt8.ofNat (bytesFor q.toNat)]
      simp only [List.length_nil, show bitsSum 8 [] = 0 from rfl, List.nil_append] at this
      simp only [Int.toNat_natCast, this]
      refine ⟨?_, by simp, rfl, g⟩
      simp

theorem readRegisters_refines (g : Good h sl r) {bt : Int} {ref : Nat}
    (hd : Dict.get? (h.dicts sl.mem) bt = some ref)
    (hw : ListWF (h.lists ref)) (hf : ListFits sl.unsigned (h.lists ref)) (fc : UInt8) (a q : UInt16) :
    Refines h sl r (readRegisters sl bt (fc :: (word a ++ word q)) h)
      (Spec.readRegs (absTable (h.lists ref)) a q, absMem h sl) := by
  have hq := q.toNat_lt
  have e : slice (fc :: (word a ++ word q)) 1 5 = word a ++ word q := by simp [slice, word]
  simp only [readRegisters, e, structUnpack_HH, PyM.bind_apply, PyM.lift_apply, Spec.readRegs]
  by_cases hlim : q.toNat = 0 ∨ q.toNat > 125
  · rw [if_pos hlim, if_pos (by omega)]
    exact ⟨rfl, rfl⟩
  · rw [if_neg hlim, if_neg (by omega)]
    cases hc : (absTable (h.lists ref)).covers a.toNat q.toNat
    · simp only [PyM.bind_apply, gbo_none hd hc]
      exact ⟨rfl, rfl⟩
    · obtain ⟨b, off, blk, hg, f⟩ := gbo_some hd hc
      simp only [PyM.bind_apply, hg, getSlice_eq f.isBlk, f.read hw rfl, structPack_single]
      rw [packOne_B (by omega) (by omega)]
      simp only [PyM.lift_apply, packRegsLoop_eq _ (fits_read hf)]
      refine ⟨?_, by simp, rfl, g⟩
      rw [show (2 * (q.toNat : Int)).toNat = 2 * q.toNat by omega]; rfl

theorem writeSingleCoil_refines (hR : Quiet R) (g : Good h sl r) (a v : UInt16) :
    Refines h sl r (writeSingleCoil R sl (Spec.Req.writeCoil a v).encode h)
      (Spec.exec sl.unsigned (absMem h sl) (.writeCoil a v)) := by
  have e : slice (Spec.Req.writeCoil a v).encode 1 5 = word a ++ word v := by simp [slice, word, Spec.Req.encode]
  have hcoils : (absMem h sl).coils = absTable (h.lists r.coils) := by rw [g.refs.absMem]
  simp only [writeSingleCoil, e, structUnpack_HH, PyM.bind_apply, PyM.lift_apply, callHook_quiet hR, Spec.exec]
  rw [hcoils]
  cases hc : (absTable (h.lists r.coils)).covers a.toNat 1
  · simp only [gbo_none g.refs.coils hc]
    exact ⟨rfl, rfl⟩
  · obtain ⟨b, off, blk, hg, f⟩ := gbo_some g.refs.coils hc
    have hl := f.lenEq g.coils
    simp only [hg, Bool.not_true, Bool.false_eq_true, if_false]
    have hset : ∀ x, setItem R b off x h =
        (.ok (), h.setBlock b (blk.withData (setMany blk.data off.toNat [x]))) := by
      intro x; rw [setItem_quiet hR f.isBlk f.nonneg (by omega)]; rfl
    by_cases h0 : v = 0
    · subst h0
      have hw := g.writeCoils f (vs := [0]) rfl
      rw [hcoils] at hw
      simp only [UInt16.toNat_zero, Int.natCast_zero, if_true, PyM.bind_apply, hset, PyM.pure_apply]
      exact ⟨rfl, by simp [word], hw.2, hw.1⟩
    · have h0' : ¬ ((v.toNat : Int) = 0) := by
        intro h; apply h0; apply UInt16.toNat_inj.mp; simpa using h
      by_cases h1 : v = 0xff00
      · subst h1
        have hw := g.writeCoils f (vs := [1]) rfl
        rw [hcoils] at hw
        simp only [h0, h0', if_false, if_true]
        have : ((65280 : UInt16).toNat : Int) = 65280 := rfl
        simp only [this, if_true, PyM.bind_apply, hset, PyM.pure_apply]
        exact ⟨rfl, by simp [word], hw.2, hw.1⟩
      · have h1' : ¬ ((v.toNat : Int) = 65280) := by
          intro h; apply h1; apply UInt16.toNat_inj.mp
          have : v.toNat = 65280 := by omega
          rw [this]; rfl
        simp only [h0, h0', h1, h1', if_false]
        exact ⟨rfl, rfl⟩

theorem writeSingleRegister_refines (hR : Quiet R) (g : Good h sl r) (a v : UInt16) :
    Refines h sl r (writeSingleRegister R sl (Spec.Req.writeRegister a v).encode h)
      (Spec.exec sl.unsigned (absMem h sl) (.writeRegister a v)) := by
  have e : slice (Spec.Req.writeRegister a v).encode 1 5 = word a ++ word v := by
    simp [slice, word, Spec.Req.encode]
  have hh : (absMem h sl).holding = absTable (h.lists r.holding) := by rw [g.refs.absMem]
  simp only [writeSingleRegister, e, structUnpack_HReg, PyM.bind_apply, PyM.lift_apply, callHook_quiet hR, Spec.exec]
  rw [hh]
  cases hc : (absTable (h.lists r.holding)).covers a.toNat 1
  · simp only [gbo_none g.refs.holding hc]
    exact ⟨rfl, rfl⟩
  · obtain ⟨b, off, blk, hg, f⟩ := gbo_some g.refs.holding hc
    have hl := f.lenEq g.holding
    have hw := g.writeHolding f (vs := [ofWord sl.unsigned v]) rfl (by simp [ofWord_fits])
    rw [hh] at hw
    simp only [hg, Bool.not_true, Bool.false_eq_true, if_false, setItem_quiet hR f.isBlk f.nonneg
      (show off < blk.data.length by omega), PyM.pure_apply]
    exact ⟨rfl, by simp [word], hw.2, hw.1⟩

theorem writeMultipleRegisters_refines (hR : Quiet R) (g : Good h sl r) (a q : UInt16) (bc : UInt8) (p : Bytes)
    (hp : p.length = bc.toNat) :
    Refines h sl r (writeMultipleRegisters R sl (Spec.Req.writeRegisters a q bc p).encode h)
      (Spec.exec sl.unsigned (absMem h sl) (.writeRegisters a q bc p)) := by
  have e : slice (Spec.Req.writeRegisters a q bc p).encode 1 6 = word a ++ word q ++ [bc] := by
    simp [slice, word, Spec.Req.encode]
  have hh : (absMem h sl).holding = absTable (h.lists r.holding) := by rw [g.refs.absMem]
  simp only [writeMultipleRegisters, e, structUnpack_HHB, PyM.bind_apply, PyM.lift_apply, callHook_quiet hR,
    Spec.exec]
  rw [hh]
  by_cases hlim : q.toNat = 0 ∨ q.toNat > 123 ∨ bc.toNat ≠ 2 * q.toNat
  · rw [if_pos hlim, if_pos (by omega)]
    exact ⟨rfl, rfl⟩
  · rw [if_neg hlim, if_neg (by omega)]
    cases hc : (absTable (h.lists r.holding)).covers a.toNat q.toNat
    · simp only [PyM.bind_apply, gbo_none g.refs.holding hc]
      exact ⟨rfl, rfl⟩
    · obtain ⟨b, off, blk, hg, f⟩ := gbo_some g.refs.holding hc
      have hl := f.lenEq g.holding
      simp only [PyM.bind_apply, hg, Bool.not_true, Bool.false_eq_true, if_false, Int.toNat_natCast]
      rw [writeRegsLoop_eq hR (regCode_size sl) f.nonneg _ _ _ f.isBlk (by omega)]
      have hlen : (Spec.Req.writeRegisters a q bc p).encode.length = 6 + p.length := by
        simp [Spec.Req.encode, word_length]; omega
      have hav : regsAvail (Spec.Req.writeRegisters a q bc p).encode 6 0 q.toNat = q.toNat := by
        unfold regsAvail; rw [hlen]; omega
      have hvs : (List.range q.toNat).map
          (fun k => regAt (regCode sl) (Spec.Req.writeRegisters a q bc p).encode 6 (0 + k))
          = Spec.payloadValues sl.unsigned p q.toNat := by
        unfold Spec.payloadValues
        apply List.map_congr_left
        intro k hk
        have := List.mem_range.mp hk
        have hpre : (Spec.Req.writeRegisters a q bc p).encode = (16 :: (word a ++ word q ++ [bc])) ++ p := by
          simp [Spec.Req.encode]
        rw [hpre, Nat.zero_add]
        exact regAt_payload sl (pre := 16 :: (word a ++ word q ++ [bc])) (by omega)
      rw [hav, hvs]
      have hw := g.writeHolding f (vs := Spec.payloadValues sl.unsigned p q.toNat)
        (by simp [Spec.payloadValues]) (by
          intro v hv
          simp only [Spec.payloadValues, List.mem_map] at hv
          obtain ⟨k, _, rfl⟩ := hv
          exact ofWord_fits _ _)
      rw [hh] at hw
      simp only [if_true, PyM.lift_apply, Int.zero_add, structPack_HH]
      exact ⟨rfl, by simp [word], hw.2, hw.1⟩

theorem writeMultipleCoils_refines (hR : Quiet R) (g : Good h sl r) (a q : UInt16) (bc : UInt8) (p : Bytes)
    (hp : p.length = bc.toNat) :
    Refines h sl r (writeMultipleCoils R sl (Spec.Req.writeCoils a q bc p).encode h)
      (Spec.exec sl.unsigned (absMem h sl) (.writeCoils a q bc p)) := by
  have e : slice (Spec.Req.writeCoils a q bc p).encode 1 6 = word a ++ word q ++ [bc] := by
    simp [slice, word, Spec.Req.encode]
  have hh : (absMem h sl).coils = absTable (h.lists r.coils) := by rw [g.refs.absMem]
  simp only [writeMultipleCoils, e, structUnpack_HHB, PyM.bind_apply, PyM.lift_apply, callHook_quiet hR,
    Spec.exec, byteCount_eq]
  rw [hh]
  by_cases hlim : q.toNat = 0 ∨ q.toNat > 1968 ∨ bc.toNat ≠ bytesFor q.toNat
  · rw [if_pos hlim, if_pos (by omega)]
    exact ⟨rfl, rfl⟩
  · rw [if_neg hlim, if_neg (by omega)]
    cases hc : (absTable (h.lists r.coils)).covers a.toNat q.toNat
    · simp only [PyM.bind_apply, gbo_none g.refs.coils hc]
      exact ⟨rfl, rfl⟩
    · obtain ⟨b, off, blk, hg, f⟩ := gbo_some g.refs.coils hc
      have hl := f.lenEq g.coils
      simp only [PyM.bind_apply, hg, Bool.not_true, Bool.false_eq_true, if_false, Int.toNat_natCast]
      have hcs : (if sl.unsigned then Code.B else Code.b).size = 1 := by split <;> rfl
      have hloop := writeCoilsOuter_eq hR hcs f.nonneg q.toNat
        (pdu := (Spec.Req.writeCoils a q bc p).encode) bc.toNat 0 f.isBlk hl
      rw [← List.range_eq_range', show ((min (8*0) q.toNat : Nat) : Int) = 0 by simp] at hloop
      rw [hloop]
      have hlen : (Spec.Req.writeCoils a q bc p).encode.length = 6 + p.length := by
        simp [Spec.Req.encode, word_length]; omega
      have hend : coilEnd (Spec.Req.writeCoils a q bc p).encode 0 bc.toNat = bc.toNat := by
        unfold coilEnd; rw [hlen]; omega
      have hbf : bc.toNat = (q.toNat + 7) / 8 := by
        have : bc.toNat = bytesFor q.toNat := by omega
        exact this
      have hmin : min (8 * bc.toNat) q.toNat = q.toNat := by omega
      have hvs : (List.range q.toNat).map
          (fun k => coilAt (if sl.unsigned then Code.B else Code.b) (Spec.Req.writeCoils a q bc p).encode (8*0 + k))
          = Spec.payloadBits p q.toNat := by
        unfold Spec.payloadBits
        apply List.map_congr_left
        intro k hk
        have := List.mem_range.mp hk
        have hpre : (Spec.Req.writeCoils a q bc p).encode = (15 :: (word a ++ word q ++ [bc])) ++ p := by
          simp [Spec.Req.encode]
        rw [hpre, Nat.mul_zero, Nat.zero_add]
        exact coilAt_payload sl.unsigned (pre := 15 :: (word a ++ word q ++ [bc])) (by simp [word_length]) (by omega)
      rw [hend, hmin, show min (8*0) q.toNat = 0 by simp, Nat.sub_zero, hvs, Nat.add_zero]
      have hw := g.writeCoils f (vs := Spec.payloadBits p q.toNat) (by simp [Spec.payloadBits])
      rw [hh] at hw
      rw [if_neg (by omega), show min (8 * (0 + bc.toNat)) q.toNat = q.toNat by omega]
      simp only [PyM.lift_apply, structPack_HH]
      exact ⟨rfl, by simp [word], hw.2, hw.1⟩

/-! ### Mask write -/

theorem maskVal_eq {cur : Int} (h0 : 0 ≤ cur) (h1 : cur < 65536) (am om : UInt16) :
    pyOr (pyAnd cur am.toNat) (pyAnd om.toNat (pyNot am.toNat))
      = (Spec.maskWord (toWord cur) am om).toNat := by
  obtain ⟨c, rfl⟩ := Int.eq_ofNat_of_zero_le h0
  have hc : c < 65536 := by omega
  have ha := am.toNat_lt; have ho := om.toNat_lt
  have e0 : (toWord (c : Int)).toNat = c := by
    unfold toWord; rw [UInt16.toNat_ofNat']; show _ % 65536 = _; omega
  have e1 : pyNot (am.toNat : Int) = Int.negSucc am.toNat := by unfold pyNot; omega
  rw [e1]
  show ((c &&& am.toNat ||| natAndNot om.toNat am.toNat : Nat) : Int) = _
  congr 1
  simp only [Spec.maskWord, UInt16.toNat_or, UInt16.toNat_and, UInt16.toNat_not, e0]
  congr 1
  unfold natAndNot
  apply Nat.eq_of_testBit_eq
  intro j
  have hj : om.toNat.testBit j = (om.toNat.testBit j && decide (j < 16)) := by
    by_cases hj : j < 16
    · simp [hj]
    · rw [Nat.testBit_lt_two_pow (Nat.lt_of_lt_of_le ho (Nat.pow_le_pow_right (n := 2) (by decide) (by omega : 16 ≤ j)))]
      simp
  rw [Nat.testBit_xor, Nat.testBit_and, Nat.testBit_and]
  have : UInt16.size - 1 - am.toNat = 2^16 - (am.toNat + 1) := by
    show 65536 - 1 - am.toNat = 65536 - (am.toNat + 1); omega
  rw [this, Nat.testBit_two_pow_sub_succ (by omega)]
  rw [hj]
  cases om.toNat.testBit j <;> cases am.toNat.testBit j <;> by_cases h : j < 16 <;> simp [h]

theorem maskWriteRegister_refines (hR : Quiet R) (g : Good h sl r) (hu : sl.unsigned = true) (a am om : UInt16) :
    Refines h sl r (maskWriteRegister R sl (Spec.Req.maskWrite a am om).encode h)
      (Spec.exec sl.unsigned (absMem h sl) (.maskWrite a am om)) := by
  have e : slice (Spec.Req.maskWrite a am om).encode 1 7 = word a ++ word am ++ word om := by
    simp [slice, word, Spec.Req.encode]
  have hh : (absMem h sl).holding = absTable (h.lists r.holding) := by rw [g.refs.absMem]
  simp only [maskWriteRegister, e, structUnpack_HHH, PyM.bind_apply, PyM.lift_apply, callHook_quiet hR, Spec.exec]
  rw [hh]
  cases hc : (absTable (h.lists r.holding)).covers a.toNat 1
  · simp only [gbo_none g.refs.holding hc]
    exact ⟨rfl, rfl⟩
  · obtain ⟨b, off, blk, hg, f⟩ := gbo_some g.refs.holding hc
    have hl := f.lenEq g.holding
    have hnn := f.nonneg
    have hcur : getItem b off h = (.ok ((absTable (h.lists r.holding)).val a.toNat), h) := by
      have hlt : off.toNat < blk.data.length := by omega
      have hcell : (absTable (h.lists r.holding)).val a.toNat = blk.data[off.toNat] := by
        show cellAt _ _ = _
        rw [cellAt_of_mem g.holding.disjoint f.mem (by
          have := f.offEq; have := f.le; unfold Block.contains; omega), ← f.offEq,
          List.getD_eq_getElem?_getD, List.getElem?_eq_getElem hlt]; rfl
      simp only [getItem, f.isBlk, show ¬ off < 0 by omega, if_false, List.getElem?_eq_getElem hlt, hcell]
    have hcf : fits true ((absTable (h.lists r.holding)).val a.toNat) := by
      have := fits_read g.holdingFits (a := (a.toNat : Int)) (n := 1) ((absTable (h.lists r.holding)).val a.toNat)
        (by simp [Spec.Table.read])
      rwa [hu] at this
    simp only [fits, if_true] at hcf
    have hval := maskVal_eq hcf.1 hcf.2 am om
    generalize hm : Spec.maskWord (toWord ((absTable (h.lists r.holding)).val a.toNat)) am om = w at *
    have hwo : ofWord sl.unsigned w = (w.toNat : Int) := by simp [ofWord, hu]
    have hw := g.writeHolding f (vs := [ofWord sl.unsigned w]) rfl (by simp [ofWord_fits])
    rw [hh] at hw
    simp only [hg, Bool.not_true, Bool.false_eq_true, if_false, hcur, setItem_quiet hR f.isBlk f.nonneg
      (show off < blk.data.length by omega), PyM.pure_apply, hval]
    rw [← hwo]
    exact ⟨by simp [word, Spec.Req.encode], by simp [word], hw.2, hw.1⟩

theorem readWrite_refines (hR : Quiet R) (g : Good h sl r) (ra rq wa wq : UInt16) (bc : UInt8) (p : Bytes)
    (hp : p.length = bc.toNat) :
    Refines h sl r (readWriteMultipleRegisters R sl (Spec.Req.readWrite ra rq wa wq bc p).encode h)
      (Spec.exec sl.unsigned (absMem h sl) (.readWrite ra rq wa wq bc p)) := by
  have e : slice (Spec.Req.readWrite ra rq wa wq bc p).encode 1 10
      = word ra ++ word rq ++ word wa ++ word wq ++ [bc] := by
    simp [slice, word, Spec.Req.encode]
  have hh : (absMem h sl).holding = absTable (h.lists r.holding) := by rw [g.refs.absMem]
  simp only [readWriteMultipleRegisters, e, structUnpack_HHHHB, PyM.bind_apply, PyM.lift_apply, callHook_quiet hR,
    Spec.exec, Spec.readRegs]
  rw [hh]
  by_cases hlim : rq.toNat = 0 ∨ rq.toNat > 125
  · rw [if_pos hlim, if_pos (by omega)]
    exact ⟨rfl, rfl⟩
  rw [if_neg hlim, if_neg (by omega)]
  cases hc : (absTable (h.lists r.holding)).covers ra.toNat rq.toNat
  · simp only [PyM.bind_apply, gbo_none g.refs.holding hc]
    exact ⟨rfl, rfl⟩
  obtain ⟨b, off, blk, hg, f⟩ := gbo_some g.refs.holding hc
  simp only [PyM.bind_apply, hg, getSlice_eq f.isBlk, f.read g.holding rfl, structPack_single]
  rw [packOne_B (by omega) (by omega)]
  simp only [PyM.lift_apply, packRegsLoop_eq _ (fits_read g.holdingFits), Bool.not_true, Bool.false_eq_true, if_false]
  by_cases hlim2 : wq.toNat = 0 ∨ wq.toNat > 123 ∨ bc.toNat ≠ 2 * wq.toNat
  · rw [if_pos hlim2, if_pos (by omega)]
    exact ⟨rfl, rfl⟩
  rw [if_neg hlim2, if_neg (by omega)]
  cases hc2 : (absTable (h.lists r.holding)).covers wa.toNat wq.toNat
  · simp only [PyM.bind_apply, gbo_none g.refs.holding hc2]
    exact ⟨rfl, rfl⟩
  obtain ⟨b2, off2, blk2, hg2, f2⟩ := gbo_some g.refs.holding hc2
  have hl := f2.lenEq g.holding
  simp only [PyM.bind_apply, hg2, Bool.not_true, Bool.false_eq_true, if_false, Int.toNat_natCast]
  rw [writeRegsLoop_eq hR (regCode_size sl) f2.nonneg _ _ _ f2.isBlk (by omega)]
  have hlen : (Spec.Req.readWrite ra rq wa wq bc p).encode.length = 10 + p.length := by
    simp [Spec.Req.encode, word_length]; omega
  have hav : regsAvail (Spec.Req.readWrite ra rq wa wq bc p).encode 10 0 wq.toNat = wq.toNat := by
    unfold regsAvail; rw [hlen]; omega
  have hvs : (List.range wq.toNat).map
      (fun k => regAt (regCode sl) (Spec.Req.readWrite ra rq wa wq bc p).encode 10 (0 + k))
      = Spec.payloadValues sl.unsigned p wq.toNat := by
    unfold Spec.payloadValues
    apply List.map_congr_left
    intro k hk
    have := List.mem_range.mp hk
    have hpre : (Spec.Req.readWrite ra rq wa wq bc p).encode
        = (23 :: (word ra ++ word rq ++ word wa ++ word wq ++ [bc])) ++ p := by
      simp [Spec.Req.encode]
    rw [hpre, Nat.zero_add]
    exact regAt_payload sl (pre := 23 :: (word ra ++ word rq ++ word wa ++ word wq ++ [bc])) (by omega)
  rw [hav, hvs]
  have hw := g.writeHolding f2 (vs := Spec.payloadValues sl.unsigned p wq.toNat)
    (by simp [Spec.payloadValues]) (by
      intro v hv
      simp only [Spec.payloadValues, List.mem_map] at hv
      obtain ⟨k, _, rfl⟩ := hv
      exact ofWord_fits _ _)
  rw [hh] at hw
  simp only [if_true, PyM.pure_apply]
  refine ⟨?_, by simp, hw.2, hw.1⟩
  rw [show (2 * (rq.toNat : Int)).toNat = 2 * rq.toNat by omega]; rfl

/-! ### `handle_request` -/

theorem packB_u8 (x : UInt8) : structPack (be [Code.B]) [(x.toNat : Int)] = .ok [x] := by
  rw [structPack_single, packOne_B (by omega) (by have := u8_lt x; omega), Int.toNat_natCast]
  simp

theorem packBB_exc (fc code : UInt8) (hfc : fc.toNat < 128) :
    structPack (be [Code.B, Code.B]) [(fc.toNat : Int) + 128, (code.toNat : Int)] = .ok [fc + 128, code] := by
  show packCodes true _ _ = _
  have h1 : packOne true Code.B ((fc.toNat : Int) + 128) = .ok [fc + 128] := by
    rw [packOne_B (by omega) (by omega)]
    congr 2
  have h2 : packOne true Code.B (code.toNat : Int) = .ok [code] := by
    have := packB_u8 code; rwa [structPack_single] at this
  exact packCodes_cons h1 (packCodes_cons h2 packCodes_nil)

/-- handle_request in terms of the handler's result -/
theorem handleRequest_of_refines (hR : Quiet R) {fc : UInt8} (hfc : fc.toNat < 128) {rest : Bytes}
    {f : Bytes → PyM Heap Bytes} (hf : fnCodeMap R sl fc.toNat = some f) {spec : Spec.Reply × Spec.Mem}
    (g : Good h sl r) (href : Refines h sl r (f (fc :: rest) h) spec) :
    ∃ h', handleRequest R sl (fc :: rest) false h = (.ok (spec.1.encode fc), h') ∧ absMem h' sl = spec.2 ∧
      Good h' sl r ∧ (∀ c, spec.1 = .exc c → h' = h) := by
  have hs : slice (fc :: rest) 0 1 = [fc] := by simp [slice]
  have hu : unpackSingle Code.B [fc] = .ok (fc.toNat : Int) := by rw [unpackSingle_ok rfl, unpackOne_B]
  unfold handleRequest
  simp only [hR "modbus.Slave.handle_request", hs, hu, PyM.bind_apply, PyM.lift_apply, PyM.tryExcept_apply, dispatch, hf,
    Bool.false_eq_true, false_and, if_false]
  unfold Refines at href
  cases hsp : spec.1 with
  | exc c =>
    rw [hsp] at href
    obtain ⟨h1, h2⟩ := href
    simp only [h1, PyM.bind_apply, callHook_quiet hR, packBB_exc fc c hfc, PyM.lift_apply]
    exact ⟨h, rfl, h2.symm, g, fun _ _ => rfl⟩
  | ok d =>
    rw [hsp] at href
    obtain ⟨h1, h2, h3, h4⟩ := href
    refine ⟨(f (fc :: rest) h).2, ?_, h3, h4, by intro c hc; cases hc⟩
    rw [show f (fc :: rest) h = (.ok d, (f (fc :: rest) h).2) from Prod.ext h1 rfl]
    simp only [h2, ne_eq, not_false_eq_true, if_true, PyM.bind_apply, PyM.lift_apply, packB_u8, PyM.pure_apply]
    rfl

/-- every handler refines the specification -/
theorem handler_refines (hR : Quiet R) (g : Good h sl r) (req : Spec.Req) (hwf : req.WF)
    (hm : sl.unsigned = true ∨ ∀ a am om, req ≠ .maskWrite a am om) :
    ∃ h', handleRequest R sl req.encode false h = (.ok ((Spec.exec sl.unsigned (absMem h sl) req).1.encode req.fc), h') ∧
      absMem h' sl = (Spec.exec sl.unsigned (absMem h sl) req).2 ∧ Good h' sl r ∧
      (∀ c, (Spec.exec sl.unsigned (absMem h sl) req).1 = .exc c → h' = h) := by
  have hc : (absMem h sl).coils = absTable (h.lists r.coils) := by rw [g.refs.absMem]
  have hd : (absMem h sl).discrete = absTable (h.lists r.discrete) := by rw [g.refs.absMem]
  have hh : (absMem h sl).holding = absTable (h.lists r.holding) := by rw [g.refs.absMem]
  have hi : (absMem h sl).input = absTable (h.lists r.input) := by rw [g.refs.absMem]
  cases req with
  | readCoils a q =>
    refine handleRequest_of_refines hR (fc := 1) (by decide) (f := readCoils R sl) rfl g ?_
    simp only [readCoils, PyM.bind_apply, callHook_quiet hR, Spec.exec, hc]
    exact readDigital_refines g g.refs.coils g.coils 1 a q
  | readDiscrete a q =>
    refine handleRequest_of_refines hR (fc := 2) (by decide) (f := readDiscreteInputs R sl) rfl g ?_
    simp only [readDiscreteInputs, PyM.bind_apply, callHook_quiet hR, Spec.exec, hd]
    exact readDigital_refines g g.refs.discrete g.discrete 2 a q
  | readHolding a q =>
    refine handleRequest_of_refines hR (fc := 3) (by decide) (f := readHoldingRegisters R sl) rfl g ?_
    simp only [readHoldingRegisters, PyM.bind_apply, callHook_quiet hR, Spec.exec, hh]
    exact readRegisters_refines g g.refs.holding g.holding g.holdingFits 3 a q
  | readInput a q =>
    refine handleRequest_of_refines hR (fc := 4) (by decide) (f := readInputRegisters R sl) rfl g ?_
    simp only [readInputRegisters, PyM.bind_apply, callHook_quiet hR, Spec.exec, hi]
    exact readRegisters_refines g g.refs.input g.input g.inputFits 4 a q
  | writeCoil a v =>
    exact handleRequest_of_refines hR (fc := 5) (by decide) (f := writeSingleCoil R sl) rfl g
      (writeSingleCoil_refines hR g a v)
  | writeRegister a v =>
    exact handleRequest_of_refines hR (fc := 6) (by decide) (f := writeSingleRegister R sl) rfl g
      (writeSingleRegister_refines hR g a v)
  | readExceptionStatus =>
    refine handleRequest_of_refines hR (fc := 7) (by decide) (f := readExceptionStatus R sl) rfl g ?_
    simp only [readExceptionStatus, PyM.bind_apply, callHook_quiet hR, Spec.exec, PyM.lift_apply]
    exact ⟨rfl, by simp, rfl, g⟩
  | writeCoils a q bc p =>
    exact handleRequest_of_refines hR (fc := 15) (by decide) (f := writeMultipleCoils R sl) rfl g
      (writeMultipleCoils_refines hR g a q bc p hwf)
  | writeRegisters a q bc p =>
    exact handleRequest_of_refines hR (fc := 16) (by decide) (f := writeMultipleRegisters R sl) rfl g
      (writeMultipleRegisters_refines hR g a q bc p hwf)
  | maskWrite a am om =>
    have hu : sl.unsigned = true := by
      rcases hm with h | h
      · exact h
      · exact absurd rfl (h a am om)
    exact handleRequest_of_refines hR (fc := 22) (by decide) (f := maskWriteRegister R sl) rfl g
      (maskWriteRegister_refines hR g hu a am om)
  | readWrite ra rq wa wq bc p =>
    exact handleRequest_of_refines hR (fc := 23) (by decide) (f := readWriteMultipleRegisters R sl) rfl g
      (readWrite_refines hR g ra rq wa wq bc p hwf)
  | other fc rest =>
    obtain ⟨hni, hlt⟩ := hwf
    have hs : slice (fc :: rest) 0 1 = [fc] := by simp [slice]
    have hu : unpackSingle Code.B [fc] = .ok (fc.toNat : Int) := by rw [unpackSingle_ok rfl, unpackOne_B]
    have key : ∀ n : UInt8, fc ≠ n → ¬ ((fc.toNat : Int) = (n.toNat : Int)) := by
      intro n hn h; exact hn (u8_ext (by omega))
    unfold Spec.implemented at hni
    simp only [not_or] at hni
    obtain ⟨h1, h2, h3, h4, h5, h6, h7, h15, h16, h22, h23⟩ := hni
    have hnone : fnCodeMap R sl fc.toNat = none := by
      simp only [fnCodeMap]
      rw [if_neg (show ¬ ((fc.toNat : Int) = defines.READ_COILS) from key 1 h1),
        if_neg (show ¬ ((fc.toNat : Int) = defines.READ_DISCRETE_INPUTS) from key 2 h2),
        if_neg (show ¬ ((fc.toNat : Int) = defines.READ_INPUT_REGISTERS) from key 4 h4),
        if_neg (show ¬ ((fc.toNat : Int) = defines.READ_HOLDING_REGISTERS) from key 3 h3),
        if_neg (show ¬ ((fc.toNat : Int) = defines.READ_EXCEPTION_STATUS) from key 7 h7),
        if_neg (show ¬ ((fc.toNat : Int) = defines.WRITE_SINGLE_COIL) from key 5 h5),
        if_neg (show ¬ ((fc.toNat : Int) = defines.WRITE_SINGLE_REGISTER) from key 6 h6),
        if_neg (show ¬ ((fc.toNat : Int) = defines.WRITE_MULTIPLE_COILS) from key 15 h15),
        if_neg (show ¬ ((fc.toNat : Int) = defines.WRITE_MULTIPLE_REGISTERS) from key 16 h16),
        if_neg (show ¬ ((fc.toNat : Int) = defines.MASK_WRITE_REGISTER) from key 22 h22),
        if_neg (show ¬ ((fc.toNat : Int) = defines.READ_WRITE_MULTIPLE_REGISTERS) from key 23 h23)]
    refine ⟨h, ?_, rfl, g, fun _ _ => rfl⟩
    have hp := packBB_exc fc 1 hlt
    simp only [show ((1 : UInt8).toNat : Int) = 1 from rfl] at hp
    simp only [handleRequest, Spec.Req.encode, hR "modbus.Slave.handle_request", hs, hu, PyM.bind_apply,
      PyM.lift_apply, PyM.tryExcept_apply, dispatch, hnone, PyM.raise_apply, callHook_quiet hR, hp]
    rfl

end Modbus
