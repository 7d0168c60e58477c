import Verif.Props.Slave
/-
# C10: mask write register (function 22)
-/
namespace Modbus
open Spec (word toWord ofWord)

theorem natAndNot_testBit (a b j : Nat) : (natAndNot a b).testBit j = (a.testBit j && !b.testBit j) := by
  unfold natAndNot
  rw [Nat.testBit_xor, Nat.testBit_and]
  cases a.testBit j <;> cases b.testBit j <;> rfl

theorem u16_testBit_ge (x : UInt16) {j : Nat} (h : 16 ≤ j) : x.toNat.testBit j = false :=
  Nat.testBit_lt_two_pow (Nat.lt_of_lt_of_le x.toNat_lt (Nat.pow_le_pow_right (n := 2) (by decide) h))

/-- the bits of the masked word -/
theorem maskWord_testBit (cur am om : UInt16) {j : Nat} (hj : j < 16) :
    (Spec.maskWord cur am om).toNat.testBit j = if am.toNat.testBit j then cur.toNat.testBit j else om.toNat.testBit j := by
  simp only [Spec.maskWord, UInt16.toNat_or, UInt16.toNat_and, UInt16.toNat_not, Nat.testBit_or, Nat.testBit_and]
  have : UInt16.size - 1 - am.toNat = 2^16 - (am.toNat + 1) := by
    show 65536 - 1 - am.toNat = 65536 - (am.toNat + 1); omega
  rw [this, Nat.testBit_two_pow_sub_succ am.toNat_lt]
  cases cur.toNat.testBit j <;> cases om.toNat.testBit j <;> cases am.toNat.testBit j <;> simp [hj]

/-- the value the code computes is the masked word (as a number 0..65535), also for a negative register -/
theorem maskVal_all {cur : Int} (h0 : -32768 ≤ cur) (h1 : cur < 65536) (am om : UInt16) :
    pyOr (pyAnd cur am.toNat) (pyAnd om.toNat (pyNot am.toNat)) = (Spec.maskWord (toWord cur) am om).toNat := by
  by_cases hs : 0 ≤ cur
  · exact maskVal_eq hs h1 am om
  · obtain ⟨c, rfl⟩ := Int.eq_negSucc_of_lt_zero (show cur < 0 by omega)
    have hc : c < 2^16 := by omega
    have e0 : (toWord (Int.negSucc c)).toNat = 2^16 - (c + 1) := by
      unfold toWord; rw [UInt16.toNat_ofNat']; show _ % 65536 = _; omega
    have e1 : pyNot (am.toNat : Int) = Int.negSucc am.toNat := by unfold pyNot; omega
    have e2 : pyAnd (Int.negSucc c) (am.toNat : Int) = ((natAndNot am.toNat c : Nat) : Int) := rfl
    have e3 : pyAnd (om.toNat : Int) (Int.negSucc am.toNat) = ((natAndNot om.toNat am.toNat : Nat) : Int) := rfl
    have e4 : ∀ x y : Nat, pyOr (x : Int) (y : Int) = ((x ||| y : Nat) : Int) := fun _ _ => rfl
    rewrite [e1, e2, e3, e4]
    refine congrArg (Nat.cast : Nat → Int) ?_
    apply Nat.eq_of_testBit_eq
    intro j
    by_cases hj : j < 16
    · rw [maskWord_testBit _ _ _ hj, Nat.testBit_or, natAndNot_testBit, natAndNot_testBit, e0,
        Nat.testBit_two_pow_sub_succ hc]
      cases c.testBit j <;> cases om.toNat.testBit j <;> cases am.toNat.testBit j <;> simp [hj]
    · rw [u16_testBit_ge _ (by omega), Nat.testBit_or, natAndNot_testBit, natAndNot_testBit,
        u16_testBit_ge am (by omega), u16_testBit_ge om (by omega)]
      rfl

variable {R : Registry} {sl : Slave} {h : Heap} {r : Refs}

/-- a slave in good order except for the range of the holding registers -/
structure GoodShape (h : Heap) (sl : Slave) (r : Refs) : Prop where
  refs : HasRefs h sl r
  coils : ListWF (h.lists r.coils)
  discrete : ListWF (h.lists r.discrete)
  holding : ListWF (h.lists r.holding)
  input : ListWF (h.lists r.input)

theorem Good.toShape (g : Good h sl r) : GoodShape h sl r := ⟨g.refs, g.coils, g.discrete, g.holding, g.input⟩

/-- writing a holding register, whatever the value -/
theorem write_one_holding (hr : HasRefs h sl r) (hw : ListWF (h.lists r.holding)) {a : Int} {b : BlockRef} {off : Int}
    {blk : Block} (f : Found h r.holding a 1 b off blk) (v : Int) :
    absMem (h.setBlock b (blk.withData (setMany blk.data off.toNat [v]))) sl =
      { absMem h sl with holding := (absMem h sl).holding.write a [v] } := by
  have hd := hr.distinct
  simp only [List.nodup_cons, List.mem_cons, List.not_mem_nil, or_false, not_or, List.nodup_nil, and_true] at hd
  rw [(hr.setBlock b _).absMem, hr.absMem]
  simp only [Spec.Mem.mk.injEq]
  refine ⟨?_, ?_, ?_, ?_⟩
  · rw [f.other _ (by omega)]
  · rw [f.other _ (by omega)]
  · exact f.write hw rfl
  · rw [f.other _ (by omega)]

/-- C10: function 22 answers an echo and sets every one of the 16 bits of the register to the or-mask bit where the
    and-mask bit is 0 and keeps the current bit where it is 1; nothing else changes.  Holds for signed slaves too, as
    far as the 16 bits are concerned; the integer stored is the word read as an *unsigned* number. -/
theorem C10_mask_write (hR : Quiet R) (g : Good h sl r) (a am om : UInt16) (hin : InBlock h sl 3 a.toNat 1) :
    ∃ h', handleRequest R sl (22 :: (word a ++ word am ++ word om)) false h =
        (.ok (22 :: (word a ++ word am ++ word om)), h') ∧
      (∀ j, j < 16 → (toWord (value h' sl 3 a.toNat)).toNat.testBit j =
        if am.toNat.testBit j then (toWord (value h sl 3 a.toNat)).toNat.testBit j else om.toNat.testBit j) ∧
      (0 ≤ value h' sl 3 a.toNat ∧ value h' sl 3 a.toNat < 65536) ∧
      OnlyChanged h h' sl 3 a.toNat 1 ∧ HasRefs h' sl r := by
  have hin0 := hin
  rw [inBlock_iff] at hin
  have e : slice (22 :: (word a ++ word am ++ word om)) 1 7 = word a ++ word am ++ word om := by
    simp [slice, word]
  have hb3 : blocksOf h sl 3 = h.lists r.holding := by
    simp [blocksOf, show (3 : Int) = defines.HOLDING_REGISTERS from rfl, g.refs.holding]
  rw [hb3] at hin
  obtain ⟨b, off, blk, hg, f⟩ := gbo_some g.refs.holding hin
  have hl := f.lenEq g.holding
  have hnn := f.nonneg
  have hcur : getItem b off h = (.ok (value h sl 3 a.toNat), h) := by
    have hlt : off.toNat < blk.data.length := by omega
    have hcell : value h sl 3 a.toNat = blk.data[off.toNat] := by
      unfold value
      rw [hb3, cellAt_of_mem g.holding.disjoint f.mem (by
        have := f.offEq; have := f.le; unfold Block.contains; omega), ← f.offEq,
        List.getD_eq_getElem?_getD, List.getElem?_eq_getElem hlt]; rfl
    simp only [getItem, f.isBlk, show ¬ off < 0 by omega, if_false, List.getElem?_eq_getElem hlt, hcell]
  have hcf := value_fits g (t := 3) (.inl rfl) a.toNat
  have hval : pyOr (pyAnd (value h sl 3 a.toNat) am.toNat) (pyAnd om.toNat (pyNot am.toNat))
      = (Spec.maskWord (toWord (value h sl 3 a.toNat)) am om).toNat := by
    apply maskVal_all
    · unfold Spec.fits at hcf; split at hcf <;> omega
    · unfold Spec.fits at hcf; split at hcf <;> omega
  generalize hm : Spec.maskWord (toWord (value h sl 3 a.toNat)) am om = w at *
  have habs := write_one_holding g.refs g.holding f (w.toNat : Int)
  obtain ⟨hoc, hvals⟩ := only_holding (n := 1) (by simp) habs
  have hv := hvals 0 (by simp)
  simp only [Int.natCast_zero, Int.add_zero, List.getD_cons_zero] at hv
  refine ⟨_, ?_, ?_, ?_, hoc, g.refs.setBlock _ _⟩
  · have hhdl : maskWriteRegister R sl (22 :: (word a ++ word am ++ word om)) h =
        (.ok (word a ++ word am ++ word om),
          h.setBlock b (blk.withData (setMany blk.data off.toNat [(w.toNat : Int)]))) := by
      simp only [maskWriteRegister, e, structUnpack_HHH, PyM.bind_apply, PyM.lift_apply, callHook_quiet hR, hg, hcur,
        setItem_quiet hR f.isBlk f.nonneg (show off < blk.data.length by omega), PyM.pure_apply, hval, List.drop_succ_cons,
        List.drop_zero]
      rfl
    have hs : slice (22 :: (word a ++ word am ++ word om)) 0 1 = [22] := by simp [slice]
    have hu : unpackSingle Code.B [22] = .ok 22 := by rw [unpackSingle_ok rfl, unpackOne_B]; rfl
    have hne : word a ++ word am ++ word om ≠ [] := by simp [word]
    have hp : structPack (be [Code.B]) [(22 : Int)] = .ok [22] := packB_u8 22
    have hfn : fnCodeMap R sl 22 = some (maskWriteRegister R sl) := rfl
    simp only [handleRequest, hR "modbus.Slave.handle_request", hs, hu, PyM.bind_apply, PyM.lift_apply,
      PyM.tryExcept_apply, dispatch, hfn]
    rw [if_neg (by simp)]
    simp only [PyM.bind_apply, hhdl, hne, ne_eq, not_false_eq_true, if_true, Bool.false_eq_true, if_false,
      PyM.lift_apply, hp, PyM.pure_apply]
    rfl
  · intro j hj
    rw [hv, ← hm, ← maskWord_testBit _ _ _ hj, hm]
    congr 1
    have hw := w.toNat_lt
    unfold toWord; rw [UInt16.toNat_ofNat']; show _ % 65536 = _; omega
  · rw [hv]; have := w.toNat_lt; omega

/-- C10 (readable afterwards), partial: on an unsigned slave the register can be read after a mask write.
    (Full property: also on a signed slave; false, see `C10_false`.) -/
theorem C10_readable_partial (hR : Quiet R) (g : Good h sl r) (hu : sl.unsigned = true) (a am om : UInt16)
    (hin : InBlock h sl 3 a.toNat 1) :
    ∃ h', handleRequest R sl (22 :: (word a ++ word am ++ word om)) false h =
        (.ok (22 :: (word a ++ word am ++ word om)), h') ∧ Good h' sl r ∧
      handleRequest R sl (3 :: (word a ++ word 1)) false h' =
        (.ok (3 :: 2 :: word (toWord (value h' sl 3 a.toNat))), h') := by
  have hin0 := hin
  rw [inBlock_iff] at hin
  obtain ⟨h', h1, h2, h3, _⟩ := handler_refines hR g (.maskWrite a am om) trivial (.inl hu)
  rw [exec_mask_ok (m := absMem h sl) hin] at h1 h2
  obtain ⟨hoc, _⟩ := only_holding (n := 1) (by simp) h2
  refine ⟨h', h1, h3, ?_⟩
  have := C05_read_registers hR h3 3 (.inl rfl) a 1 (by decide)
    ((hoc.blocks 3 (by simp) _ _).mpr hin0)
  rw [this]
  simp

/-- a signed slave with five holding registers from 10 on -/
def signedSlave : SlaveSt := after (freshSlave false) [addBlock "a" 3 10 5]

/-- C10 is false for a signed slave: after the mask write that sets all bits (and-mask 0, or-mask 0xFFFF) the register
    holds 65535, and reading it raises struct.error instead of answering. -/
theorem C10_false :
    let h1 := (handleRequest [] signedSlave.sl [22, 0, 10, 0, 0, 0xff, 0xff] false signedSlave.heap)
    h1.1 = .ok [22, 0, 10, 0, 0, 0xff, 0xff] ∧ value h1.2 signedSlave.sl 3 10 = 65535 ∧
    (handleRequest [] signedSlave.sl [3, 0, 10, 0, 1] false h1.2).1 = .error .structError := by decide

/-- C11 is false: with overlapping ranges the response carries the old value (0), not the one just written (7). -/
theorem C11_false :
    let r := handleRequest [] exSlave.sl [23, 0, 10, 0, 1, 0, 10, 0, 1, 2, 0, 7] false exSlave.heap
    r.1 = .ok [23, 2, 0, 0] ∧ value r.2 exSlave.sl 3 10 = 7 := by decide

end Modbus
