import Verif.Props.AnyLayout
import Verif.Props.SlaveMask
/-
# C15, C101: what mask writes do to a signed slave

C15 is false of a slave with signed registers, because function 22 stores an unsigned word.  Here is what holds of every slave, whatever its blocks are and whatever happens to it:
which numbers its registers can hold, which reads are answered, and how a register becomes unreadable and readable again.
-/
namespace Modbus
open Spec (word toWord ofWord fits wordAt payloadValues)

/-! ## Specification -/

/-- a number that has 16 bits, read as a signed or as an unsigned number -/
def Sixteen (v : Int) : Prop := -32768 ≤ v ∧ v < 65536

def ListSixteen (L : List Block) : Prop := ∀ b ∈ L, ∀ v ∈ b.data, Sixteen v

/-- A slave whose tables are four distinct lists of arbitrary blocks, overlapping or not; its holding registers hold numbers of 16 bits, its input registers values of its signedness. -/
structure Loose (h : Heap) (sl : Slave) (r : Refs) : Prop where
  refs : HasRefs h sl r
  wf : ∀ ref ∈ [r.coils, r.discrete, r.holding, r.input], ∀ b ∈ h.lists ref, b.WF
  holding : ListSixteen (h.lists r.holding)
  inputFits : ListFits sl.unsigned (h.lists r.input)

/-- the user sets only values that registers of this signedness can hold; requests are arbitrary -/
def SlaveOp.Sane (unsigned : Bool) : SlaveOp → Prop
  | .setValues _ _ _ vs => ∀ v ∈ vs.toList, fits unsigned v
  | _ => True

/-! ## Lemmas -/

theorem fits_sixteen {u : Bool} {v : Int} (h : fits u v) : Sixteen v := by
  unfold fits at h
  unfold Sixteen
  split at h <;> omega

theorem ListFits.sixteen {u : Bool} {L : List Block} (h : ListFits u L) : ListSixteen L := fun b hb v hv => fits_sixteen (h b hb v hv)

theorem Sound.loose {h : Heap} {sl : Slave} {r : Refs} (g : Sound h sl r) : Loose h sl r := ⟨g.refs, g.wf, g.holdingFits.sixteen, g.inputFits⟩

theorem listSixteen_set {L : List Block} (hf : ListSixteen L) {i : Nat} {b : Block} (hb : L[i]? = some b) {a : Int} {vs : List Int} (hv : ∀ v ∈ vs, Sixteen v) :
    ListSixteen (L.set i (b.overwritten a vs)) := by
  intro c hc v hcv
  rcases List.mem_or_eq_of_mem_set hc with hc | rfl
  · exact hf c hc v hcv
  · have hbm := List.mem_of_getElem? hb
    simp only [Block.overwritten, List.mem_append] at hcv
    rcases hcv with (h | h) | h
    · exact hf b hbm v (List.mem_of_mem_take h)
    · exact hv v h
    · exact hf b hbm v (List.mem_of_mem_drop h)

theorem listSixteen_setMany {L : List Block} (hf : ListSixteen L) {i : Nat} {b : Block} (hb : L[i]? = some b) {off : Nat} {vs : List Int} (hv : ∀ v ∈ vs, Sixteen v) :
    ListSixteen (L.set i (b.withData (setMany b.data off vs))) := by
  intro c hc v hcv
  rcases List.mem_or_eq_of_mem_set hc with hc | rfl
  · exact hf c hc v hcv
  · rcases mem_setMany hcv with h | h
    · exact hf b (List.mem_of_getElem? hb) v h
    · exact hv v h

theorem listSixteen_insert {L : List Block} (hf : ListSixteen L) (i : Nat) (start size : Int) : ListSixteen (L.insertIdx i (Block.new start size)) := by
  intro b hb v hv
  rcases List.eq_or_mem_of_mem_insertIdx hb with rfl | hb
  · have : v = 0 := List.eq_of_mem_replicate hv
    subst this
    unfold Sixteen
    omega
  · exact hf b hb v hv

/-- a value that does not fit makes the packing of registers raise struct.error -/
theorem packRegsLoop_unfit {sl : Slave} {vs : List Int} (h : ∃ v ∈ vs, ¬ fits sl.unsigned v) (acc : Bytes) : packRegsLoop (regCode sl) vs acc = .error .structError := by
  induction vs generalizing acc with
  | nil => obtain ⟨v, hv, _⟩ := h; cases hv
  | cons v vs ih =>
    rw [packRegsLoop]
    by_cases hv : fits sl.unsigned v
    · rw [packReg_eq hv, except_bind_ok]
      obtain ⟨w, hw, hf⟩ := h
      rcases List.mem_cons.mp hw with rfl | hw
      · exact absurd hv hf
      · exact ih ⟨w, hw, hf⟩ _
    · have : structPack (be [regCode sl]) [v] = .error .structError := by
        rw [structPack_single]
        unfold fits at hv
        unfold regCode packOne
        have e1 : Code.lo Code.h = -32768 := by decide
        have e2 : Code.hi Code.h = 32768 := by decide
        have e3 : Code.lo Code.H = 0 := by decide
        have e4 : Code.hi Code.H = 65536 := by decide
        cases hu : sl.unsigned
        · simp only [hu, Bool.false_eq_true, if_false] at hv ⊢
          rw [e1, e2, if_neg (by omega)]
        · simp only [hu, if_true] at hv ⊢
          rw [e3, e4, if_neg (by omega)]
      rw [this]
      rfl

/-- `handle_request` when the handler raises something else than a ModbusError -/
theorem handleRequest_raise {R : Registry} {h : Heap} {sl : Slave} (hR : Quiet R) {fc : UInt8} {rest : Bytes} {f : Bytes → PyM Heap Bytes} (hf : fnCodeMap R sl fc.toNat = some f) {h' : Heap}
    (he : f (fc :: rest) h = (.error .structError, h')) : handleRequest R sl (fc :: rest) false h = (.error .structError, h') := by
  have hs : Modbus.slice (fc :: rest) 0 1 = [fc] := by simp [Modbus.slice]
  have hu : unpackSingle Code.B [fc] = .ok (fc.toNat : Int) := by rw [unpackSingle_ok rfl, unpackOne_B]
  unfold handleRequest
  simp only [hR "modbus.Slave.handle_request", hs, hu, PyM.bind_apply, PyM.lift_apply, PyM.tryExcept_apply, dispatch, hf, Bool.false_eq_true, false_and, if_false, he]
  rfl

section
variable {R : Registry} {h : Heap} {sl : Slave} {r : Refs}

theorem Loose.block (g : Loose h sl r) {ref : Nat} (hr : ref ∈ [r.coils, r.discrete, r.holding, r.input]) {b : Block} (hb : b ∈ h.lists ref) : b.WF := g.wf ref hr b hb

theorem Loose.setHolding (g : Loose h sl r) {a n : Int} {i : Nat} {off : Int} {blk : Block} (f : Found h r.holding a n ⟨r.holding, i⟩ off blk) {vs : List Int}
    (hv : (vs.length : Int) = n) (hs : ∀ v ∈ vs, Sixteen v) :
    Loose (h.setBlock ⟨r.holding, i⟩ (blk.withData (setMany blk.data off.toNat vs))) sl r ∧
    StoredIn h (h.setBlock ⟨r.holding, i⟩ (blk.withData (setMany blk.data off.toNat vs))) sl 3 i a vs := by
  have hwf := g.block (by simp) f.mem
  have hd := g.refs.distinct
  simp only [List.nodup_cons, List.mem_cons, List.not_mem_nil, or_false, not_or] at hd
  obtain ⟨⟨h1, h2, h3⟩, ⟨h4, h5⟩, h6, _⟩ := hd
  have hr := g.refs.setBlock ⟨r.holding, i⟩ (blk.withData (setMany blk.data off.toNat vs))
  have hsame : (h.setBlock ⟨r.holding, i⟩ (blk.withData (setMany blk.data off.toNat vs))).lists r.holding = (h.lists r.holding).set i (blk.overwritten a vs) := by
    rw [← overwritten_eq f hwf hv]; exact setBlock_lists_same h ⟨r.holding, i⟩ _
  have t := tables g.refs
  have t' := tables hr
  have hle := f.le
  have hof := f.offEq
  have hnn := f.nonneg
  refine ⟨⟨hr, ?_, ?_, ?_⟩, ⟨⟨blk, by rw [t.2.2.1]; exact f.idx, by rw [t'.2.2.1, t.2.2.1, hsame]⟩, ?_⟩⟩
  · intro ref href b hb
    simp only [List.mem_cons, List.not_mem_nil, or_false] at href
    rcases href with rfl | rfl | rfl | rfl
    · rw [f.other _ h2] at hb; exact g.block (by simp) hb
    · rw [f.other _ h4] at hb; exact g.block (by simp) hb
    · rw [hsame] at hb
      rcases List.mem_or_eq_of_mem_set hb with hb | rfl
      · exact g.block (by simp) hb
      · exact overwritten_wf hwf (by omega) (by omega)
    · rw [f.other _ (Ne.symm h6)] at hb; exact g.block (by simp) hb
  · rw [hsame]; exact listSixteen_set g.holding f.idx hs
  · rw [f.other _ (Ne.symm h6)]; exact g.inputFits
  · intro t'' ht hne
    simp only [List.mem_cons, List.not_mem_nil, or_false] at ht
    rcases ht with rfl | rfl | rfl | rfl
    · rw [t.1, t'.1, f.other _ h2]
    · rw [t.2.1, t'.2.1, f.other _ h4]
    · exact absurd rfl hne
    · rw [t.2.2.2, t'.2.2.2, f.other _ (Ne.symm h6)]

/-! ## Reading -/

/-- **C101 (which reads are answered).** A read of 1..125 holding registers within a block is answered with the words of the registers if all of them hold values of the slave's
    signedness; if one of them does not, `handle_request` raises struct.error.  In both cases nothing changes. -/
theorem C101_read (hR : Quiet R) (g : Loose h sl r) (a q : UInt16) (hq : 1 ≤ q.toNat ∧ q.toNat ≤ 125) {i : Nat} {b : Block}
    (hi : addressed (blocksOf h sl 3) a.toNat q.toNat = some i) (hb : (blocksOf h sl 3)[i]? = some b) :
    ((∀ v ∈ b.cells a.toNat q.toNat, fits sl.unsigned v) → handleRequest R sl (3 :: (word a ++ word q)) false h =
      (.ok (3 :: UInt8.ofNat (2 * q.toNat) :: (b.cells a.toNat q.toNat).flatMap fun v => word (toWord v)), h)) ∧
    ((∃ v ∈ b.cells a.toNat q.toNat, ¬ fits sl.unsigned v) → handleRequest R sl (3 :: (word a ++ word q)) false h = (.error .structError, h)) := by
  have hq' := q.toNat_lt
  have e : Modbus.slice (3 :: (word a ++ word q)) 1 5 = word a ++ word q := by simp [Modbus.slice, word]
  rw [(tables g.refs).2.2.1] at hi hb
  obtain ⟨blk, hg, f, h1, h2⟩ := gbo_addressed g.refs.holding hi
  rw [h1] at hb
  cases hb
  constructor
  · intro hf
    refine handleRequest_ok hR (f := readHoldingRegisters R sl) rfl (by simp) ?_
    simp only [readHoldingRegisters, PyM.bind_apply, callHook_quiet hR]
    simp only [readRegisters, e, structUnpack_HH, PyM.bind_apply, PyM.lift_apply]
    rw [if_neg (by omega)]
    simp only [PyM.bind_apply, hg, getSlice_eq f.isBlk, (f.slice (g.block (by simp) h2)).1, structPack_single]
    rw [packOne_B (by omega) (by omega)]
    simp only [PyM.lift_apply, packRegsLoop_eq _ hf]
    rw [show (2 * (q.toNat : Int)).toNat = 2 * q.toNat by omega]
    rfl
  · intro hf
    refine handleRequest_raise hR (f := readHoldingRegisters R sl) rfl ?_
    simp only [readHoldingRegisters, PyM.bind_apply, callHook_quiet hR]
    simp only [readRegisters, e, structUnpack_HH, PyM.bind_apply, PyM.lift_apply]
    rw [if_neg (by omega)]
    simp only [PyM.bind_apply, hg, getSlice_eq f.isBlk, (f.slice (g.block (by simp) h2)).1, structPack_single]
    rw [packOne_B (by omega) (by omega)]
    simp only [PyM.lift_apply, packRegsLoop_unfit hf]

/-- **C101 (reads of the other tables).** Input registers are always answered. -/
theorem C101_read_inputs (hR : Quiet R) (g : Loose h sl r) (a q : UInt16) (hq : 1 ≤ q.toNat ∧ q.toNat ≤ 125) {i : Nat} {b : Block}
    (hi : addressed (blocksOf h sl 4) a.toNat q.toNat = some i) (hb : (blocksOf h sl 4)[i]? = some b) :
    handleRequest R sl (4 :: (word a ++ word q)) false h =
      (.ok (4 :: UInt8.ofNat (2 * q.toNat) :: (b.cells a.toNat q.toNat).flatMap fun v => word (toWord v)), h) := by
  have hq' := q.toNat_lt
  have e : Modbus.slice (4 :: (word a ++ word q)) 1 5 = word a ++ word q := by simp [Modbus.slice, word]
  rw [(tables g.refs).2.2.2] at hi hb
  obtain ⟨blk, hg, f, h1, h2⟩ := gbo_addressed g.refs.input hi
  rw [h1] at hb
  cases hb
  refine handleRequest_ok hR (f := readInputRegisters R sl) rfl (by simp) ?_
  simp only [readInputRegisters, PyM.bind_apply, callHook_quiet hR]
  simp only [readRegisters, e, structUnpack_HH, PyM.bind_apply, PyM.lift_apply]
  rw [if_neg (by omega)]
  simp only [PyM.bind_apply, hg, getSlice_eq f.isBlk, (f.slice (g.block (by simp) h2)).1, structPack_single]
  rw [packOne_B (by omega) (by omega)]
  simp only [PyM.lift_apply, packRegsLoop_eq _ (cells_fit g.inputFits h2 _ _)]
  rw [show (2 * (q.toNat : Int)).toNat = 2 * q.toNat by omega]
  rfl

/-! ## Writing -/

/-- **C101 (function 22).** Whatever 16-bit number the register holds, a mask write stores the masked word in it as an unsigned number and answers an echo. -/
theorem C101_mask_write (hR : Quiet R) (g : Loose h sl r) (a am om : UInt16) {i : Nat} {b : Block} (hi : addressed (blocksOf h sl 3) a.toNat 1 = some i)
    (hb : (blocksOf h sl 3)[i]? = some b) :
    ∃ h' cur, b.cells a.toNat 1 = [cur] ∧ handleRequest R sl (22 :: (word a ++ word am ++ word om)) false h = (.ok (22 :: (word a ++ word am ++ word om)), h') ∧
      StoredIn h h' sl 3 i a.toNat [((Spec.maskWord (toWord cur) am om).toNat : Int)] ∧ Loose h' sl r := by
  rw [(tables g.refs).2.2.1] at hi hb
  obtain ⟨blk, hg, f, h1, h2⟩ := gbo_addressed g.refs.holding hi
  rw [h1] at hb
  cases hb
  have hl := (g.block (by simp) h2).len
  have hle := f.le
  have hnn := f.nonneg
  have hlt : ((a.toNat : Int) - b.start).toNat < b.data.length := by omega
  have hcur : getItem ⟨r.holding, i⟩ ((a.toNat : Int) - b.start) h = (.ok b.data[((a.toNat : Int) - b.start).toNat], h) := by
    simp only [getItem, f.isBlk, show ¬ (a.toNat : Int) - b.start < 0 by omega, if_false, List.getElem?_eq_getElem hlt]
  have hcells : b.cells a.toNat 1 = [b.data[((a.toNat : Int) - b.start).toNat]] := by
    unfold Block.cells
    rw [List.drop_eq_getElem_cons hlt]
    rfl
  have hcf : Sixteen b.data[((a.toNat : Int) - b.start).toNat] := g.holding b h2 _ (List.getElem_mem hlt)
  generalize b.data[((a.toNat : Int) - b.start).toNat] = cur at hcur hcells hcf
  have hval : pyOr (pyAnd cur am.toNat) (pyAnd om.toNat (pyNot am.toNat)) = (Spec.maskWord (toWord cur) am om).toNat := maskVal_all hcf.1 hcf.2 am om
  have hw := g.setHolding f (vs := [((Spec.maskWord (toWord cur) am om).toNat : Int)]) rfl (by
    intro v hv
    simp only [List.mem_singleton] at hv
    subst hv
    have := (Spec.maskWord (toWord cur) am om).toNat_lt
    unfold Sixteen
    omega)
  have e : Modbus.slice (22 :: (word a ++ word am ++ word om)) 1 7 = word a ++ word am ++ word om := by simp [Modbus.slice, word]
  refine ⟨_, cur, hcells, handleRequest_ok hR (f := maskWriteRegister R sl) rfl (by simp [word]) ?_, hw.2, hw.1⟩
  simp only [maskWriteRegister, e, structUnpack_HHH, PyM.bind_apply, PyM.lift_apply, callHook_quiet hR, hg, hcur, setItem_quiet hR f.isBlk f.nonneg
    (show (a.toNat : Int) - b.start < b.data.length by omega), PyM.pure_apply, hval, List.drop_succ_cons, List.drop_zero]
  rfl

/-- **C101 (function 6).** Whatever the register holds, the write stores the value. -/
theorem C101_write_register (hR : Quiet R) (g : Loose h sl r) (a v : UInt16) {i : Nat} (hi : addressed (blocksOf h sl 3) a.toNat 1 = some i) :
    ∃ h', handleRequest R sl (6 :: (word a ++ word v)) false h = (.ok (6 :: (word a ++ word v)), h') ∧ StoredIn h h' sl 3 i a.toNat [ofWord sl.unsigned v] ∧ Loose h' sl r := by
  rw [(tables g.refs).2.2.1] at hi
  obtain ⟨blk, hg, f, h1, h2⟩ := gbo_addressed g.refs.holding hi
  have hl := (g.block (by simp) h2).len
  have hle := f.le
  have hw := g.setHolding f (vs := [ofWord sl.unsigned v]) rfl (by
    intro x hx
    simp only [List.mem_singleton] at hx
    subst hx
    exact fits_sixteen (ofWord_fits _ _))
  have e : Modbus.slice (6 :: (word a ++ word v)) 1 5 = word a ++ word v := by simp [Modbus.slice, word]
  refine ⟨_, handleRequest_ok hR (f := writeSingleRegister R sl) rfl (by simp [word]) ?_, hw.2, hw.1⟩
  simp only [writeSingleRegister, e, structUnpack_HReg, PyM.bind_apply, PyM.lift_apply, callHook_quiet hR, hg, setItem_quiet hR f.isBlk f.nonneg
    (show (a.toNat : Int) - blk.start < blk.data.length by omega), PyM.pure_apply]
  rfl

/-- **C101 (function 16).** The same for 1..123 registers. -/
theorem C101_write_registers (hR : Quiet R) (g : Loose h sl r) (a q : UInt16) (bc : UInt8) (p : Bytes) (hq : 1 ≤ q.toNat ∧ q.toNat ≤ 123) (hbc : bc.toNat = 2 * q.toNat)
    (hp : p.length = 2 * q.toNat) {i : Nat} (hi : addressed (blocksOf h sl 3) a.toNat q.toNat = some i) :
    ∃ h', handleRequest R sl (16 :: (word a ++ word q ++ [bc] ++ p)) false h = (.ok (16 :: (word a ++ word q)), h') ∧
      StoredIn h h' sl 3 i a.toNat (payloadValues sl.unsigned p q.toNat) ∧ Loose h' sl r := by
  rw [(tables g.refs).2.2.1] at hi
  obtain ⟨blk, hg, f, h1, h2⟩ := gbo_addressed g.refs.holding hi
  have hwf := g.block (by simp) h2
  have hl := hwf.len
  have hle := f.le
  have hlen : (16 :: (word a ++ word q ++ [bc] ++ p)).length = 6 + p.length := by simp [word_length]; omega
  have hav : regsAvail (16 :: (word a ++ word q ++ [bc] ++ p)) 6 0 q.toNat = q.toNat := by
    unfold regsAvail; rw [hlen]; omega
  have hvs : (List.range q.toNat).map (fun k => regAt (regCode sl) (16 :: (word a ++ word q ++ [bc] ++ p)) 6 (0 + k)) = payloadValues sl.unsigned p q.toNat := by
    unfold payloadValues
    apply List.map_congr_left
    intro k hk
    have := List.mem_range.mp hk
    rw [Nat.zero_add]
    exact regAt_payload sl (pre := 16 :: (word a ++ word q ++ [bc])) (by omega)
  have hw := g.setHolding f (vs := payloadValues sl.unsigned p q.toNat) (by simp [payloadValues]) (by
    intro v hv
    simp only [payloadValues, List.mem_map] at hv
    obtain ⟨k, _, rfl⟩ := hv
    exact fits_sixteen (ofWord_fits _ _))
  have e : Modbus.slice (16 :: (word a ++ word q ++ [bc] ++ p)) 1 6 = word a ++ word q ++ [bc] := by simp [Modbus.slice, word]
  refine ⟨_, handleRequest_ok hR (f := writeMultipleRegisters R sl) rfl (by simp [word]) ?_, hw.2, hw.1⟩
  simp only [writeMultipleRegisters, e, structUnpack_HHB, PyM.bind_apply, PyM.lift_apply, callHook_quiet hR]
  rw [if_neg (by omega)]
  simp only [PyM.bind_apply, hg, Int.toNat_natCast]
  rw [writeRegsLoop_eq hR (regCode_size sl) f.nonneg _ _ _ f.isBlk (by omega), hav, hvs]
  simp only [if_true, PyM.lift_apply, Int.zero_add, structPack_HH]
  rfl

/-- **C101 (function 23).** If one of the registers to be read does not hold a value of the slave's signedness, `handle_request` raises struct.error and **nothing is written**,
    whatever the second half of the request is. -/
theorem C101_read_write (hR : Quiet R) (g : Loose h sl r) (ra rq wa wq : UInt16) (bc : UInt8) (p : Bytes) (hrq : 1 ≤ rq.toNat ∧ rq.toNat ≤ 125)
    {i : Nat} {b : Block} (hi : addressed (blocksOf h sl 3) ra.toNat rq.toNat = some i) (hb : (blocksOf h sl 3)[i]? = some b) (hun : ∃ v ∈ b.cells ra.toNat rq.toNat, ¬ fits sl.unsigned v) :
    handleRequest R sl (23 :: (word ra ++ word rq ++ word wa ++ word wq ++ [bc] ++ p)) false h = (.error .structError, h) := by
  rw [(tables g.refs).2.2.1] at hi hb
  obtain ⟨blk, hg, f, h1, h2⟩ := gbo_addressed g.refs.holding hi
  rw [h1] at hb
  cases hb
  have e : Modbus.slice (23 :: (word ra ++ word rq ++ word wa ++ word wq ++ [bc] ++ p)) 1 10 = word ra ++ word rq ++ word wa ++ word wq ++ [bc] := by simp [Modbus.slice, word]
  refine handleRequest_raise hR (f := readWriteMultipleRegisters R sl) rfl ?_
  simp only [readWriteMultipleRegisters, e, structUnpack_HHHHB, PyM.bind_apply, PyM.lift_apply, callHook_quiet hR]
  rw [if_neg (by omega)]
  simp only [PyM.bind_apply, hg, getSlice_eq f.isBlk, (f.slice (g.block (by simp) h2)).1, structPack_single]
  rw [packOne_B (by omega) (by omega)]
  simp only [PyM.lift_apply, packRegsLoop_unfit hun]

/-! ## Breaking and healing a register -/

/-- **C101 (a mask write and a read).** After a mask write of a register of a signed slave the register can be read if the top bit of the masked word is 0, and then the masked word
    is answered; if that bit is 1, `handle_request` of the read raises struct.error.  On an unsigned slave it can always be read. -/
theorem C101_mask_then_read (hR : Quiet R) (g : Loose h sl r) (a am om : UInt16) (hin : InBlock h sl 3 a.toNat 1) :
    ∃ h' i b cur w, addressed (blocksOf h sl 3) a.toNat 1 = some i ∧ (blocksOf h sl 3)[i]? = some b ∧ b.cells a.toNat 1 = [cur] ∧ w = Spec.maskWord (toWord cur) am om ∧
      handleRequest R sl (22 :: (word a ++ word am ++ word om)) false h = (.ok (22 :: (word a ++ word am ++ word om)), h') ∧
      (sl.unsigned = true ∨ w.toNat.testBit 15 = false → handleRequest R sl (3 :: (word a ++ word 1)) false h' = (.ok (3 :: 2 :: word w), h')) ∧
      (sl.unsigned = false → w.toNat.testBit 15 = true → handleRequest R sl (3 :: (word a ++ word 1)) false h' = (.error .structError, h')) ∧ Loose h' sl r := by
  obtain ⟨i, b, hi, hb, _⟩ := addressed_of_inBlock hin
  obtain ⟨h', cur, hc, he, hs, g'⟩ := C101_mask_write hR g a am om hi hb
  have hwf : ∀ b ∈ blocksOf h sl 3, b.WF := by rw [(tables g.refs).2.2.1]; exact g.wf _ (by simp)
  obtain ⟨h1, b', h2, h3⟩ := hs.found hwf hi
  simp only [List.length_singleton] at h3
  have e1 : (1 : UInt16).toNat = 1 := rfl
  generalize hw : Spec.maskWord (toWord cur) am om = w at *
  have hlt := w.toNat_lt
  have hbit : w.toNat.testBit 15 = decide (32768 ≤ w.toNat) := by
    rw [Nat.testBit_eq_decide_div_mod_eq]
    apply decide_eq_decide.mpr
    omega
  refine ⟨h', i, b, cur, w, hi, hb, hc, hw.symm, he, fun ho => ?_, fun hu ht => ?_, g'⟩
  · rw [(C101_read hR g' a 1 (by decide) h1 h2).1 (by
      rw [e1, h3]
      intro x hx
      simp only [List.mem_singleton] at hx
      subst hx
      unfold fits
      split
      · omega
      · rename_i hu
        rcases ho with ho | ho
        · exact absurd ho hu
        · rw [hbit] at ho
          simp at ho
          omega), e1, h3]
    have : toWord ((w.toNat : Nat) : Int) = w := by
      apply UInt16.toNat_inj.mp
      unfold toWord
      rw [UInt16.toNat_ofNat']
      show _ % 65536 = _
      omega
    simp [this]
  · refine (C101_read hR g' a 1 (by decide) h1 h2).2 ⟨(w.toNat : Int), ?_, ?_⟩
    · rw [e1, h3]; simp
    · unfold fits
      rw [hu]
      rw [hbit] at ht
      simp at ht ⊢
      omega

/-- **C101 (a write heals).** Whatever 16-bit number a register holds: after function 6 the register reads as the word written. -/
theorem C101_write_then_read (hR : Quiet R) (g : Loose h sl r) (a v : UInt16) (hin : InBlock h sl 3 a.toNat 1) :
    ∃ h', handleRequest R sl (6 :: (word a ++ word v)) false h = (.ok (6 :: (word a ++ word v)), h') ∧
      handleRequest R sl (3 :: (word a ++ word 1)) false h' = (.ok (3 :: 2 :: word v), h') ∧ Loose h' sl r := by
  obtain ⟨i, b, hi, _⟩ := addressed_of_inBlock hin
  obtain ⟨h', he, hs, g'⟩ := C101_write_register hR g a v hi
  have hwf : ∀ b ∈ blocksOf h sl 3, b.WF := by rw [(tables g.refs).2.2.1]; exact g.wf _ (by simp)
  obtain ⟨h1, b', h2, h3⟩ := hs.found hwf hi
  refine ⟨h', he, ?_, g'⟩
  simp only [List.length_singleton] at h3
  have e1 : (1 : UInt16).toNat = 1 := rfl
  rw [(C101_read hR g' a 1 (by decide) h1 h2).1 (by
    rw [e1, h3]
    intro x hx
    simp only [List.mem_singleton] at hx
    subst hx
    exact ofWord_fits _ _)]
  rw [e1, h3]
  simp [toWord_ofWord]

/-- **C101 (function 16 heals).** Whatever 16-bit numbers the registers hold: after function 16 the range reads as the bytes written. -/
theorem C101_write_many_then_read (hR : Quiet R) (g : Loose h sl r) (a q : UInt16) (bc : UInt8) (p : Bytes) (hq : 1 ≤ q.toNat ∧ q.toNat ≤ 123) (hbc : bc.toNat = 2 * q.toNat)
    (hp : p.length = 2 * q.toNat) (hin : InBlock h sl 3 a.toNat q.toNat) :
    ∃ h', handleRequest R sl (16 :: (word a ++ word q ++ [bc] ++ p)) false h = (.ok (16 :: (word a ++ word q)), h') ∧
      handleRequest R sl (3 :: (word a ++ word q)) false h' = (.ok (3 :: bc :: p), h') ∧ Loose h' sl r := by
  obtain ⟨i, b, hi, _⟩ := addressed_of_inBlock hin
  obtain ⟨h', he, hs, g'⟩ := C101_write_registers hR g a q bc p hq hbc hp hi
  have hl : (payloadValues sl.unsigned p q.toNat).length = q.toNat := by simp [payloadValues]
  have hwf : ∀ b ∈ blocksOf h sl 3, b.WF := by rw [(tables g.refs).2.2.1]; exact g.wf _ (by simp)
  obtain ⟨h1, b', h2, h3⟩ := hs.found hwf (by rw [hl]; exact hi)
  rw [hl] at h1 h3
  refine ⟨h', he, ?_, g'⟩
  rw [(C101_read hR g' a q (by omega) h1 h2).1 (by
    rw [h3]
    intro v hv
    simp only [payloadValues, List.mem_map] at hv
    obtain ⟨k, _, rfl⟩ := hv
    exact ofWord_fits _ _), h3, ← hbc]
  have e : (payloadValues sl.unsigned p q.toNat).flatMap (fun v => word (toWord v)) = p := by
    unfold payloadValues
    rw [List.flatMap_map]
    simp only [toWord_ofWord]
    have := bytes_words p q.toNat hp
    rw [List.flatMap_map] at this
    exact this.symm
  rw [e]
  simp

end

/-! ## Histories -/

/-- the dictionary is the default one; all blocks are well formed; holding registers hold 16-bit numbers, input registers values of the slave's signedness -/
structure LooseInv (u : Bool) (s : SlaveSt) : Prop where
  unsigned : s.sl.unsigned = u
  dict : ∃ a b c d, s.heap.dicts s.sl.mem = [(1, a), (2, b), (3, c), (4, d)] ∧ [a, b, c, d].Nodup ∧ ListSixteen (s.heap.lists c) ∧ ListFits u (s.heap.lists d)
  wf : HeapWF s.heap

theorem LooseInv.loose {u : Bool} {s : SlaveSt} (i : LooseInv u s) : ∃ r, Loose s.heap s.sl r := by
  obtain ⟨a, b, c, d, h1, h2, h3, h4⟩ := i.dict
  refine ⟨⟨a, b, c, d⟩, ⟨?_, ?_, ?_, ?_, h2⟩, fun ref _ => i.wf ref, h3, by rw [i.unsigned]; exact h4⟩ <;> rw [h1] <;> rfl

theorem looseOp_step {u : Bool} {s : SlaveSt} (i : LooseInv u s) (op : SlaveOp) (hop : op.Sane u) : LooseInv u (op.run s) := by
  obtain ⟨a, b, c, d, h1, h2, h3, h4⟩ := i.dict
  cases op with
  | blocks op =>
    cases op with
    | add name bt start size =>
      show LooseInv u (addBlock name bt start size s).2
      unfold addBlock
      split
      · exact i
      rename_i hsz
      split
      · exact i
      split
      · exact i
      split
      · exact i
      split
      · exact i
      refine ⟨i.unsigned, ⟨a, b, c, d, h1, h2, ?_, ?_⟩, ?_⟩
      · show ListSixteen (if _ then _ else _)
        split
        · rename_i e; rw [← e]; exact listSixteen_insert h3 _ _ _
        · exact h3
      · show ListFits u (if _ then _ else _)
        split
        · rename_i e; rw [← e]; exact listFits_insert h4 _ _ _
        · exact h4
      · refine heapWF_setList i.wf _ fun blk hb => ?_
        rcases List.eq_or_mem_of_mem_insertIdx hb with rfl | hb
        · exact block_new_wf (by omega)
        · exact i.wf _ _ hb
    | remove name =>
      show LooseInv u (removeBlock name s).2
      unfold removeBlock
      split
      · exact i
      refine ⟨i.unsigned, ⟨a, b, c, d, h1, h2, ?_, ?_⟩, ?_⟩
      · show ListSixteen (if _ then _ else _)
        split
        · rename_i e; rw [← e]; exact fun blk hb => h3 blk (List.mem_of_mem_eraseIdx hb)
        · exact h3
      · show ListFits u (if _ then _ else _)
        split
        · rename_i e; rw [← e]; exact fun blk hb => h4 blk (List.mem_of_mem_eraseIdx hb)
        · exact h4
      · exact heapWF_setList i.wf _ fun blk hb => i.wf _ _ (List.mem_of_mem_eraseIdx hb)
    | removeAll =>
      show LooseInv u (removeAllBlocks s).2
      unfold removeAllBlocks
      dsimp only
      rw [h1]
      refine ⟨i.unsigned, ⟨s.heap.nextList, s.heap.nextList + 1, s.heap.nextList + 2, s.heap.nextList + 3, if_pos rfl, ?_, ?_, ?_⟩, ?_⟩
      · simp
      · show ListSixteen (if _ then _ else _)
        rw [if_pos ⟨by omega, by simp⟩]
        intro b hb; cases hb
      · show ListFits u (if _ then _ else _)
        rw [if_pos ⟨by omega, by simp⟩]
        intro b hb; cases hb
      · intro ref blk hb
        have hb : blk ∈ if _ then _ else _ := hb
        split at hb
        · cases hb
        · exact i.wf ref blk hb
  | setValues R name x vs =>
    show LooseInv u { s with heap := (Modbus.setValues R name x vs s.sl s.heap).2 }
    have hd := (C16_set_values_shape R name x vs s.sl s.heap i.wf).2
    have hw := keepsWF_setValues R name x vs s.sl s.heap i.wf
    have hfit : ∀ ref, ListFits u (s.heap.lists ref) → ListFits u ((Modbus.setValues R name x vs s.sl s.heap).2.lists ref) := by
      intro ref hf
      cases hs : Modbus.setValues R name x vs s.sl s.heap with
      | mk res h' =>
        cases res with
        | error e => cases setValues_refused hs; exact hf
        | ok _ =>
          obtain ⟨br, blk, _, hb, _, _, he⟩ := setValues_ok hs
          have hb' : (s.heap.lists br.list)[br.idx]? = some blk := hb
          have := he (i.wf _ _ (List.mem_of_getElem? hb'))
          rw [this]
          by_cases hr : ref = br.list
          · subst hr
            show ListFits u ((s.heap.setBlock br _).lists br.list)
            rw [setBlock_lists_same]
            exact listFits_set hf hb' hop
          · show ListFits u ((s.heap.setBlock br _).lists ref)
            rw [setBlock_lists_other _ _ _ hr]
            exact hf
    have hsix : ∀ ref, ListSixteen (s.heap.lists ref) → ListSixteen ((Modbus.setValues R name x vs s.sl s.heap).2.lists ref) := by
      intro ref hf
      cases hs : Modbus.setValues R name x vs s.sl s.heap with
      | mk res h' =>
        cases res with
        | error e => cases setValues_refused hs; exact hf
        | ok _ =>
          obtain ⟨br, blk, _, hb, _, _, he⟩ := setValues_ok hs
          have hb' : (s.heap.lists br.list)[br.idx]? = some blk := hb
          have := he (i.wf _ _ (List.mem_of_getElem? hb'))
          rw [this]
          by_cases hr : ref = br.list
          · subst hr
            show ListSixteen ((s.heap.setBlock br _).lists br.list)
            rw [setBlock_lists_same]
            exact listSixteen_setMany hf hb' fun v hv => fits_sixteen (hop v hv)
          · show ListSixteen ((s.heap.setBlock br _).lists ref)
            rw [setBlock_lists_other _ _ _ hr]
            exact hf
    exact ⟨i.unsigned, ⟨a, b, c, d, by show (Modbus.setValues R name x vs s.sl s.heap).2.dicts _ = _; rw [hd]; exact h1, h2, hsix _ h3, hfit _ h4⟩, hw⟩
  | request R pdu bc =>
    show LooseInv u { s with heap := (handleRequest R s.sl pdu bc s.heap).2 }
    cases pdu with
    | nil => rw [handleRequest_empty]; exact i
    | cons fc rest =>
      have hw := keepsWF_request R s.sl (fc :: rest) bc s.heap i.wf
      rcases (handleRequest_eff (R := R) (sl := s.sl) (h := s.heap) fc rest bc).touch with e | ⟨ref, hd, ht⟩
      · rw [e]; exact i
      · have hr : ref = a ∨ ref = c := by
          have hst : storeTable fc.toNat = 1 ∨ storeTable fc.toNat = 3 := by
            unfold storeTable; split
            · exact .inl rfl
            · exact .inr rfl
          rw [h1] at hd
          rcases hst with hst | hst <;> rw [hst] at hd <;> simp [Dict.get?] at hd
          · exact .inl hd.symm
          · exact .inr hd.symm
        have h2' := h2
        simp only [List.nodup_cons, List.mem_cons, List.not_mem_nil, or_false, not_or, List.nodup_nil, and_true] at h2
        refine ⟨i.unsigned, ⟨a, b, c, d, by show (handleRequest R s.sl (fc :: rest) bc s.heap).2.dicts _ = _; rw [ht.dicts]; exact h1, h2', ?_, ?_⟩, hw⟩
        · show ListSixteen ((handleRequest R s.sl (fc :: rest) bc s.heap).2.lists c)
          rcases hr with rfl | rfl
          · rw [ht.other _ (by omega)]; exact h3
          · intro blk hb v hv
            rcases ht.values blk hb v hv with ⟨b0, hb0, hv0⟩ | hV
            · exact h3 b0 hb0 v hv0
            · unfold StoreVal at hV
              split at hV
              · exact ⟨by have := hV.1; omega, hV.2⟩
              · split at hV
                · rename_i e
                  exfalso
                  have hst : storeTable fc.toNat = 1 := by unfold storeTable; rw [if_pos e]
                  rw [hst, h1] at hd
                  simp [Dict.get?] at hd
                  omega
                · exact fits_sixteen (regVal_fits hV)
        · show ListFits u ((handleRequest R s.sl (fc :: rest) bc s.heap).2.lists d)
          rw [ht.other _ (by rcases hr with rfl | rfl <;> omega)]; exact h4

/-- **C101 (histories).** On every slave with a default memory, after any history of block operations (overlapping blocks or not), values set and requests of any bytes under any
    hooks, mask writes included, the registers hold 16-bit numbers. -/
theorem C101_history (u : Bool) (ops : List SlaveOp) (hops : ∀ op ∈ ops, op.Sane u) : ∃ r, Loose (ops.foldl (fun s op => op.run s) (freshSlave u)).heap
    (ops.foldl (fun s op => op.run s) (freshSlave u)).sl r := by
  have h0 : LooseInv u (freshSlave u) := by
    refine ⟨rfl, ⟨0, 1, 2, 3, rfl, by decide, ?_, ?_⟩, ?_⟩
    · intro b hb; cases hb
    · intro b hb; cases hb
    · intro ref b hb
      have : (freshSlave u).heap.lists ref = [] := by simp [freshSlave, Slave.new, Heap.allocMemory, Heap.empty]
      rw [this] at hb
      cases hb
  suffices ∀ s, LooseInv u s → LooseInv u (ops.foldl (fun s op => op.run s) s) from (this _ h0).loose
  induction ops with
  | nil => exact fun s h => h
  | cons op ops ih => exact fun s h => ih (fun o ho => hops o (by simp [ho])) _ (looseOp_step h op (hops op (by simp)))

/-- the slave of `C10_false`: five signed holding registers from 10 on -/
theorem signedSlave_loose : Loose signedSlave.heap signedSlave.sl ⟨0, 1, 2, 3⟩ := by
  have e : ∀ ref ∈ [0, 1, 2, 3], signedSlave.heap.lists ref = if ref = 2 then [Block.new 10 5] else [] := by decide
  refine ⟨⟨by decide, by decide, by decide, by decide, by decide⟩, ?_, ?_, ?_⟩
  · intro ref hr b hb
    rw [e ref hr] at hb
    split at hb
    · simp only [List.mem_cons, List.not_mem_nil, or_false] at hb
      subst hb
      exact ⟨rfl, by decide⟩
    · cases hb
  · rw [show signedSlave.heap.lists 2 = [Block.new 10 5] from e 2 (by simp)]
    intro b hb v hv
    simp only [List.mem_cons, List.not_mem_nil, or_false] at hb
    subst hb
    have : v = 0 := List.eq_of_mem_replicate hv
    subst this
    unfold Sixteen
    omega
  · rw [show signedSlave.heap.lists 3 = [] from e 3 (by simp)]
    intro b hb
    cases hb

example : InBlock signedSlave.heap signedSlave.sl 3 ((10 : UInt16).toNat) 1 := ⟨Block.new 10 5, by decide, by decide, by decide⟩

/-- **C101, an instance.** Register 10 is broken by a mask write; the read of 10..14 and the write of 12 by function 23 fail and change nothing; 11 can be read; another mask write or a
    write of register 10 heals it. -/
theorem C101_instance :
    let h := (handleRequest [] signedSlave.sl [22, 0, 10, 0, 0, 0x80, 1] false signedSlave.heap).2
    (handleRequest [] signedSlave.sl [3, 0, 10, 0, 5] false h).1 = .error .structError ∧
    (handleRequest [] signedSlave.sl [23, 0, 10, 0, 5, 0, 12, 0, 1, 2, 0, 9] false h).1 = .error .structError ∧
    (handleRequest [] signedSlave.sl [3, 0, 11, 0, 4] false (handleRequest [] signedSlave.sl [23, 0, 10, 0, 5, 0, 12, 0, 1, 2, 0, 9] false h).2).1 = .ok [3, 8, 0, 0, 0, 0, 0, 0, 0, 0] ∧
    (handleRequest [] signedSlave.sl [3, 0, 10, 0, 1] false (handleRequest [] signedSlave.sl [22, 0, 10, 0x7f, 0xff, 0, 0] false h).2).1 = .ok [3, 2, 0, 1] ∧
    (handleRequest [] signedSlave.sl [3, 0, 10, 0, 1] false (handleRequest [] signedSlave.sl [6, 0, 10, 0x80, 1] false h).2).1 = .ok [3, 2, 0x80, 1] := by decide +kernel

/-- an instance of the histories: mask writes, too -/
example : ∀ op ∈ [SlaveOp.blocks (.add "A" 3 0 10), .setValues [] "A" 6 (.seq [-1, 300]), .request [] [22, 0, 0, 0, 0, 255, 255] false, .request [] [22, 1] true], op.Sane false := by
  intro op h
  simp only [List.mem_cons, List.not_mem_nil, or_false] at h
  rcases h with rfl | rfl | rfl | rfl
  · trivial
  · intro v hv
    simp only [Values.toList, List.mem_cons, List.not_mem_nil, or_false] at hv
    rcases hv with rfl | rfl <;> decide
  · trivial
  · trivial

end Modbus
