import Verif.Props.SlaveAtomic
import Verif.Props.AnyLayout
/-
# C14 after any history
-/
namespace Modbus
open Spec (word toWord ofWord bytesFor)

/-- the dictionary is the default one and all blocks are well formed; nothing about values -/
structure ShapeInv (s : SlaveSt) : Prop where
  dict : ∃ a b c d, s.heap.dicts s.sl.mem = [(1, a), (2, b), (3, c), (4, d)] ∧ [a, b, c, d].Nodup
  wf : HeapWF s.heap

theorem ShapeInv.formed {s : SlaveSt} (i : ShapeInv s) : ∃ r, Formed s.heap s.sl r := by
  obtain ⟨a, b, c, d, h1, h2⟩ := i.dict
  refine ⟨⟨a, b, c, d⟩, ⟨?_, ?_, ?_, ?_, h2⟩, i.wf _, i.wf _, i.wf _, i.wf _⟩ <;> rw [h1] <;> rfl

theorem shape_step {s : SlaveSt} (i : ShapeInv s) (op : SlaveOp) : ShapeInv (op.run s) := by
  obtain ⟨a, b, c, d, h1, h2⟩ := i.dict
  cases op with
  | blocks op =>
    refine ⟨?_, heapWF_block op s i.wf⟩
    cases op with
    | add name bt start size =>
      show ∃ a b c d, (addBlock name bt start size s).2.heap.dicts (addBlock name bt start size s).2.sl.mem = _ ∧ _
      unfold addBlock
      repeat' split
      all_goals exact ⟨a, b, c, d, h1, h2⟩
    | remove name =>
      show ∃ a b c d, (removeBlock name s).2.heap.dicts (removeBlock name s).2.sl.mem = _ ∧ _
      unfold removeBlock
      split
      all_goals exact ⟨a, b, c, d, h1, h2⟩
    | removeAll =>
      show ∃ a b c d, (removeAllBlocks s).2.heap.dicts (removeAllBlocks s).2.sl.mem = _ ∧ _
      unfold removeAllBlocks
      dsimp only
      rw [h1]
      exact ⟨s.heap.nextList, s.heap.nextList + 1, s.heap.nextList + 2, s.heap.nextList + 3, if_pos rfl, by simp⟩
  | setValues R name x vs =>
    have hd := (C16_set_values_shape R name x vs s.sl s.heap i.wf).2
    exact ⟨⟨a, b, c, d, by show (Modbus.setValues R name x vs s.sl s.heap).2.dicts _ = _; rw [hd]; exact h1, h2⟩, keepsWF_setValues R name x vs s.sl s.heap i.wf⟩
  | request R pdu bc =>
    have hd := (C16_request_shape R s.sl pdu bc s.heap).2
    exact ⟨⟨a, b, c, d, by show (handleRequest R s.sl pdu bc s.heap).2.dicts _ = _; rw [hd]; exact h1, h2⟩, keepsWF_request R s.sl pdu bc s.heap i.wf⟩

/-- what a history of calls and requests makes of a new slave -/
def lifeOf (u : Bool) (ops : List SlaveOp) : SlaveSt := ops.foldl (fun s op => op.run s) (freshSlave u)

/-- every slave of a history is as `C14_atomic_partial` asks -/
theorem formed_history (u : Bool) (ops : List SlaveOp) : ∃ r, Formed (lifeOf u ops).heap (lifeOf u ops).sl r := by
  have h0 : ShapeInv (freshSlave u) := by
    refine ⟨⟨0, 1, 2, 3, rfl, by decide⟩, ?_⟩
    intro ref b hb
    have : (freshSlave u).heap.lists ref = [] := by simp [freshSlave, Slave.new, Heap.allocMemory, Heap.empty]
    rw [this] at hb
    cases hb
  suffices ∀ s, ShapeInv s → ShapeInv (ops.foldl (fun s op => op.run s) s) from (this _ h0).formed
  induction ops with
  | nil => exact fun s h => h
  | cons op ops ih => exact fun s h => ih _ (shape_step h op)

/-- **C14, partial (any history).** After any history of block operations, `set_values` calls with any values and requests of any bytes under any hooks: a request with a complete payload that is
    answered by an error changes nothing.  (Full property: also for a payload shorter than announced; false, see `C14_false`.) -/
theorem C14_history_partial (u : Bool) (ops : List SlaveOp) (R : Registry) (hR : Quiet R) (pdu : Bytes) (bc : Bool) (hc : PayloadComplete pdu)
    (he : IsErrorAnswer (handleRequest R (lifeOf u ops).sl pdu bc (lifeOf u ops).heap).1) :
    (handleRequest R (lifeOf u ops).sl pdu bc (lifeOf u ops).heap).2 = (lifeOf u ops).heap := by
  obtain ⟨r, f⟩ := formed_history u ops
  exact C14_atomic_partial hR f pdu bc hc he

-- an instance: overlapping blocks, a register with a value that cannot be sent, a request for both
example : IsErrorAnswer (handleRequest [] (lifeOf true [.blocks (.add "A" 3 0 10), .blocks (.add "B" 3 100 10), .blocks (.add "C" 3 5 5), .setValues [] "A" 3 (.seq [-1])]).sl [23, 0, 3, 0, 1, 0, 7, 0, 1, 2, 0, 9] false
    (lifeOf true [.blocks (.add "A" 3 0 10), .blocks (.add "B" 3 100 10), .blocks (.add "C" 3 5 5), .setValues [] "A" 3 (.seq [-1])]).heap).1 := by
  have : (handleRequest [] (lifeOf true [.blocks (.add "A" 3 0 10), .blocks (.add "B" 3 100 10), .blocks (.add "C" 3 5 5), .setValues [] "A" 3 (.seq [-1])]).sl [23, 0, 3, 0, 1, 0, 7, 0, 1, 2, 0, 9] false
    (lifeOf true [.blocks (.add "A" 3 0 10), .blocks (.add "B" 3 100 10), .blocks (.add "C" 3 5 5), .setValues [] "A" 3 (.seq [-1])]).heap).1 = .error .structError := by decide +kernel
  rw [this]; trivial

/-! ### The exact effect of a truncated payload -/

section
variable {R : Registry} {h : Heap} {sl : Slave} {r : Refs}

theorem Found.shrink {ref : Nat} {a n m : Int} {b : BlockRef} {off : Int} {blk : Block} (f : Found h ref a n b off blk) (hm : m ≤ n) : Found h ref a m b off blk :=
  ⟨f.list, f.isBlk, f.offEq, f.nonneg, by have := f.le; omega⟩

theorem handleRequest_struct (hR : Quiet R) {fc : UInt8} {rest : Bytes} {bcast : Bool} (hbc : bcast = true → cantBeBroadcasted (fc.toNat : Int) = false)
    {f : Bytes → PyM Heap Bytes} (hf : fnCodeMap R sl fc.toNat = some f) {h' : Heap}
    (he : f (fc :: rest) h = (.error .structError, h')) : handleRequest R sl (fc :: rest) bcast h = (.error .structError, h') := by
  have hs : Modbus.slice (fc :: rest) 0 1 = [fc] := by simp [Modbus.slice]
  have hu : unpackSingle Code.B [fc] = .ok (fc.toNat : Int) := by rw [unpackSingle_ok rfl, unpackOne_B]
  unfold handleRequest
  have hno : ¬ (bcast = true ∧ cantBeBroadcasted (fc.toNat : Int) = true) := by
    rintro ⟨h1, h2⟩; rw [hbc h1] at h2; cases h2
  simp only [hR "modbus.Slave.handle_request", hs, hu, PyM.bind_apply, PyM.lift_apply, PyM.tryExcept_apply, dispatch, hf, if_neg hno, he]
  rfl

/-- **C14 (what a truncated function-16 payload does).** A request to write `q` registers whose payload is shorter than announced raises `struct.error`, alone or as a broadcast, and the
    registers whose two bytes did arrive, these and no others, have been written. -/
theorem C14_truncated_registers (hR : Quiet R) (g : Sound h sl r) (bcast : Bool) (a q : UInt16) (bc : UInt8) (p : Bytes) (hq : 1 ≤ q.toNat ∧ q.toNat ≤ 123)
    (hbc : bc.toNat = 2 * q.toNat) (hp : p.length < 2 * q.toNat) {i : Nat} (hi : addressed (blocksOf h sl 3) a.toNat q.toNat = some i) :
    ∃ h', handleRequest R sl (16 :: (word a ++ word q ++ [bc] ++ p)) bcast h = (.error .structError, h') ∧
      StoredIn h h' sl 3 i a.toNat (Spec.payloadValues sl.unsigned p (p.length / 2)) ∧ Sound h' sl r := by
  rw [(tables g.refs).2.2.1] at hi
  obtain ⟨blk, hg, f, h1, h2⟩ := gbo_addressed g.refs.holding hi
  have hwf := g.block (by simp) h2
  have hl := hwf.len
  have hle := f.le
  have hlen : (16 :: (word a ++ word q ++ [bc] ++ p)).length = 6 + p.length := by simp [word_length]; omega
  have hav : regsAvail (16 :: (word a ++ word q ++ [bc] ++ p)) 6 0 q.toNat = p.length / 2 := by
    unfold regsAvail; rw [hlen]; omega
  have hvs : (List.range (p.length / 2)).map (fun k => regAt (regCode sl) (16 :: (word a ++ word q ++ [bc] ++ p)) 6 (0 + k)) =
      Spec.payloadValues sl.unsigned p (p.length / 2) := by
    unfold Spec.payloadValues
    apply List.map_congr_left
    intro k hk
    have := List.mem_range.mp hk
    rw [Nat.zero_add]
    exact regAt_payload sl (pre := 16 :: (word a ++ word q ++ [bc])) (by omega)
  have f' : Found h r.holding (a.toNat : Int) ((p.length / 2 : Nat) : Int) ⟨r.holding, i⟩ ((a.toNat : Int) - blk.start) blk := f.shrink (by omega)
  have hw := g.setHolding f' (vs := Spec.payloadValues sl.unsigned p (p.length / 2)) (by simp [Spec.payloadValues])
  have e : Modbus.slice (16 :: (word a ++ word q ++ [bc] ++ p)) 1 6 = word a ++ word q ++ [bc] := by simp [Modbus.slice, word]
  refine ⟨_, handleRequest_struct hR (f := writeMultipleRegisters R sl) (fun _ => by decide) rfl ?_, hw.2, hw.1 ?_⟩
  · simp only [writeMultipleRegisters, e, structUnpack_HHB, PyM.bind_apply, PyM.lift_apply, callHook_quiet hR]
    rw [if_neg (by omega)]
    simp only [PyM.bind_apply, hg, Int.toNat_natCast]
    rw [writeRegsLoop_eq hR (regCode_size sl) f.nonneg _ _ _ f.isBlk (by omega), hav, hvs, if_neg (by omega)]
    rfl
  · intro v hv
    simp only [Spec.payloadValues, List.mem_map] at hv
    obtain ⟨k, _, rfl⟩ := hv
    exact ofWord_fits _ _

/-- **C14 (what a truncated function-15 payload does).** The same for coils: the coils of the bytes that arrived have been written. -/
theorem C14_truncated_coils (hR : Quiet R) (g : Sound h sl r) (bcast : Bool) (a q : UInt16) (bc : UInt8) (p : Bytes) (hq : 1 ≤ q.toNat ∧ q.toNat ≤ 1968)
    (hbc : bc.toNat = bytesFor q.toNat) (hp : p.length < bytesFor q.toNat) {i : Nat} (hi : addressed (blocksOf h sl 1) a.toNat q.toNat = some i) :
    ∃ h', handleRequest R sl (15 :: (word a ++ word q ++ [bc] ++ p)) bcast h = (.error .structError, h') ∧
      StoredIn h h' sl 1 i a.toNat (Spec.payloadBits p (8 * p.length)) ∧ Sound h' sl r := by
  rw [(tables g.refs).1] at hi
  obtain ⟨blk, hg, f, h1, h2⟩ := gbo_addressed g.refs.coils hi
  have hwf := g.block (by simp) h2
  have hl := hwf.len
  have hle := f.le
  have hcs : (if sl.unsigned then Code.B else Code.b).size = 1 := by split <;> rfl
  have hbf : bc.toNat = (q.toNat + 7) / 8 := hbc
  have hpf : p.length < (q.toNat + 7) / 8 := hp
  have hloop := writeCoilsOuter_eq hR hcs f.nonneg q.toNat (pdu := 15 :: (word a ++ word q ++ [bc] ++ p)) bc.toNat 0 f.isBlk (by omega)
  rw [← List.range_eq_range', show ((min (8*0) q.toNat : Nat) : Int) = 0 by simp] at hloop
  have hlen : (15 :: (word a ++ word q ++ [bc] ++ p)).length = 6 + p.length := by simp [word_length]; omega
  have hend : coilEnd (15 :: (word a ++ word q ++ [bc] ++ p)) 0 bc.toNat = p.length := by
    unfold coilEnd; rw [hlen]; omega
  have hmin : min (8 * p.length) q.toNat = 8 * p.length := by omega
  have hvs : (List.range (8 * p.length)).map (fun k => coilAt (if sl.unsigned then Code.B else Code.b) (15 :: (word a ++ word q ++ [bc] ++ p)) (8*0 + k)) =
      Spec.payloadBits p (8 * p.length) := by
    unfold Spec.payloadBits
    apply List.map_congr_left
    intro k hk
    have := List.mem_range.mp hk
    rw [Nat.mul_zero, Nat.zero_add]
    exact coilAt_payload sl.unsigned (pre := 15 :: (word a ++ word q ++ [bc])) (by simp [word_length]) (by omega)
  rw [hend, hmin, show min (8*0) q.toNat = 0 by simp, Nat.sub_zero, hvs, Nat.add_zero] at hloop
  have f' : Found h r.coils (a.toNat : Int) ((8 * p.length : Nat) : Int) ⟨r.coils, i⟩ ((a.toNat : Int) - blk.start) blk := f.shrink (by omega)
  have hw := g.setCoils f' (vs := Spec.payloadBits p (8 * p.length)) (by simp [Spec.payloadBits])
  have e : Modbus.slice (15 :: (word a ++ word q ++ [bc] ++ p)) 1 6 = word a ++ word q ++ [bc] := by simp [Modbus.slice, word]
  refine ⟨_, handleRequest_struct hR (f := writeMultipleCoils R sl) (fun _ => by decide) rfl ?_, hw.2, hw.1⟩
  simp only [writeMultipleCoils, e, structUnpack_HHB, PyM.bind_apply, PyM.lift_apply, callHook_quiet hR, byteCount_eq]
  rw [if_neg (by unfold bytesFor; omega)]
  simp only [PyM.bind_apply, hg, Int.toNat_natCast]
  rw [hloop, if_pos (by omega)]

/-- **C14 (what a truncated function-23 payload does).** The range to read is read, the registers that arrived are written, and then the request fails. -/
theorem C14_truncated_read_write (hR : Quiet R) (g : Sound h sl r) (ra rq wa wq : UInt16) (bc : UInt8) (p : Bytes) (hrq : 1 ≤ rq.toNat ∧ rq.toNat ≤ 125)
    (hwq : 1 ≤ wq.toNat ∧ wq.toNat ≤ 123) (hbc : bc.toNat = 2 * wq.toNat) (hp : p.length < 2 * wq.toNat) {i j : Nat}
    (hi : addressed (blocksOf h sl 3) ra.toNat rq.toNat = some i) (hj : addressed (blocksOf h sl 3) wa.toNat wq.toNat = some j) :
    ∃ h', handleRequest R sl (23 :: (word ra ++ word rq ++ word wa ++ word wq ++ [bc] ++ p)) false h = (.error .structError, h') ∧
      StoredIn h h' sl 3 j wa.toNat (Spec.payloadValues sl.unsigned p (p.length / 2)) ∧ Sound h' sl r := by
  rw [(tables g.refs).2.2.1] at hi hj
  obtain ⟨blk, hg, f, h1, h2⟩ := gbo_addressed g.refs.holding hi
  obtain ⟨blk2, hg2, f2, h12, h22⟩ := gbo_addressed g.refs.holding hj
  have hl := (g.block (by simp) h22).len
  have hle := f2.le
  have hlen : (23 :: (word ra ++ word rq ++ word wa ++ word wq ++ [bc] ++ p)).length = 10 + p.length := by simp [word_length]; omega
  have hav : regsAvail (23 :: (word ra ++ word rq ++ word wa ++ word wq ++ [bc] ++ p)) 10 0 wq.toNat = p.length / 2 := by
    unfold regsAvail; rw [hlen]; omega
  have hvs : (List.range (p.length / 2)).map (fun k => regAt (regCode sl) (23 :: (word ra ++ word rq ++ word wa ++ word wq ++ [bc] ++ p)) 10 (0 + k)) =
      Spec.payloadValues sl.unsigned p (p.length / 2) := by
    unfold Spec.payloadValues
    apply List.map_congr_left
    intro k hk
    have := List.mem_range.mp hk
    rw [Nat.zero_add]
    exact regAt_payload sl (pre := 23 :: (word ra ++ word rq ++ word wa ++ word wq ++ [bc])) (by omega)
  have f' : Found h r.holding (wa.toNat : Int) ((p.length / 2 : Nat) : Int) ⟨r.holding, j⟩ ((wa.toNat : Int) - blk2.start) blk2 := f2.shrink (by omega)
  have hw := g.setHolding f' (vs := Spec.payloadValues sl.unsigned p (p.length / 2)) (by simp [Spec.payloadValues])
  have e : Modbus.slice (23 :: (word ra ++ word rq ++ word wa ++ word wq ++ [bc] ++ p)) 1 10 = word ra ++ word rq ++ word wa ++ word wq ++ [bc] := by simp [Modbus.slice, word]
  refine ⟨_, handleRequest_struct hR (f := readWriteMultipleRegisters R sl) (fun hc => by cases hc) rfl ?_, hw.2, hw.1 ?_⟩
  · simp only [readWriteMultipleRegisters, e, structUnpack_HHHHB, PyM.bind_apply, PyM.lift_apply, callHook_quiet hR]
    rw [if_neg (by omega)]
    simp only [PyM.bind_apply, hg, getSlice_eq f.isBlk, (f.slice (g.block (by simp) h2)).1, structPack_single]
    rw [packOne_B (by omega) (by omega)]
    simp only [PyM.lift_apply, packRegsLoop_eq _ (cells_fit g.holdingFits h2 _ _)]
    rw [if_neg (by omega)]
    simp only [PyM.bind_apply, hg2, Int.toNat_natCast]
    rw [writeRegsLoop_eq hR (regCode_size sl) f2.nonneg _ _ _ f2.isBlk (by omega), hav, hvs, if_neg (by omega)]
    rfl
  · intro v hv
    simp only [Spec.payloadValues, List.mem_map] at hv
    obtain ⟨k, _, rfl⟩ := hv
    exact ofWord_fits _ _

end

-- an instance: five registers announced, three bytes sent: the first register is written, the second is not
example : addressed (blocksOf exSlave.heap exSlave.sl 3) ((10 : UInt16).toNat : Int) ((5 : UInt16).toNat : Int) = some 1 ∧
    (∃ h', handleRequest [] exSlave.sl (16 :: (word 10 ++ word 5 ++ [10] ++ [0, 7, 1])) true exSlave.heap = (.error .structError, h') ∧
      ((blocksOf h' exSlave.sl 3).map (fun b => b.data.take 3)) = [[0, 0, 0], [7, 0, 0]]) := by
  refine ⟨by decide +kernel, _, Prod.ext ?_ rfl, ?_⟩
  · decide +kernel
  · decide +kernel

end Modbus
