import Verif.Props.Framing
/-
# C69: memory dictionaries given by the user

`add_slave(id, memory=d)` uses the caller's dictionary as it is: it may lack a table, and slaves given the same dictionary
share its blocks but not the block names.
-/
namespace Modbus
open Spec (word toWord ofWord bytesFor tcpAdu rtuAdu)

/-- the table a request works on (1 coils, 2 discrete inputs, 3 holding registers, 4 analog inputs) -/
def Spec.Req.table : Spec.Req → Option Int
  | .readCoils .. => some 1
  | .readDiscrete .. => some 2
  | .readHolding .. => some 3
  | .readInput .. => some 4
  | .writeCoil .. => some 1
  | .writeRegister .. => some 3
  | .readExceptionStatus => none
  | .writeCoils .. => some 1
  | .writeRegisters .. => some 3
  | .maskWrite .. => some 3
  | .readWrite .. => some 3
  | .other .. => none

/-- the number of cells (for function 23: of cells read) is one the specification allows, and the byte count goes with it -/
def Spec.Req.countLegal : Spec.Req → Prop
  | .readCoils _ q => 1 ≤ q.toNat ∧ q.toNat ≤ 2000
  | .readDiscrete _ q => 1 ≤ q.toNat ∧ q.toNat ≤ 2000
  | .readHolding _ q => 1 ≤ q.toNat ∧ q.toNat ≤ 125
  | .readInput _ q => 1 ≤ q.toNat ∧ q.toNat ≤ 125
  | .writeCoils _ q bc _ => 1 ≤ q.toNat ∧ q.toNat ≤ 1968 ∧ bc.toNat = bytesFor q.toNat
  | .writeRegisters _ q bc _ => 1 ≤ q.toNat ∧ q.toNat ≤ 123 ∧ bc.toNat = 2 * q.toNat
  | .readWrite _ rq _ _ _ _ => 1 ≤ rq.toNat ∧ rq.toNat ≤ 125
  | _ => True

variable {R : Registry} {h : Heap} {sl : Slave}

theorem gbo_missing {bt : Int} (hd : Dict.get? (h.dicts sl.mem) bt = none) (a n : Int) :
    getBlockAndOffset sl bt a n h = (.error .keyError, h) := by
  simp [getBlockAndOffset, memRef, hd]

theorem handleRequest_keyError (hR : Quiet R) {fc : UInt8} {rest : Bytes}
    {f : Bytes → PyM Heap Bytes} (hf : fnCodeMap R sl fc.toNat = some f)
    (href : f (fc :: rest) h = (.error .keyError, h)) :
    handleRequest R sl (fc :: rest) false h = (.error .keyError, h) := by
  have hs : slice (fc :: rest) 0 1 = [fc] := by simp [slice]
  have hu : unpackSingle Code.B [fc] = .ok (fc.toNat : Int) := by rw [unpackSingle_ok rfl, unpackOne_B]
  unfold handleRequest
  simp only [hR "modbus.Slave.handle_request", hs, hu, PyM.bind_apply, PyM.lift_apply, PyM.tryExcept_apply, dispatch, hf,
    Bool.false_eq_true, false_and, if_false, href, PyM.raise_apply]

theorem handleRequest_missing (hR : Quiet R) (req : Spec.Req) (hc : req.countLegal) {bt : Int} (ht : req.table = some bt)
    (hd : Dict.get? (h.dicts sl.mem) bt = none) :
    handleRequest R sl req.encode false h = (.error .keyError, h) := by
  have e5 : ∀ (fc : UInt8) (a q : UInt16), slice (fc :: (word a ++ word q)) 1 5 = word a ++ word q := by
    intro fc a q; simp [slice, word]
  have bits : ∀ (fc : UInt8) (a q : UInt16) (bt : Int), Dict.get? (h.dicts sl.mem) bt = none → 1 ≤ q.toNat ∧ q.toNat ≤ 2000 →
      readDigital sl bt (fc :: (word a ++ word q)) h = (.error .keyError, h) := by
    intro fc a q bt hd hq
    simp only [readDigital, e5, structUnpack_HH, PyM.bind_apply, PyM.lift_apply]
    rw [if_neg (by omega)]
    simp only [PyM.bind_apply, gbo_missing hd]
  have regs : ∀ (fc : UInt8) (a q : UInt16) (bt : Int), Dict.get? (h.dicts sl.mem) bt = none → 1 ≤ q.toNat ∧ q.toNat ≤ 125 →
      readRegisters sl bt (fc :: (word a ++ word q)) h = (.error .keyError, h) := by
    intro fc a q bt hd hq
    simp only [readRegisters, e5, structUnpack_HH, PyM.bind_apply, PyM.lift_apply]
    rw [if_neg (by omega)]
    simp only [PyM.bind_apply, gbo_missing hd]
  cases req with
  | readCoils a q =>
    cases ht
    refine handleRequest_keyError hR (fc := 1) (f := readCoils R sl) rfl ?_
    simp only [readCoils, PyM.bind_apply, callHook_quiet hR]
    exact bits 1 a q _ hd hc
  | readDiscrete a q =>
    cases ht
    refine handleRequest_keyError hR (fc := 2) (f := readDiscreteInputs R sl) rfl ?_
    simp only [readDiscreteInputs, PyM.bind_apply, callHook_quiet hR]
    exact bits 2 a q _ hd hc
  | readHolding a q =>
    cases ht
    refine handleRequest_keyError hR (fc := 3) (f := readHoldingRegisters R sl) rfl ?_
    simp only [readHoldingRegisters, PyM.bind_apply, callHook_quiet hR]
    exact regs 3 a q _ hd hc
  | readInput a q =>
    cases ht
    refine handleRequest_keyError hR (fc := 4) (f := readInputRegisters R sl) rfl ?_
    simp only [readInputRegisters, PyM.bind_apply, callHook_quiet hR]
    exact regs 4 a q _ hd hc
  | writeCoil a v =>
    cases ht
    refine handleRequest_keyError hR (fc := 5) (f := writeSingleCoil R sl) rfl ?_
    simp only [writeSingleCoil, PyM.bind_apply, callHook_quiet hR, e5, structUnpack_HH, PyM.lift_apply,
      gbo_missing (show Dict.get? (h.dicts sl.mem) defines.COILS = none from hd)]
  | writeRegister a v =>
    cases ht
    refine handleRequest_keyError hR (fc := 6) (f := writeSingleRegister R sl) rfl ?_
    simp only [writeSingleRegister, PyM.bind_apply, callHook_quiet hR, e5, structUnpack_HReg, PyM.lift_apply,
      gbo_missing (show Dict.get? (h.dicts sl.mem) defines.HOLDING_REGISTERS = none from hd)]
  | readExceptionStatus => cases ht
  | writeCoils a q bc p =>
    cases ht
    refine handleRequest_keyError hR (fc := 15) (f := writeMultipleCoils R sl) rfl ?_
    have e : slice (15 :: (word a ++ word q ++ [bc] ++ p)) 1 6 = word a ++ word q ++ [bc] := by simp [slice, word]
    obtain ⟨h1, h2, h3⟩ := hc
    simp only [writeMultipleCoils, e, structUnpack_HHB, PyM.bind_apply, PyM.lift_apply, callHook_quiet hR, byteCount_eq]
    rw [if_neg (by omega)]
    simp only [PyM.bind_apply, gbo_missing (show Dict.get? (h.dicts sl.mem) defines.COILS = none from hd)]
  | writeRegisters a q bc p =>
    cases ht
    refine handleRequest_keyError hR (fc := 16) (f := writeMultipleRegisters R sl) rfl ?_
    have e : slice (16 :: (word a ++ word q ++ [bc] ++ p)) 1 6 = word a ++ word q ++ [bc] := by simp [slice, word]
    obtain ⟨h1, h2, h3⟩ := hc
    simp only [writeMultipleRegisters, e, structUnpack_HHB, PyM.bind_apply, PyM.lift_apply, callHook_quiet hR]
    rw [if_neg (by omega)]
    simp only [PyM.bind_apply, gbo_missing (show Dict.get? (h.dicts sl.mem) defines.HOLDING_REGISTERS = none from hd)]
  | maskWrite a am om =>
    cases ht
    refine handleRequest_keyError hR (fc := 22) (f := maskWriteRegister R sl) rfl ?_
    have e : slice (22 :: (word a ++ word am ++ word om)) 1 7 = word a ++ word am ++ word om := by simp [slice, word]
    simp only [maskWriteRegister, PyM.bind_apply, callHook_quiet hR, e, structUnpack_HHH, PyM.lift_apply,
      gbo_missing (show Dict.get? (h.dicts sl.mem) defines.HOLDING_REGISTERS = none from hd)]
  | readWrite ra rq wa wq bc p =>
    cases ht
    refine handleRequest_keyError hR (fc := 23) (f := readWriteMultipleRegisters R sl) rfl ?_
    have e : slice (23 :: (word ra ++ word rq ++ word wa ++ word wq ++ [bc] ++ p)) 1 10
      = word ra ++ word rq ++ word wa ++ word wq ++ [bc] := by simp [slice, word]
    obtain ⟨h1, h2⟩ := hc
    simp only [readWriteMultipleRegisters, e, structUnpack_HHHHB, PyM.bind_apply, PyM.lift_apply, callHook_quiet hR]
    rw [if_neg (by omega)]
    simp only [PyM.bind_apply, gbo_missing (show Dict.get? (h.dicts sl.mem) defines.HOLDING_REGISTERS = none from hd)]
  | other fc rest => cases ht

/-- a request to a registered slave that raises an exception which is neither of the two that are silenced -/
theorem dbHandle_failed {R : Registry} (hR : Quiet R) {mac : Mac} {db : Databank} {request : Bytes} {sid : Int} {fc : UInt8}
    {rest : Bytes} {q : mac.Q}
    (hp : mac.parseRequest request mac.new = (.ok (sid, fc :: rest), q)) (h0 : sid ≠ 0) {sl : Slave}
    (hs : Dict.get? db.slaves sid = some sl) {h h' : Heap} {e : PyErr} (he : e ≠ .invalidRequest ∧ e ≠ .missingKey)
    (hr : handleRequest R sl (fc :: rest) false h = (.error e, h')) (hfc : fc.toNat < 128) :
    dbHandle R mac db request h = (.ok (some [fc + 128, 4]), h') := by
  unfold dbHandle
  rw [hp]
  dsimp only
  rw [PyM.tryExcept_apply, dbBody_some R mac q h0 hs, hr]
  dsimp only
  have hsl : slice (fc :: rest) 0 1 = [fc] := by simp [slice]
  have hu : unpackSingle Code.B [fc] = .ok (fc.toNat : Int) := by rw [unpackSingle_ok rfl, unpackOne_B]
  have hpk := packBB_exc fc 4 hfc
  unfold dbExcept
  split
  · exact absurd rfl he.1
  · exact absurd rfl he.2
  · simp only [PyM.bind_apply, callHook_quiet hR, hsl, hu, PyM.lift_apply, List.length_cons,
      if_pos (show rest.length + 1 > 0 by omega)]
    rw [show ((fc.toNat : Int) + 0x80) = (fc.toNat : Int) + 128 from rfl,
      show (defines.SLAVE_DEVICE_FAILURE : Int) = ((4 : UInt8).toNat : Int) from rfl, hpk]
    rfl

/-- **C69.** TCP: a well-formed request for a table that the slave's memory dictionary does not have changes nothing and is
    answered by the two bytes `fc+128, 04` - not framed as a response, and not the exception "illegal data address" that a
    table without blocks would give. -/
theorem C69_missing_table_tcp (R : Registry) (hR : Quiet R) (db : Databank) (tid pid : UInt16) (unit : UInt8) (h0 : unit ≠ 0)
    (sl : Slave) (hs : Dict.get? db.slaves (unit.toNat : Int) = some sl) (h : Heap) (req : Spec.Req)
    (hl : req.encode.length ≤ 65534) (hc : req.countLegal)
    {bt : Int} (ht : req.table = some bt) (hd : Dict.get? (h.dicts sl.mem) bt = none) :
    dbHandle R tcpMac db (tcpAdu tid pid unit req.encode) h = (.ok (some [req.fc + 128, 4]), h) := by
  have hu : (unit.toNat : Int) ≠ 0 := by
    intro e; apply h0; apply u8_ext; have : (0 : UInt8).toNat = 0 := rfl; omega
  have hr := handleRequest_missing hR (sl := sl) (h := h) req hc ht hd
  obtain ⟨q, hp⟩ : ∃ q, tcpMac.parseRequest (tcpAdu tid pid unit req.encode) tcpMac.new = (.ok ((unit.toNat : Int), req.encode), q) :=
    ⟨_, tcpParseRequest_adu tid pid unit hl _⟩
  cases req with
  | readExceptionStatus => cases ht
  | other fc rest => cases ht
  | _ => exact dbHandle_failed hR hp hu hs (by decide) hr (by decide)

/-- **C69.** RTU: likewise. -/
theorem C69_missing_table_rtu (R : Registry) (hR : Quiet R) (db : Databank) (addr : UInt8) (h0 : addr ≠ 0)
    (sl : Slave) (hs : Dict.get? db.slaves (addr.toNat : Int) = some sl) (h : Heap) (req : Spec.Req) (hc : req.countLegal)
    {bt : Int} (ht : req.table = some bt) (hd : Dict.get? (h.dicts sl.mem) bt = none) :
    dbHandle R rtuMac db (rtuAdu addr req.encode) h = (.ok (some [req.fc + 128, 4]), h) := by
  have hu : (addr.toNat : Int) ≠ 0 := by
    intro e; apply h0; apply u8_ext; have : (0 : UInt8).toNat = 0 := rfl; omega
  have hr := handleRequest_missing hR (sl := sl) (h := h) req hc ht hd
  obtain ⟨q, hp⟩ : ∃ q, rtuMac.parseRequest (rtuAdu addr req.encode) rtuMac.new = (.ok ((addr.toNat : Int), req.encode), q) :=
    ⟨_, rtuParseRequest_adu addr req.encode _⟩
  cases req with
  | readExceptionStatus => cases ht
  | other fc rest => cases ht
  | _ => exact dbHandle_failed hR hp hu hs (by decide) hr (by decide)

/-- **C69.** `add_block` for a table the memory does not have raises InvalidModbusBlockError and changes nothing. -/
theorem C69_add_block (name : String) (bt start size : Int) (s : SlaveSt) (hsz : 0 < size) (hst : 0 ≤ start)
    (hn : Dict.get? s.sl.names name = none) (hd : Dict.get? (s.heap.dicts s.sl.mem) bt = none) :
    addBlock name bt start size s = (.error .invalidModbusBlock, s) := by
  unfold addBlock
  rw [if_neg (by omega), if_neg (by omega), if_neg (by rw [(Dict.has_eq_false_iff _ _).mpr hn]; simp), hd]

/-- the dictionary with new lists has the keys it had -/
theorem fresh_has {d : List (Int × Nat)} {bt : Int} (n m : Nat) (h : Dict.get? d bt ≠ none) :
    ∃ r, Dict.get? (((d.map Prod.fst).zipIdx m).map (fun p => (p.1, n + p.2))) bt = some r := by
  induction d generalizing m with
  | nil => exact absurd rfl h
  | cons x xs ih =>
    obtain ⟨k, v⟩ := x
    simp only [List.map_cons, List.zipIdx_cons, Dict.get?] at h ⊢
    by_cases e : k = bt
    · rw [if_pos e]; exact ⟨_, rfl⟩
    · rw [if_neg e] at h ⊢; exact ih (m + 1) h

/-- **C69.** Names are not shared: if two slaves share a memory dictionary and one of them removes all its blocks, every
    block name the other has registered is left without a block: `get_values`, `set_values` and `remove_block` of it raise
    the plain Exception. -/
theorem C69_dangling (R : Registry) (a b : Slave) (hm : a.mem = b.mem) (h : Heap) (name : String) (bt start : Int)
    (hn : Dict.get? a.names name = some (bt, start)) (ht : Dict.get? (h.dicts a.mem) bt ≠ none) (x n : Int) (vs : Values) :
    let h' := (removeAllBlocks ⟨b, h⟩).2.heap
    getValues name x n a h' = (.error .generic, h') ∧ setValues R name x vs a h' = (.error .generic, h') ∧
    removeBlock name ⟨a, h'⟩ = (.error .generic, ⟨a, h'⟩) := by
  intro h'
  obtain ⟨r, hr⟩ := fresh_has (d := h.dicts b.mem) h.nextList 0 (hm ▸ ht)
  have hb := get?_fresh _ _ _ hr
  have hd : Dict.get? (h'.dicts a.mem) bt = some r := by
    show Dict.get? (if a.mem = b.mem then _ else _) bt = _
    rw [if_pos hm]; exact hr
  have hl : h'.lists r = [] := by
    show (if _ then _ else _) = _
    rw [if_pos (by rw [List.length_map] at hb ⊢; dsimp only; omega)]
  have hg : getBlock a name h' = (.error .generic, h') := by
    unfold getBlock
    rw [hn]; dsimp only; rw [hd]; dsimp only; rw [hl]; rfl
  refine ⟨?_, ?_, ?_⟩
  · unfold getValues; rw [PyM.bind_apply, hg]
  · unfold setValues; rw [PyM.bind_apply, hg]
  · unfold removeBlock; simp only [hg]

/-! ### The hypotheses are met -/

/-- a dictionary with holding registers only, given to slave 1 -/
def exPartial : Heap × Slave :=
  ({ lists := fun _ => [Block.new 0 10], dicts := fun d => if d = 0 then [(3, 0)] else [], nextList := 1, nextDict := 1 },
   ⟨1, true, [("r", (3, 0))], 0⟩)

def exPartialDb : Databank := ⟨[(1, exPartial.2)], true⟩

example : Spec.Req.countLegal (.readCoils 0 8) ∧ (Spec.Req.readCoils 0 8).table = some 1 ∧
    Dict.get? (exPartial.1.dicts exPartial.2.mem) 1 = none := ⟨⟨by decide, by decide⟩, by decide, by decide⟩
example : (dbHandle [] tcpMac exPartialDb [0, 1, 0, 0, 0, 6, 1, 1, 0, 0, 0, 8] exPartial.1).1 = .ok (some [0x81, 4]) := by decide
example : (dbHandle [] tcpMac exPartialDb [0, 1, 0, 0, 0, 6, 1, 3, 0, 0, 0, 1] exPartial.1).1 =
    .ok (some [0, 1, 0, 0, 0, 5, 1, 3, 2, 0, 0]) := by decide
-- another slave on the same memory, without names of its own
example : (getValues "r" 0 1 exPartial.2 exPartial.1).1 = .ok [0] ∧
    (getValues "r" 0 1 exPartial.2 (removeAllBlocks ⟨⟨2, true, [], 0⟩, exPartial.1⟩).2.heap).1 = .error .generic := by decide
end Modbus
