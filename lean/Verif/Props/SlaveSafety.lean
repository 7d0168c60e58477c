import Verif.Props.SlaveMask
/-
# C12–C17: what no request can do to a slave

Most of these hold for *arbitrary* request bytes and arbitrary hooks.
-/
namespace Modbus
open Spec (word toWord ofWord bytesFor)

variable {R : Registry} {sl : Slave} {h : Heap} {r : Refs}

/-! ## C12 -/

theorem quiet_nil : Quiet [] := fun _ _ => rfl

/-- C12: if a slave answers any bytes whatsoever by an exception response (first byte 128 or more), no cell of any
    block has changed — the heap is the very same.  Hooks may be installed and may answer or raise, but not raise
    ModbusError (a hook doing that would make up an exception response of its own). -/
theorem C12_exception_no_write (hR : NoModbusErr R) (sl : Slave) (pdu : Bytes) (bc : Bool) (h h' : Heap) (x : UInt8)
    (rest : Bytes) (he : handleRequest R sl pdu bc h = (.ok (x :: rest), h')) (hx : 128 ≤ x.toNat) : h' = h := by
  cases pdu with
  | nil =>
    have := handleRequest_empty (R := R) (sl := sl) (h := h) bc
    rw [he] at this; exact this
  | cons fc tl =>
    have := (handleRequest_eff (R := R) (sl := sl) (h := h) fc tl bc).exc hR x rest (by rw [he]) hx
    rw [he] at this; exact this

-- non-vacuity: a write request that is refused
example : handleRequest [] exSlave.sl [6, 0, 99, 0, 1] false exSlave.heap = (.ok [0x86, 2], exSlave.heap) := by
  refine Prod.ext ?_ ?_
  · decide
  · exact C12_exception_no_write (Quiet.noModbusErr quiet_nil) _ _ _ _ _ 0x86 [2] (Prod.ext (by decide) rfl) (by decide)

/-! ## C13 -/

/-- the exception response -/
def excResponse (fc code : UInt8) : Bytes := [fc + 128, code]

/-- C13: a function code below 128 that the slave does not implement gets exception 1. -/
theorem C13_unknown_function (hR : Quiet R) (g : Good h sl r) (fc : UInt8) (rest : Bytes) (hlt : fc.toNat < 128)
    (hfc : fc ≠ 1 ∧ fc ≠ 2 ∧ fc ≠ 3 ∧ fc ≠ 4 ∧ fc ≠ 5 ∧ fc ≠ 6 ∧ fc ≠ 7 ∧ fc ≠ 15 ∧ fc ≠ 16 ∧ fc ≠ 22 ∧ fc ≠ 23) :
    handleRequest R sl (fc :: rest) false h = (.ok (excResponse fc 1), h) := by
  obtain ⟨h', h1, h2, h3, h4⟩ := handler_refines hR g (.other fc rest)
    ⟨by unfold Spec.implemented; tauto, hlt⟩ (.inr (by simp))
  have := h4 1 rfl
  subst this
  exact h1

/-- C13: reading bits (functions 1 and 2): quantity outside 1..2000 gets exception 3, then a range that is not in one
    block gets exception 2, everything else a normal response. -/
theorem C13_read_bits (hR : Quiet R) (g : Good h sl r) (fc : UInt8) (hfc : fc = 1 ∨ fc = 2) (a q : UInt16) :
    (¬ (1 ≤ q.toNat ∧ q.toNat ≤ 2000) →
      handleRequest R sl (fc :: (word a ++ word q)) false h = (.ok (excResponse fc 3), h)) ∧
    (1 ≤ q.toNat ∧ q.toNat ≤ 2000 → ¬ InBlock h sl fc.toNat a.toNat q.toNat →
      handleRequest R sl (fc :: (word a ++ word q)) false h = (.ok (excResponse fc 2), h)) ∧
    (1 ≤ q.toNat ∧ q.toNat ≤ 2000 → InBlock h sl fc.toNat a.toNat q.toNat →
      ∃ data, handleRequest R sl (fc :: (word a ++ word q)) false h = (.ok (fc :: data), h)) := by
  rw [read_bits_reply hR g fc hfc]
  refine ⟨fun hq => ?_, fun hq hin => ?_, fun hq hin => ?_⟩
  · rw [readBits_qty hq]; rfl
  · rw [not_inBlock_iff] at hin; rw [readBits_addr hq hin]; rfl
  · rw [inBlock_iff] at hin; rw [readBits_ok hq hin]; exact ⟨_, rfl⟩

/-- C13: reading registers (functions 3 and 4): limit 125. -/
theorem C13_read_registers (hR : Quiet R) (g : Good h sl r) (fc : UInt8) (hfc : fc = 3 ∨ fc = 4) (a q : UInt16) :
    (¬ (1 ≤ q.toNat ∧ q.toNat ≤ 125) →
      handleRequest R sl (fc :: (word a ++ word q)) false h = (.ok (excResponse fc 3), h)) ∧
    (1 ≤ q.toNat ∧ q.toNat ≤ 125 → ¬ InBlock h sl fc.toNat a.toNat q.toNat →
      handleRequest R sl (fc :: (word a ++ word q)) false h = (.ok (excResponse fc 2), h)) ∧
    (1 ≤ q.toNat ∧ q.toNat ≤ 125 → InBlock h sl fc.toNat a.toNat q.toNat →
      ∃ data, handleRequest R sl (fc :: (word a ++ word q)) false h = (.ok (fc :: data), h)) := by
  rw [read_registers_reply hR g fc hfc]
  refine ⟨fun hq => ?_, fun hq hin => ?_, fun hq hin => ?_⟩
  · rw [readRegs_qty hq]; rfl
  · rw [not_inBlock_iff] at hin; rw [readRegs_addr hq hin]; rfl
  · rw [inBlock_iff] at hin; rw [readRegs_ok hq hin]; exact ⟨_, rfl⟩

theorem exec_exc (hR : Quiet R) (g : Good h sl r) {req : Spec.Req} (hwf : req.WF)
    (hm : sl.unsigned = true ∨ ∀ a am om, req ≠ .maskWrite a am om) {c : UInt8} {m : Spec.Mem}
    (he : Spec.exec sl.unsigned (absMem h sl) req = (.exc c, m)) :
    handleRequest R sl req.encode false h = (.ok (excResponse req.fc c), h) := by
  obtain ⟨h', h1, _, _, h4⟩ := handler_refines hR g req hwf hm
  rw [he] at h1 h4
  have := h4 c rfl
  subst this
  exact h1

/-- C13: writing coils (function 15): quantity outside 1..1968 or a byte count that is not ceil(n/8) gets exception 3,
    then a range that is not in one block exception 2 (the normal case is C08). -/
theorem C13_write_coils (hR : Quiet R) (g : Good h sl r) (a q : UInt16) (bc : UInt8) (payload : Bytes)
    (hp : payload.length = bc.toNat) :
    (¬ (1 ≤ q.toNat ∧ q.toNat ≤ 1968 ∧ bc.toNat = (q.toNat + 7) / 8) →
      handleRequest R sl (15 :: (word a ++ word q ++ [bc] ++ payload)) false h = (.ok (excResponse 15 3), h)) ∧
    (1 ≤ q.toNat ∧ q.toNat ≤ 1968 ∧ bc.toNat = (q.toNat + 7) / 8 → ¬ InBlock h sl 1 a.toNat q.toNat →
      handleRequest R sl (15 :: (word a ++ word q ++ [bc] ++ payload)) false h = (.ok (excResponse 15 2), h)) := by
  refine ⟨fun hq => ?_, fun hq hin => ?_⟩
  · exact exec_exc hR g (req := .writeCoils a q bc payload) hp (.inr (by simp)) (exec_writeCoils_qty hq)
  · rw [not_inBlock_iff] at hin
    exact exec_exc hR g (req := .writeCoils a q bc payload) hp (.inr (by simp)) (exec_writeCoils_addr hq hin)

/-- C13: writing registers (function 16): quantity outside 1..123 or a byte count that is not 2n gets exception 3,
    then a range that is not in one block exception 2 (the normal case is C07). -/
theorem C13_write_registers (hR : Quiet R) (g : Good h sl r) (a q : UInt16) (bc : UInt8) (payload : Bytes)
    (hp : payload.length = bc.toNat) :
    (¬ (1 ≤ q.toNat ∧ q.toNat ≤ 123 ∧ bc.toNat = 2 * q.toNat) →
      handleRequest R sl (16 :: (word a ++ word q ++ [bc] ++ payload)) false h = (.ok (excResponse 16 3), h)) ∧
    (1 ≤ q.toNat ∧ q.toNat ≤ 123 ∧ bc.toNat = 2 * q.toNat → ¬ InBlock h sl 3 a.toNat q.toNat →
      handleRequest R sl (16 :: (word a ++ word q ++ [bc] ++ payload)) false h = (.ok (excResponse 16 2), h)) := by
  refine ⟨fun hq => ?_, fun hq hin => ?_⟩
  · exact exec_exc hR g (req := .writeRegisters a q bc payload) hp (.inr (by simp)) (exec_writeRegs_qty hq)
  · rw [not_inBlock_iff] at hin
    exact exec_exc hR g (req := .writeRegisters a q bc payload) hp (.inr (by simp)) (exec_writeRegs_addr hq hin)

/-- C13: the single writes (functions 5 and 6) and the mask write (22) to an unknown address get exception 2, before
    the coil value is looked at. -/
theorem C13_single_writes (hR : Quiet R) (g : Good h sl r) (a v : UInt16) :
    (¬ InBlock h sl 1 a.toNat 1 → handleRequest R sl (5 :: (word a ++ word v)) false h = (.ok (excResponse 5 2), h)) ∧
    (¬ InBlock h sl 3 a.toNat 1 → handleRequest R sl (6 :: (word a ++ word v)) false h = (.ok (excResponse 6 2), h)) := by
  refine ⟨fun hin => ?_, fun hin => ?_⟩
  · rw [not_inBlock_iff] at hin
    exact exec_exc hR g (req := .writeCoil a v) trivial (.inr (by simp)) (exec_writeCoil_addr hin)
  · rw [not_inBlock_iff] at hin
    exact exec_exc hR g (req := .writeRegister a v) trivial (.inr (by simp)) (exec_writeReg_addr hin)

/-- C13: mask write to an unknown address, signed slaves included. -/
theorem C13_mask_write (hR : Quiet R) (g : Good h sl r) (a am om : UInt16) (hin : ¬ InBlock h sl 3 a.toNat 1) :
    handleRequest R sl (22 :: (word a ++ word am ++ word om)) false h = (.ok (excResponse 22 2), h) := by
  rw [not_inBlock_iff] at hin
  have hb3 : blocksOf h sl 3 = h.lists r.holding := by
    simp [blocksOf, show (3 : Int) = defines.HOLDING_REGISTERS from rfl, g.refs.holding]
  rw [hb3] at hin
  have e : slice (22 :: (word a ++ word am ++ word om)) 1 7 = word a ++ word am ++ word om := by
    simp [slice, word]
  have hhdl : maskWriteRegister R sl (22 :: (word a ++ word am ++ word om)) h = (.error (.modbusError 2), h) := by
    simp only [maskWriteRegister, e, structUnpack_HHH, PyM.bind_apply, PyM.lift_apply, callHook_quiet hR,
      gbo_none g.refs.holding hin]
  have hs : slice (22 :: (word a ++ word am ++ word om)) 0 1 = [22] := by simp [slice]
  have hu : unpackSingle Code.B [22] = .ok 22 := by rw [unpackSingle_ok rfl, unpackOne_B]; rfl
  have hfn : fnCodeMap R sl 22 = some (maskWriteRegister R sl) := rfl
  have hp : structPack (be [Code.B, Code.B]) [22 + 128, 2] = .ok (excResponse 22 2) := rfl
  simp only [handleRequest, hR "modbus.Slave.handle_request", hs, hu, PyM.bind_apply, PyM.lift_apply,
    PyM.tryExcept_apply, dispatch, hfn]
  rw [if_neg (by simp)]
  simp only [PyM.bind_apply, hhdl, callHook_quiet hR, PyM.lift_apply, hp]

/-- C13: function 23 checks, in this order: read quantity (3), read address (2), write quantity and byte count (3),
    write address (2); the normal case is C11. -/
theorem C13_read_write (hR : Quiet R) (g : Good h sl r) (ra rq wa wq : UInt16) (bc : UInt8) (payload : Bytes)
    (hp : payload.length = bc.toNat) :
    let answer := handleRequest R sl (23 :: (word ra ++ word rq ++ word wa ++ word wq ++ [bc] ++ payload)) false h
    let rqOk := 1 ≤ rq.toNat ∧ rq.toNat ≤ 125
    let wqOk := 1 ≤ wq.toNat ∧ wq.toNat ≤ 123 ∧ bc.toNat = 2 * wq.toNat
    (¬ rqOk → answer = (.ok (excResponse 23 3), h)) ∧
    (rqOk → ¬ InBlock h sl 3 ra.toNat rq.toNat → answer = (.ok (excResponse 23 2), h)) ∧
    (rqOk → InBlock h sl 3 ra.toNat rq.toNat → ¬ wqOk → answer = (.ok (excResponse 23 3), h)) ∧
    (rqOk → InBlock h sl 3 ra.toNat rq.toNat → wqOk → ¬ InBlock h sl 3 wa.toNat wq.toNat →
      answer = (.ok (excResponse 23 2), h)) := by
  refine ⟨fun h1 => ?_, fun h1 h2 => ?_, fun h1 h2 h3 => ?_, fun h1 h2 h3 h4 => ?_⟩
  · exact exec_exc hR g (req := .readWrite ra rq wa wq bc payload) hp (.inr (by simp)) (exec_rw_rqty h1)
  · rw [not_inBlock_iff] at h2
    exact exec_exc hR g (req := .readWrite ra rq wa wq bc payload) hp (.inr (by simp)) (exec_rw_raddr h1 h2)
  · rw [inBlock_iff] at h2
    exact exec_exc hR g (req := .readWrite ra rq wa wq bc payload) hp (.inr (by simp)) (exec_rw_wqty h1 h2 h3)
  · rw [inBlock_iff] at h2
    rw [not_inBlock_iff] at h4
    exact exec_exc hR g (req := .readWrite ra rq wa wq bc payload) hp (.inr (by simp)) (exec_rw_waddr h1 h2 h3 h4)

/-! ## C16 and C17 -/

/-- the blocks of a list: starting addresses, sizes and numbers of cells, in order -/
theorem shape_def (L : List Block) : shape L = L.map (fun b => (b.start, b.size, b.data.length)) := rfl

/-- C16: whatever bytes a slave is given and whatever hooks do, afterwards every list of blocks has the same blocks at
    the same places with the same numbers of cells, and the memory dictionaries are the same. -/
theorem C16_request_shape (R : Registry) (sl : Slave) (pdu : Bytes) (bc : Bool) (h : Heap) :
    (∀ ref, shape ((handleRequest R sl pdu bc h).2.lists ref) = shape (h.lists ref)) ∧
      (handleRequest R sl pdu bc h).2.dicts = h.dicts := by
  cases pdu with
  | nil => rw [handleRequest_empty]; simp
  | cons fc rest =>
    rcases (handleRequest_eff (R := R) (sl := sl) (h := h) fc rest bc).touch with e | ⟨ref, _, ht⟩
    · rw [e]; simp
    · refine ⟨fun ref' => ?_, ht.dicts⟩
      by_cases hr : ref' = ref
      · subst hr; exact ht.shape
      · rw [ht.other ref' hr]

theorem setSlice_heap {b : BlockRef} {blk : Block} (hb : h.block? b = some blk) {i : Int} {vs : List Int} (h0 : 0 ≤ i)
    (hle : i + vs.length ≤ blk.data.length) :
    (setSlice R b i vs h).2 = h ∨
      (setSlice R b i vs h).2 = h.setBlock b (blk.withData (setMany blk.data i.toNat vs)) := by
  cases hs : setSlice R b i vs h with
  | mk x h' =>
    cases x with
    | ok u => exact .inr (setSlice_ok hb h0 hle hs)
    | error e =>
      refine .inl ?_
      unfold setSlice at hs
      rw [hb] at hs
      simp only at hs
      split at hs
      · simp only [Prod.mk.injEq] at hs; exact hs.2.symm
      · simp at hs

/-- a refused `set_values` changes nothing -/
theorem setValues_refused {R : Registry} {name : String} {a : Int} {vs : Values} {sl : Slave} {h h' : Heap} {e : PyErr}
    (hs : setValues R name a vs sl h = (.error e, h')) : h' = h := by
  simp only [setValues, PyM.bind_apply] at hs
  cases hg : getBlock sl name h with
  | mk y h1 =>
    have h2 := getBlock_snd sl name h
    rw [hg] at h2; simp only at h2; subst h2
    rw [hg] at hs
    cases y with
    | error e => simp at hs; exact hs.2.symm
    | ok b =>
      simp only [PyM.get_apply] at hs
      cases hb : h1.block? b with
      | none => rw [hb] at hs; simp at hs; exact hs.2.symm
      | some blk =>
        rw [hb] at hs
        cases vs with
        | seq vs =>
          simp only at hs
          split at hs
          · simp at hs; exact hs.2.symm
          · unfold setSlice at hs
            rw [hb] at hs
            simp only at hs
            split at hs
            · simp at hs; exact hs.2.symm
            · simp at hs
        | one v =>
          simp only at hs
          split at hs
          · simp at hs; exact hs.2.symm
          · unfold setItem at hs
            rw [hb] at hs
            simp only at hs
            split at hs
            · simp at hs; exact hs.2.symm
            · split at hs
              · simp at hs
              · simp at hs; exact hs.2.symm

/-- C16: `set_values`, accepted or refused, keeps the blocks as well. -/
theorem C16_set_values_shape (R : Registry) (name : String) (a : Int) (vs : Values) (sl : Slave) (h : Heap)
    (hwf : ∀ ref, ∀ b ∈ h.lists ref, b.WF) :
    (∀ ref, shape ((setValues R name a vs sl h).2.lists ref) = shape (h.lists ref)) ∧
      (setValues R name a vs sl h).2.dicts = h.dicts := by
  cases hs : setValues R name a vs sl h with
  | mk x h' =>
    cases x with
    | ok u =>
      obtain ⟨_, _, _, _, _, _, _, _, h1, h2⟩ := C01_set_frame hwf hs
      exact ⟨h1, h2⟩
    | error e =>
      suffices h' = h by subst this; simp
      exact setValues_refused hs

/-- the table a request may change: 1 (coils) for functions 5 and 15, 3 (holding registers) for 6, 16, 22 and 23 -/
def writtenTable (fc : UInt8) : Option Int :=
  if fc = 5 ∨ fc = 15 then some 1
  else if fc = 6 ∨ fc = 16 ∨ fc = 22 ∨ fc = 23 then some 3
  else none

/-- C17 (no function but the six writing ones changes anything). -/
theorem C17_read_only (R : Registry) (sl : Slave) (fc : UInt8) (rest : Bytes) (bc : Bool) (h : Heap)
    (hfc : writtenTable fc = none) : (handleRequest R sl (fc :: rest) bc h).2 = h := by
  have hne : fc ≠ 5 ∧ fc ≠ 15 ∧ fc ≠ 6 ∧ fc ≠ 16 ∧ fc ≠ 22 ∧ fc ≠ 23 := by
    unfold writtenTable at hfc
    split at hfc
    · simp at hfc
    · split at hfc
      · simp at hfc
      · tauto
  by_cases hread : fc = 1 ∨ fc = 2 ∨ fc = 3 ∨ fc = 4
  · exact read_heap fc hread rest R sl h bc
  · unfold handleRequest
    cases callHooks R "modbus.Slave.handle_request" (.msg (fc :: rest)) with
    | error e => cases e <;> rfl
    | ok v =>
      cases v with
      | some v => rfl
      | none =>
        have e1 : slice (fc :: rest) 0 1 = [fc] := by simp [slice]
        have hu : unpackSingle Code.B [fc] = .ok (fc.toNat : Int) := by rw [unpackSingle_ok rfl, unpackOne_B]
        simp only [e1, hu, PyM.bind_apply, PyM.lift_apply, PyM.tryExcept_apply]
        have hd : (dispatch R sl fc.toNat (fc :: rest) bc h).2 = h := by
          unfold dispatch
          cases hf : fnCodeMap R sl fc.toNat with
          | none => rfl
          | some f =>
            have hfs : (f (fc :: rest) h).2 = h := by
              have key : ∀ n : UInt8, fc ≠ n → ¬ ((fc.toNat : Int) = (n.toNat : Int)) := by
                intro n hn h; exact hn (u8_ext (by omega))
              simp only [not_or] at hread
              simp only [fnCodeMap] at hf
              rw [if_neg (show ¬ ((fc.toNat : Int) = defines.READ_COILS) from key 1 hread.1),
                if_neg (show ¬ ((fc.toNat : Int) = defines.READ_DISCRETE_INPUTS) from key 2 hread.2.1),
                if_neg (show ¬ ((fc.toNat : Int) = defines.READ_INPUT_REGISTERS) from key 4 hread.2.2.2),
                if_neg (show ¬ ((fc.toNat : Int) = defines.READ_HOLDING_REGISTERS) from key 3 hread.2.2.1)] at hf
              split at hf
              · simp only [Option.some.injEq] at hf; subst hf
                exact snd_bind (callHook_snd ..) fun _ => rfl
              · rw [if_neg (show ¬ ((fc.toNat : Int) = defines.WRITE_SINGLE_COIL) from key 5 hne.1),
                  if_neg (show ¬ ((fc.toNat : Int) = defines.WRITE_SINGLE_REGISTER) from key 6 hne.2.2.1),
                  if_neg (show ¬ ((fc.toNat : Int) = defines.WRITE_MULTIPLE_COILS) from key 15 hne.2.1),
                  if_neg (show ¬ ((fc.toNat : Int) = defines.WRITE_MULTIPLE_REGISTERS) from key 16 hne.2.2.2.1),
                  if_neg (show ¬ ((fc.toNat : Int) = defines.MASK_WRITE_REGISTER) from key 22 hne.2.2.2.2.1),
                  if_neg (show ¬ ((fc.toNat : Int) = defines.READ_WRITE_MULTIPLE_REGISTERS) from key 23 hne.2.2.2.2.2)] at hf
                cases hf
            simp only
            split
            · rfl
            · refine snd_bind hfs fun d => ?_
              split
              · split
                · exact snd_bind (callHook_snd ..) fun _ => rfl
                · exact snd_bind rfl fun _ => rfl
              · rfl
        cases hdd : dispatch R sl fc.toNat (fc :: rest) bc h with
        | mk x h2 =>
          rw [hdd] at hd; simp only at hd; subst hd
          cases x with
          | ok d => rfl
          | error e =>
            cases e with
            | modbusError c => exact snd_bind (callHook_snd ..) fun _ => rfl
            | _ => rfl

theorem storeTable_eq {fc : UInt8} {t : Int} (h : writtenTable fc = some t) : storeTable fc.toNat = t := by
  unfold writtenTable at h
  split at h
  · rename_i e
    simp only [Option.some.injEq] at h; subst h
    rcases e with rfl | rfl <;> rfl
  · split at h
    · rename_i e
      simp only [Option.some.injEq] at h; subst h
      rcases e with rfl | rfl | rfl | rfl <;> rfl
    · cases h

/-- C17: whatever the bytes and the hooks, a request changes at most the blocks of its own table: the coils for
    functions 5 and 15, the holding registers for 6, 16, 22 and 23, nothing for any other function. -/
theorem C17_tables_independent (hr : HasRefs h sl r) (R : Registry) (fc : UInt8) (rest : Bytes) (bc : Bool) (t : Int)
    (ht : t ∈ [(1 : Int), 2, 3, 4]) (hne : writtenTable fc ≠ some t) :
    blocksOf (handleRequest R sl (fc :: rest) bc h).2 sl t = blocksOf h sl t := by
  cases hw : writtenTable fc with
  | none => rw [C17_read_only R sl fc rest bc h hw]
  | some w =>
    rw [hw] at hne
    have hwt : w ≠ t := fun e => hne (by rw [e])
    rcases (handleRequest_eff (R := R) (sl := sl) (h := h) fc rest bc).touch with e | ⟨ref, hd, htc⟩
    · rw [e]
    · rw [storeTable_eq hw] at hd
      simp only [blocksOf, htc.dicts]
      have hdis := hr.distinct
      simp only [List.nodup_cons, List.mem_cons, List.not_mem_nil, or_false, not_or, List.nodup_nil, and_true] at hdis
      have hinj : ∀ ref', Dict.get? (h.dicts sl.mem) t = some ref' → ref' ≠ ref := by
        intro ref' ht' he
        subst he
        have c1 := hr.coils; have c2 := hr.discrete; have c3 := hr.holding; have c4 := hr.input
        simp only [defines.COILS, defines.DISCRETE_INPUTS, defines.HOLDING_REGISTERS, defines.ANALOG_INPUTS] at c1 c2 c3 c4
        have hw' : w = 1 ∨ w = 3 := by
          unfold writtenTable at hw
          split at hw
          · simp at hw; exact .inl hw.symm
          · split at hw
            · simp at hw; exact .inr hw.symm
            · cases hw
        simp only [List.mem_cons, List.not_mem_nil, or_false] at ht
        rcases hw' with rfl | rfl <;> rcases ht with rfl | rfl | rfl | rfl <;> simp_all
      cases hg : Dict.get? (h.dicts sl.mem) t with
      | none => rfl
      | some ref' => simp only; rw [htc.other ref' (hinj ref' hg)]

/-- C17: discrete inputs and input registers are changed by no request at all. -/
theorem C17_inputs_constant (hr : HasRefs h sl r) (R : Registry) (pdu : Bytes) (bc : Bool) :
    blocksOf (handleRequest R sl pdu bc h).2 sl 2 = blocksOf h sl 2 ∧
    blocksOf (handleRequest R sl pdu bc h).2 sl 4 = blocksOf h sl 4 := by
  cases pdu with
  | nil => rw [handleRequest_empty]; simp
  | cons fc rest =>
    have : writtenTable fc ≠ some 2 ∧ writtenTable fc ≠ some 4 := by
      unfold writtenTable; split
      · simp
      · split <;> simp
    exact ⟨C17_tables_independent hr R fc rest bc 2 (by simp) this.1,
      C17_tables_independent hr R fc rest bc 4 (by simp) this.2⟩

/-! ## C15 -/

theorem regVal_fits {v : Int} (hv : RegVal (regCode sl) v) : Spec.fits sl.unsigned v := by
  obtain ⟨a, b, rfl⟩ := hv
  rw [unpackReg]; exact ofWord_fits _ _

theorem listWF_of_shape {L L' : List Block} (hs : shape L' = shape L) (hw : ListWF L) : ListWF L' := by
  have hreg : ∀ (k : Nat) (b' : Block), L'[k]? = some b' → ∃ b : Block, L[k]? = some b ∧ b.start = b'.start ∧ b.size = b'.size ∧
      b.data.length = b'.data.length := by
    intro k b' hb'
    have := congrArg (fun x => x[k]?) hs
    simp only [shape, List.getElem?_map, hb', Option.map_some] at this
    cases hL : L[k]? with
    | none => rw [hL] at this; simp at this
    | some b =>
      rw [hL] at this
      simp only [Option.map_some, Option.some.injEq, Prod.mk.injEq] at this
      exact ⟨b, rfl, this.1.symm, this.2.1.symm, this.2.2.symm⟩
  refine ⟨?_, ?_⟩
  · intro b' hb'
    obtain ⟨k, hk⟩ := List.mem_iff_getElem?.mp hb'
    obtain ⟨b, hb, h1, h2, h3⟩ := hreg k b' hk
    have := hw.blocks b (List.mem_of_getElem? hb)
    exact ⟨by rw [← h2, this.len, h3], by rw [← h2]; exact this.pos⟩
  · have hd := hw.disjoint
    unfold DisjointBlocks at *
    rw [List.pairwise_iff_getElem] at *
    intro i j hi hj hij a hc
    obtain ⟨b, hb, h1, h2, _⟩ := hreg i L'[i] (List.getElem?_eq_getElem hi)
    obtain ⟨c, hcc, h3, h4, _⟩ := hreg j L'[j] (List.getElem?_eq_getElem hj)
    obtain ⟨hi', rfl⟩ := List.getElem?_eq_some_iff.mp hb
    obtain ⟨hj', rfl⟩ := List.getElem?_eq_some_iff.mp hcc
    apply hd i j hi' hj' hij a
    unfold Block.contains at *
    rw [h1, h2, h3, h4]; exact hc

/-- any request keeps a slave in good order, except mask writes to signed slaves; arbitrary bytes and hooks -/
theorem good_request (g : Good h sl r) (R : Registry) (fc : UInt8) (rest : Bytes) (bc : Bool)
    (hm : sl.unsigned = true ∨ fc ≠ 22) : Good (handleRequest R sl (fc :: rest) bc h).2 sl r := by
  rcases (handleRequest_eff (R := R) (sl := sl) (h := h) fc rest bc).touch with e | ⟨ref, hd, ht⟩
  · rw [e]; exact g
  · have hshape : ∀ ref', shape ((handleRequest R sl (fc :: rest) bc h).2.lists ref') = shape (h.lists ref') :=
      (C16_request_shape R sl (fc :: rest) bc h).1
    have hdis := g.refs.distinct
    simp only [List.nodup_cons, List.mem_cons, List.not_mem_nil, or_false, not_or, List.nodup_nil, and_true] at hdis
    have hst : storeTable fc.toNat = 1 ∨ storeTable fc.toNat = 3 := by
      unfold storeTable; split
      · exact .inl rfl
      · exact .inr rfl
    refine ⟨⟨?_, ?_, ?_, ?_, g.refs.distinct⟩, ?_, ?_, ?_, ?_, ?_, ?_⟩
    · rw [ht.dicts]; exact g.refs.coils
    · rw [ht.dicts]; exact g.refs.discrete
    · rw [ht.dicts]; exact g.refs.holding
    · rw [ht.dicts]; exact g.refs.input
    · exact listWF_of_shape (hshape _) g.coils
    · exact listWF_of_shape (hshape _) g.discrete
    · exact listWF_of_shape (hshape _) g.holding
    · exact listWF_of_shape (hshape _) g.input
    · rcases hst with hst | hst
      · rw [hst, show (1 : Int) = defines.COILS from rfl, g.refs.coils] at hd
        simp only [Option.some.injEq] at hd
        rw [ht.other _ (by omega)]; exact g.holdingFits
      · rw [hst, show (3 : Int) = defines.HOLDING_REGISTERS from rfl, g.refs.holding] at hd
        simp only [Option.some.injEq] at hd
        subst hd
        intro b hb v hv
        rcases ht.values b hb v hv with ⟨b0, hb0, hv0⟩ | hV
        · exact g.holdingFits b0 hb0 v hv0
        · unfold StoreVal at hV
          split at hV
          · rename_i e22
            have : fc = 22 := u8_ext (by
              have : (fc.toNat : Int) = 22 := e22
              show fc.toNat = 22; omega)
            have hu : sl.unsigned = true := by rcases hm with h | h; exact h; exact absurd this h
            unfold Spec.fits; rw [hu]; exact hV
          · split at hV
            · rename_i e
              unfold storeTable at hst
              rw [if_pos e] at hst
              exact absurd hst (by decide)
            · exact regVal_fits hV
    · rcases hst with hst | hst
      · rw [hst, show (1 : Int) = defines.COILS from rfl, g.refs.coils] at hd
        simp only [Option.some.injEq] at hd
        rw [ht.other _ (by omega)]; exact g.inputFits
      · rw [hst, show (3 : Int) = defines.HOLDING_REGISTERS from rfl, g.refs.holding] at hd
        simp only [Option.some.injEq] at hd
        rw [ht.other _ (by omega)]; exact g.inputFits

/-- the heap after a history of requests (any bytes, broadcast or not, each under its own hooks) -/
def requests (sl : Slave) (h : Heap) : List (Registry × Bytes × Bool) → Heap
  | [] => h
  | (R, pdu, bc) :: rs => requests sl (handleRequest R sl pdu bc h).2 rs

/-- C15 for unsigned slaves: after any history of requests — arbitrary bytes, broadcasts, arbitrary hooks — every
    register is still in the range 0..65535 and the tables are in order. -/
theorem C15_unsigned (g : Good h sl r) (hu : sl.unsigned = true) (rs : List (Registry × Bytes × Bool)) :
    Good (requests sl h rs) sl r := by
  induction rs generalizing h with
  | nil => exact g
  | cons x rs ih =>
    obtain ⟨R, pdu, bc⟩ := x
    refine ih ?_
    cases pdu with
    | nil => rw [handleRequest_empty]; exact g
    | cons fc rest => exact good_request g R fc rest bc (.inl hu)

/-- C15 for signed slaves, partial: the same for histories without function 22.
    (Full property: with function 22 as well; false, see `C10_false`.) -/
theorem C15_signed_partial (g : Good h sl r) (rs : List (Registry × Bytes × Bool))
    (hn : ∀ x ∈ rs, x.2.1.head? ≠ some 22) : Good (requests sl h rs) sl r := by
  induction rs generalizing h with
  | nil => exact g
  | cons x rs ih =>
    obtain ⟨R, pdu, bc⟩ := x
    refine ih ?_ (fun y hy => hn y (by simp [hy]))
    cases pdu with
    | nil => rw [handleRequest_empty]; exact g
    | cons fc rest =>
      refine good_request g R fc rest bc (.inr ?_)
      have := hn (R, fc :: rest, bc) (by simp)
      simpa using this

/-- C15 (readability): after any such history, reading 1..125 existing registers gets a normal response. -/
theorem C15_readable (g : Good h sl r) (hu : sl.unsigned = true) (rs : List (Registry × Bytes × Bool)) (hR : Quiet R)
    (fc : UInt8) (hfc : fc = 3 ∨ fc = 4) (a q : UInt16) (hq : 1 ≤ q.toNat ∧ q.toNat ≤ 125)
    (hin : InBlock (requests sl h rs) sl fc.toNat a.toNat q.toNat) :
    ∃ data, handleRequest R sl (fc :: (word a ++ word q)) false (requests sl h rs)
      = (.ok (fc :: data), requests sl h rs) :=
  (C13_read_registers hR (C15_unsigned g hu rs) fc hfc a q).2.2 hq hin

/-- C15 (readability) for signed slaves, partial: after any history without function 22, reading 1..125 existing registers gets a normal response. -/
theorem C15_signed_readable_partial (g : Good h sl r) (rs : List (Registry × Bytes × Bool)) (hn : ∀ x ∈ rs, x.2.1.head? ≠ some 22) (hR : Quiet R)
    (fc : UInt8) (hfc : fc = 3 ∨ fc = 4) (a q : UInt16) (hq : 1 ≤ q.toNat ∧ q.toNat ≤ 125)
    (hin : InBlock (requests sl h rs) sl fc.toNat a.toNat q.toNat) :
    ∃ data, handleRequest R sl (fc :: (word a ++ word q)) false (requests sl h rs)
      = (.ok (fc :: data), requests sl h rs) :=
  (C13_read_registers hR (C15_signed_partial g rs hn) fc hfc a q).2.2 hq hin

/-! ## Non-vacuity -/

theorem exSlave_good : Good exSlave.heap exSlave.sl ⟨0, 1, 2, 3⟩ := by
  have hall : ∀ ref, ref ∈ [0, 1, 2, 3] → ListWF (exSlave.heap.lists ref) := by
    intro ref href
    simp only [List.mem_cons, List.not_mem_nil, or_false] at href
    rcases href with rfl | rfl | rfl | rfl
    · have e : exSlave.heap.lists 0 = [Block.new 0 10] := by decide
      rw [e]; exact ⟨by simp; exact block_new_wf (by decide), by simp [DisjointBlocks]⟩
    · have e : exSlave.heap.lists 1 = [] := by decide
      rw [e]; exact listWF_nil
    · have e : exSlave.heap.lists 2 = [Block.new 20 3, Block.new 10 5] := by decide
      rw [e]
      refine ⟨?_, ?_⟩
      · simp only [List.mem_cons, List.not_mem_nil, or_false, forall_eq_or_imp, forall_eq]
        exact ⟨block_new_wf (by decide), block_new_wf (by decide)⟩
      · simp only [DisjointBlocks, List.pairwise_cons, List.mem_cons, List.not_mem_nil, or_false, forall_eq,
          List.Pairwise.nil, and_true, IsEmpty.forall_iff, implies_true]
        intro a h; simp [Block.contains, Block.new] at h; omega
    · have e : exSlave.heap.lists 3 = [] := by decide
      rw [e]; exact listWF_nil
  refine ⟨⟨by decide, by decide, by decide, by decide, by decide⟩, hall 0 (by simp), hall 1 (by simp), hall 2 (by simp),
    hall 3 (by simp), ?_, ?_⟩
  · intro b hb v hv
    have e : exSlave.heap.lists 2 = [Block.new 20 3, Block.new 10 5] := by decide
    simp only [e, List.mem_cons, List.not_mem_nil, or_false] at hb
    rcases hb with rfl | rfl <;> simp [Block.new] at hv <;> subst hv <;> decide
  · intro b hb v hv
    have e : exSlave.heap.lists 3 = [] := by decide
    simp only [e] at hb; cases hb

-- the hypotheses of C05, C07, C08, C10 and C11 are met by the example slave
example : InBlock exSlave.heap exSlave.sl 3 10 5 := ⟨Block.new 10 5, by decide, by decide, by decide⟩
example : InBlock exSlave.heap exSlave.sl 1 0 10 := ⟨Block.new 0 10, by decide, by decide, by decide⟩
example : ∃ h', handleRequest [] exSlave.sl (16 :: (word 11 ++ word 2 ++ [4] ++ [0, 7, 1, 0])) false exSlave.heap
      = (.ok (16 :: (word 11 ++ word 2)), h') ∧
    (∀ k, k < 2 → value h' exSlave.sl 3 (11 + (k : Nat)) = ofWord true (Spec.wordAt [0, 7, 1, 0] k)) ∧
    OnlyChanged exSlave.heap h' exSlave.sl 3 11 2 ∧ Good h' exSlave.sl ⟨0, 1, 2, 3⟩ :=
  C07_write_registers quiet_nil exSlave_good 11 2 4 [0, 7, 1, 0] (by decide) (by decide) (by decide)
    ⟨Block.new 10 5, by decide, by decide, by decide⟩
example : (handleRequest [] exSlave.sl [15, 0, 3, 0, 3, 1, 5] false exSlave.heap).1 = .ok [15, 0, 3, 0, 3] := by decide
example : (handleRequest [] exSlave.sl [1, 0, 0, 0, 10] false
    (handleRequest [] exSlave.sl [15, 0, 3, 0, 3, 1, 5] false exSlave.heap).2).1 = .ok [1, 2, 0x28, 0] := by decide
example : (handleRequest [] exSlave.sl [99, 1, 2] false exSlave.heap).1 = .ok (excResponse 99 1) := by decide

end Modbus
