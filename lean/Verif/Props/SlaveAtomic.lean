import Verif.Props.SlaveSafety
/-
# C14: atomicity of requests

An error answer is an exception response (first byte 128 or more) or an exception raised by `handle_request` (the
databank turns that one into its two byte error reply).
-/
namespace Modbus
open Spec (word toWord ofWord bytesFor)

variable {R : Registry} {sl : Slave} {h : Heap} {r : Refs}

/-- A slave whose tables are four distinct lists of well-formed blocks, overlapping or not, with any values. -/
structure Formed (h : Heap) (sl : Slave) (r : Refs) : Prop where
  refs : HasRefs h sl r
  coils : ∀ b ∈ h.lists r.coils, b.WF
  discrete : ∀ b ∈ h.lists r.discrete, b.WF
  holding : ∀ b ∈ h.lists r.holding, b.WF
  input : ∀ b ∈ h.lists r.input, b.WF

theorem GoodShape.formed (g : GoodShape h sl r) : Formed h sl r := ⟨g.refs, g.coils.blocks, g.discrete.blocks, g.holding.blocks, g.input.blocks⟩

theorem Found.lenEq' {ref : Nat} {a n : Int} {b : BlockRef} {off : Int} {blk : Block} (f : Found h ref a n b off blk) (hw : ∀ b ∈ h.lists ref, b.WF) : off + n ≤ blk.data.length := by
  have := (hw blk f.mem).len; have := f.le; omega

/-- The pdu contains all the payload bytes its byte count announces (functions 15, 16 and 23 only have one). -/
def PayloadComplete (pdu : Bytes) : Prop :=
  (pdu.getD 0 0 = 15 ∨ pdu.getD 0 0 = 16 → 6 ≤ pdu.length → 6 + (pdu.getD 5 0).toNat ≤ pdu.length) ∧
  (pdu.getD 0 0 = 23 → 10 ≤ pdu.length → 10 + (pdu.getD 9 0).toNat ≤ pdu.length)

/-- the answer reports a failure -/
def IsErrorAnswer (x : Except PyErr Bytes) : Prop :=
  match x with
  | .error _ => True
  | .ok (b :: _) => 128 ≤ b.toNat
  | .ok [] => False

/-- a handler that fails without touching anything or succeeds with a non-empty answer -/
def Atomic (h : Heap) (res : Except PyErr Bytes × Heap) : Prop :=
  (∃ e, res = (.error e, h)) ∨ ∃ d h', res = (.ok d, h') ∧ d ≠ []

theorem Atomic.error (e : PyErr) : Atomic h (.error e, h) := .inl ⟨e, rfl⟩

theorem Atomic.bind {α : Type} {m : PyM Heap α} {f : α → PyM Heap Bytes} (hm : (m h).2 = h)
    (hf : ∀ a, m h = (.ok a, h) → Atomic h (f a h)) : Atomic h ((m >>= f) h) := by
  rw [PyM.bind_apply]
  cases hmh : m h with
  | mk x h2 =>
    rw [hmh] at hm
    simp only at hm
    subst hm
    cases x with
    | error e => exact .error _
    | ok a => exact hf a hmh

theorem gbo_found {bt : Int} {ref : Nat} (hd : Dict.get? (h.dicts sl.mem) bt = some ref) {a n : Int} {p : BlockRef × Int}
    (he : getBlockAndOffset sl bt a n h = (.ok p, h)) : ∃ blk, Found h ref a n p.1 p.2 blk := by
  cases hc : (absTable (h.lists ref)).covers a n with
  | false => rw [gbo_none hd hc] at he; simp at he
  | true =>
    obtain ⟨b, off, blk, h1, h2⟩ := gbo_some hd hc
    rw [h1] at he
    simp only [Prod.mk.injEq, Except.ok.injEq, and_true] at he
    subst he
    exact ⟨blk, h2⟩

/-- a successful `struct.unpack` of a slice tells how long the pdu is -/
theorem unpack_slice {f : Fmt} {pdu : Bytes} {i n : Nat} {vals : List Int} (hn : calcsize f = n) (h0 : 0 < n)
    (he : structUnpack f (slice pdu i (i + n)) = .ok vals) :
    i + n ≤ pdu.length ∧ vals = unpackCodes f.big f.codes (slice pdu i (i + n)) := by
  unfold structUnpack at he
  split at he
  · rename_i hlen
    rw [slice_length] at hlen
    simp only [Except.ok.injEq] at he
    exact ⟨by omega, he.symm⟩
  · cases he

theorem readExceptionStatus_atomic (pdu : Bytes) : Atomic h (readExceptionStatus R sl pdu h) :=
  .bind (callHook_snd ..) fun _ _ => .inr ⟨[0], h, rfl, by simp⟩

theorem ok_or_error {α : Type} (x : Except PyErr α × Heap) (hx : x.2 = h) :
    (∃ e, x = (.error e, h)) ∨ ∃ a, x = (.ok a, h) := by
  obtain ⟨x, h2⟩ := x
  simp only at hx; subst hx
  cases x with
  | error e => exact .inl ⟨e, rfl⟩
  | ok a => exact .inr ⟨a, rfl⟩

theorem write_one_atomic (hR : Quiet R) {ref : Nat} (hwf : ∀ b ∈ h.lists ref, b.WF)
    {bt : Int} (hd : Dict.get? (h.dicts sl.mem) bt = some ref) {a v : Int} {p : BlockRef × Int}
    (he : getBlockAndOffset sl bt a 1 h = (.ok p, h)) : ∃ h', setItem R p.1 p.2 v h = (.ok (), h') := by
  obtain ⟨blk, f⟩ := gbo_found hd he
  have := f.lenEq' hwf
  have := f.nonneg
  exact ⟨_, setItem_quiet hR f.isBlk (by omega) (by omega) v⟩

theorem drop_ne_nil {pdu : Bytes} {n : Nat} (h : n < pdu.length) : pdu.drop n ≠ [] := by
  intro e
  have := congrArg List.length e
  simp at this; omega

theorem writeSingleRegister_atomic (hR : Quiet R) (g : Formed h sl r) (pdu : Bytes) :
    Atomic h (writeSingleRegister R sl pdu h) := by
  refine .bind (callHook_snd ..) fun _ _ => .bind rfl fun vals hv => ?_
  simp only [PyM.lift_apply, Prod.mk.injEq, and_true] at hv
  obtain ⟨hlen, _⟩ := unpack_slice (i := 1) (n := 4) (by simp [calcsize, be, regCode_size]) (by omega) hv
  split
  · refine .bind (gbo_snd ..) fun p hp => ?_
    obtain ⟨h', hs⟩ := write_one_atomic hR g.holding g.refs.holding hp
    obtain ⟨b, off⟩ := p
    dsimp only
    rw [PyM.bind_apply]
    dsimp only at hs
    rw [hs]
    exact .inr ⟨_, _, rfl, drop_ne_nil (by omega)⟩
  · exact .error _

theorem writeSingleCoil_atomic (hR : Quiet R) (g : Formed h sl r) (pdu : Bytes) :
    Atomic h (writeSingleCoil R sl pdu h) := by
  refine .bind (callHook_snd ..) fun _ _ => .bind rfl fun vals hv => ?_
  simp only [PyM.lift_apply, Prod.mk.injEq, and_true] at hv
  obtain ⟨hlen, _⟩ := unpack_slice (i := 1) (n := 4) (by simp [calcsize, be]) (by omega) hv
  split
  · refine .bind (gbo_snd ..) fun p hp => ?_
    have hs := fun v => write_one_atomic (v := v) hR g.coils g.refs.coils hp
    obtain ⟨b, off⟩ := p
    dsimp only at hs ⊢
    split
    · obtain ⟨h', hs⟩ := hs 0
      rw [PyM.bind_apply, hs]
      exact .inr ⟨_, _, rfl, drop_ne_nil (by omega)⟩
    · split
      · obtain ⟨h', hs⟩ := hs 1
        rw [PyM.bind_apply, hs]
        exact .inr ⟨_, _, rfl, drop_ne_nil (by omega)⟩
      · exact .error _
  · exact .error _

theorem maskWriteRegister_atomic (hR : Quiet R) (g : Formed h sl r) (pdu : Bytes) :
    Atomic h (maskWriteRegister R sl pdu h) := by
  refine .bind (callHook_snd ..) fun _ _ => .bind rfl fun vals hv => ?_
  simp only [PyM.lift_apply, Prod.mk.injEq, and_true] at hv
  obtain ⟨hlen, _⟩ := unpack_slice (i := 1) (n := 6) (by simp [calcsize, be]) (by omega) hv
  split
  · rename_i a am om _
    refine .bind (gbo_snd ..) fun p hp => .bind (getItem_snd ..) fun cur _ => ?_
    obtain ⟨h', hs⟩ := write_one_atomic (v := pyOr (pyAnd cur am) (pyAnd om (pyNot am))) hR g.holding
      g.refs.holding hp
    obtain ⟨b, off⟩ := p
    dsimp only at hs ⊢
    rw [PyM.bind_apply, hs]
    exact .inr ⟨_, _, rfl, drop_ne_nil (by omega)⟩
  · exact .error _

theorem packH_ok {v : Int} (h0 : 0 ≤ v) (h1 : v < 65536) : packOne true Code.H v = .ok (natBE 2 v.toNat) := by
  unfold packOne
  have hlo : Code.H.lo = 0 := rfl
  have hhi : Code.H.hi = 65536 := rfl
  have hm : (Code.H.modulus : Int) = 65536 := rfl
  rw [if_pos ⟨by omega, by omega⟩, hm, Int.emod_eq_of_lt h0 h1]
  rfl

theorem packHH_ok {a b : Int} (a0 : 0 ≤ a) (a1 : a < 65536) (b0 : 0 ≤ b) (b1 : b < 65536) :
    ∃ bs, structPack (be [Code.H, Code.H]) [a, b] = .ok bs ∧ bs ≠ [] := by
  refine ⟨natBE 2 a.toNat ++ (natBE 2 b.toNat ++ []), packCodes_cons (packH_ok a0 a1)
    (packCodes_cons (packH_ok b0 b1) packCodes_nil), ?_⟩
  simp [natBE]

theorem writeMultipleRegisters_atomic (hR : Quiet R) (g : Formed h sl r) (pdu : Bytes)
    (hc : 6 ≤ pdu.length → 6 + (pdu.getD 5 0).toNat ≤ pdu.length) :
    Atomic h (writeMultipleRegisters R sl pdu h) := by
  refine .bind (callHook_snd ..) fun _ _ => .bind rfl fun vals hv => ?_
  simp only [PyM.lift_apply, Prod.mk.injEq, and_true] at hv
  obtain ⟨hlen, hvals⟩ := unpack_slice (i := 1) (n := 5) (by simp [calcsize, be]) (by omega) hv
  have hc := hc hlen
  split
  · rename_i sa q bc
    match pdu, hlen with
    | f :: a1 :: a2 :: q1 :: q2 :: b :: rest, _ =>
      simp only [slice, List.take, List.drop, be, unpackCodes, Code.H_size, Code.B_size, unpackOne_H, unpackOne_B,
        List.cons.injEq, and_true] at hvals
      obtain ⟨h1, h2, h3⟩ := hvals
      have := u8_lt a1; have := u8_lt a2
      split
      · exact .error _
      · rename_i hq
        refine .bind (gbo_snd ..) fun p hp => ?_
        obtain ⟨blk, fd⟩ := gbo_found g.refs.holding hp
        have hle := fd.lenEq' g.holding
        obtain ⟨bref, off⟩ := p
        dsimp only at fd hle ⊢
        rw [PyM.bind_apply]
        have hloop := writeRegsLoop_eq hR (regCode_size sl) (pdu := f :: a1 :: a2 :: q1 :: q2 :: b :: rest) (base := 6)
          fd.nonneg q.toNat 0 0 fd.isBlk (by omega)
        have hav : regsAvail (f :: a1 :: a2 :: q1 :: q2 :: b :: rest) 6 0 q.toNat = q.toNat := by
          unfold regsAvail
          simp only [List.getD_eq_getElem?_getD, List.length_cons, List.getElem?_cons_succ, List.getElem?_cons_zero,
            Option.getD_some] at hc ⊢
          omega
        rw [if_pos hav] at hloop
        rw [hloop]
        obtain ⟨bs, h1, h2⟩ := packHH_ok (a := sa) (b := 0 + (q.toNat : Int)) (by omega) (by omega) (by omega) (by omega)
        exact .inr ⟨bs, _, by simp only [PyM.lift_apply, h1]; rfl, h2⟩
  · exact .error _

theorem packRegsLoop_ne {c : Code} {vs : List Int} {acc x : Bytes} (hacc : acc ≠ []) (h : packRegsLoop c vs acc = .ok x) :
    x ≠ [] := by
  induction vs generalizing acc with
  | nil => simp only [packRegsLoop, Except.ok.injEq] at h; subst h; exact hacc
  | cons v vs ih =>
    rw [packRegsLoop] at h
    cases hp : structPack (be [c]) [v] with
    | error e => rw [hp] at h; cases h
    | ok y =>
      rw [hp, except_bind_ok] at h
      exact ih (by simp [hacc]) h

theorem packOne_ne {c : Code} (hc : 0 < c.size) {v : Int} {x : Bytes} (h : packOne true c v = .ok x) : x ≠ [] := by
  unfold packOne at h
  split at h
  · simp only [if_true, Except.ok.injEq] at h
    subst h
    match c, hc with
    | ⟨n+1, s⟩, _ => simp [natBE]
  · cases h

theorem readWriteMultipleRegisters_atomic (hR : Quiet R) (g : Formed h sl r) (pdu : Bytes)
    (hc : 10 ≤ pdu.length → 10 + (pdu.getD 9 0).toNat ≤ pdu.length) :
    Atomic h (readWriteMultipleRegisters R sl pdu h) := by
  refine .bind (callHook_snd ..) fun _ _ => .bind rfl fun vals hv => ?_
  simp only [PyM.lift_apply, Prod.mk.injEq, and_true] at hv
  obtain ⟨hlen, hvals⟩ := unpack_slice (i := 1) (n := 9) (by simp [calcsize, be]) (by omega) hv
  have hc := hc hlen
  split
  · rename_i ra rq wa wq bc
    match pdu, hlen with
    | f :: a1 :: a2 :: q1 :: q2 :: w1 :: w2 :: v1 :: v2 :: b :: rest, _ =>
      simp only [slice, List.take, List.drop, be, unpackCodes, Code.H_size, Code.B_size, unpackOne_H, unpackOne_B,
        List.cons.injEq, and_true] at hvals
      obtain ⟨h1, h2, h3, h4, h5⟩ := hvals
      split
      · exact .error _
      · refine .bind (gbo_snd ..) fun p hp => .bind (getSlice_snd ..) fun _ _ => .bind rfl fun hd hhd =>
          .bind rfl fun resp hresp => ?_
        simp only [PyM.lift_apply, Prod.mk.injEq, and_true, structPack_single] at hhd hresp
        have hne : resp ≠ [] := packRegsLoop_ne (packOne_ne (by decide) hhd) hresp
        split
        · exact .error _
        · rename_i hq
          refine .bind (gbo_snd ..) fun p hp => ?_
          obtain ⟨blk, fd⟩ := gbo_found g.refs.holding hp
          have hle := fd.lenEq' g.holding
          obtain ⟨bref, off⟩ := p
          dsimp only at fd hle ⊢
          rw [PyM.bind_apply]
          have hloop := writeRegsLoop_eq hR (regCode_size sl)
            (pdu := f :: a1 :: a2 :: q1 :: q2 :: w1 :: w2 :: v1 :: v2 :: b :: rest) (base := 10)
            fd.nonneg wq.toNat 0 0 fd.isBlk (by omega)
          have hav : regsAvail (f :: a1 :: a2 :: q1 :: q2 :: w1 :: w2 :: v1 :: v2 :: b :: rest) 10 0 wq.toNat = wq.toNat := by
            unfold regsAvail
            simp only [List.getD_eq_getElem?_getD, List.length_cons, List.getElem?_cons_succ, List.getElem?_cons_zero,
              Option.getD_some] at hc ⊢
            omega
          rw [if_pos hav] at hloop
          rw [hloop]
          exact .inr ⟨resp, _, rfl, hne⟩
  · exact .error _

theorem writeMultipleCoils_atomic (hR : Quiet R) (g : Formed h sl r) (pdu : Bytes)
    (hc : 6 ≤ pdu.length → 6 + (pdu.getD 5 0).toNat ≤ pdu.length) :
    Atomic h (writeMultipleCoils R sl pdu h) := by
  refine .bind (callHook_snd ..) fun _ _ => .bind rfl fun vals hv => ?_
  simp only [PyM.lift_apply, Prod.mk.injEq, and_true] at hv
  obtain ⟨hlen, hvals⟩ := unpack_slice (i := 1) (n := 5) (by simp [calcsize, be]) (by omega) hv
  have hc := hc hlen
  split
  · rename_i sa q bc
    match pdu, hlen with
    | f :: a1 :: a2 :: q1 :: q2 :: b :: rest, _ =>
      simp only [slice, List.take, List.drop, be, unpackCodes, Code.H_size, Code.B_size, unpackOne_H, unpackOne_B,
        List.cons.injEq, and_true] at hvals
      obtain ⟨h1, h2, h3⟩ := hvals
      have := u8_lt a1; have := u8_lt a2
      split
      · exact .error _
      · rename_i hq
        refine .bind (gbo_snd ..) fun p hp => ?_
        obtain ⟨blk, fd⟩ := gbo_found g.refs.coils hp
        have hle := fd.lenEq' g.coils
        obtain ⟨bref, off⟩ := p
        dsimp only at fd hle ⊢
        rw [PyM.bind_apply]
        have hcs : (if sl.unsigned then Code.B else Code.b).size = 1 := by cases sl.unsigned <;> rfl
        have eq : ((q.toNat : Nat) : Int) = q := by omega
        have hloop := writeCoilsOuter_eq hR hcs (pdu := f :: a1 :: a2 :: q1 :: q2 :: b :: rest)
          fd.nonneg q.toNat bc.toNat 0 fd.isBlk (by omega)
        rw [← List.range_eq_range', eq] at hloop
        have hav : coilEnd (f :: a1 :: a2 :: q1 :: q2 :: b :: rest) 0 bc.toNat = bc.toNat := by
          unfold coilEnd
          simp only [List.getD_eq_getElem?_getD, List.length_cons, List.getElem?_cons_succ, List.getElem?_cons_zero,
            Option.getD_some] at hc ⊢
          omega
        rw [hav, if_neg (show ¬ (bc.toNat < 0 + bc.toNat ∧ 8 * bc.toNat < q.toNat) by omega)] at hloop
        have e0 : ((min (8*0) q.toNat : Nat) : Int) = 0 := by omega
        rw [e0] at hloop
        rw [hloop]
        obtain ⟨bs, h1, h2⟩ := packHH_ok (a := sa) (b := ((min (8*(0+bc.toNat)) q.toNat : Nat) : Int)) (by omega) (by omega)
          (by omega) (by omega)
        exact .inr ⟨bs, _, by simp only [PyM.lift_apply, h1]; rfl, h2⟩
  · exact .error _

/-- C14, partial: with hooks that neither answer nor raise, for every slave, whatever blocks it has (overlapping or not) and whatever they hold, and for *any*
    bytes with a complete payload, broadcast or not, an error answer leaves the heap as it was.
    (Full property: also for a payload shorter than announced; false, see `C14_false`.) -/
theorem C14_atomic_partial (hR : Quiet R) (g : Formed h sl r) (pdu : Bytes) (bc : Bool) (hc : PayloadComplete pdu)
    (he : IsErrorAnswer (handleRequest R sl pdu bc h).1) : (handleRequest R sl pdu bc h).2 = h := by
  cases hreq : handleRequest R sl pdu bc h with
  | mk x h' =>
  rw [hreq] at he
  cases x with
  | ok d =>
    cases d with
    | nil => exact absurd he id
    | cons b d => exact C12_exception_no_write hR.noModbusErr sl pdu bc h h' b d hreq he
  | error e =>
    cases pdu with
    | nil => have := handleRequest_empty (R := R) (sl := sl) (h := h) bc; rw [hreq] at this; exact this
    | cons fc rest =>
      cases hw : writtenTable fc with
      | none => have := C17_read_only R sl fc rest bc h hw; rw [hreq] at this; exact this
      | some t =>
        have hs : slice (fc :: rest) 0 1 = [fc] := by simp [slice]
        have hu : unpackSingle Code.B [fc] = .ok (fc.toNat : Int) := by rw [unpackSingle_ok rfl, unpackOne_B]
        have hfn : ∃ f, fnCodeMap R sl fc.toNat = some f ∧ Atomic h (f (fc :: rest) h) := by
          have hcases : fc = 5 ∨ fc = 15 ∨ fc = 6 ∨ fc = 16 ∨ fc = 22 ∨ fc = 23 := by
            unfold writtenTable at hw
            split at hw
            · rename_i h; tauto
            · split at hw
              · rename_i h; tauto
              · cases hw
          rcases hcases with rfl | rfl | rfl | rfl | rfl | rfl
          · exact ⟨_, rfl, writeSingleCoil_atomic hR g _⟩
          · exact ⟨_, rfl, writeMultipleCoils_atomic hR g _ (hc.1 (.inl rfl))⟩
          · exact ⟨_, rfl, writeSingleRegister_atomic hR g _⟩
          · exact ⟨_, rfl, writeMultipleRegisters_atomic hR g _ (hc.1 (.inr rfl))⟩
          · exact ⟨_, rfl, maskWriteRegister_atomic hR g _⟩
          · exact ⟨_, rfl, readWriteMultipleRegisters_atomic hR g _ (hc.2 rfl)⟩
        obtain ⟨f, hf, ha⟩ := hfn
        have hpk : structPack (be [Code.B]) [(fc.toNat : Int)] = .ok [fc] := by
          have := u8_lt fc
          rw [structPack_single, packOne_B (by omega) (by omega)]
          simp
        simp only [handleRequest, hR "modbus.Slave.handle_request", hs, hu, PyM.bind_apply, PyM.lift_apply,
          PyM.tryExcept_apply, dispatch, hf] at hreq
        by_cases hb : bc = true ∧ cantBeBroadcasted fc.toNat = true
        · rw [if_pos hb] at hreq
          simp only [PyM.raise_apply, Prod.mk.injEq] at hreq
          exact hreq.2.symm
        · rw [if_neg hb, PyM.bind_apply] at hreq
          rcases ha with ⟨e', ha⟩ | ⟨d, h2, ha, hne⟩
          · rw [ha] at hreq
            cases e' with
            | modbusError c =>
              simp only [PyM.bind_apply, callHook_quiet hR, PyM.lift_apply, Prod.mk.injEq] at hreq
              exact hreq.2.symm
            | _ => simp only [PyM.raise_apply, Prod.mk.injEq] at hreq; exact hreq.2.symm
          · rw [ha] at hreq
            simp only [if_pos hne] at hreq
            cases bc with
            | true => simp [callHook_quiet hR] at hreq
            | false => simp [hpk] at hreq

/-- C14 is false of the code: the request "write registers 10 and 11" with only the first value in the payload is
    answered by an error, and register 10 has the new value. -/
theorem C14_false :
    let s := exSlave
    let res := handleRequest [] s.sl [16, 0, 10, 0, 2, 4, 0, 7] false s.heap
    IsErrorAnswer res.1 ∧ value s.heap s.sl 3 10 = 0 ∧ value res.2 s.sl 3 10 = 7 := by
  refine ⟨?_, by decide, by decide⟩
  have : (handleRequest [] exSlave.sl [16, 0, 10, 0, 2, 4, 0, 7] false exSlave.heap).1 = .error .structError := by decide
  rw [this]; trivial

-- non-vacuity of the partial theorem: complete payloads that are refused
example : PayloadComplete [16, 0, 99, 0, 1, 2, 0, 7] := by simp [PayloadComplete]
example : (handleRequest [] exSlave.sl [16, 0, 99, 0, 1, 2, 0, 7] false exSlave.heap).1 = .ok [0x90, 2] := by decide
example : PayloadComplete [6, 0, 99] := by simp [PayloadComplete]
example : (handleRequest [] exSlave.sl [6, 0, 99] false exSlave.heap).1 = .error .structError := by decide

end Modbus
