import Verif.Props.SlaveMask
import Verif.Props.Formats
import Verif.Lemmas.HeapWF
/-
# C81: requests on a slave whatever its blocks are

`add_block` may accept overlapping blocks (C02), and then C05-C11, which assume disjoint blocks, say nothing.  Here the blocks of a table are arbitrary: a request acts on
one block object, the first of the list of the table that contains the whole range.
-/
namespace Modbus
open Spec (word toWord ofWord fits wordAt bitAt packBits bytesFor)

/-! ## Specification -/

/-- position, in the list of blocks of a table, of the first block that contains the range -/
def addressed (L : List Block) (a n : Int) : Option Nat := L.findIdx? fun b => decide (b.start ≤ a ∧ a + n ≤ b.start + b.size)

/-- the `n` cells of the block from address `a` on -/
def Block.cells (b : Block) (a : Int) (n : Nat) : List Int := (b.data.drop (a - b.start).toNat).take n

/-- the block with other values from address `a` on -/
def Block.overwritten (b : Block) (a : Int) (vs : List Int) : Block :=
  { b with data := b.data.take (a - b.start).toNat ++ vs ++ b.data.drop ((a - b.start).toNat + vs.length) }

/-- A slave whose tables are four distinct lists of arbitrary blocks, overlapping or not; registers hold values of the slave's signedness. -/
structure Sound (h : Heap) (sl : Slave) (r : Refs) : Prop where
  refs : HasRefs h sl r
  wf : ∀ ref ∈ [r.coils, r.discrete, r.holding, r.input], ∀ b ∈ h.lists ref, b.WF
  holdingFits : ListFits sl.unsigned (h.lists r.holding)
  inputFits : ListFits sl.unsigned (h.lists r.input)

/-- the values were stored in block number `i` of table `t`, from address `a` on, and nothing else changed: no cell of another block, no block of another table -/
structure StoredIn (h h' : Heap) (sl : Slave) (t : Int) (i : Nat) (a : Int) (vs : List Int) : Prop where
  table : ∃ b, (blocksOf h sl t)[i]? = some b ∧ blocksOf h' sl t = (blocksOf h sl t).set i (b.overwritten a vs)
  others : ∀ t' ∈ [(1 : Int), 2, 3, 4], t' ≠ t → blocksOf h' sl t' = blocksOf h sl t'

/-! ## Lemmas -/

theorem Good.sound {h : Heap} {sl : Slave} {r : Refs} (g : Good h sl r) : Sound h sl r := by
  refine ⟨g.refs, ?_, g.holdingFits, g.inputFits⟩
  intro ref hr
  simp only [List.mem_cons, List.not_mem_nil, or_false] at hr
  rcases hr with rfl | rfl | rfl | rfl
  · exact g.coils.blocks
  · exact g.discrete.blocks
  · exact g.holding.blocks
  · exact g.input.blocks

theorem setMany_eq (data : List Int) (off : Nat) (vs : List Int) (h : off + vs.length ≤ data.length) :
    setMany data off vs = data.take off ++ vs ++ data.drop (off + vs.length) := by
  induction vs generalizing data off with
  | nil => simp [setMany]
  | cons v vs ih =>
    simp only [List.length_cons] at h
    rw [setMany, ih _ _ (by simp; omega)]
    have h1 : (data.set off v).take (off + 1) = data.take off ++ [v] := by
      rw [List.take_add_one, List.take_set_of_le (Nat.le_refl _)]
      simp [show off < data.length by omega]
    have h2 : (data.set off v).drop (off + 1 + vs.length) = data.drop (off + (v :: vs).length) := by
      rw [List.drop_set_of_lt (by omega)]
      simp only [List.length_cons]
      congr 1
      omega
    rw [h1, h2]
    simp

theorem findBlock_addressed {L : List Block} {a n : Int} {i : Nat} (h : addressed L a n = some i) :
    ∃ b, L[i]? = some b ∧ b ∈ L ∧ findBlock L a n = some (i, a - b.start) ∧ b.start ≤ a ∧ a + n ≤ b.start + b.size := by
  induction L generalizing i with
  | nil => simp [addressed] at h
  | cons c L ih =>
    unfold addressed at h
    rw [List.findIdx?_cons] at h
    rw [findBlock]
    by_cases hc : c.start ≤ a ∧ a + n ≤ c.start + c.size
    · rw [if_pos (by simpa using hc)] at h
      cases h
      exact ⟨c, rfl, by simp, by rw [if_pos (by omega)], hc.1, hc.2⟩
    · rw [if_neg (by simpa using hc)] at h
      cases hL : addressed L a n with
      | none => unfold addressed at hL; rw [hL] at h; cases h
      | some j =>
        have hL' := hL
        unfold addressed at hL
        rw [hL] at h
        cases h
        obtain ⟨b, h1, h2, h3, h4, h5⟩ := ih hL'
        exact ⟨b, by simpa using h1, by simp [h2], by rw [if_neg (by omega), h3]; rfl, h4, h5⟩

theorem findBlock_unaddressed {L : List Block} {a n : Int} (h : addressed L a n = none) : findBlock L a n = none := by
  induction L with
  | nil => rfl
  | cons c L ih =>
    unfold addressed at h
    rw [List.findIdx?_cons] at h
    rw [findBlock]
    by_cases hc : c.start ≤ a ∧ a + n ≤ c.start + c.size
    · rw [if_pos (by simpa using hc)] at h; cases h
    · rw [if_neg (by simpa using hc)] at h
      rw [if_neg (by omega), ih (by unfold addressed; simpa using h)]
      rfl

section
variable {R : Registry} {h : Heap} {sl : Slave} {r : Refs}

theorem gbo_addressed {bt : Int} {ref : Nat} (hd : Dict.get? (h.dicts sl.mem) bt = some ref) {a n : Int} {i : Nat} (hi : addressed (h.lists ref) a n = some i) :
    ∃ blk, getBlockAndOffset sl bt a n h = (.ok (⟨ref, i⟩, a - blk.start), h) ∧ Found h ref a n ⟨ref, i⟩ (a - blk.start) blk ∧ (h.lists ref)[i]? = some blk ∧ blk ∈ h.lists ref := by
  obtain ⟨b, h1, h2, h3, h4, h5⟩ := findBlock_addressed hi
  exact ⟨b, by simp [getBlockAndOffset, memRef, hd, h3], ⟨rfl, h1, rfl, by omega, by omega⟩, h1, h2⟩

theorem gbo_unaddressed {bt : Int} {ref : Nat} (hd : Dict.get? (h.dicts sl.mem) bt = some ref) {a n : Int} (hi : addressed (h.lists ref) a n = none) :
    getBlockAndOffset sl bt a n h = (.error (.modbusError 2), h) := by
  simp [getBlockAndOffset, memRef, hd, findBlock_unaddressed hi]

theorem Found.slice {ref : Nat} {a : Int} {n : Nat} {b : BlockRef} {off : Int} {blk : Block} (f : Found h ref a n b off blk) (hw : blk.WF) :
    pySlice blk.data off (off + n) = blk.cells a n ∧ (blk.cells a n).length = n := by
  have h1 := f.nonneg
  have h2 := f.le
  have h3 := hw.len
  have h4 := f.offEq
  constructor
  · rw [pySlice_nonneg _ _ _ h1 (by omega) (by omega) (by omega)]
    unfold Block.cells
    rw [← h4, show (off + (n : Int)).toNat - off.toNat = n by omega]
  · unfold Block.cells
    rw [← h4]
    simp
    omega

theorem cells_fit {u : Bool} {L : List Block} (hf : ListFits u L) {b : Block} (hb : b ∈ L) (a : Int) (n : Nat) : ∀ v ∈ b.cells a n, fits u v := by
  intro v hv
  exact hf b hb v (List.mem_of_mem_drop (List.mem_of_mem_take hv))

/-- `handle_request` when the handler answers -/
theorem handleRequest_ok (hR : Quiet R) {fc : UInt8} {rest : Bytes} {f : Bytes → PyM Heap Bytes} (hf : fnCodeMap R sl fc.toNat = some f) {d : Bytes} {h' : Heap}
    (hd : d ≠ []) (he : f (fc :: rest) h = (.ok d, h')) : handleRequest R sl (fc :: rest) false h = (.ok (fc :: d), h') := by
  have hs : Modbus.slice (fc :: rest) 0 1 = [fc] := by simp [Modbus.slice]
  have hu : unpackSingle Code.B [fc] = .ok (fc.toNat : Int) := by rw [unpackSingle_ok rfl, unpackOne_B]
  unfold handleRequest
  simp only [hR "modbus.Slave.handle_request", hs, hu, PyM.bind_apply, PyM.lift_apply, PyM.tryExcept_apply, dispatch, hf, Bool.false_eq_true, false_and, if_false, he, hd, ne_eq,
    not_false_eq_true, if_true, packB_u8, PyM.pure_apply]
  rfl

/-- `handle_request` when the handler raises a ModbusError -/
theorem handleRequest_exc (hR : Quiet R) {fc : UInt8} (hfc : fc.toNat < 128) {rest : Bytes} {f : Bytes → PyM Heap Bytes} (hf : fnCodeMap R sl fc.toNat = some f) {c : UInt8} {h' : Heap}
    (he : f (fc :: rest) h = (.error (.modbusError c.toNat), h')) : handleRequest R sl (fc :: rest) false h = (.ok [fc + 128, c], h') := by
  have hs : Modbus.slice (fc :: rest) 0 1 = [fc] := by simp [Modbus.slice]
  have hu : unpackSingle Code.B [fc] = .ok (fc.toNat : Int) := by rw [unpackSingle_ok rfl, unpackOne_B]
  unfold handleRequest
  simp only [hR "modbus.Slave.handle_request", hs, hu, PyM.bind_apply, PyM.lift_apply, PyM.tryExcept_apply, dispatch, hf, Bool.false_eq_true, false_and, if_false, he,
    callHook_quiet hR, packBB_exc fc c hfc]

theorem tables (hr : HasRefs h sl r) : blocksOf h sl 1 = h.lists r.coils ∧ blocksOf h sl 2 = h.lists r.discrete ∧ blocksOf h sl 3 = h.lists r.holding ∧
    blocksOf h sl 4 = h.lists r.input := by
  have h1 := hr.coils
  have h2 := hr.discrete
  have h3 := hr.holding
  have h4 := hr.input
  simp only [defines.COILS, defines.DISCRETE_INPUTS, defines.HOLDING_REGISTERS, defines.ANALOG_INPUTS] at h1 h2 h3 h4
  simp only [blocksOf, h1, h2, h3, h4, and_self]

theorem Sound.block (g : Sound h sl r) {ref : Nat} (hr : ref ∈ [r.coils, r.discrete, r.holding, r.input]) {b : Block} (hb : b ∈ h.lists ref) : b.WF := g.wf ref hr b hb

theorem overwritten_eq {a : Int} {n : Int} {ref : Nat} {b : BlockRef} {off : Int} {blk : Block} (f : Found h ref a n b off blk) (hw : blk.WF) {vs : List Int}
    (hv : (vs.length : Int) = n) : blk.withData (setMany blk.data off.toNat vs) = blk.overwritten a vs := by
  have h1 := f.nonneg
  have h2 := f.le
  have h3 := hw.len
  have h4 := f.offEq
  unfold Block.overwritten Block.withData
  rw [setMany_eq _ _ _ (by omega), ← h4]

theorem overwritten_wf {b : Block} (hw : b.WF) {a : Int} {vs : List Int} (h0 : b.start ≤ a) (h1 : a + vs.length ≤ b.start + b.size) : (b.overwritten a vs).WF := by
  have h2 := hw.len
  have h3 := hw.pos
  refine ⟨?_, h3⟩
  simp only [Block.overwritten, List.length_append, List.length_take, List.length_drop]
  omega

/-- storing in the coils -/
theorem Sound.setCoils (g : Sound h sl r) {a n : Int} {i : Nat} {off : Int} {blk : Block} (f : Found h r.coils a n ⟨r.coils, i⟩ off blk) {vs : List Int}
    (hv : (vs.length : Int) = n) :
    Sound (h.setBlock ⟨r.coils, i⟩ (blk.withData (setMany blk.data off.toNat vs))) sl r ∧
    StoredIn h (h.setBlock ⟨r.coils, i⟩ (blk.withData (setMany blk.data off.toNat vs))) sl 1 i a vs := by
  have hwf := g.block (by simp) f.mem
  have hd := g.refs.distinct
  simp only [List.nodup_cons, List.mem_cons, List.not_mem_nil, or_false, not_or] at hd
  obtain ⟨⟨h1, h2, h3⟩, _⟩ := hd
  have hr := g.refs.setBlock ⟨r.coils, i⟩ (blk.withData (setMany blk.data off.toNat vs))
  have hsame : (h.setBlock ⟨r.coils, i⟩ (blk.withData (setMany blk.data off.toNat vs))).lists r.coils = (h.lists r.coils).set i (blk.overwritten a vs) := by
    rw [← overwritten_eq f hwf hv]; exact setBlock_lists_same h ⟨r.coils, i⟩ _
  have t := tables g.refs
  have t' := tables hr
  have hle := f.le
  have hof := f.offEq
  have hnn := f.nonneg
  refine ⟨⟨hr, ?_, ?_, ?_⟩, ⟨⟨blk, by rw [t.1]; exact f.idx, by rw [t'.1, t.1, hsame]⟩, ?_⟩⟩
  · intro ref href b hb
    simp only [List.mem_cons, List.not_mem_nil, or_false] at href
    rcases href with rfl | rfl | rfl | rfl
    · rw [hsame] at hb
      rcases List.mem_or_eq_of_mem_set hb with hb | rfl
      · exact g.block (by simp) hb
      · exact overwritten_wf hwf (by omega) (by omega)
    · rw [f.other _ (Ne.symm h1)] at hb; exact g.block (by simp) hb
    · rw [f.other _ (Ne.symm h2)] at hb; exact g.block (by simp) hb
    · rw [f.other _ (Ne.symm h3)] at hb; exact g.block (by simp) hb
  · rw [f.other _ (Ne.symm h2)]; exact g.holdingFits
  · rw [f.other _ (Ne.symm h3)]; exact g.inputFits
  · intro t'' ht hne
    simp only [List.mem_cons, List.not_mem_nil, or_false] at ht
    rcases ht with rfl | rfl | rfl | rfl
    · exact absurd rfl hne
    · rw [t.2.1, t'.2.1, f.other _ (Ne.symm h1)]
    · rw [t.2.2.1, t'.2.2.1, f.other _ (Ne.symm h2)]
    · rw [t.2.2.2, t'.2.2.2, f.other _ (Ne.symm h3)]

/-- storing in the holding registers; values that do not fit may be stored, too -/
theorem Sound.setHolding (g : Sound h sl r) {a n : Int} {i : Nat} {off : Int} {blk : Block} (f : Found h r.holding a n ⟨r.holding, i⟩ off blk) {vs : List Int}
    (hv : (vs.length : Int) = n) :
    ((∀ v ∈ vs, fits sl.unsigned v) → Sound (h.setBlock ⟨r.holding, i⟩ (blk.withData (setMany blk.data off.toNat vs))) sl r) ∧
    StoredIn h (h.setBlock ⟨r.holding, i⟩ (blk.withData (setMany blk.data off.toNat vs))) sl 3 i a vs := by
  have hwf := g.block (by simp) f.mem
  have hd := g.refs.distinct
  simp only [List.nodup_cons, List.mem_cons, List.not_mem_nil, or_false, not_or] at hd
  obtain ⟨⟨h1, h2, h3⟩, ⟨h4, h5⟩, h6, _⟩ := hd
  have hr := g.refs.setBlock ⟨r.holding, i⟩ (blk.withData (setMany blk.data off.toNat vs))
  have hsame : (h.setBlock ⟨r.holding, i⟩ (blk.withData (setMany blk.data off.toNat vs))).lists r.holding = (h.lists r.holding).set i (blk.overwritten a vs) := by
    rw [← overwritten_eq f hwf hv]; exact setBlock_lists_same h ⟨r.holding, i⟩ _
  have t := tables g.refs
  have t' := tables hr
  have hle := f.le
  have hof := f.offEq
  have hnn := f.nonneg
  refine ⟨fun hfit => ⟨hr, ?_, ?_, ?_⟩, ⟨⟨blk, by rw [t.2.2.1]; exact f.idx, by rw [t'.2.2.1, t.2.2.1, hsame]⟩, ?_⟩⟩
  · intro ref href b hb
    simp only [List.mem_cons, List.not_mem_nil, or_false] at href
    rcases href with rfl | rfl | rfl | rfl
    · rw [f.other _ h2] at hb; exact g.block (by simp) hb
    · rw [f.other _ h4] at hb; exact g.block (by simp) hb
    · rw [hsame] at hb
      rcases List.mem_or_eq_of_mem_set hb with hb | rfl
      · exact g.block (by simp) hb
      · exact overwritten_wf hwf (by omega) (by omega)
    · rw [f.other _ (Ne.symm h6)] at hb; exact g.block (by simp) hb
  · exact f.fitsList g.holdingFits hfit
  · rw [f.other _ (Ne.symm h6)]; exact g.inputFits
  · intro t'' ht hne
    simp only [List.mem_cons, List.not_mem_nil, or_false] at ht
    rcases ht with rfl | rfl | rfl | rfl
    · rw [t.1, t'.1, f.other _ h2]
    · rw [t.2.1, t'.2.1, f.other _ h4]
    · exact absurd rfl hne
    · rw [t.2.2.2, t'.2.2.2, f.other _ (Ne.symm h6)]

/-! ## C81 -/

/-- **C81 (reading registers).** Whatever the blocks are, a read of 1..125 registers answers the cells of the first block that contains the range. -/
theorem C81_read_registers (hR : Quiet R) (g : Sound h sl r) (fc : UInt8) (hfc : fc = 3 ∨ fc = 4) (a q : UInt16) (hq : 1 ≤ q.toNat ∧ q.toNat ≤ 125) {i : Nat} {b : Block}
    (hi : addressed (blocksOf h sl fc.toNat) a.toNat q.toNat = some i) (hb : (blocksOf h sl fc.toNat)[i]? = some b) :
    handleRequest R sl (fc :: (word a ++ word q)) false h = (.ok (fc :: UInt8.ofNat (2 * q.toNat) :: (b.cells a.toNat q.toNat).flatMap fun v => word (toWord v)), h) := by
  have hq' := q.toNat_lt
  have e : Modbus.slice (fc :: (word a ++ word q)) 1 5 = word a ++ word q := by simp [Modbus.slice, word]
  have key : ∀ {bt : Int} {ref : Nat}, Dict.get? (h.dicts sl.mem) bt = some ref → ref ∈ [r.coils, r.discrete, r.holding, r.input] → ListFits sl.unsigned (h.lists ref) →
      addressed (h.lists ref) a.toNat q.toNat = some i → (h.lists ref)[i]? = some b →
      readRegisters sl bt (fc :: (word a ++ word q)) h = (.ok (UInt8.ofNat (2 * q.toNat) :: (b.cells a.toNat q.toNat).flatMap fun v => word (toWord v)), h) := by
    intro bt ref hd hr hf hi hb
    obtain ⟨blk, hg, f, h1, h2⟩ := gbo_addressed hd hi
    rw [h1] at hb
    cases hb
    simp only [readRegisters, e, structUnpack_HH, PyM.bind_apply, PyM.lift_apply]
    rw [if_neg (by omega)]
    simp only [PyM.bind_apply, hg, getSlice_eq f.isBlk, (f.slice (g.block hr h2)).1, structPack_single]
    rw [packOne_B (by omega) (by omega)]
    simp only [PyM.lift_apply, packRegsLoop_eq _ (cells_fit hf h2 _ _)]
    rw [show (2 * (q.toNat : Int)).toNat = 2 * q.toNat by omega]
    rfl
  have t := tables g.refs
  rcases hfc with rfl | rfl
  · rw [show (((3 : UInt8).toNat : Nat) : Int) = 3 from rfl, t.2.2.1] at hi hb
    refine handleRequest_ok hR (f := readHoldingRegisters R sl) rfl (by simp) ?_
    simp only [readHoldingRegisters, PyM.bind_apply, callHook_quiet hR]
    exact key g.refs.holding (by simp) g.holdingFits hi hb
  · rw [show (((4 : UInt8).toNat : Nat) : Int) = 4 from rfl, t.2.2.2] at hi hb
    refine handleRequest_ok hR (f := readInputRegisters R sl) rfl (by simp) ?_
    simp only [readInputRegisters, PyM.bind_apply, callHook_quiet hR]
    exact key g.refs.input (by simp) g.inputFits hi hb

/-- **C81 (reading bits).** The same for 1..2000 bits. -/
theorem C81_read_bits (hR : Quiet R) (g : Sound h sl r) (fc : UInt8) (hfc : fc = 1 ∨ fc = 2) (a q : UInt16) (hq : 1 ≤ q.toNat ∧ q.toNat ≤ 2000) {i : Nat} {b : Block}
    (hi : addressed (blocksOf h sl fc.toNat) a.toNat q.toNat = some i) (hb : (blocksOf h sl fc.toNat)[i]? = some b) :
    handleRequest R sl (fc :: (word a ++ word q)) false h =
      (.ok (fc :: UInt8.ofNat (bytesFor q.toNat) :: packBits ((b.cells a.toNat q.toNat).map fun v => v != 0)), h) := by
  have hq' := q.toNat_lt
  have e : Modbus.slice (fc :: (word a ++ word q)) 1 5 = word a ++ word q := by simp [Modbus.slice, word]
  have key : ∀ {bt : Int} {ref : Nat}, Dict.get? (h.dicts sl.mem) bt = some ref → ref ∈ [r.coils, r.discrete, r.holding, r.input] →
      addressed (h.lists ref) a.toNat q.toNat = some i → (h.lists ref)[i]? = some b →
      readDigital sl bt (fc :: (word a ++ word q)) h = (.ok (UInt8.ofNat (bytesFor q.toNat) :: packBits ((b.cells a.toNat q.toNat).map fun v => v != 0)), h) := by
    intro bt ref hd hr hi hb
    obtain ⟨blk, hg, f, h1, h2⟩ := gbo_addressed hd hi
    rw [h1] at hb
    cases hb
    simp only [readDigital, e, structUnpack_HH, PyM.bind_apply, PyM.lift_apply]
    rw [if_neg (by omega)]
    simp only [PyM.bind_apply, hg, getSlice_eq f.isBlk, (f.slice (g.block hr h2)).1, byteCount_eq, structPack_single]
    have hbf : bytesFor q.toNat ≤ 250 := by unfold bytesFor; omega
    rw [packOne_B (by omega) (by omega)]
    simp only [PyM.lift_apply]
    have := packBitsLoop_eq sl.unsigned (b.cells a.toNat q.toNat) [] (by simp) [UInt8.ofNat (bytesFor q.toNat)]
    simp only [List.length_nil, show bitsSum 8 [] = 0 from rfl, List.nil_append] at this
    simp only [Int.toNat_natCast, this]
    rfl
  have t := tables g.refs
  rcases hfc with rfl | rfl
  · rw [show (((1 : UInt8).toNat : Nat) : Int) = 1 from rfl, t.1] at hi hb
    refine handleRequest_ok hR (f := readCoils R sl) rfl (by simp) ?_
    simp only [readCoils, PyM.bind_apply, callHook_quiet hR]
    exact key g.refs.coils (by simp) hi hb
  · rw [show (((2 : UInt8).toNat : Nat) : Int) = 2 from rfl, t.2.1] at hi hb
    refine handleRequest_ok hR (f := readDiscreteInputs R sl) rfl (by simp) ?_
    simp only [readDiscreteInputs, PyM.bind_apply, callHook_quiet hR]
    exact key g.refs.discrete (by simp) hi hb

/-- **C81 (writing registers).** A well-formed function-16 request stores its words in the first block that contains the range, and nowhere else. -/
theorem C81_write_registers (hR : Quiet R) (g : Sound h sl r) (a q : UInt16) (bc : UInt8) (p : Bytes) (hq : 1 ≤ q.toNat ∧ q.toNat ≤ 123) (hbc : bc.toNat = 2 * q.toNat)
    (hp : p.length = 2 * q.toNat) {i : Nat} (hi : addressed (blocksOf h sl 3) a.toNat q.toNat = some i) :
    ∃ h', handleRequest R sl (16 :: (word a ++ word q ++ [bc] ++ p)) false h = (.ok (16 :: (word a ++ word q)), h') ∧
      StoredIn h h' sl 3 i a.toNat (Spec.payloadValues sl.unsigned p q.toNat) ∧ Sound h' sl r := by
  rw [(tables g.refs).2.2.1] at hi
  obtain ⟨blk, hg, f, h1, h2⟩ := gbo_addressed g.refs.holding hi
  have hwf := g.block (by simp) h2
  have hl := hwf.len
  have hle := f.le
  have hlen : (16 :: (word a ++ word q ++ [bc] ++ p)).length = 6 + p.length := by simp [word_length]; omega
  have hav : regsAvail (16 :: (word a ++ word q ++ [bc] ++ p)) 6 0 q.toNat = q.toNat := by
    unfold regsAvail; rw [hlen]; omega
  have hvs : (List.range q.toNat).map (fun k => regAt (regCode sl) (16 :: (word a ++ word q ++ [bc] ++ p)) 6 (0 + k)) = Spec.payloadValues sl.unsigned p q.toNat := by
    unfold Spec.payloadValues
    apply List.map_congr_left
    intro k hk
    have := List.mem_range.mp hk
    rw [Nat.zero_add]
    exact regAt_payload sl (pre := 16 :: (word a ++ word q ++ [bc])) (by omega)
  have hw := g.setHolding f (vs := Spec.payloadValues sl.unsigned p q.toNat) (by simp [Spec.payloadValues])
  have e : Modbus.slice (16 :: (word a ++ word q ++ [bc] ++ p)) 1 6 = word a ++ word q ++ [bc] := by simp [Modbus.slice, word]
  refine ⟨_, handleRequest_ok hR (f := writeMultipleRegisters R sl) rfl (by simp [word]) ?_, hw.2, hw.1 ?_⟩
  · simp only [writeMultipleRegisters, e, structUnpack_HHB, PyM.bind_apply, PyM.lift_apply, callHook_quiet hR]
    rw [if_neg (by omega)]
    simp only [PyM.bind_apply, hg, Int.toNat_natCast]
    rw [writeRegsLoop_eq hR (regCode_size sl) f.nonneg _ _ _ f.isBlk (by omega), hav, hvs]
    simp only [if_true, PyM.lift_apply, Int.zero_add, structPack_HH]
    rfl
  · intro v hv
    simp only [Spec.payloadValues, List.mem_map] at hv
    obtain ⟨k, _, rfl⟩ := hv
    exact ofWord_fits _ _

/-- **C81 (writing coils).** A well-formed function-15 request stores its bits, as 0 and 1, in the first block that contains the range, and nowhere else. -/
theorem C81_write_coils (hR : Quiet R) (g : Sound h sl r) (a q : UInt16) (bc : UInt8) (p : Bytes) (hq : 1 ≤ q.toNat ∧ q.toNat ≤ 1968) (hbc : bc.toNat = bytesFor q.toNat)
    (hp : p.length = bytesFor q.toNat) {i : Nat} (hi : addressed (blocksOf h sl 1) a.toNat q.toNat = some i) :
    ∃ h', handleRequest R sl (15 :: (word a ++ word q ++ [bc] ++ p)) false h = (.ok (15 :: (word a ++ word q)), h') ∧
      StoredIn h h' sl 1 i a.toNat (Spec.payloadBits p q.toNat) ∧ Sound h' sl r := by
  rw [(tables g.refs).1] at hi
  obtain ⟨blk, hg, f, h1, h2⟩ := gbo_addressed g.refs.coils hi
  have hwf := g.block (by simp) h2
  have hl := hwf.len
  have hle := f.le
  have hcs : (if sl.unsigned then Code.B else Code.b).size = 1 := by split <;> rfl
  have hbf : bc.toNat = (q.toNat + 7) / 8 := hbc
  have hpf : p.length = (q.toNat + 7) / 8 := hp
  have hloop := writeCoilsOuter_eq hR hcs f.nonneg q.toNat (pdu := 15 :: (word a ++ word q ++ [bc] ++ p)) bc.toNat 0 f.isBlk (by omega)
  rw [← List.range_eq_range', show ((min (8*0) q.toNat : Nat) : Int) = 0 by simp] at hloop
  have hlen : (15 :: (word a ++ word q ++ [bc] ++ p)).length = 6 + p.length := by simp [word_length]; omega
  have hend : coilEnd (15 :: (word a ++ word q ++ [bc] ++ p)) 0 bc.toNat = bc.toNat := by
    unfold coilEnd; rw [hlen]; omega
  have hmin : min (8 * bc.toNat) q.toNat = q.toNat := by omega
  have hvs : (List.range q.toNat).map (fun k => coilAt (if sl.unsigned then Code.B else Code.b) (15 :: (word a ++ word q ++ [bc] ++ p)) (8*0 + k)) = Spec.payloadBits p q.toNat := by
    unfold Spec.payloadBits
    apply List.map_congr_left
    intro k hk
    have := List.mem_range.mp hk
    rw [Nat.mul_zero, Nat.zero_add]
    exact coilAt_payload sl.unsigned (pre := 15 :: (word a ++ word q ++ [bc])) (by simp [word_length]) (by omega)
  rw [hend, hmin, show min (8*0) q.toNat = 0 by simp, Nat.sub_zero, hvs, Nat.add_zero] at hloop
  have hw := g.setCoils f (vs := Spec.payloadBits p q.toNat) (by simp [Spec.payloadBits])
  have e : Modbus.slice (15 :: (word a ++ word q ++ [bc] ++ p)) 1 6 = word a ++ word q ++ [bc] := by simp [Modbus.slice, word]
  refine ⟨_, handleRequest_ok hR (f := writeMultipleCoils R sl) rfl (by simp [word]) ?_, hw.2, hw.1⟩
  simp only [writeMultipleCoils, e, structUnpack_HHB, PyM.bind_apply, PyM.lift_apply, callHook_quiet hR, byteCount_eq]
  rw [if_neg (by unfold bytesFor; omega)]
  simp only [PyM.bind_apply, hg, Int.toNat_natCast]
  rw [hloop, if_neg (by omega), show min (8 * (0 + bc.toNat)) q.toNat = q.toNat by omega]
  simp only [PyM.lift_apply, structPack_HH]

/-- **C81 (function 6).** -/
theorem C81_write_register (hR : Quiet R) (g : Sound h sl r) (a v : UInt16) {i : Nat} (hi : addressed (blocksOf h sl 3) a.toNat 1 = some i) :
    ∃ h', handleRequest R sl (6 :: (word a ++ word v)) false h = (.ok (6 :: (word a ++ word v)), h') ∧ StoredIn h h' sl 3 i a.toNat [ofWord sl.unsigned v] ∧ Sound h' sl r := by
  rw [(tables g.refs).2.2.1] at hi
  obtain ⟨blk, hg, f, h1, h2⟩ := gbo_addressed g.refs.holding hi
  have hl := (g.block (by simp) h2).len
  have hle := f.le
  have hw := g.setHolding f (vs := [ofWord sl.unsigned v]) rfl
  have e : Modbus.slice (6 :: (word a ++ word v)) 1 5 = word a ++ word v := by simp [Modbus.slice, word]
  refine ⟨_, handleRequest_ok hR (f := writeSingleRegister R sl) rfl (by simp [word]) ?_, hw.2, hw.1 (by simp [ofWord_fits])⟩
  simp only [writeSingleRegister, e, structUnpack_HReg, PyM.bind_apply, PyM.lift_apply, callHook_quiet hR, hg, setItem_quiet hR f.isBlk f.nonneg
    (show (a.toNat : Int) - blk.start < blk.data.length by omega), PyM.pure_apply]
  rfl

/-- **C81 (function 5).** 0xFF00 stores 1, 0 stores 0, anything else is refused. -/
theorem C81_write_coil (hR : Quiet R) (g : Sound h sl r) (a v : UInt16) {i : Nat} (hi : addressed (blocksOf h sl 1) a.toNat 1 = some i) :
    (v = 0 ∨ v = 0xff00 → ∃ h', handleRequest R sl (5 :: (word a ++ word v)) false h = (.ok (5 :: (word a ++ word v)), h') ∧
      StoredIn h h' sl 1 i a.toNat [if v = 0 then 0 else 1] ∧ Sound h' sl r) ∧
    (v ≠ 0 → v ≠ 0xff00 → handleRequest R sl (5 :: (word a ++ word v)) false h = (.ok [0x85, 3], h)) := by
  rw [(tables g.refs).1] at hi
  obtain ⟨blk, hg, f, h1, h2⟩ := gbo_addressed g.refs.coils hi
  have hl := (g.block (by simp) h2).len
  have hle := f.le
  have e : Modbus.slice (5 :: (word a ++ word v)) 1 5 = word a ++ word v := by simp [Modbus.slice, word]
  have hset : ∀ x, setItem R ⟨r.coils, i⟩ ((a.toNat : Int) - blk.start) x h =
      (.ok (), h.setBlock ⟨r.coils, i⟩ (blk.withData (setMany blk.data ((a.toNat : Int) - blk.start).toNat [x]))) := by
    intro x; rw [setItem_quiet hR f.isBlk f.nonneg (by omega)]; rfl
  refine ⟨fun hv => ?_, fun h0 h1 => ?_⟩
  · rcases hv with rfl | rfl
    · have hw := g.setCoils f (vs := [0]) rfl
      refine ⟨_, handleRequest_ok hR (f := writeSingleCoil R sl) rfl (by simp [word]) ?_, hw.2, hw.1⟩
      simp only [writeSingleCoil, e, structUnpack_HH, PyM.bind_apply, PyM.lift_apply, callHook_quiet hR, hg, UInt16.toNat_zero, Int.natCast_zero, if_true, hset, PyM.pure_apply]
      rfl
    · have hw := g.setCoils f (vs := [1]) rfl
      refine ⟨_, handleRequest_ok hR (f := writeSingleCoil R sl) rfl (by simp [word]) ?_, hw.2, hw.1⟩
      have : ((65280 : UInt16).toNat : Int) = 65280 := rfl
      simp only [writeSingleCoil, e, structUnpack_HH, PyM.bind_apply, PyM.lift_apply, callHook_quiet hR, hg, this]
      rw [if_neg (by decide), if_pos trivial]
      simp only [PyM.bind_apply, hset, PyM.pure_apply]
      rfl
  · have h0' : ¬ ((v.toNat : Int) = 0) := by
      intro h; apply h0; apply UInt16.toNat_inj.mp; simpa using h
    have h1' : ¬ ((v.toNat : Int) = 65280) := by
      intro h; apply h1; apply UInt16.toNat_inj.mp
      have : v.toNat = 65280 := by omega
      rw [this]; rfl
    refine handleRequest_exc hR (fc := 5) (c := 3) (by decide) (f := writeSingleCoil R sl) rfl ?_
    simp only [writeSingleCoil, e, structUnpack_HH, PyM.bind_apply, PyM.lift_apply, callHook_quiet hR, hg, h0', h1', if_false]
    rfl

/-- **C81 (function 22).** The masked word of the addressed cell is stored in that cell, as an unsigned number (for signed slaves see `C10_false`). -/
theorem C81_mask_write (hR : Quiet R) (g : Sound h sl r) (a am om : UInt16) {i : Nat} {b : Block} (hi : addressed (blocksOf h sl 3) a.toNat 1 = some i)
    (hb : (blocksOf h sl 3)[i]? = some b) :
    ∃ h' cur, b.cells a.toNat 1 = [cur] ∧ handleRequest R sl (22 :: (word a ++ word am ++ word om)) false h = (.ok (22 :: (word a ++ word am ++ word om)), h') ∧
      StoredIn h h' sl 3 i a.toNat [((Spec.maskWord (toWord cur) am om).toNat : Int)] ∧ (sl.unsigned = true → Sound h' sl r) := by
  rw [(tables g.refs).2.2.1] at hi hb
  obtain ⟨blk, hg, f, h1, h2⟩ := gbo_addressed g.refs.holding hi
  rw [h1] at hb
  cases hb
  have hl := (g.block (by simp) h2).len
  have hle := f.le
  have hnn := f.nonneg
  have hlt : ((a.toNat : Int) - b.start).toNat < b.data.length := by omega
  have hcur : getItem ⟨r.holding, i⟩ ((a.toNat : Int) - b.start) h = (.ok b.data[((a.toNat : Int) - b.start).toNat], h) := by
    simp only [getItem, f.isBlk, show ¬ (a.toNat : Int) - b.start < 0 by omega, if_false, List.getElem?_eq_getElem hlt]
  have hcells : b.cells a.toNat 1 = [b.data[((a.toNat : Int) - b.start).toNat]] := by
    unfold Block.cells
    rw [List.drop_eq_getElem_cons hlt]
    rfl
  have hcf : fits sl.unsigned b.data[((a.toNat : Int) - b.start).toNat] := g.holdingFits b h2 _ (List.getElem_mem hlt)
  generalize b.data[((a.toNat : Int) - b.start).toNat] = cur at hcur hcells hcf
  have hval : pyOr (pyAnd cur am.toNat) (pyAnd om.toNat (pyNot am.toNat)) = (Spec.maskWord (toWord cur) am om).toNat := by
    apply maskVal_all
    · unfold Spec.fits at hcf; split at hcf <;> omega
    · unfold Spec.fits at hcf; split at hcf <;> omega
  have hw := g.setHolding f (vs := [((Spec.maskWord (toWord cur) am om).toNat : Int)]) rfl
  have e : Modbus.slice (22 :: (word a ++ word am ++ word om)) 1 7 = word a ++ word am ++ word om := by simp [Modbus.slice, word]
  refine ⟨_, cur, hcells, handleRequest_ok hR (f := maskWriteRegister R sl) rfl (by simp [word]) ?_, hw.2, fun hu => hw.1 ?_⟩
  · simp only [maskWriteRegister, e, structUnpack_HHH, PyM.bind_apply, PyM.lift_apply, callHook_quiet hR, hg, hcur, setItem_quiet hR f.isBlk f.nonneg
      (show (a.toNat : Int) - b.start < b.data.length by omega), PyM.pure_apply, hval, List.drop_succ_cons, List.drop_zero]
    rfl
  · intro v hv
    simp only [List.mem_singleton] at hv
    subst hv
    have := (Spec.maskWord (toWord cur) am om).toNat_lt
    rw [hu]
    unfold fits
    simp only [if_true]
    omega

/-- **C81 (function 23).** The registers answered are those of the first block that contains the range read, before the words are stored in the first block that contains the
    range written. -/
theorem C81_read_write (hR : Quiet R) (g : Sound h sl r) (ra rq wa wq : UInt16) (bc : UInt8) (p : Bytes) (hrq : 1 ≤ rq.toNat ∧ rq.toNat ≤ 125)
    (hwq : 1 ≤ wq.toNat ∧ wq.toNat ≤ 123) (hbc : bc.toNat = 2 * wq.toNat) (hp : p.length = 2 * wq.toNat) {i j : Nat} {b : Block}
    (hi : addressed (blocksOf h sl 3) ra.toNat rq.toNat = some i) (hb : (blocksOf h sl 3)[i]? = some b) (hj : addressed (blocksOf h sl 3) wa.toNat wq.toNat = some j) :
    ∃ h', handleRequest R sl (23 :: (word ra ++ word rq ++ word wa ++ word wq ++ [bc] ++ p)) false h =
        (.ok (23 :: UInt8.ofNat (2 * rq.toNat) :: (b.cells ra.toNat rq.toNat).flatMap fun v => word (toWord v)), h') ∧
      StoredIn h h' sl 3 j wa.toNat (Spec.payloadValues sl.unsigned p wq.toNat) ∧ Sound h' sl r := by
  rw [(tables g.refs).2.2.1] at hi hb hj
  obtain ⟨blk, hg, f, h1, h2⟩ := gbo_addressed g.refs.holding hi
  rw [h1] at hb
  cases hb
  obtain ⟨blk2, hg2, f2, h12, h22⟩ := gbo_addressed g.refs.holding hj
  have hl := (g.block (by simp) h22).len
  have hle := f2.le
  have hlen : (23 :: (word ra ++ word rq ++ word wa ++ word wq ++ [bc] ++ p)).length = 10 + p.length := by simp [word_length]; omega
  have hav : regsAvail (23 :: (word ra ++ word rq ++ word wa ++ word wq ++ [bc] ++ p)) 10 0 wq.toNat = wq.toNat := by
    unfold regsAvail; rw [hlen]; omega
  have hvs : (List.range wq.toNat).map (fun k => regAt (regCode sl) (23 :: (word ra ++ word rq ++ word wa ++ word wq ++ [bc] ++ p)) 10 (0 + k)) =
      Spec.payloadValues sl.unsigned p wq.toNat := by
    unfold Spec.payloadValues
    apply List.map_congr_left
    intro k hk
    have := List.mem_range.mp hk
    rw [Nat.zero_add]
    exact regAt_payload sl (pre := 23 :: (word ra ++ word rq ++ word wa ++ word wq ++ [bc])) (by omega)
  have hw := g.setHolding f2 (vs := Spec.payloadValues sl.unsigned p wq.toNat) (by simp [Spec.payloadValues])
  have e : Modbus.slice (23 :: (word ra ++ word rq ++ word wa ++ word wq ++ [bc] ++ p)) 1 10 = word ra ++ word rq ++ word wa ++ word wq ++ [bc] := by simp [Modbus.slice, word]
  refine ⟨_, handleRequest_ok hR (f := readWriteMultipleRegisters R sl) rfl (by simp) ?_, hw.2, hw.1 ?_⟩
  · simp only [readWriteMultipleRegisters, e, structUnpack_HHHHB, PyM.bind_apply, PyM.lift_apply, callHook_quiet hR]
    rw [if_neg (by omega)]
    simp only [PyM.bind_apply, hg, getSlice_eq f.isBlk, (f.slice (g.block (by simp) h2)).1, structPack_single]
    rw [packOne_B (by omega) (by omega)]
    simp only [PyM.lift_apply, packRegsLoop_eq _ (cells_fit g.holdingFits h2 _ _)]
    rw [if_neg (by omega)]
    simp only [PyM.bind_apply, hg2, Int.toNat_natCast]
    rw [writeRegsLoop_eq hR (regCode_size sl) f2.nonneg _ _ _ f2.isBlk (by omega), hav, hvs]
    simp only [if_true, PyM.pure_apply]
    rw [show (2 * (rq.toNat : Int)).toNat = 2 * rq.toNat by omega]
    rfl
  · intro v hv
    simp only [Spec.payloadValues, List.mem_map] at hv
    obtain ⟨k, _, rfl⟩ := hv
    exact ofWord_fits _ _

/-! ### No block contains the range -/

/-- **C81 (refusal).** If no block contains the range, the answer of every function is exception 2 and nothing changes. -/
theorem C81_nowhere (hR : Quiet R) (g : Sound h sl r) (a q v am om : UInt16) (bc : UInt8) (p : Bytes) :
    (∀ fc : UInt8, fc = 1 ∨ fc = 2 → 1 ≤ q.toNat ∧ q.toNat ≤ 2000 → addressed (blocksOf h sl fc.toNat) a.toNat q.toNat = none →
      handleRequest R sl (fc :: (word a ++ word q)) false h = (.ok [fc + 128, 2], h)) ∧
    (∀ fc : UInt8, fc = 3 ∨ fc = 4 → 1 ≤ q.toNat ∧ q.toNat ≤ 125 → addressed (blocksOf h sl fc.toNat) a.toNat q.toNat = none →
      handleRequest R sl (fc :: (word a ++ word q)) false h = (.ok [fc + 128, 2], h)) ∧
    (addressed (blocksOf h sl 1) a.toNat 1 = none → handleRequest R sl (5 :: (word a ++ word v)) false h = (.ok [0x85, 2], h)) ∧
    (addressed (blocksOf h sl 3) a.toNat 1 = none → handleRequest R sl (6 :: (word a ++ word v)) false h = (.ok [0x86, 2], h)) ∧
    (1 ≤ q.toNat ∧ q.toNat ≤ 1968 → bc.toNat = bytesFor q.toNat → addressed (blocksOf h sl 1) a.toNat q.toNat = none →
      handleRequest R sl (15 :: (word a ++ word q ++ [bc] ++ p)) false h = (.ok [0x8f, 2], h)) ∧
    (1 ≤ q.toNat ∧ q.toNat ≤ 123 → bc.toNat = 2 * q.toNat → addressed (blocksOf h sl 3) a.toNat q.toNat = none →
      handleRequest R sl (16 :: (word a ++ word q ++ [bc] ++ p)) false h = (.ok [0x90, 2], h)) ∧
    (addressed (blocksOf h sl 3) a.toNat 1 = none → handleRequest R sl (22 :: (word a ++ word am ++ word om)) false h = (.ok [0x96, 2], h)) := by
  have t := tables g.refs
  have e5 : ∀ fc, Modbus.slice (fc :: (word a ++ word q)) 1 5 = word a ++ word q := by intro fc; simp [Modbus.slice, word]
  have e5v : ∀ fc, Modbus.slice (fc :: (word a ++ word v)) 1 5 = word a ++ word v := by intro fc; simp [Modbus.slice, word]
  have e6 : ∀ fc, Modbus.slice (fc :: (word a ++ word q ++ [bc] ++ p)) 1 6 = word a ++ word q ++ [bc] := by intro fc; simp [Modbus.slice, word]
  have e7 : Modbus.slice (22 :: (word a ++ word am ++ word om)) 1 7 = word a ++ word am ++ word om := by simp [Modbus.slice, word]
  refine ⟨?_, ?_, ?_, ?_, ?_, ?_, ?_⟩
  · intro fc hfc hq hn
    rcases hfc with rfl | rfl
    · rw [show (((1 : UInt8).toNat : Nat) : Int) = 1 from rfl, t.1] at hn
      refine handleRequest_exc hR (fc := 1) (c := 2) (by decide) (f := readCoils R sl) rfl ?_
      simp only [readCoils, readDigital, e5, structUnpack_HH, PyM.bind_apply, PyM.lift_apply, callHook_quiet hR]
      rw [if_neg (by omega)]
      simp only [PyM.bind_apply, gbo_unaddressed g.refs.coils hn]
      rfl
    · rw [show (((2 : UInt8).toNat : Nat) : Int) = 2 from rfl, t.2.1] at hn
      refine handleRequest_exc hR (fc := 2) (c := 2) (by decide) (f := readDiscreteInputs R sl) rfl ?_
      simp only [readDiscreteInputs, readDigital, e5, structUnpack_HH, PyM.bind_apply, PyM.lift_apply, callHook_quiet hR]
      rw [if_neg (by omega)]
      simp only [PyM.bind_apply, gbo_unaddressed g.refs.discrete hn]
      rfl
  · intro fc hfc hq hn
    rcases hfc with rfl | rfl
    · rw [show (((3 : UInt8).toNat : Nat) : Int) = 3 from rfl, t.2.2.1] at hn
      refine handleRequest_exc hR (fc := 3) (c := 2) (by decide) (f := readHoldingRegisters R sl) rfl ?_
      simp only [readHoldingRegisters, readRegisters, e5, structUnpack_HH, PyM.bind_apply, PyM.lift_apply, callHook_quiet hR]
      rw [if_neg (by omega)]
      simp only [PyM.bind_apply, gbo_unaddressed g.refs.holding hn]
      rfl
    · rw [show (((4 : UInt8).toNat : Nat) : Int) = 4 from rfl, t.2.2.2] at hn
      refine handleRequest_exc hR (fc := 4) (c := 2) (by decide) (f := readInputRegisters R sl) rfl ?_
      simp only [readInputRegisters, readRegisters, e5, structUnpack_HH, PyM.bind_apply, PyM.lift_apply, callHook_quiet hR]
      rw [if_neg (by omega)]
      simp only [PyM.bind_apply, gbo_unaddressed g.refs.input hn]
      rfl
  · intro hn
    rw [t.1] at hn
    refine handleRequest_exc hR (fc := 5) (c := 2) (by decide) (f := writeSingleCoil R sl) rfl ?_
    simp only [writeSingleCoil, e5v, structUnpack_HH, PyM.bind_apply, PyM.lift_apply, callHook_quiet hR, gbo_unaddressed g.refs.coils hn]
    rfl
  · intro hn
    rw [t.2.2.1] at hn
    refine handleRequest_exc hR (fc := 6) (c := 2) (by decide) (f := writeSingleRegister R sl) rfl ?_
    simp only [writeSingleRegister, e5v, structUnpack_HReg, PyM.bind_apply, PyM.lift_apply, callHook_quiet hR, gbo_unaddressed g.refs.holding hn]
    rfl
  · intro hq hbc hn
    rw [t.1] at hn
    refine handleRequest_exc hR (fc := 15) (c := 2) (by decide) (f := writeMultipleCoils R sl) rfl ?_
    simp only [writeMultipleCoils, e6, structUnpack_HHB, PyM.bind_apply, PyM.lift_apply, callHook_quiet hR, byteCount_eq]
    rw [if_neg (by omega)]
    simp only [PyM.bind_apply, gbo_unaddressed g.refs.coils hn]
    rfl
  · intro hq hbc hn
    rw [t.2.2.1] at hn
    refine handleRequest_exc hR (fc := 16) (c := 2) (by decide) (f := writeMultipleRegisters R sl) rfl ?_
    simp only [writeMultipleRegisters, e6, structUnpack_HHB, PyM.bind_apply, PyM.lift_apply, callHook_quiet hR]
    rw [if_neg (by omega)]
    simp only [PyM.bind_apply, gbo_unaddressed g.refs.holding hn]
    rfl
  · intro hn
    rw [t.2.2.1] at hn
    refine handleRequest_exc hR (fc := 22) (c := 2) (by decide) (f := maskWriteRegister R sl) rfl ?_
    simp only [maskWriteRegister, e7, structUnpack_HHH, PyM.bind_apply, PyM.lift_apply, callHook_quiet hR, gbo_unaddressed g.refs.holding hn]
    rfl

/-! ### Reading back -/

theorem addressed_of_inBlock {t a n : Int} (hin : InBlock h sl t a n) : ∃ i b, addressed (blocksOf h sl t) a n = some i ∧ (blocksOf h sl t)[i]? = some b ∧ b ∈ blocksOf h sl t ∧
    b.start ≤ a ∧ a + n ≤ b.start + b.size := by
  cases ha : addressed (blocksOf h sl t) a n with
  | some i =>
    obtain ⟨b, h1, h2, _, h4, h5⟩ := findBlock_addressed ha
    exact ⟨i, b, rfl, h1, h2, h4, h5⟩
  | none =>
    unfold addressed at ha
    rw [List.findIdx?_eq_none_iff] at ha
    obtain ⟨b, h1, h2, h3⟩ := hin
    have := ha b h1
    simp only [decide_eq_false_iff_not] at this
    exact absurd ⟨h2, h3⟩ this

theorem addressed_set (L : List Block) {i : Nat} {b c : Block} (hb : L[i]? = some b) (h1 : c.start = b.start) (h2 : c.size = b.size) (x n : Int) :
    addressed (L.set i c) x n = addressed L x n := by
  induction L generalizing i with
  | nil => rfl
  | cons d L ih =>
    cases i with
    | zero =>
      simp only [List.getElem?_cons_zero, Option.some.injEq] at hb
      subst hb
      simp only [addressed, List.set_cons_zero, List.findIdx?_cons, h1, h2]
    | succ i =>
      have := ih (i := i) (by simpa using hb)
      unfold addressed at this ⊢
      simp only [List.set_cons_succ, List.findIdx?_cons, this]

theorem overwritten_cells {b : Block} (hw : b.WF) {a : Int} {vs : List Int} (_ : b.start ≤ a) (h1 : a + vs.length ≤ b.start + b.size) :
    (b.overwritten a vs).cells a vs.length = vs := by
  have h2 := hw.len
  have e : (b.data.take (a - b.start).toNat).length = (a - b.start).toNat := by simp; omega
  unfold Block.cells Block.overwritten
  dsimp only
  rw [List.append_assoc, List.drop_left' e, List.take_left' rfl]

/-- after something was stored, the range is found in the same place and holds it -/
theorem StoredIn.found {h' : Heap} {t : Int} {i : Nat} {a : Int} {vs : List Int} (hs : StoredIn h h' sl t i a vs) (hwf : ∀ b ∈ blocksOf h sl t, b.WF)
    (hi : addressed (blocksOf h sl t) a vs.length = some i) :
    addressed (blocksOf h' sl t) a vs.length = some i ∧ ∃ b, (blocksOf h' sl t)[i]? = some b ∧ b.cells a vs.length = vs := by
  obtain ⟨b, h1, h2⟩ := hs.table
  obtain ⟨c, g1, g2, _, g4, g5⟩ := findBlock_addressed hi
  rw [g1] at h1
  cases h1
  rw [h2]
  refine ⟨by rw [addressed_set _ g1 (c := b.overwritten a vs) rfl rfl, hi], _, ?_, overwritten_cells (hwf _ g2) g4 g5⟩
  have := (List.getElem?_eq_some_iff.mp g1).1
  simp [this]

/-- **C81 (reading back registers).** Whatever the blocks are, overlapping or not: after a write of registers that lie in some block, a read of the same range answers
    exactly the bytes sent. -/
theorem C81_read_back_registers (hR : Quiet R) (g : Sound h sl r) (a q : UInt16) (bc : UInt8) (p : Bytes) (hq : 1 ≤ q.toNat ∧ q.toNat ≤ 123) (hbc : bc.toNat = 2 * q.toNat)
    (hp : p.length = 2 * q.toNat) (hin : InBlock h sl 3 a.toNat q.toNat) :
    ∃ h', handleRequest R sl (16 :: (word a ++ word q ++ [bc] ++ p)) false h = (.ok (16 :: (word a ++ word q)), h') ∧
      handleRequest R sl (3 :: (word a ++ word q)) false h' = (.ok (3 :: bc :: p), h') ∧ Sound h' sl r := by
  obtain ⟨i, b, hi, _⟩ := addressed_of_inBlock hin
  obtain ⟨h', he, hs, g'⟩ := C81_write_registers hR g a q bc p hq hbc hp hi
  have hl : (Spec.payloadValues sl.unsigned p q.toNat).length = q.toNat := by simp [Spec.payloadValues]
  have hwf : ∀ b ∈ blocksOf h sl 3, b.WF := by rw [(tables g.refs).2.2.1]; exact g.wf _ (by simp)
  obtain ⟨h1, b', h2, h3⟩ := hs.found hwf (by rw [hl]; exact hi)
  rw [hl] at h1 h3
  refine ⟨h', he, ?_, g'⟩
  rw [C81_read_registers hR g' 3 (.inl rfl) a q (by omega) h1 h2, h3, ← hbc]
  have e : (Spec.payloadValues sl.unsigned p q.toNat).flatMap (fun v => word (toWord v)) = p := by
    unfold Spec.payloadValues
    rw [List.flatMap_map]
    simp only [toWord_ofWord]
    have := bytes_words p q.toNat hp
    rw [List.flatMap_map] at this
    exact this.symm
  rw [e]
  simp

/-- **C81 (reading back coils).** The same for coils: every bit is the one sent. -/
theorem C81_read_back_coils (hR : Quiet R) (g : Sound h sl r) (a q : UInt16) (bc : UInt8) (p : Bytes) (hq : 1 ≤ q.toNat ∧ q.toNat ≤ 1968) (hbc : bc.toNat = bytesFor q.toNat)
    (hp : p.length = bytesFor q.toNat) (hin : InBlock h sl 1 a.toNat q.toNat) :
    ∃ h' data, handleRequest R sl (15 :: (word a ++ word q ++ [bc] ++ p)) false h = (.ok (15 :: (word a ++ word q)), h') ∧
      handleRequest R sl (1 :: (word a ++ word q)) false h' = (.ok (1 :: bc :: data), h') ∧ data.length = p.length ∧ (∀ k < q.toNat, bitAt data k = bitAt p k) ∧ Sound h' sl r := by
  obtain ⟨i, b, hi, _⟩ := addressed_of_inBlock hin
  obtain ⟨h', he, hs, g'⟩ := C81_write_coils hR g a q bc p hq hbc hp hi
  have hl : (Spec.payloadBits p q.toNat).length = q.toNat := by simp [Spec.payloadBits]
  have hwf : ∀ b ∈ blocksOf h sl 1, b.WF := by rw [(tables g.refs).1]; exact g.wf _ (by simp)
  obtain ⟨h1, b', h2, h3⟩ := hs.found hwf (by rw [hl]; exact hi)
  rw [hl] at h1 h3
  refine ⟨h', packBits ((Spec.payloadBits p q.toNat).map fun v => v != 0), he, ?_, ?_, ?_, g'⟩
  · rw [C81_read_bits hR g' 1 (.inl rfl) a q (by omega) h1 h2, h3, ← hbc]
    simp
  · rw [packBits_length, List.length_map, hl, hp]
  · intro k hk
    rw [bitAt_packBits _ (by simpa [hl] using hk)]
    simp only [Spec.payloadBits, List.getElem_map, List.getElem_range]
    cases bitAt p k <;> rfl

/-- **C81 (reading back one register).** -/
theorem C81_read_back_register (hR : Quiet R) (g : Sound h sl r) (a v : UInt16) (hin : InBlock h sl 3 a.toNat 1) :
    ∃ h', handleRequest R sl (6 :: (word a ++ word v)) false h = (.ok (6 :: (word a ++ word v)), h') ∧
      handleRequest R sl (3 :: (word a ++ word 1)) false h' = (.ok (3 :: 2 :: word v), h') ∧ Sound h' sl r := by
  obtain ⟨i, b, hi, _⟩ := addressed_of_inBlock hin
  obtain ⟨h', he, hs, g'⟩ := C81_write_register hR g a v hi
  have hwf : ∀ b ∈ blocksOf h sl 3, b.WF := by rw [(tables g.refs).2.2.1]; exact g.wf _ (by simp)
  obtain ⟨h1, b', h2, h3⟩ := hs.found hwf hi
  refine ⟨h', he, ?_, g'⟩
  rw [C81_read_registers hR g' 3 (.inl rfl) a 1 (by decide) h1 h2]
  simp only [List.length_singleton] at h3
  have e1 : (1 : UInt16).toNat = 1 := rfl
  rw [e1, h3]
  simp [toWord_ofWord]

end

/-! ### Overlapping blocks -/

/-- the slave of `C02_false`: registers 5..9 are in two blocks -/
def exOverlap : SlaveSt := history (freshSlave true) [.add "A" 3 0 10, .add "B" 3 100 10, .add "C" 3 5 5]

/-- it is an instance of the hypotheses of C81 -/
theorem exOverlap_sound : Sound exOverlap.heap exOverlap.sl ⟨0, 1, 2, 3⟩ := by
  have e : ∀ ref ∈ [0, 1, 2, 3], exOverlap.heap.lists ref = if ref = 2 then [Block.new 5 5, Block.new 100 10, Block.new 0 10] else [] := by decide
  refine ⟨⟨by decide, by decide, by decide, by decide, by decide⟩, ?_, ?_, ?_⟩
  · intro ref hr b hb
    rw [e ref hr] at hb
    split at hb
    · simp only [List.mem_cons, List.not_mem_nil, or_false] at hb
      rcases hb with rfl | rfl | rfl <;> exact ⟨rfl, by decide⟩
    · cases hb
  · rw [show exOverlap.heap.lists 2 = [Block.new 5 5, Block.new 100 10, Block.new 0 10] from e 2 (by simp)]
    intro b hb v hv
    simp only [List.mem_cons, List.not_mem_nil, or_false] at hb
    have : v = 0 := by
      rcases hb with rfl | rfl | rfl <;> exact List.eq_of_mem_replicate hv
    subst this
    decide
  · rw [show exOverlap.heap.lists 3 = [] from e 3 (by simp)]
    intro b hb
    cases hb

/-- **With overlapping blocks a register has several values**: after 7 is written to register 5, register 5 read alone is 7, register 5 read in the range 0..9 is 0. -/
theorem C81_two_values :
    let h' := (handleRequest [] exOverlap.sl [6, 0, 5, 0, 7] false exOverlap.heap).2
    (handleRequest [] exOverlap.sl [3, 0, 5, 0, 1] false h').1 = .ok [3, 2, 0, 7] ∧
    (handleRequest [] exOverlap.sl [3, 0, 0, 0, 10] false h').1 = .ok [3, 20, 0, 0, 0, 0, 0, 0, 0, 0, 0, 0, 0, 0, 0, 0, 0, 0, 0, 0, 0, 0] := by decide +kernel

/-! ### Histories -/

/-- something done with a slave: a block added or removed, values set (under some hooks), a request of any bytes handled (under some hooks, broadcast or not) -/
inductive SlaveOp where
  | blocks (op : BlockOp)
  | setValues (R : Registry) (name : String) (a : Int) (vs : Values)
  | request (R : Registry) (pdu : Bytes) (broadcast : Bool)

/-- the state afterwards, whether or not an exception was raised -/
def SlaveOp.run : SlaveOp → SlaveSt → SlaveSt
  | .blocks op, s => (op.run s).2
  | .setValues R name a vs, s => { s with heap := (Modbus.setValues R name a vs s.sl s.heap).2 }
  | .request R pdu bc, s => { s with heap := (handleRequest R s.sl pdu bc s.heap).2 }

/-- the user sets only values a register can hold; a signed slave gets no mask write -/
def SlaveOp.Decent (unsigned : Bool) : SlaveOp → Prop
  | .blocks _ => True
  | .setValues _ _ _ vs => ∀ v ∈ vs.toList, fits unsigned v
  | .request _ pdu _ => unsigned = true ∨ pdu.head? ≠ some 22

/-- the dictionary is the default one; all blocks are well formed and hold values of the slave's signedness or, in the coils, anything -/
structure LifeInv (u : Bool) (s : SlaveSt) : Prop where
  unsigned : s.sl.unsigned = u
  dict : ∃ a b c d, s.heap.dicts s.sl.mem = [(1, a), (2, b), (3, c), (4, d)] ∧ [a, b, c, d].Nodup ∧ ListFits u (s.heap.lists c) ∧ ListFits u (s.heap.lists d)
  wf : HeapWF s.heap

theorem LifeInv.sound {u : Bool} {s : SlaveSt} (i : LifeInv u s) : ∃ r, Sound s.heap s.sl r := by
  obtain ⟨a, b, c, d, h1, h2, h3, h4⟩ := i.dict
  refine ⟨⟨a, b, c, d⟩, ⟨?_, ?_, ?_, ?_, h2⟩, fun ref _ => i.wf ref, by rw [i.unsigned]; exact h3, by rw [i.unsigned]; exact h4⟩ <;> rw [h1] <;> rfl

theorem listFits_insert {u : Bool} {L : List Block} (hf : ListFits u L) (i : Nat) (start size : Int) : ListFits u (L.insertIdx i (Block.new start size)) := by
  intro b hb v hv
  rcases List.eq_or_mem_of_mem_insertIdx hb with rfl | hb
  · have : v = 0 := List.eq_of_mem_replicate hv
    subst this
    unfold fits
    cases u <;> simp
  · exact hf b hb v hv

theorem slaveOp_step {u : Bool} {s : SlaveSt} (i : LifeInv u s) (op : SlaveOp) (hop : op.Decent u) : LifeInv u (op.run s) := by
  obtain ⟨a, b, c, d, h1, h2, h3, h4⟩ := i.dict
  cases op with
  | blocks op =>
    cases op with
    | add name bt start size =>
      show LifeInv u (addBlock name bt start size s).2
      unfold addBlock
      split
      · exact i
      rename_i hsz
      split
      · exact i
      split
      · exact i
      split
      · exact i
      split
      · exact i
      refine ⟨i.unsigned, ⟨a, b, c, d, h1, h2, ?_, ?_⟩, ?_⟩
      · show ListFits u (if _ then _ else _)
        split
        · rename_i e; rw [← e]; exact listFits_insert h3 _ _ _
        · exact h3
      · show ListFits u (if _ then _ else _)
        split
        · rename_i e; rw [← e]; exact listFits_insert h4 _ _ _
        · exact h4
      · refine heapWF_setList i.wf _ fun blk hb => ?_
        rcases List.eq_or_mem_of_mem_insertIdx hb with rfl | hb
        · exact block_new_wf (by omega)
        · exact i.wf _ _ hb
    | remove name =>
      show LifeInv u (removeBlock name s).2
      unfold removeBlock
      split
      · exact i
      refine ⟨i.unsigned, ⟨a, b, c, d, h1, h2, ?_, ?_⟩, ?_⟩
      · show ListFits u (if _ then _ else _)
        split
        · rename_i e; rw [← e]; exact fun blk hb => h3 blk (List.mem_of_mem_eraseIdx hb)
        · exact h3
      · show ListFits u (if _ then _ else _)
        split
        · rename_i e; rw [← e]; exact fun blk hb => h4 blk (List.mem_of_mem_eraseIdx hb)
        · exact h4
      · exact heapWF_setList i.wf _ fun blk hb => i.wf _ _ (List.mem_of_mem_eraseIdx hb)
    | removeAll =>
      show LifeInv u (removeAllBlocks s).2
      unfold removeAllBlocks
      dsimp only
      rw [h1]
      refine ⟨i.unsigned, ⟨s.heap.nextList, s.heap.nextList + 1, s.heap.nextList + 2, s.heap.nextList + 3, if_pos rfl, ?_, ?_, ?_⟩, ?_⟩
      · simp
      · show ListFits u (if _ then _ else _)
        rw [if_pos ⟨by omega, by simp⟩]
        intro b hb; cases hb
      · show ListFits u (if _ then _ else _)
        rw [if_pos ⟨by omega, by simp⟩]
        intro b hb; cases hb
      · intro ref blk hb
        have hb : blk ∈ if _ then _ else _ := hb
        split at hb
        · cases hb
        · exact i.wf ref blk hb
  | setValues R name x vs =>
    show LifeInv u { s with heap := (Modbus.setValues R name x vs s.sl s.heap).2 }
    have hd := (C16_set_values_shape R name x vs s.sl s.heap i.wf).2
    have hw := keepsWF_setValues R name x vs s.sl s.heap i.wf
    have hfit : ∀ ref, ListFits u (s.heap.lists ref) → ListFits u ((Modbus.setValues R name x vs s.sl s.heap).2.lists ref) := by
      intro ref hf
      cases hs : Modbus.setValues R name x vs s.sl s.heap with
      | mk res h' =>
        cases res with
        | error e => cases setValues_refused hs; exact hf
        | ok _ =>
          obtain ⟨br, blk, _, hb, _, _, he⟩ := setValues_ok hs
          have hb' : (s.heap.lists br.list)[br.idx]? = some blk := hb
          have := he (i.wf _ _ (List.mem_of_getElem? hb'))
          rw [this]
          by_cases hr : ref = br.list
          · subst hr
            show ListFits u ((s.heap.setBlock br _).lists br.list)
            rw [setBlock_lists_same]
            exact listFits_set hf hb' hop
          · show ListFits u ((s.heap.setBlock br _).lists ref)
            rw [setBlock_lists_other _ _ _ hr]
            exact hf
    exact ⟨i.unsigned, ⟨a, b, c, d, by show (Modbus.setValues R name x vs s.sl s.heap).2.dicts _ = _; rw [hd]; exact h1, h2, hfit _ h3, hfit _ h4⟩, hw⟩
  | request R pdu bc =>
    show LifeInv u { s with heap := (handleRequest R s.sl pdu bc s.heap).2 }
    cases pdu with
    | nil => rw [handleRequest_empty]; exact i
    | cons fc rest =>
      have hw := keepsWF_request R s.sl (fc :: rest) bc s.heap i.wf
      rcases (handleRequest_eff (R := R) (sl := s.sl) (h := s.heap) fc rest bc).touch with e | ⟨ref, hd, ht⟩
      · rw [e]; exact i
      · have hr : ref = a ∨ ref = c := by
          have hst : storeTable fc.toNat = 1 ∨ storeTable fc.toNat = 3 := by
            unfold storeTable; split
            · exact .inl rfl
            · exact .inr rfl
          rw [h1] at hd
          rcases hst with hst | hst <;> rw [hst] at hd <;> simp [Dict.get?] at hd
          · exact .inl hd.symm
          · exact .inr hd.symm
        have h2' := h2
        simp only [List.nodup_cons, List.mem_cons, List.not_mem_nil, or_false, not_or, List.nodup_nil, and_true] at h2
        refine ⟨i.unsigned, ⟨a, b, c, d, by show (handleRequest R s.sl (fc :: rest) bc s.heap).2.dicts _ = _; rw [ht.dicts]; exact h1, h2', ?_, ?_⟩, hw⟩
        · show ListFits u ((handleRequest R s.sl (fc :: rest) bc s.heap).2.lists c)
          rcases hr with rfl | rfl
          · rw [ht.other _ (by omega)]; exact h3
          · intro blk hb v hv
            rcases ht.values blk hb v hv with ⟨b0, hb0, hv0⟩ | hV
            · exact h3 b0 hb0 v hv0
            · unfold StoreVal at hV
              split at hV
              · rename_i e22
                have : fc = 22 := u8_ext (by
                  have : (fc.toNat : Int) = 22 := e22
                  show fc.toNat = 22; omega)
                have hu : u = true := by
                  rcases hop with h | h
                  · exact h
                  · subst this; exact absurd rfl h
                unfold Spec.fits; rw [hu]; exact hV
              · split at hV
                · rename_i e
                  exfalso
                  have hst : storeTable fc.toNat = 1 := by unfold storeTable; rw [if_pos e]
                  rw [hst, h1] at hd
                  simp [Dict.get?] at hd
                  omega
                · rw [← i.unsigned]; exact regVal_fits hV
        · show ListFits u ((handleRequest R s.sl (fc :: rest) bc s.heap).2.lists d)
          rw [ht.other _ (by rcases hr with rfl | rfl <;> omega)]; exact h4

/-- **C81 (histories).** Every slave with a default memory, after any history of block operations (overlapping blocks or not), values set and requests of any bytes under any hooks,
    is as C81 assumes; on a signed slave as long as there is no mask write. -/
theorem C81_history (u : Bool) (ops : List SlaveOp) (hops : ∀ op ∈ ops, op.Decent u) : ∃ r, Sound (ops.foldl (fun s op => op.run s) (freshSlave u)).heap
    (ops.foldl (fun s op => op.run s) (freshSlave u)).sl r := by
  have h0 : LifeInv u (freshSlave u) := by
    refine ⟨rfl, ⟨0, 1, 2, 3, rfl, by decide, ?_, ?_⟩, ?_⟩
    · intro b hb; cases hb
    · intro b hb; cases hb
    · intro ref b hb
      have : (freshSlave u).heap.lists ref = [] := by simp [freshSlave, Slave.new, Heap.allocMemory, Heap.empty]
      rw [this] at hb
      cases hb
  suffices ∀ s, LifeInv u s → LifeInv u (ops.foldl (fun s op => op.run s) s) from (this _ h0).sound
  induction ops with
  | nil => exact fun s h => h
  | cons op ops ih => exact fun s h => ih (fun o ho => hops o (by simp [ho])) _ (slaveOp_step h op (hops op (by simp)))

/-- an instance: overlapping blocks, values set through a name, a request with a wrong length, a write -/
example : ∀ op ∈ [SlaveOp.blocks (.add "A" 3 0 10), .blocks (.add "B" 3 100 10), .blocks (.add "C" 3 5 5), .setValues [] "C" 6 (.seq [-1, 300]), .request [] [16, 0, 0, 0, 2, 4, 1] false,
    .request [] [6, 0, 5, 255, 255] false], op.Decent false := by
  intro op h
  simp only [List.mem_cons, List.not_mem_nil, or_false] at h
  rcases h with rfl | rfl | rfl | rfl | rfl | rfl
  · trivial
  · trivial
  · trivial
  · intro v hv
    simp only [Values.toList, List.mem_cons, List.not_mem_nil, or_false] at hv
    rcases hv with rfl | rfl <;> decide
  · exact .inr (by decide)
  · exact .inr (by decide)

end Modbus
