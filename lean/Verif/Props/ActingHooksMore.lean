import Verif.Props.ActingHooks
import Verif.Props.SignedSlave
/-
# C86, continued: the other functions that write, under hook functions that act
-/
namespace Modbus
open Spec (word toWord ofWord fits bytesFor)

variable {ω : Type} {R : ERegistry ω} {sl : Slave} {s s1 s2 : Heap × ω} {v : Option Bytes}

/-- one assignment inside a block -/
theorem eAssign_one {ref : Nat} {i : Nat} {a : Int} {blk : Block} (f : Found s.1 ref a 1 ⟨ref, i⟩ (a - blk.start) blk) (hwf : blk.size = blk.data.length)
    (hset : KeepsBlocks R) (w : Int) :
    ∃ s' b', eAssign R ⟨ref, i⟩ (a - blk.start) w s = (.ok (), s') ∧ SameBlocks s.1 s'.1 ∧ (s'.1.lists ref)[i]? = some b' ∧ b'.cells a 1 = [w] := by
  have hle := f.le
  have hnn := f.nonneg
  have hcast : a - blk.start = ((a - blk.start).toNat : Nat) := by omega
  obtain ⟨v', t1, hx, hsb⟩ := hset { block := some ⟨ref, i⟩, data := .setitem blk.start ((a - blk.start).toNat : Nat) [w] } s
  obtain ⟨b2, hb2, f1, f2, f3, hass⟩ := eAssign_keeps (bk := ⟨ref, i⟩) f.isBlk (i := (a - blk.start).toNat) (by omega) _ hx hsb
  have hn := block?_setBlock hb2 { b2 with data := b2.data.set (a - blk.start).toNat w }
  refine ⟨(t1.1.setBlock ⟨ref, i⟩ { b2 with data := b2.data.set (a - blk.start).toNat w }, t1.2), _, by rw [hcast]; exact hass, hsb.trans (sameBlocks_set hb2 _ _), hn, ?_⟩
  refine cells_of_cell? hn (vs := [w]) (by dsimp only; omega) ?_
  intro k hk
  have : k = 0 := by simpa using hk
  subst this
  unfold Heap.cell?
  rw [hn]
  simp only [Option.bind_some, f1, Nat.add_zero, List.getElem_cons_zero]
  rw [List.getElem?_set_self (by omega)]

/-- **C86 (one coil).** Whatever the functions called before the assignment change, the coil holds the value of the request afterwards, and the request is answered by an echo. -/
theorem C86_write_coil {r : Refs} (a : UInt16) (on : Bool)
    (h0 : eCallHooks R "modbus.Slave.handle_request" { slave := some sl, data := .msg (5 :: (word a ++ word (if on then 0xff00 else 0))) } s = (.ok none, s1))
    (h1 : eCallHooks R "modbus.Slave.handle_write_single_coil_request" { slave := some sl, data := .msg (5 :: (word a ++ word (if on then 0xff00 else 0))) } s1 = (.ok v, s2))
    (g : Sound s2.1 sl r) {i : Nat} (hi : addressed (blocksOf s2.1 sl 1) a.toNat 1 = some i) (hset : KeepsBlocks R) :
    ∃ s' b', eHandleRequest R sl (5 :: (word a ++ word (if on then 0xff00 else 0))) false s = (.ok (5 :: (word a ++ word (if on then 0xff00 else 0))), s') ∧
      SameBlocks s2.1 s'.1 ∧ (s'.1.lists r.coils)[i]? = some b' ∧ b'.cells a.toNat 1 = [if on then 1 else 0] := by
  rw [(tables g.refs).1] at hi
  obtain ⟨blk, hg, f, hb1, hb2⟩ := gbo_addressed g.refs.coils hi
  have hwf := (g.block (by simp) hb2).len
  obtain ⟨s', b', hass, hs, hb', hc⟩ := eAssign_one (R := R) (a := a.toNat) f hwf hset (if on then 1 else 0)
  refine ⟨s', b', eHandle_ok h0 (f := gWriteSingleCoil (effEnv R sl)) rfl (by simp [word]) ?_, hs, hb', hc⟩
  have e : ∀ w : UInt16, Modbus.slice (5 :: (word a ++ word w)) 1 5 = word a ++ word w := fun w => by simp [Modbus.slice, word]
  unfold gWriteSingleCoil
  rw [PyM.bind_apply]
  unfold Env.hook_
  rw [PyM.bind_apply, show (effEnv R sl).hook "modbus.Slave.handle_write_single_coil_request" _ s1 = (.ok v, s2) from h1]
  show ((PyM.lift (structUnpack (be [Code.H, Code.H]) (slice (5 :: (word a ++ word (if on then 0xff00 else 0))) 1 5)) >>= _ : PyM (Heap × ω) Bytes) s2) = _
  rw [PyM.bind_apply, e, structUnpack_HH]
  dsimp only [PyM.lift_apply]
  rw [PyM.bind_apply,
    show (effEnv R sl).locate defines.COILS a.toNat 1 s2 = (.ok (⟨r.coils, i⟩, (a.toNat : Int) - blk.start), s2) from by
      show ((getBlockAndOffset sl _ _ _ s2.1).1, ((getBlockAndOffset sl _ _ _ s2.1).2, s2.2)) = _
      rw [hg]]
  dsimp only
  cases on
  · rw [if_pos (by decide), PyM.bind_apply, show (effEnv R sl).assign ⟨r.coils, i⟩ _ ((effEnv R sl).cell 0) s2 = _ from hass]
    rfl
  · rw [if_neg (by decide), if_pos (by decide), PyM.bind_apply, show (effEnv R sl).assign ⟨r.coils, i⟩ _ ((effEnv R sl).cell 1) s2 = _ from hass]
    rfl

/-- **C86 (mask write).** The masked value is computed from what the register holds when the request is handled (after the functions installed for the request itself), and this is what it
    holds afterwards: what a function called before the assignment stores in the register is lost, and has no influence on the result. -/
theorem C86_mask_write {r : Refs} (a am om : UInt16)
    (h0 : eCallHooks R "modbus.Slave.handle_request" { slave := some sl, data := .msg (22 :: (word a ++ word am ++ word om)) } s = (.ok none, s1))
    (h1 : eCallHooks R "modbus.Slave.handle_mask_write_register_request" { slave := some sl, data := .msg (22 :: (word a ++ word am ++ word om)) } s1 = (.ok v, s2))
    (g : Sound s2.1 sl r) {i : Nat} {b : Block} (hi : addressed (blocksOf s2.1 sl 3) a.toNat 1 = some i) (hb : (blocksOf s2.1 sl 3)[i]? = some b) (hset : KeepsBlocks R) :
    ∃ cur s' b', b.cells a.toNat 1 = [cur] ∧
      eHandleRequest R sl (22 :: (word a ++ word am ++ word om)) false s = (.ok (22 :: (word a ++ word am ++ word om)), s') ∧
      SameBlocks s2.1 s'.1 ∧ (s'.1.lists r.holding)[i]? = some b' ∧ b'.cells a.toNat 1 = [((Spec.maskWord (toWord cur) am om).toNat : Int)] := by
  rw [(tables g.refs).2.2.1] at hi hb
  obtain ⟨blk, hg, f, hb1, hb2⟩ := gbo_addressed g.refs.holding hi
  rw [hb] at hb1
  cases hb1
  have hwf := (g.block (by simp) hb2).len
  have hle := f.le
  have hnn := f.nonneg
  have hlt : ((a.toNat : Int) - b.start).toNat < b.data.length := by omega
  have hcur : getItem ⟨r.holding, i⟩ ((a.toNat : Int) - b.start) s2.1 = (.ok b.data[((a.toNat : Int) - b.start).toNat], s2.1) := by
    simp only [getItem, f.isBlk, show ¬ (a.toNat : Int) - b.start < 0 by omega, if_false, List.getElem?_eq_getElem hlt]
  have hcells : b.cells a.toNat 1 = [b.data[((a.toNat : Int) - b.start).toNat]] := by
    unfold Block.cells
    rw [List.drop_eq_getElem_cons hlt]
    rfl
  have hcf : fits sl.unsigned b.data[((a.toNat : Int) - b.start).toNat] := g.holdingFits b hb2 _ (List.getElem_mem hlt)
  generalize b.data[((a.toNat : Int) - b.start).toNat] = cur at hcur hcells hcf
  have hval : pyOr (pyAnd cur am.toNat) (pyAnd om.toNat (pyNot am.toNat)) = (Spec.maskWord (toWord cur) am om).toNat := by
    refine maskVal_all ?_ ?_ am om <;> (unfold Spec.fits at hcf; cases hu : sl.unsigned <;> simp [hu] at hcf <;> omega)
  obtain ⟨s', b', hass, hs, hb', hc⟩ := eAssign_one (R := R) (a := a.toNat) f hwf hset ((Spec.maskWord (toWord cur) am om).toNat : Int)
  refine ⟨cur, s', b', hcells, eHandle_ok h0 (f := gMaskWriteRegister (effEnv R sl)) rfl (by simp [word]) ?_, hs, hb', hc⟩
  have e : Modbus.slice (22 :: (word a ++ word am ++ word om)) 1 7 = word a ++ word am ++ word om := by simp [Modbus.slice, word]
  unfold gMaskWriteRegister
  rw [PyM.bind_apply]
  unfold Env.hook_
  rw [PyM.bind_apply, show (effEnv R sl).hook "modbus.Slave.handle_mask_write_register_request" _ s1 = (.ok v, s2) from h1]
  show ((PyM.lift (structUnpack (be [Code.H, Code.H, Code.H]) (slice (22 :: (word a ++ word am ++ word om)) 1 7)) >>= _ : PyM (Heap × ω) Bytes) s2) = _
  rw [PyM.bind_apply, e, structUnpack_HHH]
  dsimp only [PyM.lift_apply]
  rw [PyM.bind_apply,
    show (effEnv R sl).locate defines.HOLDING_REGISTERS a.toNat 1 s2 = (.ok (⟨r.holding, i⟩, (a.toNat : Int) - b.start), s2) from by
      show ((getBlockAndOffset sl _ _ _ s2.1).1, ((getBlockAndOffset sl _ _ _ s2.1).2, s2.2)) = _
      rw [hg]]
  dsimp only
  rw [PyM.bind_apply, show (effEnv R sl).item ⟨r.holding, i⟩ ((a.toNat : Int) - b.start) s2 = (.ok cur, s2) from by
      show ((getItem _ _ s2.1).1, ((getItem _ _ s2.1).2, s2.2)) = _
      rw [hcur]]
  dsimp only
  rw [PyM.bind_apply, show (effEnv R sl).mask cur am.toNat om.toNat = .ok ((Spec.maskWord (toWord cur) am om).toNat : Int) from by
      show Except.ok _ = _
      rw [hval]]
  dsimp only [PyM.lift_apply]
  rw [PyM.bind_apply, show (effEnv R sl).assign ⟨r.holding, i⟩ _ ((effEnv R sl).cell ((Spec.maskWord (toWord cur) am om).toNat : Int)) s2 = _ from hass]
  rfl

/-! ## Several cells -/

/-- the functions called before an assignment do not raise, do not change the layout, and leave the cells `k` with `lo ≤ k < hi` of this block alone -/
def KeepsCells (R : ERegistry ω) (bk : BlockRef) (lo hi : Nat) : Prop :=
  ∀ x s, ∃ v s', eCallHooks R "modbus.ModbusBlock.setitem" x s = (.ok v, s') ∧ SameBlocks s.1 s'.1 ∧ ∀ k, lo ≤ k → k < hi → s'.1.cell? bk k = s.1.cell? bk k

/-- since `h`, the layout has not changed, and the cells `off`, ..., `off + n - 1` hold `val 0`, ..., `val (n - 1)` -/
def StoredUpTo (h : Heap) (bk : BlockRef) (off : Nat) (val : Nat → Int) (n : Nat) (s : Heap × ω) : Prop :=
  SameBlocks h s.1 ∧ ∀ j < n, s.1.cell? bk (off + j) = some (val j)

theorem storedUpTo_step {h : Heap} {bk : BlockRef} {blk : Block} {off q : Nat} {val : Nat → Int} (hb : h.block? bk = some blk) (hle : off + q ≤ blk.data.length)
    (hset : KeepsCells R bk off (off + q)) {n : Nat} {t : Heap × ω} (hn : n < q) (ht : StoredUpTo h bk off val n t) :
    ∃ s', eAssign R bk ((off + n : Nat) : Int) (val n) t = (.ok (), s') ∧ StoredUpTo h bk off val (n + 1) s' := by
  obtain ⟨hs, hc⟩ := ht
  obtain ⟨b1, hb1, e1, e2, e3⟩ := hs.block hb
  obtain ⟨v', t1, hx, hsb, hkeep⟩ := hset { block := some bk, data := .setitem b1.start (off + n : Nat) [val n] } t
  obtain ⟨b2, hb2, f1, f2, f3, hass⟩ := eAssign_keeps hb1 (i := off + n) (by omega) _ hx hsb
  refine ⟨_, hass, (hs.trans hsb).trans (sameBlocks_set hb2 _ _), ?_⟩
  intro k hk
  dsimp only
  unfold Heap.cell?
  rw [block?_setBlock hb2]
  simp only [Option.bind_some]
  by_cases hkn : k = n
  · subst hkn
    rw [List.getElem?_set_self (by omega)]
  · rw [List.getElem?_set_ne (by omega)]
    have h2 := hkeep (off + k) (by omega) (by omega)
    unfold Heap.cell? at h2
    rw [hb2] at h2
    simp only [Option.bind_some] at h2
    rw [h2]
    exact hc k (by omega)

theorem eCoilsInner_inv {c : Code} {bk : BlockRef} {off : Int} {pdu : Bytes} {q i : Nat} {J : Nat → Heap × ω → Prop}
    (hstep : ∀ k s, k < q → J k s → ∃ s', eAssign R bk (off + k) (coilAt c pdu k) s = (.ok (), s') ∧ J (k + 1) s') (m j : Nat) (s : Heap × ω)
    (hm : j + m ≤ 8) (hq : 8 * i + j ≤ q) (hj : J (8 * i + j) s) :
    ∃ s', gWriteCoilsInner (effEnv R sl) bk off q (unpackOne true c (slice pdu (6 + i) (7 + i))) i (List.range' j m) ((8 * i + j : Nat) : Int) s =
      (.ok ((min (8 * i + j + m) q : Nat) : Int), s') ∧ J (min (8 * i + j + m) q) s' := by
  induction m generalizing j s with
  | zero =>
    refine ⟨s, ?_, ?_⟩
    · rw [show min (8 * i + j + 0) q = 8 * i + j by omega]; rfl
    · rw [show min (8 * i + j + 0) q = 8 * i + j by omega]; exact hj
  | succ m ih =>
    rw [List.range'_succ, gWriteCoilsInner]
    by_cases hge : 8 * i + j ≥ q
    · rw [if_pos (by exact_mod_cast hge), show min (8 * i + j + (m + 1)) q = 8 * i + j by omega]
      exact ⟨s, rfl, hj⟩
    · rw [if_neg (by exact_mod_cast hge)]
      obtain ⟨s1, h1, h2⟩ := hstep (8 * i + j) s (by omega) hj
      obtain ⟨s', h3, h4⟩ := ih (j + 1) s1 (by omega) (by omega) h2
      rw [show 8 * i + (j + 1) + m = 8 * i + j + (m + 1) by omega] at h3 h4
      refine ⟨s', ?_, h4⟩
      have h5 : (8 * i + j) / 8 = i := by omega
      have h6 : (8 * i + j) % 8 = j := by omega
      have e : coilAt c pdu (8 * i + j) = if pyBit (unpackOne true c (slice pdu (6 + i) (7 + i))) j then 1 else 0 := by
        unfold coilAt
        rw [h5, h6]
      rw [e, show off + ((8 * i + j : Nat) : Int) = off + (i : Int) * 8 + (j : Int) by push_cast; omega] at h1
      rw [PyM.bind_apply, show (effEnv R sl).assign bk (off + (i : Int) * 8 + (j : Int)) ((effEnv R sl).cell (if pyBit (unpackOne true c (slice pdu (6 + i) (7 + i))) j then 1 else 0)) s =
        (.ok (), s1) from h1]
      dsimp only
      rw [show ((8 * i + j : Nat) : Int) + 1 = ((8 * i + (j + 1) : Nat) : Int) by push_cast; omega]
      exact h3

theorem eCoilsOuter_inv {c : Code} (hc : c.size = 1) {bk : BlockRef} {off : Int} {pdu : Bytes} {q : Nat} {J : Nat → Heap × ω → Prop}
    (hstep : ∀ k s, k < q → J k s → ∃ s', eAssign R bk (off + k) (coilAt c pdu k) s = (.ok (), s') ∧ J (k + 1) s') (m i : Nat) (s : Heap × ω)
    (hm : i + m ≤ pdu.length - 6) (hj : J (min (8 * i) q) s) :
    ∃ s', gWriteCoilsOuter (effEnv R sl) c bk off q pdu (List.range' i m) ((min (8 * i) q : Nat) : Int) s =
      (.ok ((min (8 * (i + m)) q : Nat) : Int), s') ∧ J (min (8 * (i + m)) q) s' := by
  induction m generalizing i s with
  | zero => exact ⟨s, rfl, hj⟩
  | succ m ih =>
    rw [List.range'_succ, gWriteCoilsOuter]
    by_cases hge : min (8 * i) q ≥ q
    · rw [if_pos (by exact_mod_cast hge), show min (8 * (i + (m + 1))) q = min (8 * i) q by omega]
      exact ⟨s, rfl, hj⟩
    · rw [if_neg (by exact_mod_cast hge)]
      have hs := (byteSlice_length pdu i).mpr (by omega)
      rw [PyM.bind_apply, PyM.lift_apply, unpackSingle_ok (c := c) (hs.trans hc.symm)]
      dsimp only
      rw [show min (8 * i) q = 8 * i + 0 by omega] at hj
      obtain ⟨s1, h1, h2⟩ := eCoilsInner_inv (R := R) (sl := sl) (i := i) hstep 8 0 s (by omega) (by omega) hj
      rw [show min (8 * i + 0 + 8) q = min (8 * (i + 1)) q by omega] at h1 h2
      obtain ⟨s', h3, h4⟩ := ih (i + 1) s1 (by omega) h2
      rw [show i + 1 + m = i + (m + 1) by omega] at h3 h4
      refine ⟨s', ?_, h4⟩
      rw [PyM.bind_apply, List.range_eq_range', show min (8 * i) q = 8 * i + 0 by omega, h1]
      exact h3

/-- **C86 (several coils).** The functions called before each assignment of a function-15 request may change everything but the layout and the coils of this request, and do not raise: then
    the request is answered, and its coils hold the bits of the request. -/
theorem C86_write_coils {r : Refs} (a q : UInt16) (bc : UInt8) (p : Bytes)
    (h0 : eCallHooks R "modbus.Slave.handle_request" { slave := some sl, data := .msg (15 :: (word a ++ word q ++ [bc] ++ p)) } s = (.ok none, s1))
    (h1 : eCallHooks R "modbus.Slave.handle_write_multiple_coils_request" { slave := some sl, data := .msg (15 :: (word a ++ word q ++ [bc] ++ p)) } s1 = (.ok v, s2))
    (g : Sound s2.1 sl r) (hq : 1 ≤ q.toNat ∧ q.toNat ≤ 1968) (hbc : bc.toNat = bytesFor q.toNat) (hp : p.length = bytesFor q.toNat) {i : Nat} {blk : Block}
    (hi : addressed (blocksOf s2.1 sl 1) a.toNat q.toNat = some i) (hblk : (blocksOf s2.1 sl 1)[i]? = some blk)
    (hset : KeepsCells R ⟨r.coils, i⟩ ((a.toNat : Int) - blk.start).toNat (((a.toNat : Int) - blk.start).toNat + q.toNat)) :
    ∃ s' b', eHandleRequest R sl (15 :: (word a ++ word q ++ [bc] ++ p)) false s = (.ok (15 :: (word a ++ word q)), s') ∧
      SameBlocks s2.1 s'.1 ∧ (s'.1.lists r.coils)[i]? = some b' ∧ b'.cells a.toNat q.toNat = Spec.payloadBits p q.toNat := by
  rw [(tables g.refs).1] at hi hblk
  obtain ⟨blk', hg, f, hb1, hb2⟩ := gbo_addressed g.refs.coils hi
  rw [hblk] at hb1
  cases hb1
  have hwf := (g.block (by simp) hb2).len
  have hle := f.le
  have hnn := f.nonneg
  have hcs : (if sl.unsigned then Code.B else Code.b).size = 1 := by split <;> rfl
  have hbf : bc.toNat = (q.toNat + 7) / 8 := hbc
  have hpf : p.length = (q.toNat + 7) / 8 := hp
  have hlen : (15 :: (word a ++ word q ++ [bc] ++ p)).length = 6 + p.length := by simp [word_length]; omega
  have e : Modbus.slice (15 :: (word a ++ word q ++ [bc] ++ p)) 1 6 = word a ++ word q ++ [bc] := by simp [Modbus.slice, word]
  obtain ⟨s', hl, hj'⟩ := eCoilsOuter_inv (R := R) (sl := sl) hcs (bk := ⟨r.coils, i⟩) (off := (a.toNat : Int) - blk.start)
    (pdu := 15 :: (word a ++ word q ++ [bc] ++ p)) (q := q.toNat)
    (J := StoredUpTo s2.1 ⟨r.coils, i⟩ ((a.toNat : Int) - blk.start).toNat (coilAt (if sl.unsigned then Code.B else Code.b) (15 :: (word a ++ word q ++ [bc] ++ p))))
    (fun k s hk hJ => by
      have := storedUpTo_step (R := R) (q := q.toNat) f.isBlk (by omega) hset hk hJ
      rwa [show (((((a.toNat : Int) - blk.start).toNat + k : Nat)) : Int) = (a.toNat : Int) - blk.start + k by push_cast; omega] at this)
    bc.toNat 0 s2 (by omega) ⟨SameBlocks.refl, fun j hj => absurd hj (by omega)⟩
  rw [show min (8 * (0 + bc.toNat)) q.toNat = q.toNat by omega] at hl hj'
  obtain ⟨b', hb', e1, e2, e3⟩ := hj'.1.block (b := ⟨r.coils, i⟩) f.isBlk
  refine ⟨s', b', eHandle_ok h0 (f := gWriteMultipleCoils (effEnv R sl)) rfl (by simp [word]) ?_, hj'.1, hb', ?_⟩
  · unfold gWriteMultipleCoils
    rw [PyM.bind_apply]
    unfold Env.hook_
    rw [PyM.bind_apply, show (effEnv R sl).hook "modbus.Slave.handle_write_multiple_coils_request" _ s1 = (.ok v, s2) from h1]
    show ((PyM.lift (structUnpack (be [Code.H, Code.H, Code.B]) (slice (15 :: (word a ++ word q ++ [bc] ++ p)) 1 6)) >>= _ : PyM (Heap × ω) Bytes) s2) = _
    rw [PyM.bind_apply, e, structUnpack_HHB]
    dsimp only [PyM.lift_apply]
    rw [byteCount_eq, if_neg (by unfold bytesFor; omega), PyM.bind_apply,
      show (effEnv R sl).locate defines.COILS a.toNat q.toNat s2 = (.ok (⟨r.coils, i⟩, (a.toNat : Int) - blk.start), s2) from by
        show ((getBlockAndOffset sl _ _ _ s2.1).1, ((getBlockAndOffset sl _ _ _ s2.1).2, s2.2)) = _
        rw [hg]]
    dsimp only
    rw [PyM.bind_apply, show (effEnv R sl).unsigned = sl.unsigned from rfl, Int.toNat_natCast, List.range_eq_range',
      show (0 : Int) = ((min (8 * 0) q.toNat : Nat) : Int) by simp, hl]
    simp only [PyM.lift_apply, structPack_HH]
  · have hln : (Spec.payloadBits p q.toNat).length = q.toNat := by simp [Spec.payloadBits]
    have := cells_of_cell? hb' (a := a.toNat) (vs := Spec.payloadBits p q.toNat) (by omega) (fun k hk => by
      rw [hln] at hk
      rw [e1, hj'.2 k hk]
      rw [show coilAt (if sl.unsigned then Code.B else Code.b) (15 :: (word a ++ word q ++ [bc] ++ p)) k = if Spec.bitAt p k then 1 else 0 from
        coilAt_payload sl.unsigned (pre := 15 :: (word a ++ word q ++ [bc])) (by simp [word_length]) (by omega)]
      simp [Spec.payloadBits])
    rwa [hln] at this

/-- **C86 (reading and writing).** A function-23 request is answered with the values the registers have when it is handled, before anything is stored, whatever the functions called before the
    assignments do to them; the registers written hold the values of the request afterwards. -/
theorem C86_read_write {r : Refs} (ra rq wa wq : UInt16) (bc : UInt8) (p : Bytes)
    (h0 : eCallHooks R "modbus.Slave.handle_request" { slave := some sl, data := .msg (23 :: (word ra ++ word rq ++ word wa ++ word wq ++ [bc] ++ p)) } s = (.ok none, s1))
    (h1 : eCallHooks R "modbus.Slave.handle_read_write_multiple_registers_request" { slave := some sl, data := .msg (23 :: (word ra ++ word rq ++ word wa ++ word wq ++ [bc] ++ p)) } s1 =
      (.ok v, s2))
    (g : Sound s2.1 sl r) (hrq : 1 ≤ rq.toNat ∧ rq.toNat ≤ 125) (hwq : 1 ≤ wq.toNat ∧ wq.toNat ≤ 123) (hbc : bc.toNat = 2 * wq.toNat) (hp : p.length = 2 * wq.toNat)
    {i j : Nat} {b wb : Block} (hi : addressed (blocksOf s2.1 sl 3) ra.toNat rq.toNat = some i) (hb : (blocksOf s2.1 sl 3)[i]? = some b)
    (hj : addressed (blocksOf s2.1 sl 3) wa.toNat wq.toNat = some j) (hwb : (blocksOf s2.1 sl 3)[j]? = some wb)
    (hset : KeepsCells R ⟨r.holding, j⟩ ((wa.toNat : Int) - wb.start).toNat (((wa.toNat : Int) - wb.start).toNat + wq.toNat)) :
    ∃ s' b', eHandleRequest R sl (23 :: (word ra ++ word rq ++ word wa ++ word wq ++ [bc] ++ p)) false s =
        (.ok (23 :: UInt8.ofNat (2 * rq.toNat) :: (b.cells ra.toNat rq.toNat).flatMap fun v => word (toWord v)), s') ∧
      SameBlocks s2.1 s'.1 ∧ (s'.1.lists r.holding)[j]? = some b' ∧ b'.cells wa.toNat wq.toNat = Spec.payloadValues sl.unsigned p wq.toNat := by
  rw [(tables g.refs).2.2.1] at hi hb hj hwb
  obtain ⟨blk, hg, f, hb1, hb2⟩ := gbo_addressed g.refs.holding hi
  rw [hb] at hb1
  cases hb1
  obtain ⟨blk2, hg2, f2, hb12, hb22⟩ := gbo_addressed g.refs.holding hj
  rw [hwb] at hb12
  cases hb12
  have hwf := (g.block (by simp) hb22).len
  have hle := f2.le
  have hnn := f2.nonneg
  have hlen : (23 :: (word ra ++ word rq ++ word wa ++ word wq ++ [bc] ++ p)).length = 10 + p.length := by simp [word_length]; omega
  have e : Modbus.slice (23 :: (word ra ++ word rq ++ word wa ++ word wq ++ [bc] ++ p)) 1 10 = word ra ++ word rq ++ word wa ++ word wq ++ [bc] := by simp [Modbus.slice, word]
  have hat : ∀ k, k < wq.toNat → regAt (regCode sl) (23 :: (word ra ++ word rq ++ word wa ++ word wq ++ [bc] ++ p)) 10 k = ofWord sl.unsigned (Spec.wordAt p k) := fun k hk =>
    regAt_payload sl (pre := 23 :: (word ra ++ word rq ++ word wa ++ word wq ++ [bc])) (by omega)
  obtain ⟨s', hl, hj'⟩ := eRegsLoop_inv (R := R) (sl := sl) (regCode_size sl) (bk := ⟨r.holding, j⟩) (off := (wa.toNat : Int) - wb.start)
    (pdu := 23 :: (word ra ++ word rq ++ word wa ++ word wq ++ [bc] ++ p)) (base := 10) (n := wq.toNat) (by omega)
    (J := StoredUpTo s2.1 ⟨r.holding, j⟩ ((wa.toNat : Int) - wb.start).toNat fun k => ofWord sl.unsigned (Spec.wordAt p k))
    (fun k s hk hJ => by
      have := storedUpTo_step (R := R) (q := wq.toNat) f2.isBlk (by omega) hset hk hJ
      rw [hat k hk]
      rwa [show (((((wa.toNat : Int) - wb.start).toNat + k : Nat)) : Int) = (wa.toNat : Int) - wb.start + k by push_cast; omega] at this)
    wq.toNat 0 0 s2 (by omega) ⟨SameBlocks.refl, fun j hj => absurd hj (by omega)⟩
  obtain ⟨b', hb', e1, e2, e3⟩ := hj'.1.block (b := ⟨r.holding, j⟩) f2.isBlk
  refine ⟨s', b', eHandle_ok h0 (f := gReadWriteMultipleRegisters (effEnv R sl)) rfl (by simp) ?_, hj'.1, hb', ?_⟩
  · unfold gReadWriteMultipleRegisters
    rw [PyM.bind_apply]
    unfold Env.hook_
    rw [PyM.bind_apply, show (effEnv R sl).hook "modbus.Slave.handle_read_write_multiple_registers_request" _ s1 = (.ok v, s2) from h1]
    show ((PyM.lift (structUnpack (be [Code.H, Code.H, Code.H, Code.H, Code.B]) (slice (23 :: (word ra ++ word rq ++ word wa ++ word wq ++ [bc] ++ p)) 1 10)) >>= _ : PyM (Heap × ω) Bytes) s2) = _
    rw [PyM.bind_apply, e, structUnpack_HHHHB]
    dsimp only [PyM.lift_apply]
    rw [if_neg (by omega), PyM.bind_apply,
      show (effEnv R sl).locate defines.HOLDING_REGISTERS ra.toNat rq.toNat s2 = (.ok (⟨r.holding, i⟩, (ra.toNat : Int) - b.start), s2) from by
        show ((getBlockAndOffset sl _ _ _ s2.1).1, ((getBlockAndOffset sl _ _ _ s2.1).2, s2.2)) = _
        rw [hg]]
    dsimp only
    rw [PyM.bind_apply, show (effEnv R sl).slice ⟨r.holding, i⟩ ((ra.toNat : Int) - b.start) ((ra.toNat : Int) - b.start + rq.toNat) s2 = (.ok (b.cells ra.toNat rq.toNat), s2) from by
        show ((getSlice _ _ _ s2.1).1, ((getSlice _ _ _ s2.1).2, s2.2)) = _
        rw [getSlice_eq f.isBlk, (f.slice (g.block (by simp) hb2)).1]]
    dsimp only
    rw [PyM.bind_apply, structPack_single, packOne_B (by omega) (by omega)]
    dsimp only [PyM.lift_apply]
    rw [PyM.bind_apply, show gPackRegs (effEnv R sl).pack (effEnv R sl).regCode (b.cells ra.toNat rq.toNat) [UInt8.ofNat (2 * (rq.toNat : Int)).toNat] = _ from
      (gPackRegs_int (regCode sl) _ _).trans (packRegsLoop_eq _ (cells_fit g.holdingFits hb2 _ _) _)]
    dsimp only [PyM.lift_apply]
    rw [if_neg (by omega), PyM.bind_apply,
      show (effEnv R sl).locate defines.HOLDING_REGISTERS wa.toNat wq.toNat s2 = (.ok (⟨r.holding, j⟩, (wa.toNat : Int) - wb.start), s2) from by
        show ((getBlockAndOffset sl _ _ _ s2.1).1, ((getBlockAndOffset sl _ _ _ s2.1).2, s2.2)) = _
        rw [hg2]]
    dsimp only
    rw [PyM.bind_apply, show (effEnv R sl).regCode = regCode sl from rfl, Int.toNat_natCast, hl]
    rw [show (2 * (rq.toNat : Int)).toNat = 2 * rq.toNat by omega]
    rfl
  · have hln : (Spec.payloadValues sl.unsigned p wq.toNat).length = wq.toNat := by simp [Spec.payloadValues]
    have := cells_of_cell? hb' (a := wa.toNat) (vs := Spec.payloadValues sl.unsigned p wq.toNat) (by omega) (fun k hk => by
      rw [hln] at hk
      rw [e1, hj'.2 k hk]
      simp [Spec.payloadValues])
    rwa [hln] at this

/-! ## Instances -/

/-- coils 0..19, registers 100..109 -/
def exMixed : SlaveSt := history (freshSlave true) [.add "C" 1 0 20, .add "B" 3 100 10]

theorem exMixed_sound : Sound exMixed.heap exMixed.sl ⟨0, 1, 2, 3⟩ := by
  have e : ∀ ref ∈ [0, 1, 2, 3], exMixed.heap.lists ref = if ref = 0 then [Block.new 0 20] else if ref = 2 then [Block.new 100 10] else [] := by decide
  refine ⟨⟨by decide, by decide, by decide, by decide, by decide⟩, ?_, ?_, ?_⟩
  · intro ref hr b hb
    rw [e ref hr] at hb
    split at hb
    · simp only [List.mem_cons, List.not_mem_nil, or_false] at hb
      subst hb; exact ⟨rfl, by decide⟩
    · split at hb
      · simp only [List.mem_cons, List.not_mem_nil, or_false] at hb
        subst hb; exact ⟨rfl, by decide⟩
      · cases hb
  · rw [show exMixed.heap.lists 2 = [Block.new 100 10] from e 2 (by simp)]
    intro b hb v hv
    simp only [List.mem_cons, List.not_mem_nil, or_false] at hb
    subst hb
    have : v = 0 := List.eq_of_mem_replicate hv
    subst this
    decide
  · rw [show exMixed.heap.lists 3 = [] from e 3 (by simp)]
    intro b hb
    cases hb

theorem exMeddling_cells (n : Nat) (bk : BlockRef) (lo hi : Nat) (hn : n < lo ∨ hi ≤ n) : KeepsCells (exMeddling n) bk lo hi := by
  intro x s
  obtain ⟨v, s', h1, h2⟩ := exMeddling_keeps n x s
  refine ⟨v, s', h1, h2, ?_⟩
  intro k k1 k2
  have hk : k ≠ n := by omega
  rcases x with ⟨sl, bl, d⟩
  cases bl with
  | none =>
    have : s' = s := (congrArg Prod.snd h1).symm
    rw [this]
  | some b =>
    have : s' = ((setItem [] b n 99 s.1).2, s.2) := (congrArg Prod.snd h1).symm
    rw [this]
    show Heap.cell? (setItem [] b n 99 s.1).2 bk k = Heap.cell? s.1 bk k
    unfold setItem
    split
    · rename_i blk hb
      split
      · rfl
      · split
        · by_cases hbe : b = bk
          · subst hbe
            unfold Heap.cell?
            rw [block?_setBlock hb, hb]
            simp only [Option.bind_some]
            rw [List.getElem?_set_ne (by simp; omega)]
          · unfold Heap.cell? Heap.block?
            by_cases hbl : b.list = bk.list
            · have hbi : b.idx ≠ bk.idx := fun h => hbe (by cases b; cases bk; simp_all)
              dsimp only
              rw [← hbl, setBlock_lists_same]
              rw [List.getElem?_set_ne hbi]
            · rw [setBlock_lists_other _ _ _ (fun h => hbl h.symm)]
        · rfl
    · rfl

/-- the hypotheses of `C86_write_coil`: a function sets the very coil of the request to 99 before the assignment -/
example : ∃ s' b', eHandleRequest (exMeddling 3) exMixed.sl (5 :: (word 3 ++ word 0xff00)) false (exMixed.heap, ()) = (.ok (5 :: (word 3 ++ word 0xff00)), s') ∧
    SameBlocks exMixed.heap s'.1 ∧ (s'.1.lists 0)[0]? = some b' ∧ b'.cells 3 1 = [1] :=
  C86_write_coil (R := exMeddling 3) (s := (exMixed.heap, ())) 3 true rfl rfl exMixed_sound (i := 0) (by decide) (exMeddling_keeps 3)

/-- the hypotheses of `C86_mask_write`: a function sets the very register of the request to 99; the mask is applied to the 0 that was there before -/
example : ∃ cur s' b', (Block.new 100 10).cells 102 1 = [cur] ∧
    eHandleRequest (exMeddling 2) exMixed.sl (22 :: (word 102 ++ word 0xff ++ word 0x100)) false (exMixed.heap, ()) = (.ok (22 :: (word 102 ++ word 0xff ++ word 0x100)), s') ∧
    SameBlocks exMixed.heap s'.1 ∧ (s'.1.lists 2)[0]? = some b' ∧ b'.cells 102 1 = [((Spec.maskWord (toWord cur) 0xff 0x100).toNat : Int)] :=
  C86_mask_write (R := exMeddling 2) (s := (exMixed.heap, ())) 102 0xff 0x100 rfl rfl exMixed_sound (i := 0) (b := Block.new 100 10) (by decide) (by decide) (exMeddling_keeps 2)

/-- the hypotheses of `C86_write_coils`: coils 3..12 are written while a function sets coil 15 -/
example : ∃ s' b', eHandleRequest (exMeddling 15) exMixed.sl (15 :: (word 3 ++ word 10 ++ [2] ++ [0xcd, 1])) false (exMixed.heap, ()) = (.ok (15 :: (word 3 ++ word 10)), s') ∧
    SameBlocks exMixed.heap s'.1 ∧ (s'.1.lists 0)[0]? = some b' ∧ b'.cells 3 10 = Spec.payloadBits [0xcd, 1] 10 :=
  C86_write_coils (R := exMeddling 15) (s := (exMixed.heap, ())) 3 10 2 [0xcd, 1] rfl rfl exMixed_sound (by decide) (by decide) (by decide) (i := 0) (blk := Block.new 0 20) (by decide) (by decide)
    (exMeddling_cells 15 _ _ _ (.inr (by decide)))

/-- the hypotheses of `C86_read_write`: a function changes register 100 when register 102 is about to be stored; the answer has the 0 that was there before -/
example : ∃ s' b', eHandleRequest (exMeddling 0) exMixed.sl (23 :: (word 100 ++ word 1 ++ word 102 ++ word 1 ++ [2] ++ [0, 7])) false (exMixed.heap, ()) =
      (.ok (23 :: UInt8.ofNat (2 * 1) :: ((Block.new 100 10).cells 100 1).flatMap fun v => word (toWord v)), s') ∧
    SameBlocks exMixed.heap s'.1 ∧ (s'.1.lists 2)[0]? = some b' ∧ b'.cells 102 1 = Spec.payloadValues true [0, 7] 1 :=
  C86_read_write (R := exMeddling 0) (s := (exMixed.heap, ())) 100 1 102 1 2 [0, 7] rfl rfl exMixed_sound (by decide) (by decide) (by decide) (by decide) (i := 0) (j := 0)
    (b := Block.new 100 10) (wb := Block.new 100 10) (by decide) (by decide) (by decide) (by decide) (exMeddling_cells 0 _ _ _ (.inl (by decide)))

/-- run: the answer, and what is in the registers afterwards -/
example : let x := eHandleRequest (exMeddling 0) exMixed.sl [23, 0, 100, 0, 1, 0, 102, 0, 1, 2, 0, 7] false (exMixed.heap, ())
    x.1 = .ok [23, 2, 0, 0] ∧ (handleRequest [] exMixed.sl [3, 0, 100, 0, 3] false x.2.1).1 = .ok [3, 6, 0, 99, 0, 0, 0, 7] := by decide +kernel

end Modbus
