import Verif.Props.HookEffects
import Verif.Props.Framing
import Verif.Props.TcpServer
/-
# Property C71: the setitem hook is asked before every write

`modbus.ModbusBlock.setitem` is called with the block, the index and the values before anything is stored in a block; a function that raises
prevents the write.  Stated by its observable effect: if the hooks let only the writes of a set pass, then every cell of every block of every
slave that changes, changes by a write of the set.
-/
namespace Modbus

/-! ## Specification -/

/-- the write `block[i:i+len(vs)] = vs` (or `block[i] = v`) stores `v` in cell `k` -/
def Stores (i : Int) (vs : List Int) (k : Nat) (v : Int) : Prop := i ≤ k ∧ vs[((k : Int) - i).toNat]? = some v

/-- Between the two memories: the same lists of blocks at the same addresses and of the same sizes; every cell holds what it held before or what
    a write in `allowed` (block address, index, values) stores. -/
structure Announced (allowed : Int → Int → List Int → Prop) (h h' : Heap) : Prop where
  dicts : h'.dicts = h.dicts
  shape : ∀ r, (h'.lists r).map (fun b => (b.start, b.size, b.data.length)) = (h.lists r).map (fun b => (b.start, b.size, b.data.length))
  cells : ∀ (r n : Nat) (b b' : Block), (h.lists r)[n]? = some b → (h'.lists r)[n]? = some b' → ∀ (k : Nat) (v : Int), b'.data[k]? = some v →
    b.data[k]? = some v ∨ ∃ i vs, allowed b.start i vs ∧ Stores i vs k v

/-- the hooks let only these writes pass: they raise on every other -/
def Guards (R : Registry) (allowed : Int → Int → List Int → Prop) : Prop :=
  ∀ start i vs r, callHooks R "modbus.ModbusBlock.setitem" (.setitem start i vs) = .ok r → allowed start i vs

/-! ## Every handler -/

variable {allowed : Int → Int → List Int → Prop}

theorem Announced.refl {h : Heap} : Announced allowed h h :=
  ⟨rfl, fun _ => rfl, fun r n b b' e e' k v hv => by rw [e] at e'; cases e'; exact .inl hv⟩

theorem shape_at {f : Block → Int × Int × Nat} {L L' : List Block} (hs : L'.map f = L.map f) {n : Nat} {b' : Block} (hb : L'[n]? = some b') :
    ∃ b, L[n]? = some b ∧ f b = f b' := by
  have h1 : (L'.map f)[n]? = some (f b') := by rw [List.getElem?_map, hb]; rfl
  rw [hs, List.getElem?_map] at h1
  cases hL : L[n]? with
  | none => rw [hL] at h1; cases h1
  | some b => rw [hL] at h1; exact ⟨b, rfl, by simpa using h1⟩

theorem Announced.trans {h1 h2 h3 : Heap} (a : Announced allowed h1 h2) (b : Announced allowed h2 h3) : Announced allowed h1 h3 := by
  refine ⟨b.dicts.trans a.dicts, fun r => (b.shape r).trans (a.shape r), fun r n x z e1 e3 k v hv => ?_⟩
  obtain ⟨y, e2, hy⟩ := shape_at (b.shape r) e3
  rcases b.cells r n y z e2 e3 k v hv with h | ⟨i, vs, h, hs⟩
  · exact a.cells r n x y e1 e2 k v h
  · obtain ⟨x', e1', hx⟩ := shape_at (a.shape r) e2
    rw [e1] at e1'
    cases e1'
    have : x.start = y.start := congrArg (·.1) hx
    exact .inr ⟨i, vs, by rw [this]; exact h, hs⟩

/-- all that a computation changes is announced -/
def Asks {α : Type} (allowed : Int → Int → List Int → Prop) (f : PyM Heap α) : Prop := ∀ h, Announced allowed h (f h).2

theorem Asks.bind {α β : Type} {m : PyM Heap α} {f : α → PyM Heap β} (hm : Asks allowed m) (hf : ∀ a, Asks allowed (f a)) : Asks allowed (m >>= f) := by
  intro h
  have := hm h
  simp only [PyM.bind_apply]
  rcases hx : m h with ⟨x, g⟩
  rw [hx] at this
  cases x with
  | error e => exact this
  | ok a => exact this.trans (hf a g)

theorem Asks.const {α : Type} (x : Except PyErr α) : Asks allowed (fun h => (x, h)) := fun _ => .refl
theorem Asks.pure {α : Type} (a : α) : Asks allowed (Pure.pure a : PyM Heap α) := fun _ => .refl
theorem Asks.raise {α : Type} (e : PyErr) : Asks allowed (PyM.raise e : PyM Heap α) := fun _ => .refl
theorem Asks.lift {α : Type} (x : Except PyErr α) : Asks allowed (PyM.lift x : PyM Heap α) := fun _ => .refl

theorem Asks.reader {α : Type} {m : PyM Heap α} (hs : ∀ h, (m h).2 = h) : Asks allowed m := fun h => by rw [hs]; exact .refl

theorem Asks.tryExcept {α : Type} {m : PyM Heap α} {hd : PyErr → PyM Heap α} (hm : Asks allowed m) (hh : ∀ e, Asks allowed (hd e)) :
    Asks allowed (PyM.tryExcept m hd) := by
  intro h
  have := hm h
  simp only [PyM.tryExcept_apply]
  rcases hx : m h with ⟨x, g⟩
  rw [hx] at this
  cases x with
  | ok a => exact this
  | error e => exact this.trans (hh e g)

theorem asks_callHook (R : Registry) (name : String) (a : HookArg) : Asks allowed (callHook_ R name a) :=
  Asks.bind (Asks.lift _) (fun _ => Asks.pure _)

theorem announced_setBlock {h : Heap} {b : BlockRef} {blk blk' : Block} (hb : h.block? b = some blk) (hs : blk'.start = blk.start)
    (hz : blk'.size = blk.size) (hl : blk'.data.length = blk.data.length)
    (hc : ∀ (k : Nat) (v : Int), blk'.data[k]? = some v → blk.data[k]? = some v ∨ ∃ i vs, allowed blk.start i vs ∧ Stores i vs k v) :
    Announced allowed h (h.setBlock b blk') := by
  have hb' : (h.lists b.list)[b.idx]? = some blk := hb
  refine ⟨rfl, fun r => ?_, fun r n x y e1 e2 k v hv => ?_⟩
  · by_cases hr : r = b.list
    · subst hr
      rw [setBlock_lists_same, List.map_set]
      apply List.ext_getElem?
      intro m
      rw [List.getElem?_set]
      split
      · rename_i he
        subst he
        split
        · rw [List.getElem?_map, hb', hs, hz, hl]; rfl
        · rename_i hn
          rw [List.getElem?_eq_none (by omega)]
      · rfl
    · rw [setBlock_lists_other _ _ _ hr]
  · by_cases hr : r = b.list
    · subst hr
      rw [setBlock_lists_same, List.getElem?_set] at e2
      split at e2
      · rename_i he
        subst he
        rw [hb'] at e1
        cases e1
        split at e2
        · cases e2; exact hc k v hv
        · cases e2
      · rw [e1] at e2; cases e2; exact .inl hv
    · rw [setBlock_lists_other _ _ _ hr, e1] at e2; cases e2; exact .inl hv

theorem asks_setItem {R : Registry} (hg : Guards R allowed) (b : BlockRef) (i v : Int) : Asks allowed (setItem R b i v) := by
  intro h
  unfold setItem
  split
  · rename_i blk hb
    split
    · exact .refl
    · rename_i r hr
      split
      · rename_i hi
        refine announced_setBlock hb rfl rfl (by simp) fun k w hw => ?_
        dsimp only at hw
        rw [List.getElem?_set] at hw
        split at hw
        · rename_i he
          split at hw
          · cases hw
            refine .inr ⟨i, [v], hg _ _ _ _ hr, by omega, ?_⟩
            rw [show ((k : Int) - i).toNat = 0 by omega]
            rfl
          · cases hw
        · exact .inl hw
      · exact .refl
  · exact .refl

/-- a slice inside the block -/
theorem announced_setSlice {R : Registry} (hg : Guards R allowed) (b : BlockRef) {i : Int} {vs : List Int} {h : Heap} {blk : Block}
    (hb : h.block? b = some blk) (h0 : 0 ≤ i) (h1 : i + vs.length ≤ blk.data.length) : Announced allowed h (setSlice R b i vs h).2 := by
  unfold setSlice
  rw [hb]
  dsimp only
  split
  · exact .refl
  · rename_i r hr
    have e1 : sliceBound blk.data.length i = i.toNat := by unfold sliceBound; split <;> omega
    have e2 : sliceBound blk.data.length (i + vs.length) = i.toNat + vs.length := by unfold sliceBound; split <;> omega
    rw [e1, e2]
    have hm : max i.toNat (i.toNat + vs.length) = i.toNat + vs.length := by omega
    rw [hm]
    refine announced_setBlock hb rfl rfl ?_ fun k w hw => ?_
    · simp only [List.length_append, List.length_take, List.length_drop]; omega
    · dsimp only at hw
      rw [List.append_assoc] at hw
      by_cases hk : k < i.toNat
      · rw [List.getElem?_append_left (by simp; omega), List.getElem?_take, if_pos hk] at hw
        exact .inl hw
      · rw [List.getElem?_append_right (by simp; omega), List.length_take, Nat.min_eq_left (by omega)] at hw
        by_cases hk2 : k - i.toNat < vs.length
        · rw [List.getElem?_append_left hk2] at hw
          refine .inr ⟨i, vs, hg _ _ _ _ hr, by omega, ?_⟩
          rw [show ((k : Int) - i).toNat = k - i.toNat by omega]
          exact hw
        · rw [List.getElem?_append_right (by omega), List.getElem?_drop] at hw
          rw [show i.toNat + vs.length + (k - i.toNat - vs.length) = k by omega] at hw
          exact .inl hw

section
variable {R : Registry} (hg : Guards R allowed) {sl : Slave}
include hg

omit hg in
theorem asks_gbo (bt a n : Int) : Asks allowed (getBlockAndOffset sl bt a n) := Asks.reader (gbo_snd sl bt a n)
omit hg in
theorem asks_getSlice (b : BlockRef) (i j : Int) : Asks allowed (getSlice b i j) := Asks.reader (getSlice_snd b i j)
omit hg in
theorem asks_getItem (b : BlockRef) (i : Int) : Asks allowed (getItem b i) := Asks.reader (getItem_snd b i)

omit hg in
theorem asks_readDigital (bt : Int) (pdu : Bytes) : Asks allowed (readDigital sl bt pdu) := by
  refine Asks.bind (Asks.lift _) fun vals => ?_
  split
  · split
    · exact Asks.raise _
    · exact Asks.bind (asks_gbo _ _ _) fun p => Asks.bind (asks_getSlice _ _ _) fun _ => Asks.bind (Asks.lift _) fun _ => Asks.lift _
  · exact Asks.raise _

omit hg in
theorem asks_readRegisters (bt : Int) (pdu : Bytes) : Asks allowed (readRegisters sl bt pdu) := by
  refine Asks.bind (Asks.lift _) fun vals => ?_
  split
  · split
    · exact Asks.raise _
    · exact Asks.bind (asks_gbo _ _ _) fun p => Asks.bind (asks_getSlice _ _ _) fun _ => Asks.bind (Asks.lift _) fun _ => Asks.lift _
  · exact Asks.raise _

theorem asks_writeRegsLoop (b : BlockRef) (c : Code) (off : Int) (pdu : Bytes) (base n i : Nat) (count : Int) :
    Asks allowed (writeRegsLoop R c b off pdu base n i count) := by
  induction n generalizing i count with
  | zero => exact Asks.pure _
  | succ n ih => exact Asks.bind (Asks.lift _) fun v => Asks.bind (asks_setItem hg _ _ _) fun _ => ih _ _

theorem asks_writeCoilsInner (b : BlockRef) (off q bv : Int) (i : Nat) (js : List Nat) (count : Int) :
    Asks allowed (writeCoilsInner R b off q bv i js count) := by
  induction js generalizing count with
  | nil => exact Asks.pure _
  | cons j js ih =>
    unfold writeCoilsInner
    split
    · exact Asks.pure _
    · exact Asks.bind (asks_setItem hg _ _ _) fun _ => ih _

theorem asks_writeCoilsOuter (b : BlockRef) (c : Code) (off q : Int) (pdu : Bytes) (is : List Nat) (count : Int) :
    Asks allowed (writeCoilsOuter R c b off q pdu is count) := by
  induction is generalizing count with
  | nil => exact Asks.pure _
  | cons i is ih =>
    unfold writeCoilsOuter
    split
    · exact Asks.pure _
    · exact Asks.bind (Asks.lift _) fun v => Asks.bind (asks_writeCoilsInner hg _ _ _ _ _ _ _) fun _ => ih _

theorem asks_readWrite (pdu : Bytes) : Asks allowed (readWriteMultipleRegisters R sl pdu) := by
  refine Asks.bind (asks_callHook _ _ _) fun _ => Asks.bind (Asks.lift _) fun vals => ?_
  split
  · split
    · exact Asks.raise _
    · refine Asks.bind (asks_gbo _ _ _) fun p => ?_
      refine Asks.bind (asks_getSlice _ _ _) fun _ => Asks.bind (Asks.lift _) fun _ => Asks.bind (Asks.lift _) fun _ => ?_
      split
      · exact Asks.raise _
      · refine Asks.bind (asks_gbo _ _ _) fun p => ?_
        exact Asks.bind (asks_writeRegsLoop hg _ _ _ _ _ _ _ _) fun _ => Asks.pure _
  · exact Asks.raise _

theorem asks_maskWrite (pdu : Bytes) : Asks allowed (maskWriteRegister R sl pdu) := by
  refine Asks.bind (asks_callHook _ _ _) fun _ => Asks.bind (Asks.lift _) fun vals => ?_
  split
  · refine Asks.bind (asks_gbo _ _ _) fun p => ?_
    exact Asks.bind (asks_getItem _ _) fun _ => Asks.bind (asks_setItem hg _ _ _) fun _ => Asks.pure _
  · exact Asks.raise _

theorem asks_writeMultipleRegisters (pdu : Bytes) : Asks allowed (writeMultipleRegisters R sl pdu) := by
  refine Asks.bind (asks_callHook _ _ _) fun _ => Asks.bind (Asks.lift _) fun vals => ?_
  split
  · split
    · exact Asks.raise _
    · refine Asks.bind (asks_gbo _ _ _) fun p => ?_
      exact Asks.bind (asks_writeRegsLoop hg _ _ _ _ _ _ _ _) fun _ => Asks.lift _
  · exact Asks.raise _

theorem asks_writeMultipleCoils (pdu : Bytes) : Asks allowed (writeMultipleCoils R sl pdu) := by
  refine Asks.bind (asks_callHook _ _ _) fun _ => Asks.bind (Asks.lift _) fun vals => ?_
  split
  · split
    · exact Asks.raise _
    · refine Asks.bind (asks_gbo _ _ _) fun p => ?_
      exact Asks.bind (asks_writeCoilsOuter hg _ _ _ _ _ _ _) fun _ => Asks.lift _
  · exact Asks.raise _

theorem asks_writeSingleRegister (pdu : Bytes) : Asks allowed (writeSingleRegister R sl pdu) := by
  refine Asks.bind (asks_callHook _ _ _) fun _ => Asks.bind (Asks.lift _) fun vals => ?_
  split
  · refine Asks.bind (asks_gbo _ _ _) fun p => ?_
    exact Asks.bind (asks_setItem hg _ _ _) fun _ => Asks.pure _
  · exact Asks.raise _

theorem asks_writeSingleCoil (pdu : Bytes) : Asks allowed (writeSingleCoil R sl pdu) := by
  refine Asks.bind (asks_callHook _ _ _) fun _ => Asks.bind (Asks.lift _) fun vals => ?_
  split
  · refine Asks.bind (asks_gbo _ _ _) fun p => ?_
    obtain ⟨b, off⟩ := p
    dsimp only
    split
    · exact Asks.bind (asks_setItem hg _ _ _) fun _ => Asks.pure _
    · split
      · exact Asks.bind (asks_setItem hg _ _ _) fun _ => Asks.pure _
      · exact Asks.bind (Asks.raise _) fun _ => Asks.pure _
  · exact Asks.raise _

theorem asks_fnCodeMap {fc : Int} {f : Bytes → PyM Heap Bytes} (hf : fnCodeMap R sl fc = some f) (pdu : Bytes) : Asks allowed (f pdu) := by
  unfold fnCodeMap at hf
  repeat' split at hf
  all_goals first | (simp only [Option.some.injEq] at hf; subst hf) | cases hf
  · exact Asks.bind (asks_callHook _ _ _) fun _ => asks_readDigital _ _
  · exact Asks.bind (asks_callHook _ _ _) fun _ => asks_readDigital _ _
  · exact Asks.bind (asks_callHook _ _ _) fun _ => asks_readRegisters _ _
  · exact Asks.bind (asks_callHook _ _ _) fun _ => asks_readRegisters _ _
  · exact Asks.bind (asks_callHook _ _ _) fun _ => Asks.lift _
  · exact asks_writeSingleCoil hg pdu
  · exact asks_writeSingleRegister hg pdu
  · exact asks_writeMultipleCoils hg pdu
  · exact asks_writeMultipleRegisters hg pdu
  · exact asks_maskWrite hg pdu
  · exact asks_readWrite hg pdu

theorem asks_handleRequest (pdu : Bytes) (bc : Bool) : Asks allowed (handleRequest R sl pdu bc) := by
  unfold handleRequest
  split
  · exact Asks.raise _
  · exact Asks.raise _
  · exact Asks.pure _
  · refine Asks.bind (Asks.lift _) fun fc => Asks.tryExcept ?_ fun e => ?_
    · unfold dispatch
      split
      · exact Asks.raise _
      · rename_i f hf
        split
        · exact Asks.raise _
        · refine Asks.bind (asks_fnCodeMap hg hf pdu) fun r => ?_
          split
          · split
            · exact Asks.bind (asks_callHook _ _ _) fun _ => Asks.pure _
            · exact Asks.bind (Asks.lift _) fun _ => Asks.pure _
          · exact Asks.raise _
    · split
      · exact Asks.bind (asks_callHook _ _ _) fun _ => Asks.lift _
      · exact Asks.raise _

end

/-- the sizes of the blocks are right -/
def Sized (h : Heap) : Prop := ∀ r, ∀ b ∈ h.lists r, b.size = b.data.length

theorem announced_setValues {R : Registry} (hg : Guards R allowed) (name : String) (a : Int) (vs : Values) (sl : Slave) {h : Heap} (hs : Sized h) :
    Announced allowed h (setValues R name a vs sl h).2 := by
  have es := getBlock_snd sl name h
  simp only [setValues, PyM.bind_apply]
  rcases hx : getBlock sl name h with ⟨x, g⟩
  rw [hx] at es
  dsimp only at es
  subst es
  cases x with
  | error e => exact .refl
  | ok b =>
    simp only [PyM.get_apply]
    cases hb : g.block? b with
    | none => exact .refl
    | some blk =>
      have hz : blk.size = blk.data.length := hs b.list blk (List.mem_of_getElem? (show (g.lists b.list)[b.idx]? = some blk from hb))
      dsimp only
      cases vs with
      | seq vs =>
        dsimp only
        split
        · exact .refl
        · rename_i hc
          exact announced_setSlice hg b hb (by omega) (by omega)
      | one v =>
        dsimp only
        split
        · exact .refl
        · exact asks_setItem hg _ _ _ g

theorem asks_dbExcept (R : Registry) (pdu : Bytes) (e : PyErr) : Asks allowed (dbExcept R pdu e) := Asks.reader (dbExcept_snd R pdu e)

theorem asks_dbHandle {R : Registry} (hg : Guards R allowed) (mac : Mac) (db : Databank) (request : Bytes) : Asks allowed (dbHandle R mac db request) := by
  have hloop : ∀ pdu L, Asks allowed (broadcastLoop R pdu L) := by
    intro pdu L
    induction L with
    | nil => exact Asks.pure _
    | cons p L ih => obtain ⟨_, sl⟩ := p; exact Asks.bind (asks_handleRequest hg pdu true) fun _ => ih
  unfold dbHandle
  split
  · exact asks_dbExcept _ _ _
  · refine Asks.tryExcept ?_ fun e => asks_dbExcept _ _ _
    unfold dbBody
    split
    · exact Asks.bind (hloop _ _) fun _ => Asks.pure _
    · split
      · split
        · exact Asks.raise _
        · exact Asks.pure _
      · exact Asks.bind (asks_handleRequest hg _ _) fun _ => Asks.bind (Asks.lift _) fun _ => Asks.pure _

/-! ## C71 -/

/-- **C71.** Requests of any bytes handled by a slave: every change is asked for. -/
theorem C71_request (R : Registry) (hg : Guards R allowed) (sl : Slave) (pdu : Bytes) (broadcast : Bool) (h : Heap) :
    Announced allowed h (handleRequest R sl pdu broadcast h).2 := asks_handleRequest hg pdu broadcast h

/-- **C71.** Any bytes arriving at a server of any transport, with any slaves: every change is asked for. -/
theorem C71_server (R : Registry) (hg : Guards R allowed) (mac : Mac) (db : Databank) (request : Bytes) (h : Heap) :
    Announced allowed h (serverHandle R mac db request h).2 :=
  Asks.bind (Asks.lift _) (fun _ => Asks.bind (asks_dbHandle hg mac db _) fun _ => Asks.bind (Asks.lift _) fun _ => Asks.pure _) h

/-- all blocks of all slaves, also of those removed: right size, and every cell satisfies `Q` of its address and value -/
def AllCells (Q : Int → Int → Prop) (h : Heap) : Prop :=
  ∀ r, ∀ b ∈ h.lists r, b.size = b.data.length ∧ ∀ (k : Nat) (v : Int), b.data[k]? = some v → Q (b.start + k) v

theorem AllCells.announced {Q : Int → Int → Prop} (hQ : ∀ start i vs, allowed start i vs → ∀ (k : Nat) (v : Int), Stores i vs k v → Q (start + k) v)
    {h h' : Heap} (ha : AllCells Q h) (hh : Announced allowed h h') : AllCells Q h' := by
  intro r b' hb'
  obtain ⟨n, hn⟩ := List.getElem?_of_mem hb'
  obtain ⟨b, hb, he⟩ := shape_at (hh.shape r) hn
  obtain ⟨h1, h2⟩ := ha r b (List.mem_of_getElem? hb)
  simp only [Prod.mk.injEq] at he
  obtain ⟨e1, e2, e3⟩ := he
  refine ⟨by rw [← e2, h1, e3], fun k v hv => ?_⟩
  rw [← e1]
  rcases hh.cells r n b b' hb hn k v hv with h | ⟨i, vs, h, hs⟩
  · exact h2 k v h
  · exact hQ _ _ _ h k v hs

theorem AllCells.fewer {Q : Int → Int → Prop} {h h' : Heap} (ha : AllCells Q h)
    (hl : ∀ r, ∀ b ∈ h'.lists r, (∃ r', b ∈ h.lists r') ∨ ∃ start size, b = Block.new start size) (h0 : ∀ a, Q a 0) : AllCells Q h' := by
  intro r b hb
  rcases hl r b hb with ⟨r', hb⟩ | ⟨start, size, rfl⟩
  · exact ha r' b hb
  · refine ⟨by simp [Block.new], fun k v hv => ?_⟩
    have : v = 0 := by
      have := List.mem_of_getElem? hv
      simp only [Block.new, List.mem_replicate] at this
      exact this.2
    subst this
    exact h0 _

theorem allCells_block {Q : Int → Int → Prop} (h0 : ∀ a, Q a 0) (op : BlockOp) {s : SlaveSt} (ha : AllCells Q s.heap) : AllCells Q (op.run s).2.heap := by
  rcases hx : op.run s with ⟨x, s'⟩
  cases x with
  | error e => rw [run_error hx]; exact ha
  | ok u =>
    cases op with
    | add name bt start size =>
      obtain ⟨_, _, _, ref, i, hr, _, rfl⟩ := addBlock_ok (show addBlock name bt start size s = _ from hx)
      refine ha.fewer (fun r b hb => ?_) h0
      dsimp only [Heap.setList] at hb
      split at hb
      · rcases List.eq_or_mem_of_mem_insertIdx hb with rfl | h
        · exact .inr ⟨_, _, rfl⟩
        · exact .inl ⟨_, h⟩
      · exact .inl ⟨_, hb⟩
    | remove name =>
      obtain ⟨b, hg, rfl⟩ := removeBlock_ok (show removeBlock name s = _ from hx)
      refine ha.fewer (fun r b' hb => .inl ?_) h0
      dsimp only [Heap.setList] at hb
      split at hb
      · exact ⟨_, List.mem_of_mem_eraseIdx hb⟩
      · exact ⟨_, hb⟩
    | removeAll =>
      have hx' : removeAllBlocks s = (.ok u, s') := hx
      unfold removeAllBlocks at hx'
      cases hx'
      refine ha.fewer (fun r b' hb => .inl ?_) h0
      dsimp only at hb
      split at hb
      · cases hb
      · exact ⟨_, hb⟩

theorem allCells_alloc {Q : Int → Int → Prop} {h : Heap} (ha : AllCells Q h) : AllCells Q h.allocMemory.2 := by
  intro r b hb
  dsimp only [Heap.allocMemory] at hb
  split at hb
  · cases hb
  · exact ha r b hb

theorem allCells_add {Q : Int → Int → Prop} (id : Int) (u : Bool) (m : Option Nat) {s : DbSt} (ha : AllCells Q s.heap) :
    AllCells Q (addSlave id u m s).2.heap := by
  unfold addSlave
  split
  · exact ha
  · split
    · exact ha
    · cases m with
      | none => exact allCells_alloc ha
      | some d => exact ha

theorem allCells_step {R : Registry} (hg : Guards R allowed) {Q : Int → Int → Prop} (h0 : ∀ a, Q a 0)
    (hQ : ∀ start i vs, allowed start i vs → ∀ (k : Nat) (v : Int), Stores i vs k v → Q (start + k) v) (op : DbOp) {w : World}
    (ha : AllCells Q w.st.heap) : AllCells Q (op.step R w).st.heap := by
  cases op with
  | newMemory => exact allCells_alloc ha
  | add id u m =>
    cases m with
    | none =>
      have := allCells_add id u none ha
      dsimp only [DbOp.step]
      split <;> exact this
    | some k =>
      dsimp only [DbOp.step]
      split
      · exact ha
      · rename_i d _
        have := allCells_add id u (some d) ha
        split <;> exact this
  | remove id =>
    show AllCells Q (removeSlave id w.st).2.heap
    unfold removeSlave
    split <;> exact ha
  | removeAll => exact ha
  | act id a =>
    show AllCells Q (actOn R id a w.st).heap
    unfold actOn
    split
    · exact ha
    · rename_i sl _
      dsimp only
      cases a with
      | request pdu bc => exact ha.announced hQ (C71_request R hg sl pdu bc w.st.heap)
      | block op => exact allCells_block h0 op (s := ⟨sl, w.st.heap⟩) ha
      | setValues name a vs => exact ha.announced hQ (announced_setValues hg name a vs sl fun r b hb => (ha r b hb).1)
  | frame mac request => exact ha.announced hQ (asks_dbHandle hg mac w.st.db request w.st.heap)

/-- **C71.** A guard keeps an invariant: if the hooks raise on every write that would store a value not allowed at its address, then after every
    history of calls on the databank, its slaves and their blocks, and of any bytes received by the server, every cell of every block holds an
    allowed value (blocks are created with zeros). -/
theorem C71_invariant (R : Registry) (Q : Int → Int → Prop) (h0 : ∀ a, Q a 0)
    (hg : ∀ start i vs r, callHooks R "modbus.ModbusBlock.setitem" (.setitem start i vs) = .ok r → ∀ (j : Nat) (v : Int), vs[j]? = some v → Q (start + i + j) v)
    (w : World) (hw : Reachable R w) : AllCells Q w.st.heap := by
  obtain ⟨b, ops, rfl⟩ := hw
  have start : AllCells Q (World.new b).st.heap := fun r x hx => by cases hx
  have : ∀ (w : World), AllCells Q w.st.heap → AllCells Q (runDb R w ops).st.heap := by
    induction ops with
    | nil => exact fun w h => h
    | cons op ops ih =>
      intro w h
      refine ih _ (allCells_step (allowed := fun start i vs => ∀ (j : Nat) (v : Int), vs[j]? = some v → Q (start + i + j) v) hg h0 ?_ op h)
      intro start i vs h k v hs
      have := h _ v hs.2
      have e : start + i + (((k : Int) - i).toNat : Int) = start + k := by have := hs.1; omega
      rw [e] at this
      exact this
  exact this _ start

/-- **C71.** `set_values` on any slave of a databank with any history: every change is asked for. -/
theorem C71_set_values (R0 R : Registry) (hg : Guards R allowed) (w : World) (hw : Reachable R0 w) (sl : Slave) (name : String) (address : Int) (values : Values) :
    Announced allowed w.st.heap (setValues R name address values sl w.st.heap).2 :=
  announced_setValues hg name address values sl fun r b hb =>
    (C71_invariant R0 (fun _ _ => True) (fun _ => trivial) (fun _ _ _ _ _ _ _ _ => trivial) w hw r b hb).1

theorem announced_false {h h' : Heap} (ha : Announced (fun _ _ _ => False) h h') (r : Nat) : h'.lists r = h.lists r := by
  have hl : (h'.lists r).length = (h.lists r).length := by have := congrArg List.length (ha.shape r); simpa using this
  apply List.ext_getElem?
  intro n
  cases hn : (h'.lists r)[n]? with
  | none =>
    rw [List.getElem?_eq_none_iff] at hn
    rw [List.getElem?_eq_none (by omega)]
  | some b' =>
    obtain ⟨b, hb, he⟩ := shape_at (ha.shape r) hn
    rw [hb]
    simp only [Prod.mk.injEq] at he
    obtain ⟨e1, e2, e3⟩ := he
    have ed : b'.data = b.data := by
      apply List.ext_getElem?
      intro k
      cases hk : b'.data[k]? with
      | none =>
        rw [List.getElem?_eq_none_iff] at hk
        rw [List.getElem?_eq_none (by omega)]
      | some v =>
        rcases ha.cells r n b b' hb hn k v hk with h | ⟨_, _, h, _⟩
        · exact h.symm
        · exact h.elim
    obtain ⟨a1, a2, a3⟩ := b
    obtain ⟨c1, c2, c3⟩ := b'
    simp_all

/-- **C71.** While a function that always raises is installed (first), nothing a server receives and no `set_values` changes any cell. -/
theorem C71_veto (R : Registry) (hv : ∀ start i vs, ∃ e, callHooks R "modbus.ModbusBlock.setitem" (.setitem start i vs) = .error e) :
    (∀ mac db request h r, (serverHandle R mac db request h).2.lists r = h.lists r) ∧
    (∀ R0 w, Reachable R0 w → ∀ sl name address values r, (setValues R name address values sl w.st.heap).2.lists r = w.st.heap.lists r) := by
  have hg : Guards R (fun _ _ _ => False) := by
    intro start i vs r hr
    obtain ⟨e, he⟩ := hv start i vs
    rw [he] at hr
    cases hr
  exact ⟨fun mac db request h r => announced_false (C71_server R hg mac db request h) r,
    fun R0 w hw sl name a vs r => announced_false (C71_set_values R0 R hg w hw sl name a vs) r⟩

/-! ### instances -/

/-- raises when a value above 100 is to be stored -/
def exLimit : Registry := [("modbus.ModbusBlock.setitem", [⟨0, fun
  | .setitem _ _ vs => if vs.all (· ≤ 100) then .ok none else .error .valueError
  | _ => .ok none⟩])]

theorem exLimit_guards (start i : Int) (vs : List Int) (r : Option Bytes)
    (h : callHooks exLimit "modbus.ModbusBlock.setitem" (.setitem start i vs) = .ok r) : ∀ (j : Nat) (v : Int), vs[j]? = some v → v ≤ 100 := by
  intro j v hv
  by_cases ha : ∀ x ∈ vs, x ≤ 100
  · exact ha v (List.mem_of_getElem? hv)
  · exfalso
    revert h
    simp [callHooks, exLimit, Dict.get?, callLoop, ha]

example (w : World) (hw : Reachable exLimit w) : AllCells (fun _ v => v ≤ 100) w.st.heap :=
  C71_invariant exLimit (fun _ v => v ≤ 100) (fun _ => by decide) exLimit_guards w hw

/-- a slave with 5 registers; a write of 50 and 200 -/
def exLimited : World := runDb exLimit (World.new true)
  [.add 1 true none, .act 1 (.block (.add "a" 3 10 5)), .frame tcpMac [0, 1, 0, 0, 0, 11, 1, 16, 0, 10, 0, 2, 4, 0, 50, 0, 200]]

/-- **A veto does not undo.**  The hook refuses the second register of a request: the first stays written, and the client gets the bare bytes
    `90 04`, which say that the request failed. -/
theorem C71_false_atomic : exLimited.st.heap.lists 2 = [⟨10, [50, 0, 0, 0, 0], 5⟩] ∧
    (dbHandle exLimit tcpMac exLimited.st.db [0, 1, 0, 0, 0, 11, 1, 16, 0, 10, 0, 2, 4, 0, 60, 0, 200] exLimited.st.heap).1 = .ok (some [0x90, 4]) := by
  constructor <;> decide +kernel

/-- a function that raises on every write -/
def exFrozen : Registry := [("modbus.ModbusBlock.setitem", [⟨0, fun _ => .error .valueError⟩])]

example (mac : Mac) (db : Databank) (request : Bytes) (h : Heap) (r : Nat) : (serverHandle exFrozen mac db request h).2.lists r = h.lists r :=
  (C71_veto exFrozen (fun _ _ _ => ⟨_, rfl⟩)).1 mac db request h r

/-- **A KeyError does not veto**: `call_hooks` swallows it (it also means "no function installed"), and the write happens. -/
theorem C71_key_error : (dbHandle [("modbus.ModbusBlock.setitem", [⟨0, fun _ => .error .keyError⟩])] tcpMac exLimited.st.db
    [0, 1, 0, 0, 0, 6, 1, 6, 0, 10, 0, 200] exLimited.st.heap).2.lists 2 = [⟨10, [200, 0, 0, 0, 0], 5⟩] := by decide +kernel

/-- **Installation order matters**: a function that answers before the guard hides the writes from it. -/
theorem C71_hidden : (dbHandle [("modbus.ModbusBlock.setitem", [⟨1, fun _ => .ok (some [])⟩, ⟨0, fun _ => .error .valueError⟩])] tcpMac exLimited.st.db
    [0, 1, 0, 0, 0, 6, 1, 6, 0, 10, 0, 200] exLimited.st.heap).2.lists 2 = [⟨10, [200, 0, 0, 0, 0], 5⟩] := by decide +kernel

end Modbus
