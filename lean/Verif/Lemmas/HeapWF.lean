import Verif.Props.SlaveSafety
import Verif.Lemmas.Databank
/-
# Every operation keeps all blocks well formed (`size` is the length of the data and is positive)
-/
namespace Modbus

def HeapWF (h : Heap) : Prop := ∀ ref, ∀ b ∈ h.lists ref, b.WF

theorem heapWF_empty : HeapWF Heap.empty := by
  intro ref b hb; simp [Heap.empty] at hb

theorem heapWF_of_shape {h h' : Heap} (hw : HeapWF h) (hs : ∀ ref, shape (h'.lists ref) = shape (h.lists ref)) : HeapWF h' := by
  intro ref b hb
  have hm : (b.start, b.size, b.data.length) ∈ shape (h'.lists ref) := List.mem_map.mpr ⟨b, hb, rfl⟩
  rw [hs] at hm
  obtain ⟨c, hc, he⟩ := List.mem_map.mp hm
  simp only [Prod.mk.injEq] at he
  have := hw ref c hc
  exact ⟨by rw [← he.2.1, this.len, he.2.2], by rw [← he.2.1]; exact this.pos⟩

theorem heapWF_alloc {h : Heap} (hw : HeapWF h) : HeapWF h.allocMemory.2 := by
  intro ref b hb
  simp only [Heap.allocMemory] at hb
  split at hb
  · simp at hb
  · exact hw ref b hb

theorem heapWF_slaveNew {h : Heap} (hw : HeapWF h) (id : Int) (u : Bool) (m : Option Nat) : HeapWF (Slave.new id u m h).2 := by
  cases m with
  | none => exact heapWF_alloc hw
  | some d => exact hw

theorem heapWF_setList {h : Heap} (hw : HeapWF h) (r : Nat) {l : List Block} (hl : ∀ b ∈ l, b.WF) : HeapWF (h.setList r l) := by
  intro ref b hb
  simp only [Heap.setList] at hb
  split at hb
  · exact hl b hb
  · exact hw ref b hb

/-- a computation on the heap keeps the blocks well formed -/
def KeepsWF {α : Type} (m : PyM Heap α) : Prop := ∀ h, HeapWF h → HeapWF (m h).2

theorem KeepsWF.pure {α : Type} (a : α) : KeepsWF (Pure.pure a : PyM Heap α) := fun _ hw => hw
theorem KeepsWF.raise {α : Type} (e : PyErr) : KeepsWF (PyM.raise e : PyM Heap α) := fun _ hw => hw
theorem KeepsWF.lift {α : Type} (x : Except PyErr α) : KeepsWF (PyM.lift x : PyM Heap α) := fun _ hw => hw

theorem KeepsWF.bind {α β : Type} {m : PyM Heap α} {f : α → PyM Heap β} (hm : KeepsWF m) (hf : ∀ a, KeepsWF (f a)) :
    KeepsWF (m >>= f) := by
  intro h hw
  simp only [PyM.bind_apply]
  have h1 := hm h hw
  cases hr : m h with
  | mk x h' =>
    rw [hr] at h1
    cases x with
    | error e => exact h1
    | ok a => exact hf a h' h1

theorem KeepsWF.tryExcept {α : Type} {m : PyM Heap α} {f : PyErr → PyM Heap α} (hm : KeepsWF m) (hf : ∀ a, KeepsWF (f a)) :
    KeepsWF (PyM.tryExcept m f) := by
  intro h hw
  simp only [PyM.tryExcept_apply]
  have h1 := hm h hw
  cases hr : m h with
  | mk x h' =>
    rw [hr] at h1
    cases x with
    | error e => exact hf e h' h1
    | ok a => exact h1

theorem keepsWF_request (R : Registry) (sl : Slave) (pdu : Bytes) (bc : Bool) : KeepsWF (handleRequest R sl pdu bc) :=
  fun h hw => heapWF_of_shape hw (C16_request_shape R sl pdu bc h).1

theorem keepsWF_setValues (R : Registry) (name : String) (a : Int) (vs : Values) (sl : Slave) : KeepsWF (setValues R name a vs sl) :=
  fun h hw => heapWF_of_shape hw (C16_set_values_shape R name a vs sl h hw).1

theorem getValues_snd (name : String) (a n : Int) (sl : Slave) (h : Heap) : (getValues name a n sl h).2 = h := by
  simp only [getValues, PyM.bind_apply]
  have h2 := getBlock_snd sl name h
  cases hg : getBlock sl name h with
  | mk y h1 =>
    rw [hg] at h2; simp only at h2; subst h2
    cases y with
    | error e => rfl
    | ok b =>
      simp only [PyM.get_apply]
      cases hb : h1.block? b with
      | none => rfl
      | some blk =>
        simp only
        split
        · rfl
        split
        · simp only [PyM.bind_apply, getItem, hb]
          generalize (if a - blk.start < 0 then none else blk.data[(a - blk.start).toNat]?) = o
          cases o <;> rfl
        · simp only [getSlice, hb]

theorem keepsWF_getValues (name : String) (a n : Int) (sl : Slave) : KeepsWF (getValues name a n sl) :=
  fun h hw => by rw [getValues_snd]; exact hw

theorem keepsWF_broadcast (R : Registry) (pdu : Bytes) (l : List (Int × Slave)) : KeepsWF (broadcastLoop R pdu l) := by
  induction l with
  | nil => exact .pure _
  | cons p l ih =>
    obtain ⟨_, sl⟩ := p
    rw [broadcastLoop]
    exact .bind (keepsWF_request _ _ _ _) fun _ => ih

theorem keepsWF_dbHandle (R : Registry) (mac : Mac) (db : Databank) (request : Bytes) : KeepsWF (dbHandle R mac db request) := by
  have hexc : ∀ pdu e, KeepsWF (dbExcept R pdu e) := by
    intro pdu e
    unfold dbExcept
    split
    · exact .pure _
    · exact .pure _
    · refine .bind (.bind (.lift _) fun _ => .pure _) fun _ => .bind ?_ fun _ => .bind (.lift _) fun _ => .pure _
      split
      · exact .lift _
      · exact .pure _
  unfold dbHandle
  split
  · exact hexc _ _
  · refine .tryExcept ?_ (hexc _)
    unfold dbBody
    split
    · exact .bind (keepsWF_broadcast _ _ _) fun _ => .pure _
    · split
      · split
        · exact .raise _
        · exact .pure _
      · exact .bind (keepsWF_request _ _ _ _) fun _ => .bind (.lift _) fun _ => .pure _

theorem keepsWF_serverHandle (R : Registry) (mac : Mac) (db : Databank) (request : Bytes) :
    KeepsWF (serverHandle R mac db request) := by
  unfold serverHandle
  exact .bind (.lift _) fun _ => .bind (keepsWF_dbHandle _ _ _ _) fun _ => .bind (.lift _) fun _ => .pure _

/-- block management keeps them too -/
theorem heapWF_block (op : BlockOp) (s : SlaveSt) (hw : HeapWF s.heap) : HeapWF (op.run s).2.heap := by
  cases op with
  | add name bt start size =>
    cases hr : addBlock name bt start size s with
    | mk x s' =>
      show HeapWF (addBlock name bt start size s).2.heap
      cases x with
      | error e =>
        have := C03_refused_unchanged hr
        subst this; rw [hr]; exact hw
      | ok u =>
        obtain ⟨hs, h0, hn, ref, i, hrf, hidx, rfl⟩ := addBlock_ok hr
        rw [hr]
        refine heapWF_setList hw _ ?_
        intro b hb
        by_cases hl : i ≤ (s.heap.lists ref).length
        · rcases (List.mem_insertIdx hl).mp hb with rfl | hb
          · exact block_new_wf hs
          · exact hw _ _ hb
        · rw [List.insertIdx_of_length_lt (by omega)] at hb
          exact hw _ _ hb
  | remove name =>
    show HeapWF (removeBlock name s).2.heap
    unfold removeBlock
    split
    · exact hw
    · refine heapWF_setList hw _ fun b hb => hw _ _ (List.mem_of_mem_eraseIdx hb)
  | removeAll =>
    intro ref b hb
    simp only [BlockOp.run, removeAllBlocks] at hb
    split at hb
    · simp at hb
    · exact hw ref b hb

end Modbus
