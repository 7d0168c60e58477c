import Verif.Lemmas.Databank
import Verif.Props.Query
import Verif.Props.SlaveSafety
/-
# C18–C22: the databank
-/
namespace Modbus
open Spec (word tcpAdu rtuAdu)

/-! ## Histories of a databank -/

/-- A databank, its heap, the memory dictionaries the user made (for the `memory` argument) and, for every id, the
    `memory` argument the present slave was created with (bookkeeping, not read by the code). -/
structure World where
  st : DbSt
  memories : List Nat
  args : List (Int × Option Nat)

/-- what a user or a client can do -/
inductive DbOp where
  /-- build a new dictionary `{COILS: [], DISCRETE_INPUTS: [], HOLDING_REGISTERS: [], ANALOG_INPUTS: []}` -/
  | newMemory
  /-- `add_slave(id, unsigned, memory)`; a memory is given by its number -/
  | add (id : Int) (unsigned : Bool) (memory : Option Nat)
  | remove (id : Int)
  | removeAll
  /-- a call on the slave object of this id, if there is one -/
  | act (id : Int) (a : SlaveAct)
  /-- a frame received by the server -/
  | frame (mac : Mac) (request : Bytes)

/-- the databank part of `act` -/
def actOn (R : Registry) (id : Int) (a : SlaveAct) (s : DbSt) : DbSt :=
  match Dict.get? s.db.slaves id with
  | none => s
  | some sl =>
    let r := a.run R ⟨sl, s.heap⟩
    { db := { s.db with slaves := Dict.set s.db.slaves id r.sl }, heap := r.heap }

/-- one step -/
def DbOp.step (R : Registry) (w : World) : DbOp → World
  | .newMemory => { w with st := { w.st with heap := w.st.heap.allocMemory.2 },
                           memories := w.memories ++ [w.st.heap.allocMemory.1] }
  | .add id unsigned memory =>
    match memory with
    | some k =>
      match w.memories[k]? with
      | none => w -- no such object
      | some d =>
        let r := addSlave id unsigned (some d) w.st
        match r.1 with
        | .ok _ => { w with st := r.2, args := Dict.set w.args id (some k) }
        | .error _ => { w with st := r.2 }
    | none =>
      let r := addSlave id unsigned none w.st
      match r.1 with
      | .ok _ => { w with st := r.2, args := Dict.set w.args id none }
      | .error _ => { w with st := r.2 }
  | .remove id => { w with st := (removeSlave id w.st).2 }
  | .removeAll => { w with st := (removeAllSlaves w.st).2 }
  | .act id a => { w with st := actOn R id a w.st }
  | .frame mac request => { w with st := { w.st with heap := (dbHandle R mac w.st.db request w.st.heap).2 } }

/-- a new databank -/
def World.new (errorOnMissing : Bool) : World := ⟨⟨⟨[], errorOnMissing⟩, Heap.empty⟩, [], []⟩

def runDb (R : Registry) (w : World) : List DbOp → World
  | [] => w
  | op :: ops => runDb R (op.step R w) ops

/-- the slave registered under an id -/
def World.slave (w : World) (id : Int) : Option Slave := Dict.get? w.st.db.slaves id

structure WorldInv (w : World) : Prop where
  sep : SepHeap w.st.heap
  keys : (w.st.db.slaves.map Prod.fst).Nodup
  bound : ∀ id sl, w.slave id = some sl → sl.mem < w.st.heap.nextDict
  memBound : ∀ d ∈ w.memories, d < w.st.heap.nextDict
  memNodup : w.memories.Nodup
  shared : ∀ id sl k, w.slave id = some sl → Dict.get? w.args id = some (some k) → w.memories[k]? = some sl.mem
  priv : ∀ id sl, w.slave id = some sl → Dict.get? w.args id = some none →
    sl.mem ∉ w.memories ∧ ∀ id' sl', w.slave id' = some sl' → id' ≠ id → sl'.mem ≠ sl.mem
  known : ∀ id sl, w.slave id = some sl → ∃ m, Dict.get? w.args id = some m

theorem worldInv_new (b : Bool) : WorldInv (World.new b) := by
  constructor
  · exact sepHeap_empty
  · exact List.nodup_nil
  all_goals simp [World.new, World.slave, Dict.get?]

theorem sepHeap_alloc {h : Heap} (s : SepHeap h) : SepHeap h.allocMemory.2 := by
  have hin : ∀ r, InDict [(defines.COILS, h.nextList), (defines.DISCRETE_INPUTS, h.nextList + 1),
          (defines.HOLDING_REGISTERS, h.nextList + 2), (defines.ANALOG_INPUTS, h.nextList + 3)] r →
          h.nextList ≤ r ∧ r < h.nextList + 4 := by
    rintro r ⟨bt, hb⟩
    have := get?_mem hb
    simp only [List.mem_cons, Prod.mk.injEq, List.not_mem_nil, or_false] at this
    omega
  constructor
  · intro d r hd hi
    simp only [Heap.allocMemory] at hd hi ⊢
    split at hi
    · have := hin r hi; omega
    · have := s.bound d r (by omega) hi; omega
  · intro d d' r hd hd' hne hi hi'
    simp only [Heap.allocMemory] at hd hd' hi hi'
    split at hi
    · split at hi'
      · omega
      · have := hin r hi; have := s.bound d' r (by omega) hi'; omega
    · split at hi'
      · have := hin r hi'; have := s.bound d r (by omega) hi; omega
      · exact s.disjoint d d' r (by omega) (by omega) hne hi hi'

theorem allocMemory_nextDict (h : Heap) : h.allocMemory.2.nextDict = h.nextDict + 1 := rfl

theorem worldInv_step (R : Registry) {w : World} (hi : WorldInv w) (op : DbOp) : WorldInv (op.step R w) := by
  cases op with
  | newMemory =>
    refine ⟨sepHeap_alloc hi.sep, hi.keys, ?_, ?_, ?_, ?_, ?_, hi.known⟩
    · intro id sl hs
      have := hi.bound id sl hs
      show sl.mem < w.st.heap.nextDict + 1
      omega
    · intro d hd
      show d < w.st.heap.nextDict + 1
      rcases List.mem_append.mp hd with h | h
      · have := hi.memBound d h; omega
      · simp only [List.mem_singleton] at h; subst h; exact Nat.lt_succ_self _
    · show (w.memories ++ [w.st.heap.nextDict]).Nodup
      rw [List.nodup_append]
      refine ⟨hi.memNodup, by simp, ?_⟩
      intro a ha b hb e
      simp only [List.mem_singleton] at hb
      have := hi.memBound a ha
      omega
    · intro id sl k hs ha
      have := hi.shared id sl k hs ha
      show (w.memories ++ _)[k]? = _
      rw [List.getElem?_append_left (List.getElem?_eq_some_iff.mp this).1]
      exact this
    · intro id sl hs ha
      obtain ⟨h1, h2⟩ := hi.priv id sl hs ha
      refine ⟨?_, h2⟩
      intro hm
      rcases List.mem_append.mp hm with h | h
      · exact h1 h
      · simp only [List.mem_singleton] at h
        have hb : sl.mem < w.st.heap.nextDict := hi.bound id sl hs
        have : sl.mem = w.st.heap.nextDict := h
        omega
  | add id u memory =>
    have unchanged : ∀ {e : PyErr} {m : Option Nat}, (addSlave id u m w.st).1 = .error e → (addSlave id u m w.st).2 = w.st := by
      intro e m he
      unfold addSlave at he ⊢
      split
      · rfl
      · split
        · rfl
        · rename_i h1 h2; rw [if_neg h1, if_neg h2] at he; cases he
    have okcase : ∀ {sl : Slave} {m : Option Nat}, (addSlave id u m w.st).1 = .ok sl →
        w.slave id = none ∧ sl = (Slave.new id u m w.st.heap).1 ∧
        (addSlave id u m w.st).2 = { db := { w.st.db with slaves := Dict.set w.st.db.slaves id sl },
                                     heap := (Slave.new id u m w.st.heap).2 } := by
      intro sl m he
      unfold addSlave at he ⊢
      by_cases h1 : id ≤ 0 ∨ id > 255
      · rw [if_pos h1] at he; cases he
      · by_cases h2 : Dict.has w.st.db.slaves id = true
        · rw [if_neg h1, if_pos h2] at he; cases he
        · rw [if_neg h1, if_neg h2] at he ⊢
          dsimp only at he ⊢
          cases he
          refine ⟨?_, rfl, rfl⟩
          have : Dict.has w.st.db.slaves id = false := by simpa using h2
          exact (Dict.has_eq_false_iff _ _).mp this
    cases memory with
    | none =>
      simp only [DbOp.step]
      cases hr : (addSlave id u none w.st).1 with
      | error e => dsimp only; rw [unchanged hr]; exact hi
      | ok sl =>
        dsimp only
        obtain ⟨hnone, hsl, e⟩ := okcase hr
        rw [e]
        have hmem : sl.mem = w.st.heap.nextDict := by rw [hsl]; rfl
        have look : ∀ id', World.slave (World.mk (DbSt.mk { w.st.db with slaves := Dict.set w.st.db.slaves id sl } (Slave.new id u none w.st.heap).2)
            w.memories (Dict.set w.args id none)) id' = if id' = id then some sl else w.slave id' := by
          intro id'; exact Dict.get?_set _ _ _ _
        refine ⟨sepHeap_alloc hi.sep, nodup_set hi.keys _ _, ?_, ?_, hi.memNodup, ?_, ?_, ?_⟩
        · intro id' sl' hs
          rw [look] at hs
          show sl'.mem < w.st.heap.nextDict + 1
          split at hs
          · cases hs; omega
          · have := hi.bound id' sl' hs; omega
        · intro d hd
          have := hi.memBound d hd
          show d < w.st.heap.nextDict + 1
          omega
        · intro id' sl' k hs ha
          rw [look] at hs
          rw [show (World.mk _ _ (Dict.set w.args id none)).args = Dict.set w.args id none from rfl, Dict.get?_set] at ha
          split at hs
          · rename_i e; rw [if_pos e] at ha; cases ha
          · rename_i e; rw [if_neg e] at ha; exact hi.shared id' sl' k hs ha
        · intro id' sl' hs ha
          rw [look] at hs
          rw [show (World.mk _ _ (Dict.set w.args id none)).args = Dict.set w.args id none from rfl, Dict.get?_set] at ha
          split at hs
          · rename_i e'
            cases hs
            subst e'
            refine ⟨fun hm => ?_, ?_⟩
            · have := hi.memBound _ hm; omega
            · intro id2 sl2 hs2 hne
              rw [look, if_neg hne] at hs2
              have := hi.bound id2 sl2 hs2; omega
          · rename_i e'
            rw [if_neg e'] at ha
            obtain ⟨h1, h2⟩ := hi.priv id' sl' hs ha
            refine ⟨h1, ?_⟩
            intro id2 sl2 hs2 hne
            rw [look] at hs2
            split at hs2
            · cases hs2; have := hi.bound id' sl' hs; omega
            · exact h2 id2 sl2 hs2 hne
        · intro id' sl' hs
          rw [look] at hs
          rw [show (World.mk _ _ (Dict.set w.args id none)).args = Dict.set w.args id none from rfl, Dict.get?_set]
          split at hs
          · rename_i e; rw [if_pos e]; exact ⟨_, rfl⟩
          · rename_i e; rw [if_neg e]; exact hi.known id' sl' hs
    | some k =>
      simp only [DbOp.step]
      cases hk : w.memories[k]? with
      | none => exact hi
      | some d =>
        dsimp only
        cases hr : (addSlave id u (some d) w.st).1 with
        | error e => dsimp only; rw [unchanged hr]; exact hi
        | ok sl =>
          dsimp only
          obtain ⟨hnone, hsl, e⟩ := okcase hr
          rw [e]
          have hmem : sl.mem = d := by rw [hsl]; rfl
          have hdm : d ∈ w.memories := List.mem_of_getElem? hk
          have look : ∀ id', World.slave (World.mk (DbSt.mk { w.st.db with slaves := Dict.set w.st.db.slaves id sl } (Slave.new id u (some d) w.st.heap).2)
              w.memories (Dict.set w.args id (some k))) id' = if id' = id then some sl else w.slave id' := by
            intro id'; exact Dict.get?_set _ _ _ _
          refine ⟨hi.sep, nodup_set hi.keys _ _, ?_, hi.memBound, hi.memNodup, ?_, ?_, ?_⟩
          · intro id' sl' hs
            rw [look] at hs
            split at hs
            · cases hs; rw [hmem]; exact hi.memBound d hdm
            · exact hi.bound id' sl' hs
          · intro id' sl' k' hs ha
            rw [look] at hs
            rw [show (World.mk _ _ (Dict.set w.args id (some k))).args = Dict.set w.args id (some k) from rfl, Dict.get?_set] at ha
            split at hs
            · rename_i e; rw [if_pos e] at ha; cases ha; cases hs
              rw [hmem]; exact hk
            · rename_i e; rw [if_neg e] at ha; exact hi.shared id' sl' k' hs ha
          · intro id' sl' hs ha
            rw [look] at hs
            rw [show (World.mk _ _ (Dict.set w.args id (some k))).args = Dict.set w.args id (some k) from rfl, Dict.get?_set] at ha
            split at hs
            · rename_i e'; rw [if_pos e'] at ha; cases ha
            · rename_i e'
              rw [if_neg e'] at ha
              obtain ⟨h1, h2⟩ := hi.priv id' sl' hs ha
              refine ⟨h1, ?_⟩
              intro id2 sl2 hs2 hne
              rw [look] at hs2
              split at hs2
              · cases hs2; intro e2; exact h1 (e2 ▸ hmem ▸ hdm)
              · exact h2 id2 sl2 hs2 hne
          · intro id' sl' hs
            rw [look] at hs
            rw [show (World.mk _ _ (Dict.set w.args id (some k))).args = Dict.set w.args id (some k) from rfl, Dict.get?_set]
            split at hs
            · rename_i e; rw [if_pos e]; exact ⟨_, rfl⟩
            · rename_i e; rw [if_neg e]; exact hi.known id' sl' hs
  | remove id =>
    show WorldInv { w with st := (removeSlave id w.st).2 }
    unfold removeSlave
    split
    · have look : ∀ id' sl', Dict.get? (Dict.erase w.st.db.slaves id) id' = some sl' → w.slave id' = some sl' := by
        intro id' sl' hs
        rw [Dict.get?_erase] at hs
        split at hs
        · cases hs
        · exact hs
      refine ⟨hi.sep, nodup_erase hi.keys id, ?_, hi.memBound, hi.memNodup, ?_, ?_, ?_⟩
      · intro id' sl' hs; exact hi.bound id' sl' (look id' sl' hs)
      · intro id' sl' k hs ha; exact hi.shared id' sl' k (look id' sl' hs) ha
      · intro id' sl' hs ha
        obtain ⟨h1, h2⟩ := hi.priv id' sl' (look id' sl' hs) ha
        exact ⟨h1, fun id2 sl2 hs2 => h2 id2 sl2 (look id2 sl2 hs2)⟩
      · intro id' sl' hs; exact hi.known id' sl' (look id' sl' hs)
    · exact hi
  | removeAll =>
    have none' : ∀ id, World.slave (DbOp.step R w .removeAll) id = none := fun _ => rfl
    refine ⟨hi.sep, List.nodup_nil, ?_, hi.memBound, hi.memNodup, ?_, ?_, ?_⟩
    · intro id sl hs; rw [none'] at hs; cases hs
    · intro id sl k hs ha; rw [none'] at hs; cases hs
    · intro id sl hs ha; rw [none'] at hs; cases hs
    · intro id sl hs; rw [none'] at hs; cases hs
  | act id a =>
    show WorldInv { w with st := actOn R id a w.st }
    unfold actOn
    cases hsl : Dict.get? w.st.db.slaves id with
    | none => exact hi
    | some sl =>
      dsimp only
      obtain ⟨st, same⟩ := act_step R a ⟨sl, w.st.heap⟩
      dsimp only at st same
      generalize a.run R ⟨sl, w.st.heap⟩ = r at *
      have hb := hi.bound id sl hsl
      have look : ∀ id', World.slave (World.mk (DbSt.mk { w.st.db with slaves := Dict.set w.st.db.slaves id r.sl } r.heap) w.memories w.args) id' =
          if id' = id then some r.sl else w.slave id' := by
        intro id'; exact Dict.get?_set _ _ _ _
      -- every slave found afterwards was there with the same memory
      have back : ∀ id' sl', World.slave (World.mk (DbSt.mk { w.st.db with slaves := Dict.set w.st.db.slaves id r.sl } r.heap) w.memories w.args) id' = some sl' →
          ∃ sl0, w.slave id' = some sl0 ∧ sl'.mem = sl0.mem := by
        intro id' sl' hs
        rw [look] at hs
        split at hs
        · rename_i e; cases hs; subst e; exact ⟨sl, hsl, same.mem⟩
        · exact ⟨sl', hs, rfl⟩
      refine ⟨hi.sep.step st hb, nodup_set hi.keys _ _, ?_, ?_, hi.memNodup, ?_, ?_, ?_⟩
      · intro id' sl' hs
        obtain ⟨sl0, h0, e⟩ := back id' sl' hs
        show sl'.mem < r.heap.nextDict
        rw [st.nextDict, e]; exact hi.bound id' sl0 h0
      · intro d hd
        show d < r.heap.nextDict
        rw [st.nextDict]; exact hi.memBound d hd
      · intro id' sl' k hs ha
        obtain ⟨sl0, h0, e⟩ := back id' sl' hs
        rw [e]; exact hi.shared id' sl0 k h0 ha
      · intro id' sl' hs ha
        obtain ⟨sl0, h0, e⟩ := back id' sl' hs
        obtain ⟨h1, h2⟩ := hi.priv id' sl0 h0 ha
        refine ⟨by rw [e]; exact h1, ?_⟩
        intro id2 sl2 hs2 hne
        obtain ⟨sl20, h20, e2⟩ := back id2 sl2 hs2
        rw [e, e2]; exact h2 id2 sl20 h20 hne
      · intro id' sl' hs
        obtain ⟨sl0, h0, _⟩ := back id' sl' hs
        exact hi.known id' sl0 h0
  | frame mac request =>
    have hst := dbHandle_steps R mac w.st.db request w.st.heap
    have hd := hst.dicts
    have sep' : SepHeap (dbHandle R mac w.st.db request w.st.heap).2 := by
      constructor
      · intro d r hdd hin
        rw [hd.1] at hin; rw [hd.2.1] at hdd; rw [hd.2.2]
        exact hi.sep.bound d r hdd hin
      · intro d d' r h1 h2 hne hin hin'
        rw [hd.1] at hin hin'; rw [hd.2.1] at h1 h2
        exact hi.sep.disjoint d d' r h1 h2 hne hin hin'
    refine ⟨sep', hi.keys, ?_, ?_, hi.memNodup, hi.shared, hi.priv, hi.known⟩
    · intro id sl hs
      show sl.mem < (dbHandle R mac w.st.db request w.st.heap).2.nextDict
      rw [hd.2.1]; exact hi.bound id sl hs
    · intro d hdm
      show d < (dbHandle R mac w.st.db request w.st.heap).2.nextDict
      rw [hd.2.1]; exact hi.memBound d hdm

theorem worldInv_run (R : Registry) (ops : List DbOp) {w : World} (hi : WorldInv w) : WorldInv (runDb R w ops) := by
  induction ops generalizing w with
  | nil => exact hi
  | cons op ops ih => exact ih (worldInv_step R hi op)

/-- a databank reached by some history -/
def Reachable (R : Registry) (w : World) : Prop := ∃ b ops, w = runDb R (World.new b) ops

theorem Reachable.inv {R : Registry} {w : World} (h : Reachable R w) : WorldInv w := by
  obtain ⟨b, ops, rfl⟩ := h
  exact worldInv_run R ops (worldInv_new b)

/-! ## C18: isolation -/

/-- the slaves of these two ids were created with the same `memory` object -/
def Share (w : World) (i j : Int) : Prop :=
  ∃ k, Dict.get? w.args i = some (some k) ∧ Dict.get? w.args j = some (some k)

theorem mem_ne {w : World} (hi : WorldInv w) {i j : Int} {si sj : Slave} (h1 : w.slave i = some si)
    (h2 : w.slave j = some sj) (hij : i ≠ j) (hs : ¬ Share w i j) : si.mem ≠ sj.mem := by
  obtain ⟨mi, hmi⟩ := hi.known i si h1
  obtain ⟨mj, hmj⟩ := hi.known j sj h2
  cases mi with
  | none => exact fun e => (hi.priv i si h1 hmi).2 j sj h2 (fun e => hij e.symm) e.symm
  | some k =>
    cases mj with
    | none => exact (hi.priv j sj h2 hmj).2 i si h1 hij
    | some k' =>
      have a := hi.shared i si k h1 hmi
      have b := hi.shared j sj k' h2 hmj
      intro e
      rw [e] at a
      have hlt : k < w.memories.length := (List.getElem?_eq_some_iff.mp a).1
      have hlt' : k' < w.memories.length := (List.getElem?_eq_some_iff.mp b).1
      have ea : w.memories[k] = sj.mem := by rw [List.getElem?_eq_getElem hlt] at a; exact Option.some.inj a
      have eb : w.memories[k'] = sj.mem := by rw [List.getElem?_eq_getElem hlt'] at b; exact Option.some.inj b
      have : k = k' := (List.getElem_inj hi.memNodup).mp (ea.trans eb.symm)
      subst this
      exact hs ⟨k, hmi, hmj⟩

/-- The step does not concern slave `j`: it is not a call on slave `j`, nor on a slave sharing its memory, nor a frame
    addressed to one of those or to everybody, and it does not remove slave `j`. -/
def Foreign (w : World) (j : Int) : DbOp → Prop
  | .newMemory => True
  | .add _ _ _ => True
  | .remove id => id ≠ j
  | .removeAll => False
  | .act id _ => id ≠ j ∧ ¬ Share w id j
  | .frame mac request => ∀ sid pdu, (mac.parseRequest request mac.new).1 = .ok (sid, pdu) →
      sid ≠ 0 ∧ sid ≠ j ∧ ¬ Share w sid j

/-- everything one can ask slave `sl` gives the same answer in both heaps -/
def SameAnswers (R : Registry) (sl : Slave) (h h' : Heap) : Prop :=
  (∀ pdu bc, (handleRequest R sl pdu bc h').1 = (handleRequest R sl pdu bc h).1) ∧
  (∀ name a n, (getValues name a n sl h').1 = (getValues name a n sl h).1) ∧
  (∀ bt, blocksOf h' sl bt = blocksOf h sl bt)

theorem sameAnswers_of_agree {R : Registry} {sl : Slave} {h h' : Heap} (a : Agree sl.mem (h.dicts sl.mem) h h') :
    SameAnswers R sl h h' := by
  refine ⟨fun pdu bc => ?_, fun name x n => ?_, fun bt => ?_⟩
  · exact ((loc_handleRequest rfl pdu bc) h h' a).1.symm
  · exact ((loc_getValues rfl name x n) h h' a).1.symm
  · unfold blocksOf
    rw [a.right]
    cases hb : Dict.get? (h.dicts sl.mem) bt with
    | none => rfl
    | some r => exact (a.lists r ⟨bt, hb⟩).symm

theorem agree_alloc {h : Heap} (s : SepHeap h) {m : Nat} (hm : m < h.nextDict) :
    Agree m (h.dicts m) h h.allocMemory.2 := by
  refine ⟨rfl, ?_, fun r hr => ?_⟩
  · simp only [Heap.allocMemory]; rw [if_neg (by omega)]
  · have := s.bound m r hm hr
    simp only [Heap.allocMemory]; rw [if_neg (by omega)]

/-- **C18.** In every databank reached by any history, a step that does not concern slave `j` leaves it registered and
    leaves the answer to every request and every `get_values` on it unchanged. -/
theorem C18_isolated (R : Registry) (w : World) (hw : Reachable R w) (j : Int) (sj : Slave) (hj : w.slave j = some sj)
    (op : DbOp) (hf : Foreign w j op) :
    (op.step R w).slave j = some sj ∧ SameAnswers R sj w.st.heap (op.step R w).st.heap := by
  have hi := hw.inv
  have hb := hi.bound j sj hj
  have same : SameAnswers R sj w.st.heap w.st.heap := sameAnswers_of_agree .refl
  cases op with
  | newMemory => exact ⟨hj, sameAnswers_of_agree (agree_alloc hi.sep hb)⟩
  | add id u memory =>
    have gen : ∀ m : Option Nat, Dict.get? (addSlave id u m w.st).2.db.slaves j = some sj ∧
        SameAnswers R sj w.st.heap (addSlave id u m w.st).2.heap := by
      intro m
      unfold addSlave
      split
      · exact ⟨hj, same⟩
      · split
        · exact ⟨hj, same⟩
        · rename_i h2
          dsimp only
          have hne : j ≠ id := by
            intro e; subst e
            have : Dict.has w.st.db.slaves j = false := by simpa using h2
            have := (Dict.has_eq_false_iff _ _).mp this
            rw [show w.slave j = _ from this] at hj; cases hj
          rw [Dict.get?_set, if_neg hne]
          refine ⟨hj, ?_⟩
          cases m with
          | none => exact sameAnswers_of_agree (agree_alloc hi.sep hb)
          | some d => exact same
    cases memory with
    | none =>
      have g := gen none
      simp only [DbOp.step]
      split <;> exact g
    | some k =>
      simp only [DbOp.step]
      cases hk : w.memories[k]? with
      | none => exact ⟨hj, same⟩
      | some d =>
        have g := gen (some d)
        dsimp only
        split <;> exact g
  | remove id =>
    simp only [DbOp.step, removeSlave]
    split
    · refine ⟨?_, same⟩
      show Dict.get? (Dict.erase w.st.db.slaves id) j = _
      rw [Dict.get?_erase, if_neg (fun e => hf e.symm)]
      exact hj
    · exact ⟨hj, same⟩
  | removeAll => exact hf.elim
  | act id a =>
    obtain ⟨hne, hns⟩ := hf
    simp only [DbOp.step, actOn]
    cases hsl : Dict.get? w.st.db.slaves id with
    | none => exact ⟨hj, same⟩
    | some sl =>
      dsimp only
      obtain ⟨st, _⟩ := act_step R a ⟨sl, w.st.heap⟩
      refine ⟨?_, ?_⟩
      · show Dict.get? (Dict.set w.st.db.slaves id _) j = _
        rw [Dict.get?_set, if_neg (fun e => hne e.symm)]
        exact hj
      · exact sameAnswers_of_agree (hi.sep.agree st (hi.bound id sl hsl) hb
          (fun e => mem_ne hi hsl hj hne hns e.symm))
  | frame mac request =>
    refine ⟨hj, sameAnswers_of_agree ?_⟩
    cases hp : (mac.parseRequest request mac.new).1 with
    | error e =>
      have : (dbHandle R mac w.st.db request w.st.heap).2 = w.st.heap := by
        unfold dbHandle
        rcases hq : mac.parseRequest request mac.new with ⟨x, q⟩
        rw [hq] at hp
        dsimp only at hp
        subst hp
        exact dbExcept_snd _ _ _ _
      show Agree _ _ _ (dbHandle R mac w.st.db request w.st.heap).2
      rw [this]
      exact .refl
    | ok v =>
    have hst := dbHandle_steps R mac w.st.db request w.st.heap
    refine Steps.agree (hst.mono (Q := fun m => m < w.st.heap.nextDict ∧ m ≠ sj.mem) ?_) hi.sep hb (fun m h => h)
    rintro m ⟨id, sl, hmem, rfl, hid⟩
    have hsl : w.slave id = some sl := get?_of_mem hi.keys hmem
    refine ⟨hi.bound id sl hsl, ?_⟩
    obtain ⟨h0, hj', hns⟩ := hf v.1 v.2 hp
    rcases hid v.1 v.2 hp with h | h
    · exact absurd h h0
    · subst h
      exact mem_ne hi hsl hj hj' hns

/-- **C18.** Slaves created with the same memory object have, in every reachable state, the same blocks with the same
    values; and (if they also have the same signedness) every request to one has the answer and the effect it would have
    on the other — so each sees exactly the other's writes. -/
theorem C18_shared (R : Registry) (w : World) (hw : Reachable R w) (i j : Int) (si sj : Slave)
    (h1 : w.slave i = some si) (h2 : w.slave j = some sj) (hs : Share w i j) :
    (∀ bt, blocksOf w.st.heap si bt = blocksOf w.st.heap sj bt) ∧
    (si.unsigned = sj.unsigned → ∀ pdu bc h, handleRequest R si pdu bc h = handleRequest R sj pdu bc h) := by
  have hi := hw.inv
  obtain ⟨k, ha, hb⟩ := hs
  have e : si.mem = sj.mem := by
    have x := hi.shared i si k h1 ha
    have y := hi.shared j sj k h2 hb
    rw [x] at y
    exact Option.some.inj y
  refine ⟨fun bt => by unfold blocksOf; rw [e], fun hu pdu bc h => ?_⟩
  obtain ⟨id1, u1, n1, m1⟩ := si
  obtain ⟨id2, u2, n2, m2⟩ := sj
  dsimp only at e hu
  subst e hu
  rfl

end Modbus
