import Verif.Props.Databank
/-
# C18 (examples), C19, C21: the databank as a map of slaves
-/
namespace Modbus
open Spec (word tcpAdu rtuAdu)

/-! ## Examples for C18 -/

/-- a shared memory, slaves 1 and 2 on it, slave 3 with its own memory, one block in each -/
def exWorld : World := runDb [] (World.new true)
  [.newMemory, .add 1 true (some 0), .add 2 true (some 0), .add 3 true none,
   .act 1 (.block (.add "a" 3 10 5)), .act 3 (.block (.add "a" 3 10 5)), .act 3 (.block (.add "c" 1 0 8))]

theorem exWorld_reachable : Reachable [] exWorld := ⟨_, _, rfl⟩

example : exWorld.slave 1 = some ⟨1, true, [("a", (3, 10))], 0⟩ := by decide
example : exWorld.slave 2 = some ⟨2, true, [], 0⟩ := by decide
example : exWorld.slave 3 = some ⟨3, true, [("a", (3, 10)), ("c", (1, 0))], 1⟩ := by decide
-- a write to slave 1 is seen by slave 2 and not by slave 3
example : Foreign exWorld 3 (.act 1 (.request [6, 0, 11, 0, 7] false)) := by
  refine ⟨by decide, ?_⟩
  rintro ⟨k, _, h⟩
  rw [show Dict.get? exWorld.args 3 = some none by decide] at h
  cases h
example : Share exWorld 1 2 := ⟨0, by decide, by decide⟩
example : (let w := (DbOp.act 1 (.request [6, 0, 11, 0, 7] false)).step [] exWorld
    ((handleRequest [] ⟨2, true, [], 0⟩ [3, 0, 11, 0, 1] false w.st.heap).1,
     (handleRequest [] ⟨3, true, [("a", (3, 10))], 1⟩ [3, 0, 11, 0, 1] false w.st.heap).1)) =
    (.ok [3, 2, 0, 7], .ok [3, 2, 0, 0]) := by decide
-- so does a TCP frame to unit 1
example : Foreign exWorld 3 (.frame tcpMac [0, 1, 0, 0, 0, 6, 1, 6, 0, 11, 0, 7]) := by
  intro sid pdu h
  have : (tcpMac.parseRequest [0, 1, 0, 0, 0, 6, 1, 6, 0, 11, 0, 7] tcpMac.new).1 = .ok (1, [6, 0, 11, 0, 7]) := by
    decide
  rw [this] at h
  cases h
  refine ⟨by decide, by decide, ?_⟩
  rintro ⟨k, _, h⟩
  rw [show Dict.get? exWorld.args 3 = some none by decide] at h
  cases h

/-! ## C19 -/

/-- **C19.** `add_slave` accepts exactly the ids 1..255 that are not in use; the error says why; a refused call changes
    nothing. -/
theorem C19_add (id : Int) (u : Bool) (m : Option Nat) (s : DbSt) :
    ((∃ sl, (addSlave id u m s).1 = .ok sl) ↔ 1 ≤ id ∧ id ≤ 255 ∧ (getSlave id s).1 = .error .missingKey) ∧
    (∀ e, (addSlave id u m s).1 = .error e →
      (addSlave id u m s).2 = s ∧
      ((e = .generic ∧ (id < 1 ∨ 255 < id)) ∨
       (e = .duplicatedKey ∧ 1 ≤ id ∧ id ≤ 255 ∧ ∃ sl, (getSlave id s).1 = .ok sl))) := by
  unfold addSlave getSlave
  by_cases h1 : id ≤ 0 ∨ id > 255
  · rw [if_pos h1]
    refine ⟨⟨fun ⟨_, h⟩ => (by cases h), fun h => by omega⟩, fun e he => ?_⟩
    cases he
    exact ⟨rfl, .inl ⟨rfl, by omega⟩⟩
  · rw [if_neg h1]
    cases hg : Dict.get? s.db.slaves id with
    | none =>
      have : Dict.has s.db.slaves id = false := (Dict.has_eq_false_iff _ _).mpr hg
      rw [this]
      rw [if_neg (by decide)]
      exact ⟨⟨fun _ => ⟨by omega, by omega, rfl⟩, fun _ => ⟨_, rfl⟩⟩, fun e he => by cases he⟩
    | some sl =>
      have : Dict.has s.db.slaves id = true := (Dict.has_eq_true_iff _ _).mpr ⟨sl, hg⟩
      rw [if_pos this]
      refine ⟨⟨fun ⟨_, h⟩ => (by cases h), fun ⟨_, _, h⟩ => (by cases h)⟩, fun e he => ?_⟩
      cases he
      exact ⟨rfl, .inr ⟨rfl, by omega, by omega, sl, rfl⟩⟩

/-- **C19.** After an accepted `add_slave(id)`, `get_slave(id)` is the slave it returned, and every other id is as
    before. -/
theorem C19_get_after_add (id : Int) (u : Bool) (m : Option Nat) (s s' : DbSt) (sl : Slave)
    (h : addSlave id u m s = (.ok sl, s')) :
    (getSlave id s').1 = .ok sl ∧ sl.id = id ∧ sl.unsigned = u ∧
    ∀ id', id' ≠ id → (getSlave id' s').1 = (getSlave id' s).1 := by
  unfold addSlave at h
  split at h
  · cases h
  · split at h
    · cases h
    · dsimp only at h
      cases h
      unfold getSlave
      dsimp only
      refine ⟨by rw [Dict.get?_set, if_pos rfl], by cases m <;> rfl, by cases m <;> rfl, fun id' hne => ?_⟩
      rw [Dict.get?_set, if_neg hne]
      cases Dict.get? s.db.slaves id' <;> rfl

/-- **C19.** `remove_slave` succeeds exactly on registered ids and forgets exactly that id; otherwise it raises
    MissingKeyError and changes nothing.  `remove_all_slaves` forgets all.  `get_slave` changes nothing. -/
theorem C19_remove (id : Int) (s : DbSt) :
    ((removeSlave id s).1 = .ok () ↔ ∃ sl, (getSlave id s).1 = .ok sl) ∧
    ((removeSlave id s).1 = .ok () → (getSlave id (removeSlave id s).2).1 = .error .missingKey ∧
      ∀ id', id' ≠ id → (getSlave id' (removeSlave id s).2).1 = (getSlave id' s).1) ∧
    ((removeSlave id s).1 ≠ .ok () → removeSlave id s = (.error .missingKey, s)) ∧
    (∀ id', (getSlave id' (removeAllSlaves s).2).1 = .error .missingKey) ∧ (getSlave id s).2 = s := by
  have get1 : ∀ id (s : DbSt), (getSlave id s).1 = match Dict.get? s.db.slaves id with
      | some sl => .ok sl | none => .error .missingKey := by
    intro id s; unfold getSlave; cases Dict.get? s.db.slaves id <;> rfl
  refine ⟨?_, ?_, ?_, fun _ => rfl, ?_⟩
  · rw [get1]
    unfold removeSlave
    cases hg : Dict.get? s.db.slaves id with
    | none => rw [(Dict.has_eq_false_iff _ _).mpr hg]; simp
    | some sl => rw [(Dict.has_eq_true_iff _ _).mpr ⟨sl, hg⟩]; simp
  · intro h
    unfold removeSlave at h ⊢
    split at h
    · rename_i hh
      rw [if_pos hh]
      refine ⟨by rw [get1, Dict.get?_erase, if_pos rfl], fun id' hne => ?_⟩
      rw [get1, get1, Dict.get?_erase, if_neg hne]
    · cases h
  · intro h
    unfold removeSlave at h ⊢
    split
    · rename_i hh; rw [if_pos hh] at h; exact absurd rfl h
    · rfl
  · unfold getSlave; split <;> rfl

/-- the history as a user understands it: how many memories were made and which ids are registered, with which
    signedness.  (Naming a memory that was never made is not a call.) -/
structure Known where
  memories : Nat
  ids : Int → Option Bool

/-- the effect of a step on what is known -/
def Known.step (k : Known) : DbOp → Known
  | .newMemory => { k with memories := k.memories + 1 }
  | .add id u memory =>
    if 1 ≤ id ∧ id ≤ 255 ∧ k.ids id = none ∧ (∀ i, memory = some i → i < k.memories) then
      { k with ids := fun x => if x = id then some u else k.ids x }
    else k
  | .remove id => { k with ids := fun x => if x = id then none else k.ids x }
  | .removeAll => { k with ids := fun _ => none }
  | .act _ _ => k
  | .frame _ _ => k

theorem known_step (R : Registry) {w : World} {k : Known} (hm : k.memories = w.memories.length)
    (hk : ∀ id, k.ids id = (w.slave id).map (·.unsigned)) (op : DbOp) :
    (k.step op).memories = (op.step R w).memories.length ∧
    ∀ id, (k.step op).ids id = ((op.step R w).slave id).map (·.unsigned) := by
  cases op with
  | newMemory => exact ⟨by simp [Known.step, DbOp.step, hm], hk⟩
  | add id u memory =>
    have gen : ∀ (m : Option Nat) (a : List (Int × Option Nat)),
        ∀ x, (if 1 ≤ id ∧ id ≤ 255 ∧ k.ids id = none then fun x => if x = id then some u else k.ids x else k.ids) x =
          (Dict.get? (addSlave id u m w.st).2.db.slaves x).map (·.unsigned) := by
      intro m a x
      have h19 := C19_add id u m w.st
      have hid : k.ids id = none ↔ (getSlave id w.st).1 = .error .missingKey := by
        rw [hk, World.slave]; unfold getSlave
        cases Dict.get? w.st.db.slaves id <;> simp
      by_cases hc : 1 ≤ id ∧ id ≤ 255 ∧ k.ids id = none
      · rw [if_pos hc]
        obtain ⟨sl, hsl⟩ := h19.1.mpr ⟨hc.1, hc.2.1, hid.mp hc.2.2⟩
        have hsl' : addSlave id u m w.st = (.ok sl, (addSlave id u m w.st).2) := by rw [← hsl]
        obtain ⟨g1, _, g3, g4⟩ := C19_get_after_add _ _ _ _ _ _ hsl'
        by_cases hx : x = id
        · subst hx
          rw [if_pos rfl]
          unfold getSlave at g1
          cases hg : Dict.get? (addSlave x u m w.st).2.db.slaves x with
          | none => rw [hg] at g1; cases g1
          | some sl' => rw [hg] at g1; cases g1; simp [g3]
        · rw [if_neg hx]
          have := g4 x hx
          rw [hk, World.slave]
          unfold getSlave at this
          cases h1 : Dict.get? (addSlave id u m w.st).2.db.slaves x <;> cases h2 : Dict.get? w.st.db.slaves x <;>
            rw [h1, h2] at this <;> cases this <;> rfl
      · rw [if_neg hc]
        have : ∃ e, (addSlave id u m w.st).1 = .error e := by
          cases he : (addSlave id u m w.st).1 with
          | error e => exact ⟨e, rfl⟩
          | ok sl =>
            obtain ⟨a, b, c⟩ := h19.1.mp ⟨sl, he⟩
            exact absurd ⟨a, b, hid.mpr c⟩ hc
        obtain ⟨e, he⟩ := this
        rw [(h19.2 e he).1]
        exact hk x
    cases memory with
    | none =>
      have g := gen none []
      have e1 : (k.step (.add id u none)).ids =
          if 1 ≤ id ∧ id ≤ 255 ∧ k.ids id = none then fun x => if x = id then some u else k.ids x else k.ids := by
        simp only [Known.step]
        by_cases hc : 1 ≤ id ∧ id ≤ 255 ∧ k.ids id = none
        · rw [if_pos ⟨hc.1, hc.2.1, hc.2.2, by simp⟩, if_pos hc]
        · rw [if_neg (fun h => hc ⟨h.1, h.2.1, h.2.2.1⟩), if_neg hc]
      have e2 : (k.step (.add id u none)).memories = k.memories := by simp only [Known.step]; split <;> rfl
      have e3 : (DbOp.step R w (.add id u none)).memories = w.memories := by simp only [DbOp.step]; split <;> rfl
      refine ⟨by rw [e2, e3, hm], fun x => ?_⟩
      rw [e1, g x, World.slave]
      simp only [DbOp.step]
      split <;> rfl
    | some i =>
      cases hi : w.memories[i]? with
      | none =>
        have hlen : ¬ i < k.memories := by
          rw [hm]; rw [List.getElem?_eq_none_iff] at hi; omega
        have e1 : k.step (.add id u (some i)) = k := by
          simp only [Known.step]
          rw [if_neg (fun h => hlen (h.2.2.2 i rfl))]
        have e2 : DbOp.step R w (.add id u (some i)) = w := by simp only [DbOp.step, hi]
        rw [e1, e2]
        exact ⟨hm, hk⟩
      | some d =>
        have hlen : i < k.memories := by
          rw [hm]; exact (List.getElem?_eq_some_iff.mp hi).1
        have g := gen (some d) []
        have e1 : (k.step (.add id u (some i))).ids =
            if 1 ≤ id ∧ id ≤ 255 ∧ k.ids id = none then fun x => if x = id then some u else k.ids x else k.ids := by
          simp only [Known.step]
          by_cases hc : 1 ≤ id ∧ id ≤ 255 ∧ k.ids id = none
          · rw [if_pos ⟨hc.1, hc.2.1, hc.2.2, fun j hj => by cases hj; exact hlen⟩, if_pos hc]
          · rw [if_neg (fun h => hc ⟨h.1, h.2.1, h.2.2.1⟩), if_neg hc]
        have e2 : (k.step (.add id u (some i))).memories = k.memories := by simp only [Known.step]; split <;> rfl
        have e3 : (DbOp.step R w (.add id u (some i))).memories = w.memories := by
          simp only [DbOp.step, hi]; split <;> rfl
        refine ⟨by rw [e2, e3, hm], fun x => ?_⟩
        rw [e1, g x, World.slave]
        simp only [DbOp.step, hi]
        split <;> rfl
  | remove id =>
    refine ⟨hm, fun x => ?_⟩
    simp only [Known.step, DbOp.step, World.slave, removeSlave]
    split
    · rename_i e
      subst e
      split
      · rw [Dict.get?_erase, if_pos rfl]; rfl
      · rename_i hh
        have : Dict.has w.st.db.slaves x = false := by simpa using hh
        rw [(Dict.has_eq_false_iff _ _).mp this]; rfl
    · rename_i e
      split
      · rw [Dict.get?_erase, if_neg e]; exact hk x
      · exact hk x
  | removeAll => exact ⟨hm, fun _ => rfl⟩
  | act id a =>
    refine ⟨hm, fun x => ?_⟩
    simp only [Known.step, DbOp.step, World.slave, actOn]
    cases hsl : Dict.get? w.st.db.slaves id with
    | none => exact hk x
    | some sl =>
      dsimp only
      have same := (act_step R a ⟨sl, w.st.heap⟩).2
      rw [Dict.get?_set]
      split
      · rename_i e
        subst e
        rw [hk, World.slave, hsl]
        simp [same.unsigned]
      · exact hk x
  | frame mac request => exact ⟨hm, hk⟩

theorem known_run (R : Registry) (ops : List DbOp) {w : World} {k : Known} (hm : k.memories = w.memories.length)
    (hk : ∀ id, k.ids id = (w.slave id).map (·.unsigned)) (id : Int) :
    ((ops.foldl Known.step k).ids id) = ((runDb R w ops).slave id).map (·.unsigned) := by
  induction ops generalizing w k with
  | nil => exact hk id
  | cons op ops ih =>
    obtain ⟨a, b⟩ := known_step R hm hk op
    exact ih a b

/-- **C19.** After any history of calls and requests, `get_slave(id)` finds a slave exactly if, following the history
    as a map of ids, `id` is registered, and it is the slave with the signedness it was added with. -/
theorem C19_history (R : Registry) (b : Bool) (ops : List DbOp) (id : Int) :
    ((getSlave id (runDb R (World.new b) ops).st).1.toOption).map (·.unsigned) =
      (ops.foldl Known.step ⟨0, fun _ => none⟩).ids id := by
  rw [known_run R ops (w := World.new b) rfl (fun _ => rfl) id, World.slave]
  unfold getSlave
  split <;> rename_i h <;> rw [h] <;> rfl

example : (addSlave 255 true none exWorld.st).1.isOk = true := by decide
example : (addSlave 256 true none exWorld.st).1.isOk = false := by decide
example : (addSlave 3 true none exWorld.st).1 = .error .duplicatedKey := by decide
example : (removeSlave 3 exWorld.st).1 = .ok () := by decide
example : (removeSlave 4 exWorld.st).1 = .error .missingKey := by decide

/-! ## C21 -/

/-- **C21.** A request addressed to an id that is not registered (and not 0) changes nothing and yields an empty
    response, for both values of `error_on_missing_slave` and whatever the hooks, for every transport. -/
theorem C21_unknown (R : Registry) (mac : Mac) (db : Databank) (request : Bytes) (sid : Int) (pdu : Bytes)
    (hp : (mac.parseRequest request mac.new).1 = .ok (sid, pdu)) (h0 : sid ≠ 0)
    (hn : Dict.get? db.slaves sid = none) (h : Heap) :
    dbHandle R mac db request h = (.ok (some []), h) := by
  unfold dbHandle
  rcases hq : mac.parseRequest request mac.new with ⟨x, q⟩
  rw [hq] at hp
  dsimp only at hp
  subst hp
  dsimp only
  rw [PyM.tryExcept_apply]
  unfold dbBody
  rw [if_neg h0, hn]
  dsimp only
  by_cases he : db.errorOnMissingSlave = true
  · rw [if_pos he]; rfl
  · rw [if_neg he]; rfl

-- a frame to unit 9, which is not registered, with error_on_missing_slave False and True
example (b : Bool) (h : Heap) : dbHandle [] tcpMac { exWorld.st.db with errorOnMissingSlave := b }
    [0, 1, 0, 0, 0, 6, 9, 3, 0, 0, 0, 1] h = (.ok (some []), h) :=
  C21_unknown [] tcpMac _ _ 9 [3, 0, 0, 0, 1] (by decide) (by decide) (by cases b <;> decide) h
end Modbus
