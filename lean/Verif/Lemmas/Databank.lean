import Verif.Lemmas.Local
import Verif.Model.Databank
import Verif.Props.Blocks
/- What calls on one slave can do to the heap, and the separation of memories. -/
namespace Modbus

/-- a step that concerns only the memory `mem`: other dictionaries and the existing lists of nobody else change, and
    the dictionary can only get new lists -/
structure MemStep (mem : Nat) (h h' : Heap) : Prop where
  dicts : ∀ d, d ≠ mem → h'.dicts d = h.dicts d
  nextDict : h'.nextDict = h.nextDict
  nextList : h.nextList ≤ h'.nextList
  lists : ∀ r, ¬ InDict (h.dicts mem) r → r < h.nextList → h'.lists r = h.lists r
  owned : ∀ r, InDict (h'.dicts mem) r → InDict (h.dicts mem) r ∨ (h.nextList ≤ r ∧ r < h'.nextList)

theorem MemStep.refl {mem : Nat} {h : Heap} : MemStep mem h h :=
  ⟨fun _ _ => rfl, rfl, Nat.le_refl _, fun _ _ _ => rfl, fun _ hr => .inl hr⟩

theorem Within.memStep {mem : Nat} {h h' : Heap} (w : Within (h.dicts mem) h h') : MemStep mem h h' :=
  ⟨fun d _ => by rw [w.dicts], w.nextDict, Nat.le_of_eq w.nextList.symm, fun r hr _ => w.other r hr,
   fun r hr => .inl (by rwa [w.dicts] at hr)⟩

/-- memories are separated: different dictionaries have different lists -/
structure SepHeap (h : Heap) : Prop where
  bound : ∀ d r, d < h.nextDict → InDict (h.dicts d) r → r < h.nextList
  disjoint : ∀ d d' r, d < h.nextDict → d' < h.nextDict → d ≠ d' → InDict (h.dicts d) r → ¬ InDict (h.dicts d') r

theorem sepHeap_empty : SepHeap Heap.empty := by
  constructor
  · intro d r hd; exact absurd hd (by simp [Heap.empty])
  · intro d d' r hd; exact absurd hd (by simp [Heap.empty])

theorem SepHeap.step {mem : Nat} {h h' : Heap} (s : SepHeap h) (st : MemStep mem h h') (hm : mem < h.nextDict) :
    SepHeap h' := by
  constructor
  · intro d r hd hi
    rw [st.nextDict] at hd
    by_cases e : d = mem
    · subst e
      rcases st.owned r hi with h1 | h1
      · exact Nat.lt_of_lt_of_le (s.bound d r hd h1) st.nextList
      · exact h1.2
    · rw [st.dicts d e] at hi
      exact Nat.lt_of_lt_of_le (s.bound d r hd hi) st.nextList
  · intro d d' r hd hd' hne hi hi'
    rw [st.nextDict] at hd hd'
    by_cases e : d = mem
    · subst e
      have e' : d' ≠ d := fun h => hne h.symm
      rw [st.dicts d' e'] at hi'
      rcases st.owned r hi with h1 | h1
      · exact s.disjoint d d' r hd hd' hne h1 hi'
      · have := s.bound d' r hd' hi'; omega
    · rw [st.dicts d e] at hi
      by_cases e' : d' = mem
      · subst e'
        rcases st.owned r hi' with h1 | h1
        · exact s.disjoint d d' r hd hd' hne hi h1
        · have := s.bound d r hd hi; omega
      · rw [st.dicts d' e'] at hi'
        exact s.disjoint d d' r hd hd' hne hi hi'

/-- a step on another memory is invisible -/
theorem SepHeap.agree {mem mem' : Nat} {h h' : Heap} (s : SepHeap h) (st : MemStep mem h h') (hm : mem < h.nextDict)
    (hm' : mem' < h.nextDict) (hne : mem' ≠ mem) : Agree mem' (h.dicts mem') h h' := by
  refine ⟨rfl, st.dicts mem' hne, fun r hr => ?_⟩
  exact (st.lists r (s.disjoint mem' mem r hm' hm hne hr) (s.bound mem' r hm' hr)).symm

/-! ## Steps of a slave -/

theorem handleRequest_within (R : Registry) (sl : Slave) (pdu : Bytes) (bc : Bool) (h : Heap) :
    Within (h.dicts sl.mem) h (handleRequest R sl pdu bc h).2 :=
  ((loc_handleRequest rfl pdu bc) h h .refl).2.2.2

theorem setValues_within (R : Registry) (name : String) (a : Int) (vs : Values) (sl : Slave) (h : Heap) :
    Within (h.dicts sl.mem) h (setValues R name a vs sl h).2 :=
  ((loc_setValues rfl name a vs) h h .refl).2.2.2

theorem within_setList {D : List (Int × Nat)} {h : Heap} {r : Nat} (hr : InDict D r) (L : List Block) :
    Within D h (h.setList r L) := by
  refine ⟨rfl, rfl, rfl, fun r' hr' => ?_⟩
  have : r' ≠ r := fun e => hr' (e ▸ hr)
  simp [Heap.setList, this]

/-- what a block call keeps of the slave object -/
structure SameSlave (sl sl' : Slave) : Prop where
  id : sl'.id = sl.id
  unsigned : sl'.unsigned = sl.unsigned
  mem : sl'.mem = sl.mem

theorem blockOp_step (op : BlockOp) (s : SlaveSt) :
    MemStep s.sl.mem s.heap (op.run s).2.heap ∧ SameSlave s.sl (op.run s).2.sl := by
  rcases hx : op.run s with ⟨x, s'⟩
  cases x with
  | error e => rw [run_error hx]; exact ⟨.refl, rfl, rfl, rfl⟩
  | ok u =>
    cases op with
    | add name bt start size =>
      obtain ⟨_, _, _, ref, i, hr, _, rfl⟩ := addBlock_ok (show addBlock name bt start size s = _ from hx)
      exact ⟨Within.memStep (within_setList ⟨bt, hr⟩ _), rfl, rfl, rfl⟩
    | remove name =>
      obtain ⟨b, hg, rfl⟩ := removeBlock_ok (show removeBlock name s = _ from hx)
      obtain ⟨_, bt, _, _, _, hr, _⟩ := getBlock_ok hg
      exact ⟨Within.memStep (within_setList ⟨bt, hr⟩ _), rfl, rfl, rfl⟩
    | removeAll =>
      have hx' : removeAllBlocks s = (.ok u, s') := hx
      unfold removeAllBlocks at hx'
      cases hx'
      refine ⟨⟨?_, rfl, ?_, ?_, ?_⟩, rfl, rfl, rfl⟩
      · intro d hd; simp [hd]
      · dsimp only; omega
      · intro r _ hr; dsimp only; rw [if_neg (by omega)]
      · intro r hr
        right
        dsimp only at hr
        rw [if_pos rfl] at hr
        obtain ⟨bt, hb⟩ := hr
        obtain ⟨h1, h2, _⟩ := get?_fresh _ s.heap.nextList 0 hb
        dsimp only
        omega

/-- a call on a slave -/
inductive SlaveAct where
  | request (pdu : Bytes) (broadcast : Bool)
  | block (op : BlockOp)
  | setValues (name : String) (address : Int) (values : Values)

/-- its effect (the answer or exception is dropped) -/
def SlaveAct.run (R : Registry) : SlaveAct → SlaveSt → SlaveSt
  | .request pdu bc, s => (onHeap (fun sl => handleRequest R sl pdu bc) s).2
  | .block op, s => (op.run s).2
  | .setValues name a vs, s => (onHeap (Modbus.setValues R name a vs) s).2

theorem act_step (R : Registry) (a : SlaveAct) (s : SlaveSt) :
    MemStep s.sl.mem s.heap (a.run R s).heap ∧ SameSlave s.sl (a.run R s).sl := by
  cases a with
  | request pdu bc => exact ⟨(handleRequest_within R s.sl pdu bc s.heap).memStep, rfl, rfl, rfl⟩
  | block op => exact blockOp_step op s
  | setValues name a vs => exact ⟨(setValues_within R name a vs s.sl s.heap).memStep, rfl, rfl, rfl⟩

/-! ## Dictionary lemmas -/

theorem get?_mem {κ ν : Type} [DecidableEq κ] {d : List (κ × ν)} {k : κ} {v : ν} (h : Dict.get? d k = some v) :
    (k, v) ∈ d := by
  induction d with
  | nil => simp [Dict.get?] at h
  | cons p d ih =>
    obtain ⟨k', v'⟩ := p
    simp only [Dict.get?] at h
    split at h
    · rename_i e; cases h; subst e; simp
    · exact List.mem_cons_of_mem _ (ih h)

theorem get?_of_mem {κ ν : Type} [DecidableEq κ] {d : List (κ × ν)} {k : κ} {v : ν} (hn : (d.map Prod.fst).Nodup)
    (h : (k, v) ∈ d) : Dict.get? d k = some v := by
  induction d with
  | nil => simp at h
  | cons p d ih =>
    obtain ⟨k', v'⟩ := p
    simp only [List.map_cons, List.nodup_cons] at hn
    simp only [Dict.get?]
    rcases List.mem_cons.mp h with e | h'
    · cases e; simp
    · rw [if_neg, ih hn.2 h']
      intro e; subst e
      exact hn.1 (List.mem_map.mpr ⟨_, h', rfl⟩)

theorem keys_set {κ ν : Type} [DecidableEq κ] (d : List (κ × ν)) (k : κ) (v : ν) :
    (Dict.set d k v).map Prod.fst = if k ∈ d.map Prod.fst then d.map Prod.fst else d.map Prod.fst ++ [k] := by
  induction d with
  | nil => simp [Dict.set]
  | cons p d ih =>
    obtain ⟨k', v'⟩ := p
    simp only [Dict.set]
    split
    · rename_i e; subst e; simp
    · rename_i e
      have e' : ¬ k = k' := fun h => e h.symm
      simp only [List.map_cons, ih, List.mem_cons, e', false_or]
      split <;> simp

theorem nodup_set {κ ν : Type} [DecidableEq κ] {d : List (κ × ν)} (hn : (d.map Prod.fst).Nodup) (k : κ) (v : ν) :
    ((Dict.set d k v).map Prod.fst).Nodup := by
  rw [keys_set]
  split
  · exact hn
  · rename_i h
    rw [List.nodup_append]
    refine ⟨hn, by simp, ?_⟩
    intro a ha b hb
    simp only [List.mem_singleton] at hb
    subst hb
    intro e; subst e; exact h ha

theorem erase_sublist {κ ν : Type} [DecidableEq κ] (d : List (κ × ν)) (k : κ) : (Dict.erase d k).Sublist d := by
  induction d with
  | nil => exact .slnil
  | cons p d ih =>
    obtain ⟨k', v'⟩ := p
    simp only [Dict.erase]
    split
    · exact ih.trans (List.sublist_cons_self _ _)
    · exact ih.cons_cons _

theorem nodup_erase {κ ν : Type} [DecidableEq κ] {d : List (κ × ν)} (hn : (d.map Prod.fst).Nodup) (k : κ) :
    ((Dict.erase d k).map Prod.fst).Nodup := ((erase_sublist d k).map _).nodup hn

/-! ## The databank -/

/-- the heap effect of the broadcast loop: a chain of steps, each on the memory of one of the slaves -/
inductive Steps (mems : Nat → Prop) : Heap → Heap → Prop where
  | nil {h} : Steps mems h h
  | cons {h h' h'' : Heap} {m : Nat} (hm : mems m) (st : Within (h.dicts m) h h') (rest : Steps mems h' h'') :
      Steps mems h h''

theorem Steps.mono {P Q : Nat → Prop} {h h' : Heap} (s : Steps P h h') (hpq : ∀ m, P m → Q m) : Steps Q h h' := by
  induction s with
  | nil => exact .nil
  | cons hm st _ ih => exact .cons (hpq _ hm) st ih

theorem Steps.dicts {P : Nat → Prop} {h h' : Heap} (s : Steps P h h') :
    h'.dicts = h.dicts ∧ h'.nextDict = h.nextDict ∧ h'.nextList = h.nextList := by
  induction s with
  | nil => exact ⟨rfl, rfl, rfl⟩
  | cons hm st _ ih =>
    exact ⟨ih.1.trans st.dicts, ih.2.1.trans st.nextDict, ih.2.2.trans st.nextList⟩

/-- steps on other memories are invisible -/
theorem Steps.agree {P : Nat → Prop} {h h' : Heap} (s : Steps P h h') (hs : SepHeap h) {mem : Nat}
    (hm : mem < h.nextDict) (hP : ∀ m, P m → m < h.nextDict ∧ m ≠ mem) : Agree mem (h.dicts mem) h h' := by
  induction s with
  | nil => exact .refl
  | cons hmem st rest ih =>
    have hb := hP _ hmem
    have a1 := hs.agree st.memStep hb.1 hm (fun e => hb.2 e.symm)
    have hs' := hs.step st.memStep hb.1
    have a2 := ih hs' (by rw [st.nextDict]; exact hm) (fun m hm' => by rw [st.nextDict]; exact hP m hm')
    rw [show (_ : Heap).dicts mem = _ from congrFun st.dicts mem] at a2
    exact a1.trans a2

theorem broadcastLoop_steps (R : Registry) (pdu : Bytes) (L : List (Int × Slave)) (h : Heap) :
    Steps (fun m => ∃ p ∈ L, p.2.mem = m) h (broadcastLoop R pdu L h).2 := by
  induction L generalizing h with
  | nil => exact .nil
  | cons p L ih =>
    obtain ⟨k, sl⟩ := p
    simp only [broadcastLoop, PyM.bind_apply]
    have hw := handleRequest_within R sl pdu true h
    rcases hx : handleRequest R sl pdu true h with ⟨x, h1⟩
    rw [hx] at hw
    cases x with
    | error e => exact .cons ⟨_, List.mem_cons_self, rfl⟩ hw .nil
    | ok b =>
      refine .cons ⟨_, List.mem_cons_self, rfl⟩ hw ?_
      exact (ih h1).mono fun m ⟨p, hp, e⟩ => ⟨p, List.mem_cons_of_mem _ hp, e⟩

theorem dbExcept_snd (R : Registry) (pdu : Bytes) (e : PyErr) (h : Heap) : (dbExcept R pdu e h).2 = h := by
  have gen : ∀ {m : PyM Heap Unit} {f : Unit → PyM Heap (Option Bytes)}, (m h).2 = h → (∀ a, (f a h).2 = h) →
      ((m >>= f) h).2 = h := fun h1 h2 => snd_bind h1 h2
  unfold dbExcept
  split
  · rfl
  · rfl
  · refine snd_bind (callHook_snd _ _ _ _) fun _ => snd_bind ?_ fun _ => snd_bind rfl fun _ => rfl
    split <;> rfl

/-- a request addressed to a registered slave -/
theorem dbBody_some (R : Registry) (mac : Mac) {db : Databank} (q : mac.Q) {sid : Int} {sl : Slave} (h0 : sid ≠ 0)
    (hsl : Dict.get? db.slaves sid = some sl) (pdu : Bytes) (h : Heap) :
    dbBody R mac db q sid pdu h =
      match handleRequest R sl pdu false h with
      | (.ok r, h1) => (match (mac.buildResponse r q).1 with | .ok b => .ok (some b) | .error e => .error e, h1)
      | (.error e, h1) => (.error e, h1) := by
  unfold dbBody
  rw [if_neg h0, hsl]
  dsimp only
  show PyM.bind _ _ _ = _
  unfold PyM.bind
  rcases handleRequest R sl pdu false h with ⟨x, h1⟩
  cases x with
  | error e => rfl
  | ok r =>
    dsimp only
    show PyM.bind _ _ _ = _
    unfold PyM.bind PyM.lift
    cases (mac.buildResponse r q).1 <;> rfl

/-- the heap effect of a request to the databank: steps on memories of slaves of the databank; if it is addressed to
    one slave, on that slave's memory only -/
theorem dbHandle_steps (R : Registry) (mac : Mac) (db : Databank) (request : Bytes) (h : Heap) :
    Steps (fun m => ∃ id sl, (id, sl) ∈ db.slaves ∧ sl.mem = m ∧
      ∀ sid pdu, (mac.parseRequest request mac.new).1 = .ok (sid, pdu) → sid = 0 ∨ sid = id) h
      (dbHandle R mac db request h).2 := by
  unfold dbHandle
  rcases hp : mac.parseRequest request mac.new with ⟨x, q⟩
  cases x with
  | error e => dsimp only; rw [dbExcept_snd]; exact .nil
  | ok v =>
    obtain ⟨sid, pdu⟩ := v
    dsimp only
    have hsid : ∀ (id : Int), (sid = 0 ∨ sid = id) → ∀ sid' pdu', (Except.ok (sid, pdu) : Except PyErr (Int × Bytes)) = .ok (sid', pdu') →
        sid' = 0 ∨ sid' = id := by
      intro id h0 sid' pdu' he; cases he; exact h0
    have body : Steps (fun m => ∃ id sl, (id, sl) ∈ db.slaves ∧ sl.mem = m ∧
        ∀ sid' pdu', (Except.ok (sid, pdu) : Except PyErr (Int × Bytes)) = .ok (sid', pdu') → sid' = 0 ∨ sid' = id) h
        (dbBody R mac db q sid pdu h).2 := by
      unfold dbBody
      split
      · rename_i h0
        have := broadcastLoop_steps R pdu db.slaves h
        simp only [PyM.bind_apply]
        rcases hb : broadcastLoop R pdu db.slaves h with ⟨y, h1⟩
        rw [hb] at this
        have this' := this.mono (Q := fun m => ∃ id sl, (id, sl) ∈ db.slaves ∧ sl.mem = m ∧
          ∀ sid' pdu', (Except.ok (sid, pdu) : Except PyErr (Int × Bytes)) = .ok (sid', pdu') → sid' = 0 ∨ sid' = id)
          (fun m ⟨p, hp, e⟩ => ⟨p.1, p.2, hp, e, hsid _ (.inl h0)⟩)
        cases y <;> exact this'
      · rename_i h0
        cases hsl : Dict.get? db.slaves sid with
        | none => dsimp only; split <;> exact .nil
        | some sl =>
          have e := dbBody_some R mac q h0 hsl pdu h
          unfold dbBody at e
          rw [if_neg h0, hsl] at e
          dsimp only at e ⊢
          rw [e]
          have hw := handleRequest_within R sl pdu false h
          have st : Steps (fun m => ∃ id sl, (id, sl) ∈ db.slaves ∧ sl.mem = m ∧
            ∀ sid' pdu', (Except.ok (sid, pdu) : Except PyErr (Int × Bytes)) = .ok (sid', pdu') → sid' = 0 ∨ sid' = id)
            h (handleRequest R sl pdu false h).2 :=
            .cons ⟨sid, sl, get?_mem hsl, rfl, hsid _ (.inr rfl)⟩ hw .nil
          rcases hx : handleRequest R sl pdu false h with ⟨y, h1⟩
          rw [hx] at st
          cases y with
          | error e => exact st
          | ok r => exact st
    simp only [PyM.tryExcept_apply]
    rcases hb : dbBody R mac db q sid pdu h with ⟨y, h1⟩
    rw [hb] at body
    cases y with
    | ok r => exact body
    | error e => dsimp only; rw [dbExcept_snd]; exact body

end Modbus
