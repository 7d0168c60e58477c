import Verif.Model.ActingServer
import Verif.Props.ActingHooks
import Verif.Props.EndToEnd
/-
# C95: hook functions of a server may act
-/
namespace Modbus

variable {ω : Type}

/-! ## Functions that leave the data alone -/

/-- `f` does what `g` does, leaves the databank alone, and changes the program from `w` to some `w'` with `Q w w'` -/
def Beside {α : Type} (Q : ω → ω → Prop) (db : Databank) (f : PyM (ASt ω) α) (g : PyM Heap α) : Prop :=
  ∀ h w, ∃ w', f (h, (db, w)) = ((g h).1, ((g h).2, (db, w'))) ∧ Q w w'

section Beside
variable {α β : Type} {Q : ω → ω → Prop} {db : Databank}

theorem Beside.bind (ht : ∀ a b c, Q a b → Q b c → Q a c) {f : PyM (ASt ω) α} {g : PyM Heap α} {k : α → PyM (ASt ω) β} {k' : α → PyM Heap β} (hf : Beside Q db f g) (hk : ∀ a, Beside Q db (k a) (k' a)) :
    Beside Q db (f >>= k) (g >>= k') := by
  intro h w
  obtain ⟨w1, e1, q1⟩ := hf h w
  rw [PyM.bind_apply, PyM.bind_apply, e1]
  rcases hg : g h with ⟨r, h1⟩
  cases r with
  | error e => exact ⟨w1, rfl, q1⟩
  | ok a =>
    obtain ⟨w2, e2, q2⟩ := hk a h1 w1
    exact ⟨w2, e2, ht _ _ _ q1 q2⟩

theorem Beside.lift (hr : ∀ a, Q a a) (x : Except PyErr α) : Beside Q db (PyM.lift x : PyM (ASt ω) α) (PyM.lift x) := fun _ w => ⟨w, rfl, hr w⟩
theorem Beside.ret (hr : ∀ a, Q a a) (x : α) : Beside Q db (Pure.pure x : PyM (ASt ω) α) (Pure.pure x) := fun _ w => ⟨w, rfl, hr w⟩

theorem Beside.tryExcept (ht : ∀ a b c, Q a b → Q b c → Q a c) {f : PyM (ASt ω) α} {g : PyM Heap α} {k : PyErr → PyM (ASt ω) α} {k' : PyErr → PyM Heap α} (hf : Beside Q db f g)
    (hk : ∀ e, Beside Q db (k e) (k' e)) : Beside Q db (PyM.tryExcept f k) (PyM.tryExcept g k') := by
  intro h w
  obtain ⟨w1, e1, q1⟩ := hf h w
  rw [PyM.tryExcept_apply, PyM.tryExcept_apply, e1]
  rcases hg : g h with ⟨r, h1⟩
  cases r with
  | ok a => exact ⟨w1, rfl, q1⟩
  | error e =>
    obtain ⟨w2, e2, q2⟩ := hk e h1 w1
    exact ⟨w2, e2, ht _ _ _ q1 q2⟩

variable (hr : ∀ a, Q a a) (ht : ∀ a b c, Q a b → Q b c → Q a c) {R : ERegistry (Databank × ω)} {R0 : Registry}
  (hslave : ∀ sl pdu b, Beside Q db (eHandleRequest R sl pdu b) (handleRequest R0 sl pdu b))
  (herror : ∀ a, Beside Q db (aCall_ R "modbus.Databank.on_error" a) (callHook_ R0 "modbus.Databank.on_error" a))
include hr ht

include hslave in
theorem beside_broadcast (pdu : Bytes) : ∀ l : List (Int × Slave), (∀ p ∈ l, Dict.get? db.slaves p.1 = some p.2) →
    Beside Q db (aBroadcast R pdu (db.slaves.map Prod.fst) (l.map Prod.fst)) (broadcastLoop R0 pdu l) := by
  intro l
  induction l with
  | nil => exact fun _ => Beside.ret hr _
  | cons p l ih =>
    intro hl h w
    obtain ⟨w1, e1, q1⟩ := hslave p.2 pdu true h w
    rw [List.map_cons, aBroadcast, broadcastLoop, PyM.bind_apply]
    dsimp only
    rw [hl p (by simp)]
    dsimp only
    rw [e1]
    rcases hg : handleRequest R0 p.2 pdu true h with ⟨r, h1⟩
    cases r with
    | error e => exact ⟨w1, rfl, q1⟩
    | ok a =>
      obtain ⟨w2, e2, q2⟩ := ih (fun p hp => hl p (by simp [hp])) h1 w1
      dsimp only
      rw [if_pos rfl]
      exact ⟨w2, e2, ht _ _ _ q1 q2⟩

include hslave in
theorem beside_body (hn : (db.slaves.map Prod.fst).Nodup) (mac : Mac) (q : mac.Q) (slaveId : Int) (pdu : Bytes) : Beside Q db (aBody R mac q slaveId pdu) (dbBody R0 mac db q slaveId pdu) := by
  intro h w
  unfold aBody dbBody
  dsimp only
  by_cases h0 : slaveId = 0
  · rw [if_pos h0, if_pos h0]
    exact (Beside.bind ht (beside_broadcast hr ht hslave pdu db.slaves (fun p hp => get?_of_mem hn hp)) fun _ => Beside.ret hr _) h w
  rw [if_neg h0, if_neg h0]
  cases hg : Dict.get? db.slaves slaveId with
  | none =>
    dsimp only
    by_cases he : db.errorOnMissingSlave = true
    · rw [if_pos he, if_pos he]; exact ⟨w, rfl, hr w⟩
    · rw [if_neg he, if_neg he]; exact ⟨w, rfl, hr w⟩
  | some sl => exact (Beside.bind ht (hslave sl pdu false) fun _ => Beside.bind ht (Beside.lift hr _) fun _ => Beside.ret hr _) h w

include herror in
theorem beside_except (pdu : Bytes) (e : PyErr) : Beside Q db (aExcept R pdu e) (dbExcept R0 pdu e) := by
  have hgen : ∀ e, Beside Q db (do
      aCall_ R "modbus.Databank.on_error" (.exc e pdu)
      let funcCode ← (if pdu.length > 0 then PyM.lift (unpackSingle Code.B (slice pdu 0 1)) else pure 1 : PyM (ASt ω) Int)
      let r ← PyM.lift (structPack (be [Code.B, Code.B]) [funcCode + 0x80, defines.SLAVE_DEVICE_FAILURE])
      return (some r)) (do
      callHook_ R0 "modbus.Databank.on_error" (.exc e pdu)
      let funcCode ← (if pdu.length > 0 then PyM.lift (unpackSingle Code.B (slice pdu 0 1)) else pure 1 : PyM Heap Int)
      let r ← PyM.lift (structPack (be [Code.B, Code.B]) [funcCode + 0x80, defines.SLAVE_DEVICE_FAILURE])
      return (some r)) := by
    intro e
    refine (herror _).bind ht fun _ => Beside.bind ht ?_ fun _ => (Beside.lift hr _).bind ht fun _ => Beside.ret hr _
    split
    · exact Beside.lift hr _
    · exact Beside.ret hr _
  unfold aExcept dbExcept
  cases e <;> first | exact Beside.ret hr _ | exact hgen _

include hslave herror in
theorem beside_db (hn : (db.slaves.map Prod.fst).Nodup) (mac : Mac) (request : Bytes) : Beside Q db (aDbHandle R mac request) (dbHandle R0 mac db request) := by
  unfold aDbHandle dbHandle
  rcases hp : mac.parseRequest request mac.new with ⟨r, q⟩
  rcases r with e | ⟨id, pdu⟩
  · exact beside_except hr ht herror [] e
  · exact (beside_body hr ht hslave hn mac q id pdu).tryExcept ht fun e => beside_except hr ht herror pdu e

end Beside

theorem beside_call_ {Q : ω → ω → Prop} {db : Databank} {R : ERegistry (Databank × ω)} {R0 : Registry} (hr : ∀ a, Q a a) (ht : ∀ a b c, Q a b → Q b c → Q a c) (name : String) (a : HookArg)
    (h : Beside Q db (eCallHooks R name { data := a }) (PyM.lift (callHooks R0 name a))) : Beside Q db (aCall_ R name a) (callHook_ R0 name a) := by
  unfold aCall_ callHook_
  exact h.bind ht fun _ => Beside.ret hr _

/-- **C95 (hooks that do not act).** If the functions only answer, then this is the server of all the other properties, and neither the databank nor the program is affected. -/
theorem C95_still (R : Registry) (mac : Mac) (request : Bytes) (h : Heap) (db : Databank) (hn : (db.slaves.map Prod.fst).Nodup) (w : ω) :
    aServerHandle R.still mac request (h, (db, w)) = ((serverHandle R mac db request h).1, ((serverHandle R mac db request h).2, (db, w))) := by
  have htr : ∀ a b c : ω, a = b → b = c → a = c := fun _ _ _ => Eq.trans
  have hrf : ∀ a : ω, a = a := fun _ => rfl
  have hc : ∀ name a, Beside (ω := ω) Eq db (eCallHooks R.still name { data := a }) (PyM.lift (callHooks R name a)) := fun name a h w => ⟨w, by rw [still_hooks]; rfl, rfl⟩
  have hdb := fun rq => beside_db (ω := ω) (Q := Eq) (db := db) (R := R.still) (R0 := R) hrf htr (fun sl pdu b h w => ⟨w, C86_still R sl pdu b (h, (db, w)), rfl⟩)
    (fun a => beside_call_ hrf htr _ a (hc _ a)) hn mac rq
  have : Beside (ω := ω) Eq db (aServerHandle R.still mac request) (serverHandle R mac db request) :=
    (hc _ _).bind htr fun v => (hdb _).bind htr fun r => (hc _ _).bind htr fun _ => Beside.ret hrf _
  obtain ⟨w', e, rfl⟩ := this h w
  exact e

/-! ## Functions that watch -/

/-- the functions of this name do not raise and change neither the memory of the slaves nor the databank; they may change the program -/
def Looks (R : ERegistry (Databank × ω)) (name : String) : Prop := ∀ a h db w, ∃ v w', eCallHooks R name a (h, (db, w)) = (.ok v, (h, (db, w')))

/-- and they answer None -/
def LooksOn (R : ERegistry (Databank × ω)) (name : String) : Prop := ∀ a h db w, ∃ w', eCallHooks R name a (h, (db, w)) = (.ok none, (h, (db, w')))

instance : Passing (fun a b : Databank × ω => a.1 = b.1) := ⟨fun _ => rfl, fun _ _ _ h1 h2 => h1.trans h2⟩

theorem beside_slave {R : ERegistry (Databank × ω)} (hl : ∀ name, name ∉ ["modbus.Slave.handle_request", "modbus.Server.before_handle_request", "modbus.Server.after_handle_request"] → Looks R name)
    (h0 : LooksOn R "modbus.Slave.handle_request") (db : Databank) (sl : Slave) (pdu : Bytes) (b : Bool) :
    Beside (fun _ _ => True) db (eHandleRequest R sl pdu b) (handleRequest [] sl pdu b) := by
  intro h w
  obtain ⟨h1, h2, h3⟩ := watch_gen (Q := fun a b : Databank × ω => a.1 = b.1) (sl := sl) (fun name hn a s => by
    obtain ⟨v, w', e⟩ := hl name hn a s.1 s.2.1 s.2.2
    exact ⟨v, _, e, rfl⟩) (fun a s => by
    obtain ⟨w', e⟩ := h0 a s.1 s.2.1 s.2.2
    exact ⟨_, e, rfl⟩) pdu b (h, (db, w))
  exact ⟨(eHandleRequest R sl pdu b (h, (db, w))).2.2.2, Prod.ext h1 (Prod.ext h2 (Prod.ext h3.symm rfl)), trivial⟩

theorem beside_db_looks {R : ERegistry (Databank × ω)} (hl : ∀ name, name ∉ ["modbus.Slave.handle_request", "modbus.Server.before_handle_request", "modbus.Server.after_handle_request"] → Looks R name)
    (h0 : LooksOn R "modbus.Slave.handle_request") {db : Databank} (hn : (db.slaves.map Prod.fst).Nodup) (mac : Mac) (request : Bytes) :
    Beside (fun _ _ => True) db (aDbHandle R mac request) (dbHandle [] mac db request) :=
  beside_db (fun _ => trivial) (fun _ _ _ _ _ => trivial) (beside_slave hl h0 db) (fun a h w => by
    obtain ⟨v, w', e⟩ := hl "modbus.Databank.on_error" (by decide) { data := a } h db w
    refine ⟨w', ?_, trivial⟩
    unfold aCall_
    rw [PyM.bind_apply, e]
    rfl) hn mac request

/-- the value a hook may give instead of `x`: it replaces `x` unless it is None or empty -/
def Supplants (v : Option Bytes) (x y : Option Bytes) : Prop := ((v = none ∨ v = some []) ∧ y = x) ∨ ∃ b, v = some b ∧ b ≠ [] ∧ y = some b

theorem supplants_iff (v x y : Option Bytes) : Supplants v x y ↔ y = replaceIfTruthy v x := by
  unfold Supplants replaceIfTruthy
  rcases v with _ | ⟨_ | ⟨c, b⟩⟩ <;> simp

/-- **C95 (around a request).** The functions of `before_handle_request` are called first; the request - or the one they answer instead - is handled on the databank and on the memory as they left them: slaves they added
    answer, slaves they removed do not.  The functions of `after_handle_request` are called last, on the databank and the memory after the request, with the response, and may replace it.  (Functions of the other hooks
    only watch.) -/
theorem C95_around {R : ERegistry (Databank × ω)} (hl : ∀ name, name ∉ ["modbus.Slave.handle_request", "modbus.Server.before_handle_request", "modbus.Server.after_handle_request"] → Looks R name)
    (h0 : LooksOn R "modbus.Slave.handle_request") (mac : Mac) {request request' : Bytes} {s : ASt ω} {v : Option Bytes} {h1 : Heap} {db1 : Databank} {w1 : ω} (hn : (db1.slaves.map Prod.fst).Nodup)
    (hb : eCallHooks R "modbus.Server.before_handle_request" { data := .msg request } s = (.ok v, (h1, (db1, w1)))) (hv : Supplants v (some request) (some request')) :
    ∃ w2, (∀ e, (serverHandle [] mac db1 request' h1).1 = .error e → aServerHandle R mac request s = (.error e, ((serverHandle [] mac db1 request' h1).2, (db1, w2)))) ∧
      ∀ response, (serverHandle [] mac db1 request' h1).1 = .ok response → ∀ v' s3 response',
        eCallHooks R "modbus.Server.after_handle_request" { data := msgArg response } ((serverHandle [] mac db1 request' h1).2, (db1, w2)) = (.ok v', s3) → Supplants v' response response' →
        aServerHandle R mac request s = (.ok response', s3) := by
  have hq : serverHandle [] mac db1 request' = dbHandle [] mac db1 request' := serverHandle_quiet quiet_nil mac db1 request'
  obtain ⟨w2, e, -⟩ := beside_db_looks hl h0 hn mac request' h1 w1
  rw [hq]
  have hreq : (replaceIfTruthy v (some request)).getD [] = request' := by rw [← (supplants_iff _ _ _).mp hv]; rfl
  refine ⟨w2, fun x hx => ?_, fun response hx v' s3 response' ha hv' => ?_⟩
  · unfold aServerHandle
    simp only [PyM.bind_apply, hb, hreq, e, hx]
  · unfold aServerHandle
    simp only [PyM.bind_apply, hb, hreq, e, hx, ha, PyM.pure_apply]
    rw [(supplants_iff _ _ _).mp hv']

/-- a history of requests: the answers and the last state -/
def aHandles (R : ERegistry (Databank × ω)) (mac : Mac) : List Bytes → ASt ω → List (Except PyErr (Option Bytes)) × ASt ω
  | [], s => ([], s)
  | r :: rs, s => ((aServerHandle R mac r s).1 :: (aHandles R mac rs (aServerHandle R mac r s).2).1, (aHandles R mac rs (aServerHandle R mac r s).2).2)

/-- the same without hooks -/
def plainHandles (mac : Mac) (db : Databank) : List Bytes → Heap → List (Except PyErr (Option Bytes)) × Heap
  | [], h => ([], h)
  | r :: rs, h => ((serverHandle [] mac db r h).1 :: (plainHandles mac db rs (serverHandle [] mac db r h).2).1, (plainHandles mac db rs (serverHandle [] mac db r h).2).2)

/-- **C95 (watching).** Functions - of any hooks - that do not raise, change neither the memory of the slaves nor the databank, and answer None where an answer counts, have no influence: every request of every history
    gets the answer, and has the effect, that it has without them. -/
theorem C95_watch {R : ERegistry (Databank × ω)} (hl : ∀ name, Looks R name) (h0 : LooksOn R "modbus.Slave.handle_request") (hb : LooksOn R "modbus.Server.before_handle_request")
    (ha : LooksOn R "modbus.Server.after_handle_request") (mac : Mac) (rs : List Bytes) (h : Heap) {db : Databank} (hn : (db.slaves.map Prod.fst).Nodup) (w : ω) :
    ∃ w', aHandles R mac rs (h, (db, w)) = ((plainHandles mac db rs h).1, ((plainHandles mac db rs h).2, (db, w'))) := by
  induction rs generalizing h w with
  | nil => exact ⟨w, rfl⟩
  | cons r rs ih =>
    have hone : ∃ w', aServerHandle R mac r (h, (db, w)) = ((serverHandle [] mac db r h).1, ((serverHandle [] mac db r h).2, (db, w'))) := by
      obtain ⟨w1, e1⟩ := hb { data := .msg r } h db w
      obtain ⟨w2, hx1, hx2⟩ := C95_around (fun name _ => hl name) h0 mac hn e1 (request' := r) (.inl ⟨.inl rfl, rfl⟩)
      cases hx : (serverHandle [] mac db r h).1 with
      | error e => exact ⟨w2, hx1 e hx⟩
      | ok response =>
        obtain ⟨w3, e3⟩ := ha { data := msgArg response } (serverHandle [] mac db r h).2 db w2
        exact ⟨w3, hx2 response hx none _ response e3 (.inl ⟨.inl rfl, rfl⟩)⟩
    obtain ⟨w1, e1⟩ := hone
    obtain ⟨w2, e2⟩ := ih (serverHandle [] mac db r h).2 w1
    rw [aHandles, e1, e2, plainHandles]
    exact ⟨w2, rfl⟩

/-! ## A program that keeps a log -/

instance : Passing (fun a b : Databank × ω => a = b) := ⟨fun _ => rfl, fun _ _ _ h1 h2 => h1.trans h2⟩

/-- the functions of this name do nothing -/
def DoesNothing (R : ERegistry (Databank × ω)) (name : String) : Prop := ∀ a s, eCallHooks R name a s = (.ok none, s)

/-- what is said in a history: each request, then its answer (None for no answer), unless handling it raised -/
def logOf : List Bytes → List (Except PyErr (Option Bytes)) → List HookArg
  | r :: rs, .ok a :: as => .msg r :: msgArg a :: logOf rs as
  | r :: rs, .error _ :: as => .msg r :: logOf rs as
  | _, _ => []

/-- **C95 (logging).** A program that notes what its `before_handle_request` and `after_handle_request` functions are given sees, in order, every request and every answer, each once, and nothing else. -/
theorem C95_log {R : ERegistry (Databank × List HookArg)} (hl : ∀ name, name ∉ ["modbus.Server.before_handle_request", "modbus.Server.after_handle_request"] → DoesNothing R name)
    (hb : ∀ name ∈ ["modbus.Server.before_handle_request", "modbus.Server.after_handle_request"], ∀ a h db w, eCallHooks R name a (h, (db, w)) = (.ok none, (h, (db, w ++ [a.data]))))
    (mac : Mac) (rs : List Bytes) (h : Heap) {db : Databank} (hn : (db.slaves.map Prod.fst).Nodup) (w : List HookArg) :
    aHandles R mac rs (h, (db, w)) = ((plainHandles mac db rs h).1, ((plainHandles mac db rs h).2, (db, w ++ logOf rs (plainHandles mac db rs h).1))) := by
  have hdb : ∀ rq h w, aDbHandle R mac rq (h, (db, w)) = ((serverHandle [] mac db rq h).1, ((serverHandle [] mac db rq h).2, (db, w))) := by
    intro rq h w
    rw [serverHandle_quiet quiet_nil mac db rq]
    obtain ⟨w', e, q⟩ := beside_db (Q := fun a b => a = b) (db := db) (R := R) (R0 := []) (fun _ => rfl) (fun _ _ _ h1 h2 => h1.trans h2) (fun sl pdu b h w => by
      obtain ⟨h1, h2, h3⟩ := watch_gen (Q := fun a b : Databank × List HookArg => a = b) (sl := sl) (R := R) (fun name hm a s => by
        have := hl name (fun hx => hm (List.mem_cons_of_mem _ hx)) a s
        exact ⟨none, s.2, this, rfl⟩) (fun a s => ⟨s.2, hl _ (by decide) a s, rfl⟩) pdu b (h, (db, w))
      exact ⟨w, Prod.ext h1 (Prod.ext h2 h3.symm), rfl⟩) (fun a h w => by
      refine ⟨w, ?_, rfl⟩
      unfold aCall_
      rw [PyM.bind_apply, hl "modbus.Databank.on_error" (by decide) { data := a } (h, (db, w))]
      rfl) hn mac rq h w
    subst q
    exact e
  have hone : ∀ r h w, aServerHandle R mac r (h, (db, w)) = ((serverHandle [] mac db r h).1, ((serverHandle [] mac db r h).2, (db, w ++ logOf [r] [(serverHandle [] mac db r h).1]))) := by
    intro r h w
    unfold aServerHandle
    simp only [PyM.bind_apply, hb _ (by simp : "modbus.Server.before_handle_request" ∈ _), replaceIfTruthy, Option.getD_some, hdb]
    rcases hx : serverHandle [] mac db r h with ⟨x, h'⟩
    cases x with
    | error e => rfl
    | ok a =>
      simp only [hb _ (by simp : "modbus.Server.after_handle_request" ∈ _), PyM.pure_apply, logOf, List.append_assoc]
      rfl
  have hs : ∀ r rs a as, logOf (r :: rs) (a :: as) = logOf [r] [a] ++ logOf rs as := by
    intro r rs a as
    cases a <;> rfl
  induction rs generalizing h w with
  | nil =>
    show (([] : List (Except PyErr (Option Bytes))), (h, (db, w))) = ([], (h, (db, w ++ [])))
    rw [List.append_nil]
  | cons r rs ih =>
    rw [aHandles, hone]
    dsimp only
    rw [ih, plainHandles]
    dsimp only
    rw [hs r rs, List.append_assoc]

/-! ## Broadcasts -/

/-- the slaves are given the request one after the other, each in the state the previous one (and its functions) left -/
inductive Delivered (R : ERegistry (Databank × ω)) (pdu : Bytes) : List Slave → ASt ω → ASt ω → Prop
  | nil (s) : Delivered R pdu [] s s
  | cons {sl sls s a s1 s2} (h : eHandleRequest R sl pdu true s = (.ok a, s1)) (rest : Delivered R pdu sls s1 s2) : Delivered R pdu (sl :: sls) s s2

/-- **C95 (broadcast).** When the functions called by the slaves leave the databank alone and no slave raises, a broadcast is given to every slave, in their order, each on the data as the previous one and its functions
    left them, and is not answered. -/
theorem C95_broadcast {R : ERegistry (Databank × ω)} (hs : ∀ sl pdu s, (eHandleRequest R sl pdu true s).2.2.1 = s.2.1) (mac : Mac) {request pdu : Bytes} {q : mac.Q}
    (hp : mac.parseRequest request mac.new = (.ok (0, pdu), q)) {s s' : ASt ω} (hn : (s.2.1.slaves.map Prod.fst).Nodup) (hd : Delivered R pdu (s.2.1.slaves.map Prod.snd) s s') :
    aDbHandle R mac request s = (.ok none, s') := by
  have key : ∀ (l : List (Int × Slave)) (s s' : ASt ω), (∀ p ∈ l, Dict.get? s.2.1.slaves p.1 = some p.2) → Delivered R pdu (l.map Prod.snd) s s' →
      aBroadcast R pdu (s.2.1.slaves.map Prod.fst) (l.map Prod.fst) s = (.ok (), s') := by
    intro l
    induction l with
    | nil => intro s s' _ h; cases h; rfl
    | cons p l ih =>
      intro s s' hl h
      rw [List.map_cons] at h
      cases h with
      | @cons _ _ _ a s1 _ h rest =>
        have hdb := hs p.2 pdu s
        rw [h] at hdb
        dsimp only at hdb
        rw [List.map_cons, aBroadcast]
        dsimp only
        rw [hl p (by simp)]
        dsimp only
        rw [h]
        dsimp only
        rw [hdb, if_pos rfl]
        have := ih s1 s' (fun p hp => by rw [hdb]; exact hl p (by simp [hp])) rest
        rw [hdb] at this
        exact this
  unfold aDbHandle
  rw [hp]
  dsimp only
  rw [PyM.tryExcept_apply]
  unfold aBody
  rw [if_pos rfl, PyM.bind_apply, key s.2.1.slaves s s' (fun p hp => get?_of_mem hn hp) hd]
  rfl

/-! ## Programs -/

/-- `add_slave(id)` and `add_block("a", HOLDING_REGISTERS, 0, 4)` with the values 7, 8, 9, 10 -/
def provision (id : Int) (s : ASt Nat) : ASt Nat :=
  match addSlave id true none ⟨s.2.1, s.1⟩ with
  | (.error _, _) => s
  | (.ok sl, st) =>
    let r := addBlock "a" 3 0 4 ⟨sl, st.heap⟩
    let h := (setValues [] "a" 0 (.seq [7, 8, 9, 10]) r.2.sl r.2.heap).2
    (h, ({ st.db with slaves := Dict.set st.db.slaves id r.2.sl }, s.2.2 + 1))

/-- a program that adds each slave when the first request for it comes (its id is byte 6 of a TCP request) -/
def onDemand : ERegistry (Databank × Nat) :=
  [("modbus.Server.before_handle_request", [⟨0, fun a s => match a.data with
    | .msg r => (.ok none, provision ((r.getD 6 0).toNat) s)
    | _ => (.ok none, s)⟩])]

def exNothing : ASt Nat := (Heap.empty, (⟨[], true⟩, 0))

/-- slaves on demand: both slaves answer, the second request to slave 3 adds nothing -/
example : (aHandles onDemand tcpMac [[0, 1, 0, 0, 0, 6, 3, 3, 0, 1, 0, 2], [0, 2, 0, 0, 0, 6, 5, 3, 0, 0, 0, 1], [0, 3, 0, 0, 0, 6, 3, 6, 0, 1, 0, 66], [0, 4, 0, 0, 0, 6, 3, 3, 0, 1, 0, 1]] exNothing).1 =
    [.ok (some [0, 1, 0, 0, 0, 7, 3, 3, 4, 0, 8, 0, 9]), .ok (some [0, 2, 0, 0, 0, 5, 5, 3, 2, 0, 7]), .ok (some [0, 3, 0, 0, 0, 6, 3, 6, 0, 1, 0, 66]), .ok (some [0, 4, 0, 0, 0, 5, 3, 3, 2, 0, 66])] := by decide +kernel
example : (aHandles onDemand tcpMac [[0, 1, 0, 0, 0, 6, 3, 3, 0, 1, 0, 2], [0, 2, 0, 0, 0, 6, 5, 3, 0, 0, 0, 1], [0, 3, 0, 0, 0, 6, 3, 6, 0, 1, 0, 66]] exNothing).2.2.2 = 2 := by decide +kernel

/-- the hypotheses of `C95_around` for it -/
example : ∀ name, name ∉ ["modbus.Slave.handle_request", "modbus.Server.before_handle_request", "modbus.Server.after_handle_request"] → Looks onDemand name := by
  intro name hn a h db w
  refine ⟨none, w, ?_⟩
  unfold eCallHooks onDemand
  rw [show Dict.get? [("modbus.Server.before_handle_request", _)] name = none from by
    unfold Dict.get?
    rw [if_neg (by rintro rfl; exact hn (by decide))]
    rfl]

/-- a program that adds slave 9 while slave 1 handles a broadcast -/
def meanwhile : ERegistry (Databank × Nat) := [("modbus.Slave.handle_write_single_register_request", [⟨0, fun _ s => (.ok none, provision 9 s)⟩])]

/-- **C95, a negative result.** A broadcast is not safe against functions that add or remove slaves: here a function adds one while the first of two slaves handles the broadcast; the second slave is not reached, and the
    broadcast is answered, with two bytes that are no TCP response (function code + 128, code 4). -/
theorem C95_false_broadcast : (aServerHandle meanwhile tcpMac [0, 1, 0, 0, 0, 6, 0, 6, 0, 1, 0, 66] (provision 2 (provision 1 exNothing))).1 = .ok (some [0x86, 4]) ∧
    (aHandles [] tcpMac [[0, 1, 0, 0, 0, 6, 1, 3, 0, 1, 0, 1], [0, 1, 0, 0, 0, 6, 2, 3, 0, 1, 0, 1]]
      (aServerHandle meanwhile tcpMac [0, 1, 0, 0, 0, 6, 0, 6, 0, 1, 0, 66] (provision 2 (provision 1 exNothing))).2).1 =
      [.ok (some [0, 1, 0, 0, 0, 5, 1, 3, 2, 0, 66]), .ok (some [0, 1, 0, 0, 0, 5, 2, 3, 2, 0, 8])] := by
  constructor <;> decide +kernel

/-- a program that removes slave 1 while it handles a request: this request is answered, the next one is not -/
def leaving : ERegistry (Databank × Nat) :=
  [("modbus.Slave.handle_read_holding_registers_request", [⟨0, fun _ s => (.ok none, (s.1, ({ s.2.1 with slaves := Dict.erase s.2.1.slaves 1 }, s.2.2)))⟩])]

example : (aHandles leaving tcpMac [[0, 1, 0, 0, 0, 6, 1, 3, 0, 1, 0, 1], [0, 2, 0, 0, 0, 6, 1, 3, 0, 1, 0, 1]] (provision 1 exNothing)).1 =
    [.ok (some [0, 1, 0, 0, 0, 5, 1, 3, 2, 0, 8]), .ok (some [])] := by decide +kernel

/-- a log of a history -/
def logging : ERegistry (Databank × List HookArg) :=
  [("modbus.Server.before_handle_request", [⟨0, fun a s => (.ok none, (s.1, (s.2.1, s.2.2 ++ [a.data])))⟩]), ("modbus.Server.after_handle_request", [⟨0, fun a s => (.ok none, (s.1, (s.2.1, s.2.2 ++ [a.data])))⟩])]

example : (∀ name, name ∉ ["modbus.Server.before_handle_request", "modbus.Server.after_handle_request"] → DoesNothing logging name) ∧
    (∀ name ∈ ["modbus.Server.before_handle_request", "modbus.Server.after_handle_request"], ∀ a h db w, eCallHooks logging name a (h, (db, w)) = (.ok none, (h, (db, w ++ [a.data])))) := by
  refine ⟨fun name hn a s => ?_, fun name hn a h db w => ?_⟩
  · unfold eCallHooks logging
    rw [show Dict.get? [("modbus.Server.before_handle_request", _), ("modbus.Server.after_handle_request", _)] name = none from by
      unfold Dict.get?
      rw [if_neg (by rintro rfl; exact hn (by decide))]
      unfold Dict.get?
      rw [if_neg (by rintro rfl; exact hn (by decide))]
      rfl]
  · simp only [List.mem_cons, List.not_mem_nil, or_false] at hn
    rcases hn with rfl | rfl <;> rfl

end Modbus
