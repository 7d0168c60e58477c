import Verif.Model.MasterHooks
import Verif.Props.Retry
/-
# C91: hook functions of a master that act
-/
namespace Modbus
open Spec (Call tcpAdu wordAt word)

variable {σ ω : Type}

/-! ## `mExecute` as a sequence -/

theorem mExecute_main {R : MRegistry σ ω} {mac : Mac} {ch : Chan σ} {a : ExecArgs} {d : Nat} {s s1 s2 : MasterSt σ} {w : ω} {p : Prepared} {slave : Int} {request : Bytes} {q : mac.Q}
    (ho : masterOpen ch s = (.ok (), s1)) (hp : prepare a = .ok p) (hs : a.slave = some slave) (hb : buildRequest mac p.pdu slave s1 = (.ok (request, q), s2)) :
    mExecute R mac ch (d + 1) a (s, w) =
      match mCallHooks (mExecute R mac ch d) R "modbus.Master.before_send" (.msg request) (s2, w) with
      | (.error e, t) => (.error e, t)
      | (.ok rv, t) => match ch.send (rv.getD request) t.1.link with
        | (.error e, l) => (.error e, ({ t.1 with link := l }, t.2))
        | (.ok _, l) => match mCallHooks (mExecute R mac ch d) R "modbus.Master.after_send" .obj ({ t.1 with link := l }, t.2) with
          | (.error e, t) => (.error e, t)
          | (.ok _, t) => match ch.recv p.expectedLength t.1.link with
            | (.error e, l) => (.error e, ({ t.1 with link := l }, t.2))
            | (.ok resp, l) => match mCallHooks (mExecute R mac ch d) R "modbus.Master.after_recv" (.msg resp) ({ t.1 with link := l }, t.2) with
              | (.error e, t) => (.error e, t)
              | (.ok rv, t) => match (mac.parseResponse (rv.getD resp) q).1 with
                | .error e => (.error e, t)
                | .ok pdu => (analyse a p pdu, t) := by
  rw [mExecute]
  simp only [PyM.bind_apply, onMaster, ho, PyM.lift_apply, hp, hs, hb, onLink]
  rcases mCallHooks (mExecute R mac ch d) R "modbus.Master.before_send" (.msg request) (s2, w) with ⟨r0, t0⟩
  cases r0 with
  | error e => rfl
  | ok rv =>
    dsimp only
    rcases ch.send (rv.getD request) t0.1.link with ⟨r1, l1⟩
    cases r1 with
    | error e => rfl
    | ok _ =>
      dsimp only
      rcases mCallHooks (mExecute R mac ch d) R "modbus.Master.after_send" .obj ({ t0.1 with link := l1 }, t0.2) with ⟨r2, t2⟩
      cases r2 with
      | error e => rfl
      | ok _ =>
        dsimp only
        rcases ch.recv p.expectedLength t2.1.link with ⟨r3, l3⟩
        cases r3 with
        | error e => rfl
        | ok resp =>
          dsimp only
          rcases mCallHooks (mExecute R mac ch d) R "modbus.Master.after_recv" (.msg resp) ({ t2.1 with link := l3 }, t2.2) with ⟨r4, t4⟩
          cases r4 with
          | error e => rfl
          | ok rv =>
            dsimp only
            cases (mac.parseResponse (rv.getD resp) q).1 <;> rfl

/-! ## Functions that leave the master alone -/

/-- In the states `I`, the functions answer None, leave the master alone and lead to states `I`. -/
def Leaves (R : MRegistry σ ω) (I : ω → Prop) : Prop :=
  ∀ self name a s w, I w → ∃ w', mCallHooks self R name a (s, w) = (.ok none, (s, w')) ∧ I w'

theorem mExecute_leaves {R : MRegistry σ ω} {I : ω → Prop} (hR : Leaves R I) (mac : Mac) (ch : Chan σ) (a : ExecArgs) (d : Nat) (s : MasterSt σ) (w : ω) (hw : I w) :
    ∃ w', mExecute R mac ch (d + 1) a (s, w) = ((execute [] mac ch a s).1, ((execute [] mac ch a s).2, w')) ∧ I w' := by
  cases ho : masterOpen ch s with
  | mk ro s1 =>
    cases ro with
    | error e =>
      rw [execute_open_error ho, mExecute]
      simp only [PyM.bind_apply, onMaster, ho]
      exact ⟨w, rfl, hw⟩
    | ok u =>
      cases hp : prepare a with
      | error e =>
        rw [execute_prepare_error ho hp, mExecute]
        simp only [PyM.bind_apply, onMaster, ho, PyM.lift_apply, hp]
        exact ⟨w, rfl, hw⟩
      | ok p =>
        cases hs : a.slave with
        | none =>
          rw [mExecute]
          simp only [execute, PyM.bind_apply, onMaster, ho, PyM.lift_apply, hp, hs, PyM.raise_apply]
          exact ⟨w, rfl, hw⟩
        | some slave =>
          cases hb : buildRequest mac p.pdu slave s1 with
          | mk rb s2 =>
            cases rb with
            | error e =>
              rw [execute_build_error ho hp hs hb, mExecute]
              simp only [PyM.bind_apply, onMaster, ho, PyM.lift_apply, hp, hs, hb]
              exact ⟨w, rfl, hw⟩
            | ok rq =>
              obtain ⟨request, q⟩ := rq
              rw [mExecute_main ho hp hs hb, execute_main quiet_nil ho hp hs hb]
              obtain ⟨w1, e1, h1⟩ := hR (mExecute R mac ch d) "modbus.Master.before_send" (.msg request) s2 w hw
              rw [e1]
              dsimp only [Option.getD_none]
              rcases ch.send request s2.link with ⟨r1, l1⟩
              cases r1 with
              | error e => exact ⟨w1, rfl, h1⟩
              | ok _ =>
                dsimp only
                obtain ⟨w2, e2, h2⟩ := hR (mExecute R mac ch d) "modbus.Master.after_send" .obj { s2 with link := l1 } w1 h1
                rw [e2]
                dsimp only
                rcases ch.recv p.expectedLength l1 with ⟨r3, l3⟩
                cases r3 with
                | error e => exact ⟨w2, rfl, h2⟩
                | ok resp =>
                  dsimp only
                  obtain ⟨w3, e3, h3⟩ := hR (mExecute R mac ch d) "modbus.Master.after_recv" (.msg resp) { s2 with link := l3 } w2 h2
                  rw [e3]
                  dsimp only [Option.getD_none]
                  cases (mac.parseResponse resp q).1 <;> exact ⟨w3, rfl, h3⟩

/-- **C91 (observers).** Hook functions that answer None and leave the master alone, whatever else they do, change neither the result of a call nor what it does. -/
theorem C91_observers (R : MRegistry σ ω) (hR : ∀ name fs, Dict.get? R name = some fs → ∀ f ∈ fs, ∀ self a s w, ∃ w', f.fn self a (s, w) = (.ok none, (s, w')))
    (mac : Mac) (ch : Chan σ) (a : ExecArgs) (d : Nat) (s : MasterSt σ) (w : ω) :
    ∃ w', mExecute R mac ch (d + 1) a (s, w) = ((execute [] mac ch a s).1, ((execute [] mac ch a s).2, w')) := by
  have hl : Leaves R (fun _ => True) := by
    intro self name a s w _
    unfold mCallHooks
    cases hg : Dict.get? R name with
    | none => exact ⟨w, rfl, trivial⟩
    | some fs =>
      dsimp only
      have : ∀ (gs : List (MHook σ ω)), (∀ f ∈ gs, f ∈ fs) → ∀ w, ∃ w', mCallLoop self gs a (s, w) = (.ok none, (s, w')) := by
        intro gs
        induction gs with
        | nil => exact fun _ w => ⟨w, rfl⟩
        | cons f gs ih =>
          intro hin w
          obtain ⟨w1, e1⟩ := hR name fs hg f (hin f (by simp)) self a s w
          obtain ⟨w2, e2⟩ := ih (fun g hgm => hin g (by simp [hgm])) w1
          exact ⟨w2, by rw [mCallLoop]; dsimp only; rw [e1]; exact e2⟩
      obtain ⟨w', e⟩ := this fs (fun _ h => h) w
      exact ⟨w', by rw [e], trivial⟩
  obtain ⟨w', e, -⟩ := mExecute_leaves hl mac ch a d s w trivial
  exact ⟨w', e⟩

/-- A registry of functions that answer like the functions of `R` and change only the program around them. -/
def answering (R : Registry) (upd : Nat → HookArg → ω → ω) : MRegistry σ ω :=
  R.map (fun p => (p.1, p.2.map (fun g => ⟨g.id, fun _ a s => (g.fn a, (s.1, upd g.id a s.2))⟩)))

theorem mCallHooks_answering (R : Registry) (upd : Nat → HookArg → ω → ω) (self : ExecArgs → PyM (MasterSt σ × ω) ExecResult) (name : String) (a : HookArg) (s : MasterSt σ) (w : ω) :
    ∃ w', mCallHooks self (answering R upd) name a (s, w) = (callHooks R name a, (s, w')) := by
  have hget : ∀ R : Registry, Dict.get? (answering (σ := σ) R upd) name
      = (Dict.get? R name).map (fun fs => fs.map (fun g => (⟨g.id, fun _ a s => (g.fn a, (s.1, upd g.id a s.2))⟩ : MHook σ ω))) := by
    intro R
    induction R with
    | nil => rfl
    | cons p R ih =>
      obtain ⟨k, fs⟩ := p
      unfold answering
      simp only [List.map_cons, Dict.get?]
      split
      · rfl
      · exact ih
  have hloop : ∀ (fs : List Hook) w, ∃ w', mCallLoop self (fs.map (fun g => (⟨g.id, fun _ a s => (g.fn a, (s.1, upd g.id a s.2))⟩ : MHook σ ω))) a (s, w) = (callLoop fs a, (s, w')) := by
    intro fs
    induction fs with
    | nil => exact fun w => ⟨w, rfl⟩
    | cons g fs ih =>
      intro w
      rw [List.map_cons, mCallLoop, callLoop]
      dsimp only
      rcases g.fn a with e | (_ | v)
      · exact ⟨_, rfl⟩
      · exact ih _
      · exact ⟨_, rfl⟩
  unfold mCallHooks callHooks
  rw [hget]
  cases Dict.get? R name with
  | none => exact ⟨w, rfl⟩
  | some fs =>
    obtain ⟨w', e⟩ := hloop fs w
    simp only [Option.map_some]
    rw [e]
    rcases callLoop fs a with e | v
    · cases e <;> exact ⟨w', rfl⟩
    · exact ⟨w', rfl⟩

set_option linter.unusedSimpArgs false in
/-- **C91 (functions that answer).** Hook functions that answer - None, a replacement, an exception - and change only the program around them act on a call exactly as the plain functions of `Model/Master`
    (C44-C46: in order, up to the first answer; KeyError is swallowed). -/
theorem C91_answers (R : Registry) (upd : Nat → HookArg → ω → ω) (mac : Mac) (ch : Chan σ) (a : ExecArgs) (d : Nat) (s : MasterSt σ) (w : ω) :
    ∃ w', mExecute (answering R upd) mac ch (d + 1) a (s, w) = ((execute R mac ch a s).1, ((execute R mac ch a s).2, w')) := by
  rw [mExecute]
  simp only [execute, PyM.bind_apply, onMaster]
  rcases masterOpen ch s with ⟨e | u, s1⟩
  · exact ⟨w, rfl⟩
  simp only [PyM.lift_apply]
  cases prepare a with
  | error e => exact ⟨w, rfl⟩
  | ok p =>
    dsimp only
    cases a.slave with
    | none => exact ⟨w, rfl⟩
    | some slave =>
      simp only [PyM.bind_apply, onMaster]
      rcases buildRequest mac p.pdu slave s1 with ⟨e | ⟨request, q⟩, s2⟩
      · exact ⟨w, rfl⟩
      simp only [PyM.bind_apply, PyM.lift_apply, onMaster]
      obtain ⟨w1, e1⟩ := mCallHooks_answering R upd (mExecute (answering R upd) mac ch d) "modbus.Master.before_send" (.msg request) s2 w
      rw [e1]
      rcases callHooks R "modbus.Master.before_send" (.msg request) with e | rv
      · exact ⟨w1, rfl⟩
      simp only [PyM.bind_apply, PyM.lift_apply, onMaster]
      rcases onLink (ch.send (rv.getD request)) s2 with ⟨e | u, s3⟩
      · exact ⟨w1, rfl⟩
      simp only [PyM.bind_apply, PyM.lift_apply, onMaster]
      obtain ⟨w2, e2⟩ := mCallHooks_answering R upd (mExecute (answering R upd) mac ch d) "modbus.Master.after_send" .obj s3 w1
      rw [e2]
      rcases callHooks R "modbus.Master.after_send" .obj with e | rv2
      · exact ⟨w2, rfl⟩
      simp only [PyM.bind_apply, PyM.lift_apply, onMaster]
      rcases onLink (ch.recv p.expectedLength) s3 with ⟨e | resp, s4⟩
      · exact ⟨w2, rfl⟩
      simp only [PyM.bind_apply, PyM.lift_apply, onMaster]
      obtain ⟨w3, e3⟩ := mCallHooks_answering R upd (mExecute (answering R upd) mac ch d) "modbus.Master.after_recv" (.msg resp) s4 w2
      rw [e3]
      rcases callHooks R "modbus.Master.after_recv" (.msg resp) with e | rv3
      · exact ⟨w3, rfl⟩
      simp only [PyM.bind_apply, PyM.lift_apply, onMaster]
      rcases (mac.parseResponse (rv3.getD resp) q).1 with e | pdu
      · exact ⟨w3, rfl⟩
      · exact ⟨w3, rfl⟩

/-! ## Functions that make calls -/

/-- What a hook function does: it makes calls, one after the other - which ones may depend on the results, exceptions included, of those before -, then it answers or raises,
    and leaves the program around it in some state. -/
inductive HookProg (ω : Type) where
  | done (r : Except PyErr (Option Bytes)) (w : ω)
  | call (c : Call) (k : Except PyErr ExecResult → HookProg ω)

/-- running it: `self` is `master.execute`; the flag stays -/
def runProg (self : ExecArgs → PyM (MasterSt σ × (Bool × ω)) ExecResult) (id : Int) : HookProg ω → PyM (MasterSt σ × (Bool × ω)) (Option Bytes)
  | .done r w => fun s => (r, (s.1, (s.2.1, w)))
  | .call c k => fun s => let r := self (c.args id) s; runProg self id (k r.1) r.2

/-- `def fct(args): if busy: return None; busy = True; try: ... finally: busy = False` -/
def guardedHook (id : Int) (n : Nat) (P : ω → HookProg ω) : MHook σ (Bool × ω) where
  id := n
  fn := fun self _ s =>
    if s.2.1 then (.ok none, s)
    else
      let r := runProg self id (P s.2.2) (s.1, (true, s.2.2))
      (r.1, (r.2.1, (false, r.2.2.2)))

/-- the three hooks of a master -/
def hooked (id : Int) (B A P : ω → HookProg ω) : MRegistry σ (Bool × ω) :=
  [("modbus.Master.before_send", [guardedHook id 0 B]), ("modbus.Master.after_send", [guardedHook id 1 A]), ("modbus.Master.after_recv", [guardedHook id 2 P])]

/-- the function does nothing -/
def idle : ω → HookProg ω := fun w => .done (.ok none) w

/-- what the specification prescribes for the calls of a function: its end, and the memory -/
def specProg (u : Bool) : HookProg ω → Spec.Mem → (Except PyErr (Option Bytes) × ω) × Spec.Mem
  | .done r w, m => ((r, w), m)
  | .call c k, m => specProg u (k (outcome (c.answer u m))) (c.after u m)

/-- the calls fit (see C38), and the function answers None or raises -/
def HookProg.Fine (u : Bool) : HookProg ω → Prop
  | .done r _ => ∀ v, r ≠ .ok (some v)
  | .call c k => c.Fits ∧ c.pdu.length ≤ 65534 ∧ (u = true ∨ ∀ a am om, c ≠ .maskWrite a am om) ∧ ∀ r, (k r).Fine u

/-- what `call_hooks` lets through of the end of a function that answers None or raises -/
def escapes : Except PyErr (Option Bytes) → Option PyErr
  | .error e => if e = .keyError then none else some e
  | .ok _ => none

/-- The specification: the calls of the first function, the call itself, the calls of the second.
    An exception other than KeyError ends this: after the first function nothing else happens; after the second the result is lost. -/
def specHooked (u : Bool) (B P : ω → HookProg ω) (c : Call) (m : Spec.Mem) (w : ω) : (Except PyErr ExecResult × ω) × Spec.Mem :=
  let x := specProg u (B w) m
  match escapes x.1.1 with
  | some e => ((.error e, x.1.2), x.2)
  | none =>
    let y := specProg u (P x.1.2) (c.after u x.2)
    match escapes y.1.1 with
    | some e => ((.error e, y.1.2), y.2)
    | none => ((outcome (c.answer u x.2), y.1.2), y.2)

theorem dict_get_cons {V : Type} (k : String) (v : V) (R : List (String × V)) (name : String) : Dict.get? ((k, v) :: R) name = if k = name then some v else Dict.get? R name := by
  rfl

theorem hooked_get (id : Int) (B A P : ω → HookProg ω) (name : String) :
    Dict.get? (hooked (σ := σ) id B A P) name = none ∨ Dict.get? (hooked (σ := σ) id B A P) name = some [guardedHook id 0 B] ∨
    Dict.get? (hooked (σ := σ) id B A P) name = some [guardedHook id 1 A] ∨ Dict.get? (hooked (σ := σ) id B A P) name = some [guardedHook id 2 P] := by
  unfold hooked
  rw [dict_get_cons, dict_get_cons, dict_get_cons]
  split
  · exact .inr (.inl rfl)
  · split
    · exact .inr (.inr (.inl rfl))
    · split
      · exact .inr (.inr (.inr rfl))
      · exact .inl rfl

theorem hooked_get_all (id : Int) (B A P : ω → HookProg ω) :
    Dict.get? (hooked (σ := σ) id B A P) "modbus.Master.before_send" = some [guardedHook id 0 B] ∧
    Dict.get? (hooked (σ := σ) id B A P) "modbus.Master.after_send" = some [guardedHook id 1 A] ∧
    Dict.get? (hooked (σ := σ) id B A P) "modbus.Master.after_recv" = some [guardedHook id 2 P] := by
  refine ⟨?_, ?_, ?_⟩ <;> unfold hooked <;> simp [dict_get_cons]

theorem execute_quiet {R : Registry} (hR : Quiet R) (mac : Mac) (ch : Chan σ) (a : ExecArgs) : execute R mac ch a = execute [] mac ch a := by
  unfold execute
  simp only [hR _ _, quiet_nil _ _]

theorem hooked_leaves (id : Int) (B A P : ω → HookProg ω) (w : ω) : Leaves (σ := σ) (hooked id B A P) (fun v => v = (true, w)) := by
  intro self name a s v hv
  subst hv
  unfold mCallHooks
  refine ⟨(true, w), ?_, rfl⟩
  cases hg : Dict.get? (hooked (σ := σ) id B A P) name with
  | none => rfl
  | some fs =>
    have hfs : fs = [guardedHook id 0 B] ∨ fs = [guardedHook id 1 A] ∨ fs = [guardedHook id 2 P] := by
      rcases hooked_get (σ := σ) id B A P name with h | h | h | h <;> rw [h] at hg
      · cases hg
      · exact .inl (Option.some.inj hg).symm
      · exact .inr (.inl (Option.some.inj hg).symm)
      · exact .inr (.inr (Option.some.inj hg).symm)
    rcases hfs with rfl | rfl | rfl <;> rfl

theorem mCallHooks_guarded (self : ExecArgs → PyM (MasterSt σ × (Bool × ω)) ExecResult) (R : MRegistry σ (Bool × ω)) (name : String) (a : HookArg) (id : Int) (n : Nat) (Q : ω → HookProg ω)
    (hg : Dict.get? R name = some [guardedHook id n Q]) (s : MasterSt σ) (w : ω) (r : Except PyErr (Option Bytes)) (s' : MasterSt σ) (w' : ω)
    (hr : runProg self id (Q w) (s, (true, w)) = (r, (s', (true, w')))) (hv : ∀ v, r ≠ .ok (some v)) :
    mCallHooks self R name a (s, (false, w)) = ((match escapes r with | some e => .error e | none => .ok none), (s', (false, w'))) := by
  unfold mCallHooks
  rw [hg]
  dsimp only
  rw [mCallLoop]
  have : (guardedHook (σ := σ) id n Q).fn self a (s, (false, w)) = (r, (s', (false, w'))) := by
    simp only [guardedHook]
    rw [if_neg (by simp), hr]
  dsimp only
  rw [this]
  cases r with
  | error e =>
    dsimp only [escapes]
    by_cases he : e = .keyError
    · subst he; rfl
    · rw [if_neg he]
      cases e <;> first | rfl | exact absurd rfl he
  | ok v =>
    cases v with
    | none => rfl
    | some v => exact absurd rfl (hv v)

/-- the calls of a function do what the specification prescribes -/
theorem runProg_spec (R : Registry) (hR : Quiet R) (mac : Mac) (hmac : mac = tcpMac ∨ mac = rtuMac) (id : Int) (h0 : 1 ≤ id) (h1 : id ≤ 255) (sl : Slave) (r : Refs)
    (self : ExecArgs → PyM (MasterSt Net × (Bool × ω)) ExecResult)
    (hself : ∀ a s w, self a (s, (true, w)) = ((execute [] mac (serverLink R mac) a s).1, ((execute [] mac (serverLink R mac) a s).2, (true, w)))) :
    ∀ (q : HookProg ω), q.Fine sl.unsigned → ∀ (s : MasterSt Net), Ready id sl r s → ∀ w,
      ∃ s', runProg self id q (s, (true, w)) = ((specProg sl.unsigned q (absMem s.link.heap sl)).1.1, (s', (true, (specProg sl.unsigned q (absMem s.link.heap sl)).1.2))) ∧
        absMem s'.link.heap sl = (specProg sl.unsigned q (absMem s.link.heap sl)).2 ∧ Ready id sl r s' := by
  intro q
  induction q with
  | done e w' =>
    intro _ s hs w
    exact ⟨s, rfl, rfl, hs⟩
  | call c k ih =>
    intro hq s hs w
    obtain ⟨f1, f2, f3, f4⟩ := hq
    obtain ⟨s1, e1, e2, e3⟩ := C34_either R hR mac hmac id h0 h1 sl r s hs c f1 f2 f3
    have hx := hself (c.args id) s w
    rw [← execute_quiet hR, e1] at hx
    obtain ⟨s', g1, g2, g3⟩ := ih _ (f4 (outcome (c.answer sl.unsigned (absMem s.link.heap sl)))) s1 e3 w
    rw [e2] at g1 g2
    refine ⟨s', ?_, g2, g3⟩
    · rw [runProg]
      dsimp only
      rw [hx]
      exact g1

/-- **C91 (calls of hook functions).** A master with functions installed for `before_send` and `after_recv` that make calls on the same master (and look at their results, and may raise), over TCP or RTU,
    to a server: a call does what the specification prescribes for the calls of the first function, the call itself, and the calls of the second function, in this order. -/
theorem C91_calls (R : Registry) (hR : Quiet R) (mac : Mac) (hmac : mac = tcpMac ∨ mac = rtuMac) (id : Int) (h0 : 1 ≤ id) (h1 : id ≤ 255) (sl : Slave) (r : Refs) (B P : ω → HookProg ω)
    (hB : ∀ w, (B w).Fine sl.unsigned) (hP : ∀ w, (P w).Fine sl.unsigned)
    (c : Call) (hc : c.Fits) (hl : c.pdu.length ≤ 65534) (hm : sl.unsigned = true ∨ ∀ a am om, c ≠ .maskWrite a am om) (s : MasterSt Net) (hs : Ready id sl r s) (w : ω) (d : Nat) :
    ∃ s', mExecute (hooked id B idle P) mac (serverLink R mac) (d + 2) (c.args id) (s, (false, w)) =
        ((specHooked sl.unsigned B P c (absMem s.link.heap sl) w).1.1, (s', (false, (specHooked sl.unsigned B P c (absMem s.link.heap sl) w).1.2))) ∧
      absMem s'.link.heap sl = (specHooked sl.unsigned B P c (absMem s.link.heap sl) w).2 ∧ Ready id sl r s' := by
  have hself : ∀ a s w, mExecute (hooked id B idle P) mac (serverLink R mac) (d + 1) a (s, (true, w)) =
      ((execute [] mac (serverLink R mac) a s).1, ((execute [] mac (serverLink R mac) a s).2, (true, w))) := by
    intro a s w
    obtain ⟨w', e, hw'⟩ := mExecute_leaves (hooked_leaves id B idle P w) mac (serverLink R mac) a d s (true, w) rfl
    rw [e, hw']
  have hfine : ∀ (q : HookProg ω), q.Fine sl.unsigned → ∀ m v, (specProg sl.unsigned q m).1.1 ≠ .ok (some v) := by
    intro q
    induction q with
    | done e w' => exact fun h m v => h v
    | call c k ih => exact fun h m v => ih _ (h.2.2.2 _) _ _
  obtain ⟨g1, g2, g3⟩ := hooked_get_all (σ := Net) id B idle P
  have hm' : sl.unsigned = true ∨ ∀ a am om, c.toReq ≠ .maskWrite a am om := by
    rcases hm with h | h
    · exact .inl h
    · right; intro a am om e
      cases c <;> first | exact absurd rfl (h _ _ _) | (simp [Call.toReq] at e)
  -- the request is built
  obtain ⟨request0, q0, tid, -, -, hb0, ht, -⟩ := deliver R hR mac hmac id h0 h1 sl r s.link hs.known hs.good hs.clean { s with isOpened := true } hs.tid c.toReq (toReq_WF c hc)
    (by rw [← pdu_toReq]; exact hl) hm'
  have ho := open_serverLink R mac s
  have hp := prepare_call id hc
  have hb := hb0
  rw [← pdu_toReq, ← prepared_pdu] at hb
  rw [mExecute_main ho hp (args_slave c id) hb]
  clear hb ho
  -- the first function
  have hs2 : Ready id sl r { s with isOpened := true, lastTid := tid } := ⟨hs.known, hs.good, hs.clean, ht⟩
  obtain ⟨s3, e1, e2, e3⟩ := runProg_spec R hR mac hmac id h0 h1 sl r _ hself (B w) (hB w) _ hs2 w
  have hx := mCallHooks_guarded (mExecute (hooked id B idle P) mac (serverLink R mac) (d + 1)) (hooked id B idle P) "modbus.Master.before_send" (.msg request0) id 0 B g1 _ w _ _ _ e1
    (hfine _ (hB w) _)
  rw [hx]
  dsimp only at e2 ⊢
  unfold specHooked
  dsimp only
  generalize hmm : specProg sl.unsigned (B w) (absMem s.link.heap sl) = x at e2 ⊢
  clear hx e1
  cases hesc : escapes x.1.1 with
  | some e => exact ⟨s3, rfl, e2, e3⟩
  | none =>
    dsimp only [Option.getD_none]
    -- the call itself
    obtain ⟨request, q, tid', resp, h', hb, ht', hsend, hne, hparse, hmem, hgood⟩ := deliver R hR mac hmac id h0 h1 sl r s3.link e3.known e3.good e3.clean { s with isOpened := true } hs.tid c.toReq
      (toReq_WF c hc) (by rw [← pdu_toReq]; exact hl) hm'
    rw [hb0] at hb
    obtain ⟨hb1, hb2⟩ := Prod.mk.inj hb
    obtain ⟨hr, hq⟩ := Prod.mk.inj (Except.ok.inj hb1)
    subst hr hq
    rw [hsend]
    dsimp only
    have hidle : runProg (mExecute (hooked id B idle P) mac (serverLink R mac) (d + 1)) id (idle x.1.2)
        (({ s3 with link := { s3.link with heap := h', back := resp } } : MasterSt Net), (true, x.1.2)) =
        (.ok none, (({ s3 with link := { s3.link with heap := h', back := resp } } : MasterSt Net), (true, x.1.2))) := rfl
    rw [mCallHooks_guarded _ _ _ _ id 1 idle g2 _ _ _ _ _ hidle (by intro v h; cases h)]
    rw [show escapes (.ok none) = none from rfl]
    dsimp only
    rw [serverLink_recv R mac _ _ hne]
    dsimp only
    -- the second function
    have hs4 : Ready id sl r ({ s3 with link := { s3.link with heap := h', back := [] } } : MasterSt Net) := ⟨e3.known, hgood, rfl, e3.tid⟩
    obtain ⟨s5, f1, f2, f3⟩ := runProg_spec R hR mac hmac id h0 h1 sl r _ hself (P x.1.2) (hP x.1.2) _ hs4 x.1.2
    have hx := mCallHooks_guarded (mExecute (hooked id B idle P) mac (serverLink R mac) (d + 1)) (hooked id B idle P) "modbus.Master.after_recv" (.msg resp) id 2 P g3 _ x.1.2 _ _ _ f1
      (hfine _ (hP x.1.2) _)
    rw [hx]
    clear hx f1
    have hafter : absMem h' sl = c.after sl.unsigned x.2 := by rw [hmem, e2]; rfl
    dsimp only at f2 ⊢
    rw [hafter] at f2 ⊢
    cases hesc2 : escapes (specProg sl.unsigned (P x.1.2) (c.after sl.unsigned x.2)).1.1 with
    | some e => exact ⟨s5, rfl, f2, f3⟩
    | none =>
      dsimp only [Option.getD_none]
      rw [hparse, e2]
      dsimp only
      rw [analyse_reply _ _ c hc]
      exact ⟨s5, rfl, f2, f3⟩

/-- a program of calls on a master with such functions -/
def mRunCalls (R : MRegistry σ ω) (mac : Mac) (ch : Chan σ) (depth : Nat) (id : Int) : List Call → MasterSt σ × ω → List (Except PyErr ExecResult) × (MasterSt σ × ω)
  | [], s => ([], s)
  | c :: cs, s =>
    let r := mExecute R mac ch depth (c.args id) s
    let rest := mRunCalls R mac ch depth id cs r.2
    (r.1 :: rest.1, rest.2)

/-- what the specification prescribes for it -/
def specHookedCalls (u : Bool) (B P : ω → HookProg ω) : List Call → Spec.Mem → ω → List (Except PyErr ExecResult) × ω × Spec.Mem
  | [], m, w => ([], w, m)
  | c :: cs, m, w =>
    let x := specHooked u B P c m w
    let rest := specHookedCalls u B P cs x.2 x.1.2
    (x.1.1 :: rest.1, rest.2)

/-- **C91 (histories).** The same for every program of calls. -/
theorem C91_history (R : Registry) (hR : Quiet R) (mac : Mac) (hmac : mac = tcpMac ∨ mac = rtuMac) (id : Int) (h0 : 1 ≤ id) (h1 : id ≤ 255) (sl : Slave) (r : Refs) (B P : ω → HookProg ω)
    (hB : ∀ w, (B w).Fine sl.unsigned) (hP : ∀ w, (P w).Fine sl.unsigned) (d : Nat) (cs : List Call)
    (hc : ∀ c ∈ cs, c.Fits ∧ c.pdu.length ≤ 65534 ∧ (sl.unsigned = true ∨ ∀ a am om, c ≠ .maskWrite a am om)) (s : MasterSt Net) (hs : Ready id sl r s) (w : ω) :
    let out := mRunCalls (hooked id B idle P) mac (serverLink R mac) (d + 2) id cs (s, (false, w))
    let spec := specHookedCalls sl.unsigned B P cs (absMem s.link.heap sl) w
    out.1 = spec.1 ∧ out.2.2 = (false, spec.2.1) ∧ absMem out.2.1.link.heap sl = spec.2.2 := by
  induction cs generalizing s w with
  | nil => exact ⟨rfl, rfl, rfl⟩
  | cons c cs ih =>
    obtain ⟨a1, a2, a3⟩ := hc c (by simp)
    obtain ⟨s', e1, e2, e3⟩ := C91_calls R hR mac hmac id h0 h1 sl r B P hB hP c a1 a2 a3 s hs w d
    have := ih (fun c h => hc c (by simp [h])) s' e3 (specHooked sl.unsigned B P c (absMem s.link.heap sl) w).1.2
    rw [e2] at this
    simp only [mRunCalls, specHookedCalls, e1]
    exact ⟨by rw [this.1], this.2.1, this.2.2⟩

/-! ## Functions that call without a guard -/

/-- `def fct(args): args[0].execute(...)` -/
def callingHook (n : Nat) (b : ExecArgs) : MHook σ ω where
  id := n
  fn := fun self _ s => let r := self b s; (r.1.map (fun _ => none), r.2)

theorem callingHook_fn (n : Nat) (b : ExecArgs) (self : ExecArgs → PyM (MasterSt σ × ω) ExecResult) (a : HookArg) (s : MasterSt σ × ω) :
    (callingHook n b).fn self a s = ((self b s).1.map (fun _ => none), (self b s).2) := rfl

/-- **C91 (recursion).** A function installed for `before_send` that makes a call on the master without remembering that it is being called: every call raises RecursionError, however deep calls
    may nest; nothing is sent. -/
theorem C91_recursion (mac : Mac) (hmac : mac = tcpMac ∨ mac = rtuMac) (ch : Chan σ) (b : Call) (hb : b.Fits) (hlb : b.pdu.length ≤ 65534) (id : Int) (h0 : 1 ≤ id) (h1 : id ≤ 255) (n : Nat)
    (d : Nat) : ∀ (c : Call), c.Fits → c.pdu.length ≤ 65534 → ∀ (s : MasterSt (σ × List Event)), s.isOpened = true → 0 ≤ s.lastTid ∧ s.lastTid ≤ 65535 → ∀ w : ω,
    ∃ t, mExecute [("modbus.Master.before_send", [callingHook n (b.args id)])] mac ch.logged d (c.args id) (s, w) = (.error .runtimeError, ({ s with lastTid := t }, w)) := by
  induction d with
  | zero => exact fun c _ _ s _ _ w => ⟨s.lastTid, rfl⟩
  | succ d ih =>
    intro c hc hl s hopen ht w
    have ho : masterOpen ch.logged s = (.ok (), s) := by unfold masterOpen; rw [if_pos hopen]
    have hbuild : ∃ request q tid, buildRequest mac c.prepared.pdu id s = (.ok (request, q), { s with lastTid := tid }) ∧ 0 ≤ tid ∧ tid ≤ 65535 := by
      rw [prepared_pdu]
      rcases hmac with rfl | rfl
      · obtain ⟨q, e, -⟩ := buildRequest_tcp (pdu := c.pdu) hl (by omega : 0 ≤ id) h1 (s := s) ht
        exact ⟨_, q, _, e, by omega, by omega⟩
      · obtain ⟨q, e, -⟩ := buildRequest_rtu (pdu := c.pdu) (by omega : 0 ≤ id) h1 (s := s)
        exact ⟨_, q, s.lastTid, e, ht⟩
    obtain ⟨request, q, tid, e, ht'⟩ := hbuild
    rw [mExecute_main ho (prepare_call id hc) (args_slave c id) e]
    obtain ⟨t, ht⟩ := ih b hb hlb { s with lastTid := tid } hopen ht' w
    have hx : mCallHooks (mExecute [("modbus.Master.before_send", [callingHook n (b.args id)])] mac ch.logged d) [("modbus.Master.before_send", [callingHook n (b.args id)])]
        "modbus.Master.before_send" (.msg request) ({ s with lastTid := tid }, w) = (.error .runtimeError, ({ s with lastTid := t }, w)) := by
      unfold mCallHooks
      rw [dict_get_cons, if_pos rfl]
      dsimp only
      rw [mCallLoop]
      have : (callingHook n (b.args id)).fn (mExecute [("modbus.Master.before_send", [callingHook n (b.args id)])] mac ch.logged d) (.msg request) ({ s with lastTid := tid }, w) =
          (.error .runtimeError, ({ s with lastTid := t }, w)) := by
        rw [callingHook_fn, ht]
        rfl
      dsimp only
      rw [this]
    rw [hx]
    exact ⟨t, rfl⟩

/-! ## Calls between sending and receiving -/

/-- a server, the responses that have not been read, and for each message to come: do the responses on the way arrive before it is sent? -/
structure LagNet where
  db : Databank
  heap : Heap
  queue : List Bytes
  plan : List Bool

/-- The link to a server, see `serverLink`.  Before a message is sent, what has arrived is dropped (modbus_tcp.py:197-204, modbus_rtu.py:123-136); then the oldest response that has not been read is received. -/
def lagLink (R : Registry) (mac : Mac) : Chan LagNet where
  doOpen := fun s => (.ok (), s)
  doClose := fun s => (.ok true, s)
  send := fun m s =>
    let r := (serverLink R mac).send m ⟨s.db, s.heap, []⟩
    let rest := if s.plan.headD false then [] else s.queue
    (r.1, ⟨r.2.db, r.2.heap, if r.2.back = [] then rest else rest ++ [r.2.back], s.plan.tail⟩)
  recv := fun _ s =>
    match s.queue with
    | [] => (.error .timeout, s)
    | x :: xs => (.ok x, { s with queue := xs })

/-- a function that makes these calls and collects the results -/
def collectCalls : List Call → List (Except PyErr ExecResult) → HookProg (List (Except PyErr ExecResult))
  | [], rs => .done (.ok none) rs
  | c :: cs, rs => .call c (fun r => collectCalls cs (rs ++ [r]))

/-- the server has the slave, in good order -/
structure LReady (id : Int) (sl : Slave) (r : Refs) (s : MasterSt LagNet) : Prop where
  known : Dict.get? s.link.db.slaves id = some sl
  good : Good s.link.heap sl r

/-- a response with one of the transaction ids `t + lo, ..., t + hi` -/
def IsResponse (t : Int) (lo hi : Nat) (x : Bytes) : Prop :=
  ∃ (j : Nat) (tid pid : UInt16) (unit : UInt8) (pdu : Bytes), lo ≤ j ∧ j ≤ hi ∧ (tid.toNat : Int) = (t + j) % 65536 ∧ x = tcpAdu tid pid unit pdu

theorem tcpAdu_tid {t t' p p' : UInt16} {u u' : UInt8} {x x' : Bytes} (h : tcpAdu t p u x = tcpAdu t' p' u' x') : t = t' := by
  have : wordAt (tcpAdu t p u x) 0 = wordAt (tcpAdu t' p' u' x') 0 := by rw [h]
  simp only [tcpAdu, List.append_assoc] at this
  rwa [wordAt_word, wordAt_word] at this

theorem other_rejected {t : Int} {lo hi : Nat} {x : Bytes} (hx : IsResponse t lo hi x) (q : TcpQuery) (hq : ∀ j : Nat, lo ≤ j → j ≤ hi → q.request.transactionId ≠ (t + j) % 65536) :
    ∃ e, (tcpMac.parseResponse x q).1 = .error e := by
  cases hp : (tcpMac.parseResponse x q).1 with
  | error e => exact ⟨e, rfl⟩
  | ok pdu =>
    exfalso
    obtain ⟨j, tid, pid, unit, pdu', h1, h2, h3, h4⟩ := hx
    obtain ⟨tid', pid', unit', e1, -, e2, -, -⟩ := (C24_accepts x q pdu).mp hp
    rw [h4] at e1
    have := tcpAdu_tid e1
    subst this
    exact hq j h1 h2 (by rw [e2, h3])

/-- one call on such a link, with old responses in it: its own response is the right answer; anything else is rejected -/
theorem lag_call (R : Registry) (hR : Quiet R) (id : Int) (h0 : 1 ≤ id) (h1 : id ≤ 255) (sl : Slave) (r : Refs) (s : MasterSt LagNet) (hs : LReady id sl r s)
    (t : Int) (lo k : Nat) (hk : k + 1 ≤ 65535 + lo) (hlo : lo ≤ k + 1) (ht : s.lastTid = (t + k) % 65536) (hq : ∀ x ∈ s.link.queue, IsResponse t lo k x)
    (c : Call) (hc : c.Fits) (hl : c.pdu.length ≤ 65534) (hm : sl.unsigned = true ∨ ∀ a am om, c ≠ .maskWrite a am om) :
    ∃ res s', execute R tcpMac (lagLink R tcpMac) (c.args id) s = (res, s') ∧ (res = outcome (c.answer sl.unsigned (absMem s.link.heap sl)) ∨ ∃ e, res = .error e) ∧
      absMem s'.link.heap sl = c.after sl.unsigned (absMem s.link.heap sl) ∧ LReady id sl r s' ∧ s'.lastTid = (t + (k + 1 : Nat)) % 65536 ∧
      (∀ x ∈ s'.link.queue, x ∈ s.link.queue.tail ∨ IsResponse t (k + 1) (k + 1) x) := by
  have hm' : sl.unsigned = true ∨ ∀ a am om, c.toReq ≠ .maskWrite a am om := by
    rcases hm with h | h
    · exact .inl h
    · right; intro a am om e
      cases c <;> first | exact absurd rfl (h _ _ _) | (simp [Call.toReq] at e)
  have htr : 0 ≤ s.lastTid ∧ s.lastTid ≤ 65535 := by rw [ht]; omega
  obtain ⟨request, q, tid, resp, h', hb, -, hsend, hne, hparse, hmem, hgood⟩ := deliver R hR tcpMac (.inl rfl) id h0 h1 sl r ⟨s.link.db, s.link.heap, []⟩ hs.known hs.good rfl
    { s with isOpened := true } htr c.toReq (toReq_WF c hc) (by rw [← pdu_toReq]; exact hl) hm'
  obtain ⟨q', hb', q1, -⟩ := buildRequest_tcp (pdu := c.toReq.encode) (by rw [← pdu_toReq]; exact hl) (by omega : 0 ≤ id) h1 (s := { s with isOpened := true }) htr
  rw [hb] at hb'
  obtain ⟨hb1, hb2⟩ := Prod.mk.inj hb'
  obtain ⟨-, hqq⟩ := Prod.mk.inj (Except.ok.inj hb1)
  subst hqq
  have htid : tid = (s.lastTid + 1) % 65536 := congrArg MasterSt.lastTid hb2
  have hqt : q.request.transactionId = (t + (k + 1 : Nat)) % 65536 := by
    rw [q1, UInt16.toNat_ofNat', Nat.mod_eq_of_lt (by simp only; omega)]
    simp only
    omega
  have ho : masterOpen (lagLink R tcpMac) s = (.ok (), { s with isOpened := true }) := by
    unfold masterOpen
    cases h : s.isOpened
    · rfl
    · obtain ⟨o, l, t⟩ := s
      simp only at h
      subst h
      rfl
  rw [← pdu_toReq, ← prepared_pdu] at hb
  rw [execute_main hR ho (prepare_call id hc) (args_slave c id) hb]
  have hown : IsResponse t (k + 1) (k + 1) resp := by
    obtain ⟨tid', pid', unit', e1, -, e2, -, -⟩ := (C24_accepts resp q _).mp hparse
    exact ⟨k + 1, tid', pid', unit', _, Nat.le_refl _, Nat.le_refl _, by rw [← e2, hqt], e1⟩
  have hs1 : (lagLink R tcpMac).send request s.link = (.ok (), ⟨s.link.db, h', (if s.link.plan.headD false then [] else s.link.queue) ++ [resp], s.link.plan.tail⟩) := by
    show (let r := (serverLink R tcpMac).send request ⟨s.link.db, s.link.heap, []⟩
      let rest := if s.link.plan.headD false then [] else s.link.queue
      (r.1, (⟨r.2.db, r.2.heap, if r.2.back = [] then rest else rest ++ [r.2.back], s.link.plan.tail⟩ : LagNet))) = _
    rw [hsend]
    dsimp only
    rw [if_neg hne]
  dsimp only
  rw [hs1]
  dsimp only
  have hT : tid = (t + (k + 1 : Nat)) % 65536 := by rw [htid, ht]; omega
  have hgoodcase : ∀ rest, rest = [] → ∃ res s', (match (lagLink R tcpMac).recv c.prepared.expectedLength (⟨s.link.db, h', rest ++ [resp], s.link.plan.tail⟩ : LagNet) with
      | (.error e, l') => ((.error e : Except PyErr ExecResult), ({ isOpened := true, link := l', lastTid := tid } : MasterSt LagNet))
      | (.ok resp, l') => match (tcpMac.parseResponse resp q).1 with
        | .error e => (.error e, { isOpened := true, link := l', lastTid := tid })
        | .ok pdu => (analyse (c.args id) c.prepared pdu, { isOpened := true, link := l', lastTid := tid })) = (res, s') ∧
      (res = outcome (c.answer sl.unsigned (absMem s.link.heap sl)) ∨ ∃ e, res = .error e) ∧
      absMem s'.link.heap sl = c.after sl.unsigned (absMem s.link.heap sl) ∧ LReady id sl r s' ∧ s'.lastTid = (t + (k + 1 : Nat)) % 65536 ∧
      (∀ x ∈ s'.link.queue, x ∈ s.link.queue.tail ∨ IsResponse t (k + 1) (k + 1) x) := by
    rintro rest rfl
    rw [show (lagLink R tcpMac).recv c.prepared.expectedLength (⟨s.link.db, h', [] ++ [resp], s.link.plan.tail⟩ : LagNet) = (.ok resp, ⟨s.link.db, h', [], s.link.plan.tail⟩) from rfl]
    dsimp only
    rw [hparse]
    dsimp only
    rw [analyse_reply _ _ c hc]
    exact ⟨_, _, rfl, .inl rfl, hmem, ⟨hs.known, hgood⟩, hT, (fun x hx => by cases hx)⟩
  by_cases hf : s.link.plan.headD false = true
  · rw [if_pos hf]
    exact hgoodcase [] rfl
  · rw [if_neg hf]
    cases hqu : s.link.queue with
    | nil => rw [hqu] at hgoodcase; exact hgoodcase [] rfl
    | cons x xs =>
      rw [show (lagLink R tcpMac).recv c.prepared.expectedLength (⟨s.link.db, h', x :: xs ++ [resp], s.link.plan.tail⟩ : LagNet) = (.ok x, ⟨s.link.db, h', xs ++ [resp], s.link.plan.tail⟩) from rfl]
      dsimp only
      obtain ⟨e, he⟩ := other_rejected (hq x (by rw [hqu]; simp)) q (by intro j hj1 hj2; rw [hqt]; omega)
      rw [he]
      refine ⟨_, _, rfl, .inr ⟨e, rfl⟩, hmem, ⟨hs.known, hgood⟩, hT, ?_⟩
      intro y hy
      rcases List.mem_append.mp hy with h | h
      · exact .inl h
      · rw [List.mem_singleton.mp h]; exact .inr hown

theorem IsResponse.mono {t : Int} {lo lo' hi hi' : Nat} {x : Bytes} (h : IsResponse t lo hi x) (h1 : lo' ≤ lo) (h2 : hi ≤ hi') : IsResponse t lo' hi' x := by
  obtain ⟨j, a, b, c, d, e1, e2, e3, e4⟩ := h
  exact ⟨j, a, b, c, d, by omega, by omega, e3, e4⟩

/-- every result is the prescribed one, or an exception -/
def RightOrRaised (results : List (Except PyErr ExecResult)) (answers : List (Except UInt8 (List Int))) : Prop :=
  List.Forall₂ (fun res ans => res = outcome ans ∨ ∃ e, res = .error e) results answers

theorem collectCalls_spec (R : Registry) (hR : Quiet R) (id : Int) (h0 : 1 ≤ id) (h1 : id ≤ 255) (sl : Slave) (r : Refs)
    (self : ExecArgs → PyM (MasterSt LagNet × (Bool × List (Except PyErr ExecResult))) ExecResult)
    (hself : ∀ a s w, self a (s, (true, w)) = ((execute R tcpMac (lagLink R tcpMac) a s).1, ((execute R tcpMac (lagLink R tcpMac) a s).2, (true, w)))) (t : Int) :
    ∀ (cs : List Call), (∀ c ∈ cs, c.Fits ∧ c.pdu.length ≤ 65534 ∧ (sl.unsigned = true ∨ ∀ a am om, c ≠ .maskWrite a am om)) →
    ∀ (k : Nat), 1 ≤ k → k + cs.length ≤ 65535 → ∀ (s : MasterSt LagNet), LReady id sl r s → s.lastTid = (t + k) % 65536 → (∀ x ∈ s.link.queue, IsResponse t 1 k x) → ∀ rs w,
      ∃ out s', runProg self id (collectCalls cs rs) (s, (true, w)) = (.ok none, (s', (true, rs ++ out))) ∧ RightOrRaised out (specCalls sl.unsigned cs (absMem s.link.heap sl)).1 ∧
        absMem s'.link.heap sl = (specCalls sl.unsigned cs (absMem s.link.heap sl)).2 ∧ LReady id sl r s' ∧ (∀ x ∈ s'.link.queue, IsResponse t 1 (k + cs.length) x) := by
  intro cs
  induction cs with
  | nil =>
    intro _ k _ _ s hs _ hq rs w
    exact ⟨[], s, by rw [List.append_nil]; rfl, .nil, rfl, hs, hq⟩
  | cons c cs ih =>
    intro hc k hk hlen s hs ht hq rs w
    obtain ⟨f1, f2, f3⟩ := hc c (by simp)
    rw [List.length_cons] at hlen
    obtain ⟨res, s1, e1, e2, e3, e4, e5, e6⟩ := lag_call R hR id h0 h1 sl r s hs t 1 k (by omega) (by omega) ht hq c f1 f2 f3
    obtain ⟨out, s', g1, g2, g3, g4, g5⟩ := ih (fun c h => hc c (by simp [h])) (k + 1) (by omega) (by omega) s1 e4 e5
      (fun x hx => by
        rcases e6 x hx with h | h
        · exact (hq x (List.mem_of_mem_tail h)).mono (by omega) (by omega)
        · exact h.mono (by omega) (by omega)) (rs ++ [res]) w
    rw [e3] at g2 g3
    refine ⟨res :: out, s', ?_, .cons e2 g2, g3, g4, fun x hx => (g5 x hx).mono (by omega) (by rw [List.length_cons]; omega)⟩
    rw [collectCalls, runProg]
    dsimp only
    rw [hself, e1]
    rw [g1, List.append_assoc]
    rfl

/-- **C91 (between sending and receiving).** A function installed for `after_send` that makes calls on the same TCP master, whether or not the response of the interrupted call has arrived before:
    the interrupted call raises although the slave has executed it; the other calls are executed once each, in order, and every one of them returns the right answer or raises. -/
theorem C91_after_send (R : Registry) (hR : Quiet R) (id : Int) (h0 : 1 ≤ id) (h1 : id ≤ 255) (sl : Slave) (r : Refs) (c : Call) (b : Call) (bs : List Call)
    (hc : ∀ x ∈ c :: b :: bs, x.Fits ∧ x.pdu.length ≤ 65534 ∧ (sl.unsigned = true ∨ ∀ a am om, x ≠ .maskWrite a am om)) (hlen : (b :: bs).length ≤ 65535)
    (s : MasterSt LagNet) (hs : LReady id sl r s) (hclean : s.link.queue = []) (htid : 0 ≤ s.lastTid ∧ s.lastTid ≤ 65535) (rs : List (Except PyErr ExecResult)) (d : Nat) :
    ∃ e out s', mExecute (hooked id idle (collectCalls (b :: bs)) idle) tcpMac (lagLink R tcpMac) (d + 2) (c.args id) (s, (false, rs)) = (.error e, (s', (false, rs ++ out))) ∧
      RightOrRaised out (specCalls sl.unsigned (b :: bs) (c.after sl.unsigned (absMem s.link.heap sl))).1 ∧
      absMem s'.link.heap sl = (specCalls sl.unsigned (c :: b :: bs) (absMem s.link.heap sl)).2 := by
  have hself : ∀ a s w, mExecute (hooked id idle (collectCalls (b :: bs)) idle) tcpMac (lagLink R tcpMac) (d + 1) a (s, (true, w)) =
      ((execute R tcpMac (lagLink R tcpMac) a s).1, ((execute R tcpMac (lagLink R tcpMac) a s).2, (true, w))) := by
    intro a s w
    obtain ⟨w', e, hw'⟩ := mExecute_leaves (hooked_leaves id idle (collectCalls (b :: bs)) idle w) tcpMac (lagLink R tcpMac) a d s (true, w) rfl
    rw [e, hw', execute_quiet hR]
  obtain ⟨g1, g2, g3⟩ := hooked_get_all (σ := LagNet) id idle (collectCalls (b :: bs)) idle
  obtain ⟨hcf, hcl, hcm⟩ := hc c (by simp)
  have hm' : sl.unsigned = true ∨ ∀ a am om, c.toReq ≠ .maskWrite a am om := by
    rcases hcm with h | h
    · exact .inl h
    · right; intro a am om e
      cases c <;> first | exact absurd rfl (h _ _ _) | (simp [Call.toReq] at e)
  obtain ⟨request, q, tid, resp, h', hb, -, hsend, hne, hparse, hmem, hgood⟩ := deliver R hR tcpMac (.inl rfl) id h0 h1 sl r ⟨s.link.db, s.link.heap, []⟩ hs.known hs.good rfl
    { s with isOpened := true } htid c.toReq (toReq_WF c hcf) (by rw [← pdu_toReq]; exact hcl) hm'
  obtain ⟨q', hb', q1, -⟩ := buildRequest_tcp (pdu := c.toReq.encode) (by rw [← pdu_toReq]; exact hcl) (by omega : 0 ≤ id) h1 (s := { s with isOpened := true }) htid
  rw [hb] at hb'
  obtain ⟨hb1, hb2⟩ := Prod.mk.inj hb'
  obtain ⟨-, hqq⟩ := Prod.mk.inj (Except.ok.inj hb1)
  subst hqq
  have htt : tid = (s.lastTid + 1) % 65536 := congrArg MasterSt.lastTid hb2
  have hqt : q.request.transactionId = tid := by
    rw [q1, UInt16.toNat_ofNat', Nat.mod_eq_of_lt (by simp only; omega)]
    simp only
    omega
  have ho : masterOpen (lagLink R tcpMac) s = (.ok (), { s with isOpened := true }) := by
    unfold masterOpen
    cases h : s.isOpened
    · rfl
    · obtain ⟨o, l, t⟩ := s
      simp only at h
      subst h
      rfl
  rw [← pdu_toReq, ← prepared_pdu] at hb
  rw [mExecute_main ho (prepare_call id hcf) (args_slave c id) hb]
  have hidle : runProg (mExecute (hooked id idle (collectCalls (b :: bs)) idle) tcpMac (lagLink R tcpMac) (d + 1)) id (idle rs) (({ s with isOpened := true, lastTid := tid } : MasterSt LagNet), (true, rs)) =
      (.ok none, (({ s with isOpened := true, lastTid := tid } : MasterSt LagNet), (true, rs))) := rfl
  rw [mCallHooks_guarded _ _ _ _ id 0 idle g1 _ _ _ _ _ hidle (by intro v h; cases h)]
  rw [show escapes (.ok none) = none from rfl]
  dsimp only [Option.getD_none]
  have hown : IsResponse tid 0 0 resp := by
    obtain ⟨tid', pid', unit', e1, -, e2, -, -⟩ := (C24_accepts resp q _).mp hparse
    exact ⟨0, tid', pid', unit', _, Nat.le_refl _, Nat.le_refl _, by rw [← e2, hqt]; omega, e1⟩
  have hs1 : (lagLink R tcpMac).send request s.link = (.ok (), ⟨s.link.db, h', [resp], s.link.plan.tail⟩) := by
    show (let r := (serverLink R tcpMac).send request ⟨s.link.db, s.link.heap, []⟩
      let rest := if s.link.plan.headD false then [] else s.link.queue
      (r.1, (⟨r.2.db, r.2.heap, if r.2.back = [] then rest else rest ++ [r.2.back], s.link.plan.tail⟩ : LagNet))) = _
    rw [hsend]
    dsimp only
    rw [if_neg hne, hclean, ite_self]
    rfl
  rw [hs1]
  dsimp only
  -- the first call of the function
  obtain ⟨f1, f2, f3⟩ := hc b (by simp)
  have hs2 : LReady id sl r ({ isOpened := true, link := ⟨s.link.db, h', [resp], s.link.plan.tail⟩, lastTid := tid } : MasterSt LagNet) := ⟨hs.known, hgood⟩
  obtain ⟨res, s3, e1, e2, e3, e4, e5, e6⟩ := lag_call R hR id h0 h1 sl r _ hs2 tid 0 0 (by omega) (by omega) (by simp only; omega)
    (by intro x hx; rw [List.mem_singleton.mp hx]; exact hown) b f1 f2 f3
  rw [List.length_cons] at hlen
  obtain ⟨out, s4, k1, k2, k3, k4, k5⟩ := collectCalls_spec R hR id h0 h1 sl r _ hself tid bs (fun c h => hc c (by simp [h])) 1 (by omega) (by omega) s3 e4 e5
    (fun x hx => by
      rcases e6 x hx with h | h
      · cases h
      · exact h.mono (by omega) (by omega)) (rs ++ [res]) rs
  dsimp only at e2 e3
  have hafter : absMem h' sl = c.after sl.unsigned (absMem s.link.heap sl) := hmem
  rw [hafter] at e2 e3
  rw [e3] at k2 k3
  have hrun : runProg (mExecute (hooked id idle (collectCalls (b :: bs)) idle) tcpMac (lagLink R tcpMac) (d + 1)) id (collectCalls (b :: bs) rs)
      (({ isOpened := true, link := ⟨s.link.db, h', [resp], s.link.plan.tail⟩, lastTid := tid } : MasterSt LagNet), (true, rs)) = (.ok none, (s4, (true, rs ++ (res :: out)))) := by
    rw [collectCalls, runProg]
    dsimp only
    rw [hself, e1]
    rw [k1, List.append_assoc]
    rfl
  rw [mCallHooks_guarded _ _ _ _ id 1 (collectCalls (b :: bs)) g2 _ _ _ _ _ hrun (by intro v h; cases h)]
  rw [show escapes (.ok none) = none from rfl]
  dsimp only
  have hright : RightOrRaised (res :: out) (specCalls sl.unsigned (b :: bs) (c.after sl.unsigned (absMem s.link.heap sl))).1 := .cons e2 k2
  cases hqu : s4.link.queue with
  | nil =>
    rw [show (lagLink R tcpMac).recv c.prepared.expectedLength s4.link = (match s4.link.queue with
      | [] => (.error .timeout, s4.link)
      | x :: xs => (.ok x, { s4.link with queue := xs })) from rfl, hqu]
    exact ⟨_, _, _, rfl, hright, k3⟩
  | cons x xs =>
    rw [show (lagLink R tcpMac).recv c.prepared.expectedLength s4.link = (match s4.link.queue with
      | [] => (.error .timeout, s4.link)
      | x :: xs => (.ok x, { s4.link with queue := xs })) from rfl, hqu]
    dsimp only
    have hidle2 : runProg (mExecute (hooked id idle (collectCalls (b :: bs)) idle) tcpMac (lagLink R tcpMac) (d + 1)) id (idle (rs ++ (res :: out)))
        (({ s4 with link := { s4.link with queue := xs } } : MasterSt LagNet), (true, rs ++ (res :: out))) =
        (.ok none, (({ s4 with link := { s4.link with queue := xs } } : MasterSt LagNet), (true, rs ++ (res :: out)))) := rfl
    rw [mCallHooks_guarded _ _ _ _ id 2 idle g3 _ _ _ _ _ hidle2 (by intro v h; cases h)]
    rw [show escapes (.ok none) = none from rfl]
    dsimp only [Option.getD_none]
    obtain ⟨e, he⟩ := other_rejected (k5 x (by rw [hqu]; simp)) q (by intro j hj1 hj2; rw [hqt]; omega)
    rw [he]
    exact ⟨_, _, _, rfl, hright, k3⟩

/-! ## Concrete cases -/

/-- a master that has never been opened and a server with registers 10 to 14, two of them written -/
def exLag : MasterSt LagNet :=
  let n := (runCalls [] rtuMac 1 [.writeRegisters 10 [7, 9]] exNet).2.link
  ⟨false, ⟨n.db, n.heap, [], []⟩, 65535⟩

/-- **C91, a negative result.** Over RTU there is nothing in a response that tells which call it answers: when the first response has not arrived before the function of `after_send` makes its call,
    each of the two calls returns the value the other one asked for (register 10 holds 7, register 11 holds 9). -/
theorem C91_false_rtu : (mExecute (hooked 1 idle (collectCalls [.readHolding 11 1]) idle) rtuMac (lagLink [] rtuMac) 2 (Call.args 1 (.readHolding 10 1)) (exLag, (false, []))).1 = .ok (.values [9]) ∧
    (mExecute (hooked 1 idle (collectCalls [.readHolding 11 1]) idle) rtuMac (lagLink [] rtuMac) 2 (Call.args 1 (.readHolding 10 1)) (exLag, (false, []))).2.2 = (false, [.ok (.values [7])]) := by
  decide +kernel

-- the same over TCP: both raise
example : (mExecute (hooked 1 idle (collectCalls [.readHolding 11 1]) idle) tcpMac (lagLink [] tcpMac) 2 (Call.args 1 (.readHolding 10 1)) (exLag, (false, []))).1 = .error .invalidMbap ∧
    (mExecute (hooked 1 idle (collectCalls [.readHolding 11 1]) idle) tcpMac (lagLink [] tcpMac) 2 (Call.args 1 (.readHolding 10 1)) (exLag, (false, []))).2.2 = (false, [.error .invalidMbap]) := by
  decide +kernel

-- when the first response arrives early it is dropped: only the interrupted call raises
example : (mExecute (hooked 1 idle (collectCalls [.readHolding 11 1]) idle) tcpMac (lagLink [] tcpMac) 2 (Call.args 1 (.readHolding 10 1))
      ({ exLag with link := { exLag.link with plan := [false, true] } }, (false, []))).1 = .error .timeout ∧
    (mExecute (hooked 1 idle (collectCalls [.readHolding 11 1]) idle) tcpMac (lagLink [] tcpMac) 2 (Call.args 1 (.readHolding 10 1))
      ({ exLag with link := { exLag.link with plan := [false, true] } }, (false, []))).2.2 = (false, [.ok (.values [9])]) := by
  decide +kernel

theorem exLag_ready : LReady 1 ⟨1, true, [("a", (3, 10))], 0⟩ ⟨0, 1, 2, 3⟩ ⟨false, ⟨exTwo.st.db, exTwo.st.heap, [], []⟩, 65535⟩ := ⟨exNet_ready.known, exNet_ready.good⟩

-- the hypotheses of C91_after_send are met
example : ∃ e out s', mExecute (hooked 1 idle (collectCalls [.writeRegister 11 5]) idle) tcpMac (lagLink [] tcpMac) 2 (Call.args 1 (.readHolding 11 1))
    (⟨false, ⟨exTwo.st.db, exTwo.st.heap, [], []⟩, 65535⟩, (false, [])) = (.error e, (s', (false, [] ++ out))) := by
  obtain ⟨e, out, s', h, -⟩ := C91_after_send [] quiet_nil 1 (by decide) (by decide) _ _ (.readHolding 11 1) (.writeRegister 11 5) []
    (by
      intro x hx
      simp only [List.mem_cons, List.not_mem_nil, or_false] at hx
      rcases hx with rfl | rfl <;> exact ⟨by decide, by decide, .inl rfl⟩) (by decide) _ exLag_ready rfl (by decide) [] 0
  exact ⟨e, out, s', h⟩

/-- A function that counts up register 13, and raises when there is no such register. -/
def exAfter : Nat → HookProg Nat := fun w =>
  .call (.readHolding 13 1) (fun r => match r with
    | .ok (.values [v]) => .call (.writeRegister 13 (if v < 65535 ∧ 0 ≤ v then v + 1 else 0)) (fun _ => .done (.ok none) w)
    | .ok _ => .done (.ok none) w
    | .error e => .done (.error e) w)

theorem exAfter_fine (w : Nat) : (exAfter w).Fine true := by
  refine ⟨by decide, by decide, .inl rfl, fun r => ?_⟩
  dsimp only
  split
  · rename_i v
    refine ⟨?_, by simp [Call.pdu, Spec.Req.encode, word], .inl rfl, fun _ v h => by cases h⟩
    refine ⟨by decide, ?_⟩
    simp only [Spec.FitsReg]
    split <;> omega
  · intro v h; cases h
  · intro v h; cases h

-- the function counts the calls
example : (mRunCalls (hooked 1 (fun w : Nat => HookProg.done (.ok none) (w + 1)) idle exAfter) tcpMac (serverLink [] tcpMac) 2 1 [.writeRegister 13 40, .readHolding 13 1, .readHolding 13 1] (exNet, (false, 0))).1 =
    [.ok (.values [13, 40]), .ok (.values [41]), .ok (.values [42])] := by decide +kernel

-- the hypotheses of C91_history are met
example (cs : List Call) (hc : ∀ c ∈ cs, c.Fits ∧ c.pdu.length ≤ 65534 ∧ (true = true ∨ ∀ a am om, c ≠ .maskWrite a am om)) :
    (mRunCalls (hooked 1 exAfter idle exAfter) rtuMac (serverLink [] rtuMac) 2 1 cs (exNet, (false, 0))).1 =
      (specHookedCalls true exAfter exAfter cs (absMem exNet.link.heap ⟨1, true, [("a", (3, 10))], 0⟩) 0).1 :=
  (C91_history [] quiet_nil rtuMac (.inr rfl) 1 (by decide) (by decide) ⟨1, true, [("a", (3, 10))], 0⟩ ⟨0, 1, 2, 3⟩ exAfter exAfter exAfter_fine exAfter_fine 0 cs hc exNet exNet_ready 0).1

-- an exception of the first function: nothing is sent
example : (mExecute (hooked 1 (fun w : Nat => HookProg.done (.error .generic) w) idle idle) tcpMac (serverLink [] tcpMac) 2 (Call.args 1 (.writeRegister 13 40)) (exNet, (false, 0))).1 = .error .generic := by
  decide +kernel

-- calling without a guard
example : (mExecute [("modbus.Master.before_send", [callingHook 0 (Call.args 1 (.readHolding 13 1))])] tcpMac (serverLink [] tcpMac) 100 (Call.args 1 (.writeRegister 13 40)) (exNet, ())).1 = .error .runtimeError := by
  decide +kernel

end Modbus
