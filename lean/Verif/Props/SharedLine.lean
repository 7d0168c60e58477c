import Verif.Model.SharedLine
import Verif.Props.OpenClose
/-
# C102: several masters on one serial port, and destructors
-/
namespace Modbus

/-! ## Specification: one master

The same calls made by a single master on the same port. -/

/-- calls of one master, each with the attributes (`handle_local_echo`, `use_sw_timeout`) it has at that time; exceptions are caught -/
def singleMaster (R : Registry) : List (RtuCfg × ExecArgs) → MasterSt Port → List (Except PyErr ExecResult) × MasterSt Port
  | [], m => ([], m)
  | (cfg, a) :: calls, m =>
    let r := execute R rtuMac (rtuChan R cfg) a m
    let rest := singleMaster R calls r.2
    (r.1 :: rest.1, rest.2)

/-- no master takes the port for open when it is closed -/
def SharedLine.Honest (s : SharedLine) : Prop := ∀ i, s.opened i = true → s.port.isOpen = true

/-! ## Calls -/

/-- on an open port it does not matter whether the master has opened it -/
theorem execute_flag (R : Registry) (cfg : RtuCfg) (a : ExecArgs) (b : Bool) (p : Port) (t : Int) (hp : p.isOpen = true) :
    execute R rtuMac (rtuChan R cfg) a ⟨b, p, t⟩ = execute R rtuMac (rtuChan R cfg) a ⟨true, p, t⟩ := by
  have h : ∀ b : Bool, masterOpen (rtuChan R cfg) ⟨b, p, t⟩ = (.ok (), ⟨true, p, t⟩) := by
    intro b
    cases b with
    | true => rfl
    | false =>
      have : (rtuChan R cfg).doOpen p = (.ok (), p) := by show rtuDoOpen R p = _; unfold rtuDoOpen; rw [if_pos hp]
      unfold masterOpen
      simp only [this]
      rfl
  simp only [execute, PyM.bind_apply, h]

/-- a call never closes the port -/
theorem execute_port_open (R : Registry) (cfg : RtuCfg) (a : ExecArgs) (m : MasterSt Port) (hp : m.link.isOpen = true) :
    (execute R rtuMac (rtuChan R cfg) a m).2.link.isOpen = true := by
  refine execute_preserves (P := fun m : MasterSt Port => m.link.isOpen = true) R rtuMac a ?_ (fun _ _ h => h)
    (fun b t h => rtuSend_open R cfg b _ h) (fun n t h => rtuRecv_open R cfg n _ h)
  unfold masterOpen
  split
  · exact hp
  · have : (rtuChan R cfg).doOpen m.link = (.ok (), m.link) := by show rtuDoOpen R m.link = _; unfold rtuDoOpen; rw [if_pos hp]
    rw [this]; exact hp

/-- after a call, a master that is opened has an open port (if it was so before) -/
theorem execute_honest (R : Registry) (cfg : RtuCfg) (a : ExecArgs) (m : MasterSt Port) (hm : m.isOpened = true → m.link.isOpen = true) :
    (execute R rtuMac (rtuChan R cfg) a m).2.isOpened = true → (execute R rtuMac (rtuChan R cfg) a m).2.link.isOpen = true := by
  refine execute_preserves (P := fun m : MasterSt Port => m.isOpened = true → m.link.isOpen = true) R rtuMac a ?_ (fun _ _ h => h)
    (fun b t h ho => rtuSend_open R cfg b _ (h ho)) (fun n t h ho => rtuRecv_open R cfg n _ (h ho))
  unfold masterOpen
  split
  · exact hm
  · split
    · rename_i l h
      intro _
      exact rtuDoOpen_open R _ _ h
    · intro ho
      exact absurd ho ‹_›

/-- one call on a shared line -/
theorem lineStep_exec (R : Registry) (i : Nat) (a : ExecArgs) (s : SharedLine) :
    lineStep R (.exec i a) s =
      ((execute R rtuMac (rtuChan R (s.cfg i)) a ⟨s.opened i, s.port, s.lastTid⟩).1.map some,
        (SharedLine.by i (execute R rtuMac (rtuChan R (s.cfg i)) a) s).2) := by
  simp only [lineStep, PyM.bind_apply, SharedLine.by]
  cases h : execute R rtuMac (rtuChan R (s.cfg i)) a ⟨s.opened i, s.port, s.lastTid⟩ with
  | mk r m => cases r <;> rfl

/-- **C102.** Any number of `RtuMaster` objects on one port, none of which has been deceived about the port: whatever calls they make,
    in whatever order, every call returns or raises what it would if one single master made all of them, and the port - what was
    written, what is left unread - is the same at the end. -/
theorem C102_as_one (R : Registry) (calls : List (Nat × ExecArgs)) (s : SharedLine) (hs : s.Honest) (m : MasterSt Port)
    (hl : m.link = s.port) (ht : m.lastTid = s.lastTid) (hm : m.isOpened = true → s.port.isOpen = true) :
    (lineRun R (calls.map fun c => .exec c.1 c.2) s).1 =
      (singleMaster R (calls.map fun c => (s.cfg c.1, c.2)) m).1.map (Except.map some) ∧
    (lineRun R (calls.map fun c => .exec c.1 c.2) s).2.port = (singleMaster R (calls.map fun c => (s.cfg c.1, c.2)) m).2.link ∧
    (lineRun R (calls.map fun c => .exec c.1 c.2) s).2.Honest := by
  induction calls generalizing s m with
  | nil => exact ⟨rfl, hl.symm, hs⟩
  | cons c calls ih =>
    obtain ⟨i, a⟩ := c
    obtain ⟨b, p, t⟩ := m
    dsimp only at hl ht hm
    subst hl; subst ht
    have heq : execute R rtuMac (rtuChan R (s.cfg i)) a ⟨b, s.port, s.lastTid⟩ =
        execute R rtuMac (rtuChan R (s.cfg i)) a ⟨s.opened i, s.port, s.lastTid⟩ := by
      cases hp : s.port.isOpen with
      | true => rw [execute_flag R _ a b _ _ hp, execute_flag R _ a (s.opened i) _ _ hp]
      | false =>
        have h1 : b = false := by cases b with | false => rfl | true => rw [hm rfl] at hp; cases hp
        have h2 : s.opened i = false := by
          cases ho : s.opened i with | false => rfl | true => rw [hs i ho] at hp; cases hp
        rw [h1, h2]
    have hon := execute_honest R (s.cfg i) a ⟨s.opened i, s.port, s.lastTid⟩ (hs i)
    have hop := execute_port_open R (s.cfg i) a ⟨s.opened i, s.port, s.lastTid⟩
    simp only [List.map_cons, lineRun, singleMaster, lineStep_exec, heq]
    have := ih (SharedLine.by i (execute R rtuMac (rtuChan R (s.cfg i)) a) s).2 ?_
      (execute R rtuMac (rtuChan R (s.cfg i)) a ⟨s.opened i, s.port, s.lastTid⟩).2 rfl rfl hon
    · refine ⟨?_, this.2⟩
      rw [this.1]; rfl
    · intro j hj
      change (if j = i then _ else _) = true at hj
      by_cases hji : j = i
      · rw [if_pos hji] at hj
        exact hon hj
      · rw [if_neg hji] at hj
        exact hop (hs j hj)

/-- **C102.** A new master on the line may use the port at once, open or not; but the time-out it sets is the time-out of all of them from
    then on. -/
theorem C102_new (R : Registry) (i t : Nat) (calls : List (Nat × ExecArgs)) (s : SharedLine) (hs : s.Honest) (b : Bool)
    (hb : b = true → s.port.isOpen = true) :
    (lineRun R (.new i t :: calls.map fun c => .exec c.1 c.2) s).1 =
      .ok none :: (singleMaster R (calls.map fun c => (if c.1 = i then {} else s.cfg c.1, c.2)) ⟨b, { s.port with timeout := some t }, s.lastTid⟩).1.map
        (Except.map some) := by
  have h : (rtuMasterNew i t s).2.Honest := by
    intro j hj
    change (if j = i then _ else _) = true at hj
    split at hj
    · cases hj
    · exact hs j hj
  have := (C102_as_one R calls (rtuMasterNew i t s).2 h ⟨b, { s.port with timeout := some t }, s.lastTid⟩ rfl rfl hb).1
  show _ :: (lineRun R (calls.map fun c => .exec c.1 c.2) (rtuMasterNew i t s).2).1 = _
  rw [this]
  rfl

/-! ## Destructors and `close` -/

/-- **C102.** Dropping the last reference to a master never raises, and does to the line exactly what `close()` does. -/
theorem C102_drop (R : Registry) (i : Nat) (s : SharedLine) :
    (lineStep R (.drop i) s).1 = .ok none ∧ (lineStep R (.drop i) s).2 = (lineStep R (.close i) s).2 := by
  refine ⟨rfl, ?_⟩
  simp only [lineStep, PyM.bind_apply, SharedLine.by, masterDel]
  cases masterClose (rtuChan R (s.cfg i)) ⟨s.opened i, s.port, s.lastTid⟩ with
  | mk r m => cases r <;> rfl

/-- **C102.** The same for a master on any transport which has been used in any way: afterwards no open link is left behind, if the master
    had opened it; a master that was not open leaves everything as it is. -/
theorem C102_drop_any {σ : Type} (R : Registry) (mac : Mac) (ch : Chan σ) (Live : σ → Prop) (H : LinkLaws ch Live) (link : σ) (tid : Int)
    (ops : List MasterOp) (s : MasterSt σ) (hs : s = runMaster R mac ch ops ⟨false, link, tid⟩) :
    ∃ s', masterDel ch s = (.ok (), s') ∧ s'.isOpened = false ∧ (s.isOpened = true → ¬ Live s'.link) ∧ (s.isOpened = false → s' = s) := by
  have hi : OpenInv Live s := by rw [hs]; exact runMaster_inv H R mac ops (fun h => by cases h)
  obtain ⟨s', h1, h2, h3, h4⟩ := masterClose_spec H hi
  exact ⟨s', by unfold masterDel; rw [h1], h2, h3, h4⟩

/-- **C102.** Closing (or dropping) a master that has opened the port closes the port for all of them; closing one that has not
    does nothing. -/
theorem C102_close (R : Registry) (hR : Quiet R) (i : Nat) (s : SharedLine) (hp : s.port.isOpen = true) :
    (s.opened i = true → (lineStep R (.close i) s).1 = .ok none ∧ (lineStep R (.close i) s).2.port = { s.port with isOpen := false } ∧
      (lineStep R (.close i) s).2.opened i = false ∧ ∀ j, j ≠ i → (lineStep R (.close i) s).2.opened j = s.opened j) ∧
    (s.opened i = false → lineStep R (.close i) s = (.ok none, s)) := by
  constructor
  · intro ho
    have hc : rtuDoClose R s.port = (.ok true, { s.port with isOpen := false }) := by
      unfold rtuDoClose
      rw [if_pos hp]
      simp only [PyM.bind_apply, PyM.lift_apply, hR _ _, portClose]
      rfl
    have : lineStep R (.close i) s = (.ok none,
        { s with port := { s.port with isOpen := false }, opened := fun j => if j = i then false else s.opened j }) := by
      simp only [lineStep, PyM.bind_apply, SharedLine.by, masterClose, ho, if_pos,
        show (rtuChan R (s.cfg i)).doClose s.port = rtuDoClose R s.port from rfl, hc]
      rfl
    rw [this]
    exact ⟨rfl, rfl, by simp, fun j hj => by simp [hj]⟩
  · intro ho
    have hopen : (fun j => if j = i then false else s.opened j) = s.opened := by
      funext j; by_cases h : j = i
      · rw [if_pos h, h, ho]
      · rw [if_neg h]
    simp only [lineStep, PyM.bind_apply, SharedLine.by, masterClose, ho]
    show (Except.ok none, { s with opened := fun j => if j = i then false else s.opened j }) = _
    rw [hopen]

/-! ## A master that takes a closed port for open -/

/-- a call of an opened master on a closed port raises and does nothing -/
theorem execute_stale (R : Registry) (cfg : RtuCfg) (a : ExecArgs) (p : Port) (t : Int) (hp : p.isOpen = false) :
    ∃ e, execute R rtuMac (rtuChan R cfg) a ⟨true, p, t⟩ = (.error e, ⟨true, p, t⟩) := by
  have hm : masterOpen (rtuChan R cfg) ⟨true, p, t⟩ = (.ok (), ⟨true, p, t⟩) := rfl
  have hsend : ∀ b, ∃ e, rtuSend R cfg b p = (.error e, p) := by
    intro b
    unfold rtuSend
    have h1 : portResetInput p = (.error .osError, p) := by unfold portResetInput; rw [if_pos (by simp [hp])]
    cases hc : callHooks R "modbus_rtu.RtuMaster.before_send" (.msg b) with
    | error e => exact ⟨e, by simp only [PyM.bind_apply, PyM.lift_apply, hc]⟩
    | ok v => exact ⟨.osError, by simp only [PyM.bind_apply, PyM.lift_apply, hc, h1]⟩
  cases hpr : prepare a with
  | error e => exact ⟨e, by simp only [execute, PyM.bind_apply, hm, PyM.lift_apply, hpr]⟩
  | ok q =>
    cases hs : a.slave with
    | none => exact ⟨.typeError, by simp only [execute, PyM.bind_apply, hm, PyM.lift_apply, hpr, hs]; rfl⟩
    | some slave =>
      cases hb : buildRequest (σ := Port) rtuMac q.pdu slave ⟨true, p, t⟩ with
      | mk r m =>
        have hm2 : m = ⟨true, p, t⟩ := by
          have ht : (rtuMac.buildRequest q.pdu slave (rtuMac.new, t)).2.2 = t := by
            show (rtuBuildRequest _ _ _).2.2 = t
            unfold rtuBuildRequest
            split <;> rfl
          unfold buildRequest at hb
          split at hb
          · rename_i h; rw [h] at ht; cases ht; cases hb; rfl
          · rename_i h; rw [h] at ht; cases ht; cases hb; rfl
        subst hm2
        cases r with
        | error e => exact ⟨e, by simp only [execute, PyM.bind_apply, hm, PyM.lift_apply, hpr, hs, hb]⟩
        | ok rq =>
          obtain ⟨request, qq⟩ := rq
          cases hc : callHooks R "modbus.Master.before_send" (.msg request) with
          | error e => exact ⟨e, by simp only [execute, PyM.bind_apply, hm, PyM.lift_apply, hpr, hs, hb, hc]⟩
          | ok v =>
            obtain ⟨e, he⟩ := hsend (v.getD request)
            refine ⟨e, ?_⟩
            simp only [execute, PyM.bind_apply, hm, PyM.lift_apply, hpr, hs, hb, hc, onLink,
              show (rtuChan R cfg).send (v.getD request) p = rtuSend R cfg (v.getD request) p from rfl, he]

/-- an operation of a master that believes to have the port open (and not the making of a new master) -/
def LineOp.Deceived (s : SharedLine) (op : LineOp) : Prop :=
  s.opened op.master = true ∧ ∀ i t, op ≠ .new i t

/-- did the operation call `execute`? -/
def LineOp.isCall : LineOp → Bool
  | .exec _ _ => true
  | _ => false

theorem by_same {α} (i : Nat) (f : PyM (MasterSt Port) α) (s : SharedLine) (r : Except PyErr α)
    (h : f ⟨s.opened i, s.port, s.lastTid⟩ = (r, ⟨s.opened i, s.port, s.lastTid⟩)) : SharedLine.by i f s = (r, s) := by
  have hopen : (fun j => if j = i then s.opened i else s.opened j) = s.opened := by
    funext j; by_cases h : j = i
    · rw [if_pos h, h]
    · rw [if_neg h]
  unfold SharedLine.by
  rw [h]
  show (r, { s with opened := fun j => if j = i then s.opened i else s.opened j }) = _
  rw [hopen]

theorem lineStep_stale (R : Registry) (s : SharedLine) (hp : s.port.isOpen = false) (op : LineOp) (hd : op.Deceived s) :
    (∃ r, lineStep R op s = (r, s)) ∧ (op.isCall = true → ∃ e, lineStep R op s = (.error e, s)) ∧
    (op.isCall = false → lineStep R op s = (.ok none, s)) := by
  obtain ⟨ho, hn⟩ := hd
  have hclose : ∀ i, s.opened i = true → masterClose (rtuChan R (s.cfg i)) ⟨s.opened i, s.port, s.lastTid⟩ =
      (.ok (), ⟨s.opened i, s.port, s.lastTid⟩) := by
    intro i hi
    have : (rtuChan R (s.cfg i)).doClose s.port = (.ok false, s.port) := by
      show rtuDoClose R s.port = _
      unfold rtuDoClose
      rw [if_neg (by simp [hp])]
    unfold masterClose
    simp only [hi, if_true, this]
    rfl
  cases op with
  | new i t => exact absurd rfl (hn i t)
  | «open» i =>
    have ho : s.opened i = true := ho
    have : lineStep R (.open i) s = (.ok none, s) := by
      simp only [lineStep, PyM.bind_apply]
      rw [by_same i _ s (.ok ()) (by unfold masterOpen; rw [if_pos ho])]
      rfl
    exact ⟨⟨_, this⟩, nofun, fun _ => this⟩
  | close i =>
    have : lineStep R (.close i) s = (.ok none, s) := by
      simp only [lineStep, PyM.bind_apply]
      rw [by_same i _ s (.ok ()) (hclose i ho)]
      rfl
    exact ⟨⟨_, this⟩, nofun, fun _ => this⟩
  | drop i =>
    have : lineStep R (.drop i) s = (.ok none, s) := by
      simp only [lineStep, PyM.bind_apply]
      rw [by_same i _ s (.ok ()) (by unfold masterDel; rw [hclose i ho])]
      rfl
    exact ⟨⟨_, this⟩, nofun, fun _ => this⟩
  | exec i a =>
    have ho : s.opened i = true := ho
    obtain ⟨e, he⟩ := execute_stale R (s.cfg i) a s.port s.lastTid hp
    have : lineStep R (.exec i a) s = (.error e, s) := by
      simp only [lineStep, PyM.bind_apply]
      rw [by_same i _ s (.error e) (by rw [ho]; exact he)]
    exact ⟨⟨_, this⟩, fun _ => ⟨e, this⟩, nofun⟩

/-- **C102.** The masters that had opened the port when another one closed it (or was dropped) are useless from then on: whatever they do
    - `execute`, `close`, `open`, in any order and any number of times, even if the port could be opened -, every `execute` raises, nothing is
    written and the port stays closed.  `close()` followed by `open()` does not help.  With any hooks. -/
theorem C102_useless (R : Registry) (s : SharedLine) (hp : s.port.isOpen = false) (ops : List LineOp)
    (hops : ∀ op ∈ ops, op.Deceived s) :
    (lineRun R ops s).2 = s ∧ (lineRun R ops s).1.length = ops.length ∧
    ∀ x ∈ ops.zip (lineRun R ops s).1, (x.1.isCall = true → ∃ e, x.2 = .error e) ∧ (x.1.isCall = false → x.2 = .ok none) := by
  induction ops with
  | nil => exact ⟨rfl, rfl, fun x hx => by cases hx⟩
  | cons op ops ih =>
    obtain ⟨⟨r, hr⟩, h1, h2⟩ := lineStep_stale R s hp op (hops op List.mem_cons_self)
    obtain ⟨i1, i2, i3⟩ := ih (fun o ho => hops o (List.mem_cons_of_mem _ ho))
    simp only [lineRun, hr]
    refine ⟨i1, by simp [i2], ?_⟩
    intro x hx
    rw [List.zip_cons_cons, List.mem_cons] at hx
    rcases hx with rfl | hx
    · constructor
      · intro hc
        obtain ⟨e, he⟩ := h1 hc
        exact ⟨e, by rw [hr] at he; cases he; rfl⟩
      · intro hc
        have := h2 hc
        rw [hr] at this; cases this; rfl
    · exact i3 x hx

/-- **C102.** What helps: a master that has not opened the port - a new one, or the one that was closed - opens it again, for all of them;
    afterwards `C102_as_one` applies. -/
theorem C102_reopened (R : Registry) (hR : Quiet R) (s : SharedLine) (hp : s.port.isOpen = false) (j : Nat) (hj : s.opened j = false)
    (hdev : s.port.opens.head? ≠ some false) :
    (lineStep R (.open j) s).1 = .ok none ∧ (lineStep R (.open j) s).2.port = { s.port with isOpen := true, opens := s.port.opens.tail } ∧
      SharedLine.Honest (lineStep R (.open j) s).2 := by
  have hd : (rtuChan R (s.cfg j)).doOpen s.port = (.ok (), { s.port with isOpen := true, opens := s.port.opens.tail }) := by
    show rtuDoOpen R s.port = _
    unfold rtuDoOpen
    rw [if_neg (by simp [hp])]
    simp only [PyM.bind_apply, PyM.lift_apply, hR _ _, portOpen]
    rw [if_neg (by simp [hp])]
    split
    · rename_i h; rw [h] at hdev; exact absurd rfl hdev
    · rfl
  have : lineStep R (.open j) s = (.ok none,
      { s with port := { s.port with isOpen := true, opens := s.port.opens.tail }, opened := fun k => if k = j then true else s.opened k }) := by
    simp only [lineStep, PyM.bind_apply, SharedLine.by, masterOpen, hj, hd]
    rfl
  rw [this]
  exact ⟨rfl, rfl, fun _ _ => rfl⟩

/-- **C102.** The destructor of an `RtuServer` never raises and closes the port if it is open (unless a `before_close` hook raises); the memory of the
    slaves is not touched.  It closes the port for masters that use it as well. -/
theorem C102_server (R : Registry) (s : RtuSrv) :
    (rtuServerDel R s).1 = .ok () ∧ (rtuServerDel R s).2.heap = s.heap ∧
    ((∃ v, callHooks R "modbus_rtu.RtuServer.before_close" .obj = .ok v) → (rtuServerDel R s).2.port = { s.port with isOpen := false }) ∧
    ((∃ e, callHooks R "modbus_rtu.RtuServer.before_close" .obj = .error e) → (rtuServerDel R s).2 = s) := by
  unfold rtuServerDel rtuExit
  cases ho : s.port.isOpen with
  | false =>
    rw [if_neg (by simp)]
    refine ⟨rfl, rfl, fun _ => ?_, fun _ => rfl⟩
    show s.port = _
    rw [← ho]
  | true =>
    rw [if_pos rfl]
    cases hb : callHooks R "modbus_rtu.RtuServer.before_close" .obj with
    | error e =>
      simp only [PyM.bind_apply, PyM.lift_apply, hb]
      exact ⟨trivial, trivial, (fun ⟨v, hv⟩ => by cases hv), fun _ => trivial⟩
    | ok v =>
      simp only [PyM.bind_apply, PyM.lift_apply, hb, RtuSrv.onPort, portClose]
      cases ha : callHooks R "modbus_rtu.RtuServer.after_close" .obj with
      | error e => exact ⟨trivial, rfl, fun _ => rfl, (fun ⟨v, hv⟩ => by cases hv)⟩
      | ok v => exact ⟨trivial, rfl, fun _ => rfl, (fun ⟨v, hv⟩ => by cases hv)⟩

/-! ### An instance -/

/-- a port whose device answers every read of register 11 of slave 1 with 7 (four times), closed at first -/
def exShared : SharedLine :=
  { port := { isOpen := false, timeout := some 3, future := List.replicate 4 (.chunk [1, 3, 2, 0, 7, 249, 134]) } }

/-- reading register 11 of slave 1 -/
def exReadSeven : ExecArgs := Spec.Call.args 1 (.readHolding 11 1)

example : exShared.Honest := nofun

/-- Two masters read; the first one is made anew with another time-out and the old object (0) is dropped; the other master (1) can no longer read, also
    after `close()` and `open()`, until the new one (2) reads. -/
theorem C102_example :
    (lineRun [] [.new 0 3, .new 1 3, .exec 0 exReadSeven, .exec 1 exReadSeven, .new 2 5, .drop 0,
        .exec 1 exReadSeven, .close 1, .open 1, .exec 1 exReadSeven, .exec 2 exReadSeven, .exec 1 exReadSeven] exShared).1 =
      [.ok none, .ok none, .ok (some (.values [7])), .ok (some (.values [7])), .ok none, .ok none,
        .error .osError, .ok none, .ok none, .error .osError, .ok (some (.values [7])), .ok (some (.values [7]))] := by
  decide +kernel

/-- the state after the drop: port closed, master 1 deceived -/
example : (lineRun [] [.new 0 3, .new 1 3, .exec 0 exReadSeven, .exec 1 exReadSeven, .drop 0] exShared).2.port.isOpen = false ∧
    (lineRun [] [.new 0 3, .new 1 3, .exec 0 exReadSeven, .exec 1 exReadSeven, .drop 0] exShared).2.opened 1 = true := by
  decide +kernel

example (s : SharedLine) (h : s.opened 1 = true) : (LineOp.exec 1 exReadSeven).Deceived s := ⟨h, nofun⟩

end Modbus
