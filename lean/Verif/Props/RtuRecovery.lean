import Verif.Props.Rtu
/-
# C64: the serial port of an `RtuServer` - opened, closed, and opened again after a failure

modbus_rtu.py:204-209 (`close`), 248-257 (`_do_init`, `_do_exit`), 259-314 (`_do_run`; the handlers at 270-272 and 282-284).
-/
namespace Modbus

/-! ## Opening and closing -/

theorem onPort_open {s : RtuSrv} (ho : s.port.isOpen = false) :
    (s.port.opens.head? = some false ∧ ∃ p, RtuSrv.onPort portOpen s = (.error .osError, { s with port := p }) ∧ p.isOpen = false) ∨
    (s.port.opens.head? ≠ some false ∧ ∃ p, RtuSrv.onPort portOpen s = (.ok (), { s with port := p }) ∧ p.isOpen = true) := by
  unfold RtuSrv.onPort portOpen
  simp only [ho, Bool.false_eq_true, if_false]
  match s.port.opens with
  | false :: rest => exact .inl ⟨rfl, _, rfl, rfl⟩
  | [] => exact .inr ⟨by simp, _, rfl, rfl⟩
  | true :: rest => exact .inr ⟨by simp, _, rfl, rfl⟩

/-- **C64.** `_do_init` that returns leaves the port open (whatever the hooks do); a port that is open is not opened again. -/
theorem C64_init (R : Registry) (s s' : RtuSrv) (h : rtuInit R s = (.ok (), s')) :
    s'.port.isOpen = true ∧ s'.heap = s.heap ∧ (s.port.isOpen = true → s' = s) := by
  unfold rtuInit at h
  by_cases ho : s.port.isOpen = true
  · rw [if_pos ho] at h
    cases h
    exact ⟨ho, rfl, fun _ => rfl⟩
  · rw [if_neg ho] at h
    simp only [PyM.bind_apply, PyM.lift_apply] at h
    cases h1 : callHooks R "modbus_rtu.RtuServer.before_open" .obj with
    | error e => rw [h1] at h; cases h
    | ok v =>
      rw [h1] at h
      dsimp only at h
      rcases onPort_open (s := s) (by simpa using ho) with ⟨_, p, e, _⟩ | ⟨_, p, e, hp⟩
      · rw [e] at h; cases h
      · rw [e] at h
        dsimp only at h
        cases h2 : callHooks R "modbus_rtu.RtuServer.after_open" .obj with
        | error e => rw [h2] at h; cases h
        | ok v => rw [h2] at h; cases h; exact ⟨hp, rfl, fun h => absurd h ho⟩

/-- **C64.** Without hooks `_do_init` opens a closed port if the device can be opened, and raises otherwise. -/
theorem C64_init_opens (R : Registry) (hR : Quiet R) (s : RtuSrv) (ho : s.port.isOpen = false) :
    (rtuInit R s).1 = (if s.port.opens.head? = some false then .error .osError else .ok ()) ∧
    (rtuInit R s).2.port.isOpen = !(s.port.opens.head? == some false) := by
  unfold rtuInit
  rw [if_neg (by rw [ho]; simp)]
  simp only [PyM.bind_apply, PyM.lift_apply, hR _ _]
  rcases onPort_open ho with ⟨h1, p, e, hp⟩ | ⟨h1, p, e, hp⟩
  · rw [e, h1]; exact ⟨rfl, hp⟩
  · rw [e, if_neg h1]; exact ⟨rfl, by simp [hp, h1]⟩

/-- **C64.** `_do_exit` (and `close()`) that returns leaves the port closed, whatever the hooks do; without hooks it always
    returns. -/
theorem C64_exit (R : Registry) (s s' : RtuSrv) (h : rtuExit R s = (.ok (), s')) : s'.port.isOpen = false ∧ s'.heap = s.heap := by
  unfold rtuExit at h
  by_cases ho : s.port.isOpen = true
  · rw [if_pos ho] at h
    simp only [PyM.bind_apply, PyM.lift_apply, RtuSrv.onPort, portClose] at h
    cases h1 : callHooks R "modbus_rtu.RtuServer.before_close" .obj with
    | error e => rw [h1] at h; cases h
    | ok v =>
      rw [h1] at h
      dsimp only at h
      cases h2 : callHooks R "modbus_rtu.RtuServer.after_close" .obj with
      | error e => rw [h2] at h; cases h
      | ok v => rw [h2] at h; cases h; exact ⟨rfl, rfl⟩
  · rw [if_neg ho] at h
    cases h
    exact ⟨by simpa using ho, rfl⟩

theorem C64_exit_returns (R : Registry) (hR : Quiet R) (s : RtuSrv) : (rtuExit R s).1 = .ok () := by
  unfold rtuExit
  split
  · simp only [PyM.bind_apply, PyM.lift_apply, RtuSrv.onPort, portClose, hR _ _]; rfl
  · rfl

/-! ## Failures of the device -/

/-- the events without the silence at their beginning and without the failure that ends it -/
def skipQuiet (ev : List SerialEvent) : List SerialEvent :=
  match dropQuiet ev with
  | .fail :: ev' => ev'
  | ev' => ev'

/-- the port from which the server reads its next request: when it may wait for the first byte, silence is skipped; a
    failure during the wait ends it (the port is opened again) -/
def RtuSrv.line2 (s : RtuSrv) : Port :=
  if s.block ∧ s.port.buf = [] then { s.port with future := skipQuiet s.port.future } else s.port

/-- what the exception handlers do -/
def reopen : PyM Port Bytes := do portClose; portOpen; return []

theorem reopen_apply (s : Port) (hop : s.opens = []) : reopen s = (.ok [], { s with isOpen := true }) := by
  unfold reopen
  simp only [PyM.bind_apply, portClose, portOpen, hop]
  simp [PyM.pure_apply]

theorem rtuRest_succ (fuel : Nat) (request : Bytes) : rtuRest (fuel + 1) request = (do
    let readBytes ← PyM.tryExcept (portRead 128) (fun _ => reopen)
    if readBytes = [] then return request else rtuRest fuel (request ++ readBytes)) := rfl

theorem rtuFirst_def (timeout : Nat) : rtuFirst timeout = (do
    portSetTimeout none
    let request ← PyM.tryExcept (portRead 1) (fun _ => reopen)
    portSetTimeout (some timeout)
    return request) := rfl

theorem rtuRest_reopens : ∀ (fuel : Nat) (request : Bytes) (s : Port), s.isOpen = true → s.timeout ≠ none → s.opens = [] → s.stream.length < fuel →
    rtuRest fuel request s = (.ok (request ++ s.stream), { s with buf := [], future := s.later.tail }) := by
  intro fuel
  induction fuel with
  | zero => intro _ _ _ _ _ h; omega
  | succ fuel ih =>
    intro request s ho ht hop hf
    by_cases hs : s.stream = []
    · have hbuf : s.buf = [] := (List.append_eq_nil_iff.mp hs).1
      have hb' : ({ s with buf := [], future := s.later.tail } : Port) = { s with future := s.later.tail } := by
        cases s; simp only at hbuf; subst hbuf; rfl
      rw [hb', rtuRest_succ]
      rcases portRead_nil 128 ho ht hs with ⟨h1, h2⟩ | ⟨ev, h1, h2⟩ | ⟨ev, h1, h2⟩
      · simp only [PyM.bind_apply, PyM.tryExcept_apply, h2, if_true, hs, List.append_nil, PyM.pure_apply, h1, List.tail_nil]
      · simp only [PyM.bind_apply, PyM.tryExcept_apply, h2, if_true, hs, List.append_nil, PyM.pure_apply, h1, List.tail_cons]
      · have hre := reopen_apply ({ s with future := ev } : Port) hop
        simp only [PyM.bind_apply, PyM.tryExcept_apply, h2, hre, if_true, hs, List.append_nil, PyM.pure_apply, h1, List.tail_cons]
        congr 1
        cases s; simp only at ho; subst ho; rfl
    · obtain ⟨x, s1, e1, e2, e3, e4⟩ := portRead_cons (n := 128) (by omega) ho hs
      have hst := e4.stream
      have hlen := congrArg List.length hst
      rw [List.length_append] at hlen
      have hxl : 0 < x.length := List.length_pos_iff.mpr e2
      have hop1 : s1.opens = [] := by rw [e4.rest]; exact hop
      have := ih (request ++ x) s1 (by rw [e4.isOpen]; exact ho) (by rw [e4.timeout]; exact ht) hop1 (by omega)
      rw [rtuRest_succ]
      simp only [PyM.bind_apply, PyM.tryExcept_apply, e1, if_neg e2, this]
      have h1 : ({ s1 with buf := [], future := s1.later.tail } : Port) = { s with buf := [], future := s.later.tail } := by
        rw [e4.later, e4.rest]
      rw [h1, hst, List.append_assoc]

theorem rtuFirst_error (T : Nat) {s p : Port} {e : PyErr} (h : portRead 1 { s with timeout := none } = (.error e, p)) (hop : p.opens = []) :
    rtuFirst T s = (.ok [], { p with isOpen := true, timeout := some T }) := by
  have hre := reopen_apply p hop
  rw [rtuFirst_def]
  unfold portSetTimeout
  simp only [PyM.bind_apply, PyM.tryExcept_apply, PyM.modify_apply, h, hre]
  rfl

theorem rtuFirst_reopens (T : Nat) {s : Port} (ho : s.isOpen = true) (hop : s.opens = []) :
    ∃ x s1, rtuFirst T s = (.ok x, s1) ∧
      (({ (if s.buf = [] then { s with future := skipQuiet s.future } else s) with timeout := some T } : Port)).Got x s1 := by
  by_cases hb : s.buf = []
  case neg =>
    obtain ⟨b, bs, hb⟩ := List.exists_cons_of_ne_nil hb
    have : portRead 1 { s with timeout := none } = (.ok [b], { s with timeout := none, buf := bs }) := by
      unfold portRead
      rw [if_neg (by simp [ho])]
      simp only [hb]
      rfl
    rw [if_neg (by simp [hb])]
    refine ⟨_, _, rtuFirst_ok T this, ?_, rfl, rfl⟩
    simp [Port.stream, hb]
  case pos =>
    have hrd : portRead 1 { s with timeout := none } = Port.readWait 1 true { s with timeout := none } (dropQuiet s.future) := by
      unfold portRead
      rw [if_neg (by simp [ho])]
      simp only [hb]
      exact readWait_block _ _ _
    rw [if_pos hb]
    unfold skipQuiet
    rcases dropQuiet_cases s.future with h | ⟨b, bs, ev, h⟩ | ⟨ev, h⟩
    · rw [h] at hrd ⊢
      exact ⟨_, _, rtuFirst_ok T hrd, rfl, rfl, rfl⟩
    · rw [h] at hrd ⊢
      refine ⟨_, _, rtuFirst_ok T hrd, ?_, rfl, rfl⟩
      simp [Port.stream, chunkPrefix, hb]
    · rw [h] at hrd ⊢
      refine ⟨_, _, rtuFirst_error T hrd hop, rfl, rfl, ?_⟩
      cases s; simp only at ho; subst ho; rfl

theorem line2_eq (s : RtuSrv) : s.line2 = { s.port with future := s.line2.future } := by
  unfold RtuSrv.line2
  split <;> rfl

/-- a round, given what the wait for the first byte gave -/
theorem round_from {R : Registry} (hR : Quiet R) (db : Databank) {s : RtuSrv} {line p : Port} {x : Bytes} (hopen : line.isOpen = true) (hops : line.opens = [])
    (r1 : rtuStart s = (.ok x, { s with port := p })) (r2 : ({ line with timeout := some s.timeout } : Port).Got x p) :
    rtuRun R db s = (.ok (),
      if line.stream = [] then { s with port := { line with buf := [], future := line.later.tail, timeout := some s.timeout } }
      else { s with heap := (replyOf R rtuMac db line.stream s.heap).2,
                    port := Port.wrote { line with buf := [], future := line.later.tail, timeout := some s.timeout } (replyOf R rtuMac db line.stream s.heap).1 }) := by
  suffices hbody : (rtuBody R db s).2 =
      if line.stream = [] then { s with port := { line with buf := [], future := line.later.tail, timeout := some s.timeout } }
      else { s with heap := (replyOf R rtuMac db line.stream s.heap).2,
                    port := Port.wrote { line with buf := [], future := line.later.tail, timeout := some s.timeout }
                      (replyOf R rtuMac db line.stream s.heap).1 } by
    unfold rtuRun
    simp only [PyM.tryExcept_apply, PyM.bind_apply, PyM.lift_apply, hR _ _]
    rw [← hbody]
    cases hb : rtuBody R db s with
    | mk o s' => cases o <;> rfl
  have r3 : (RtuSrv.onPort (rtuRest (p.total + 1) x) { s with port := p }) =
        (.ok line.stream, { s with port := { line with buf := [], future := line.later.tail, timeout := some s.timeout } }) := by
    have hr := rtuRest_reopens (p.total + 1) x p (by rw [r2.isOpen]; exact hopen) (by rw [r2.timeout]; simp)
      (by rw [r2.rest]; exact hops) (by have := stream_le_total p; omega)
    unfold RtuSrv.onPort
    simp only [hr]
    have h1 : x ++ p.stream = line.stream := r2.stream.symm
    have h2 : ({ p with buf := [], future := p.later.tail } : Port) =
        { line with buf := [], future := line.later.tail, timeout := some s.timeout } := by
      rw [r2.later]
      have := r2.rest
      rw [this]
      rfl
    rw [h1, h2]
  unfold rtuBody
  simp only [PyM.bind_apply, PyM.get_apply, r1, r3]
  by_cases hst : line.stream = []
  · rw [if_pos hst, if_pos hst]; rfl
  · rw [if_neg hst, if_neg hst]
    rw [rtuAnswer_spec hR db _ _ (by exact hopen)]

/-- **C64.** One round of the RTU server, failures of the device included (and the device can always be opened again): the
    request is what arrives before the next silence or failure; the port is open again afterwards. -/
theorem C64_server (R : Registry) (hR : Quiet R) (db : Databank) (s : RtuSrv) (ho : s.port.isOpen = true) (hop : s.port.opens = [])
    (ht : s.block = false → s.port.timeout = some s.timeout) :
    ∃ q, q = { s.line2 with buf := [], future := s.line2.later.tail, timeout := some s.timeout } ∧
    rtuRun R db s = (.ok (),
      if s.line2.stream = [] then { s with port := q }
      else { s with heap := (replyOf R rtuMac db s.line2.stream s.heap).2,
                    port := q.wrote (replyOf R rtuMac db s.line2.stream s.heap).1 }) := by
  refine ⟨_, rfl, ?_⟩
  have read : ∃ x p, rtuStart s = (.ok x, { s with port := p }) ∧
      ({ s.line2 with timeout := some s.timeout } : Port).Got x p := by
    by_cases hbl : s.block = true
    · obtain ⟨x, p, e1, e2⟩ := rtuFirst_reopens s.timeout ho hop
      refine ⟨x, p, by unfold rtuStart; rw [if_pos hbl]; simp only [RtuSrv.onPort, e1], ?_⟩
      have : s.line2 = if s.port.buf = [] then { s.port with future := skipQuiet s.port.future } else s.port := by
        unfold RtuSrv.line2; simp only [hbl, true_and]
      rw [this]; exact e2
    · refine ⟨[], s.port, by unfold rtuStart; rw [if_neg hbl], ?_⟩
      have : ({ s.line2 with timeout := some s.timeout } : Port) = s.port := by
        unfold RtuSrv.line2
        rw [if_neg (fun h => hbl h.1), ← ht (by simpa using hbl)]
      rw [this]
      exact Port.Got.refl _
  obtain ⟨x, p, r1, r2⟩ := read
  exact round_from hR db (by rw [line2_eq]; exact ho) (by rw [line2_eq]; exact hop) r1 r2

theorem burstsFrom_skipQuiet (ev : List SerialEvent) : burstsFrom [] (skipQuiet ev) = burstsFrom [] ev := by
  unfold skipQuiet
  induction ev with
  | nil => rfl
  | cons e ev ih =>
    match e with
    | .chunk [] => exact ih
    | .chunk (_ :: _) => rfl
    | .silence => rw [dropQuiet]; exact ih
    | .fail => rfl

theorem skipQuiet_length (ev : List SerialEvent) : (skipQuiet ev).length ≤ ev.length := by
  have := dropQuiet_length ev
  unfold skipQuiet
  split
  · rename_i h; rw [h] at this; simp at this; omega
  · exact this

theorem line2_bursts (s : RtuSrv) : burstsFrom s.line2.buf s.line2.future = burstsFrom s.port.buf s.port.future := by
  unfold RtuSrv.line2
  split
  · rename_i h
    simp only [h.2]
    exact burstsFrom_skipQuiet _
  · rfl

theorem line2_length (s : RtuSrv) : s.line2.future.length ≤ s.port.future.length := by
  unfold RtuSrv.line2
  split
  · exact skipQuiet_length _
  · exact Nat.le_refl _

/-- **C64.** However often the device fails - while the server waits, or in the middle of a request -, as long as it can be
    opened again the server goes on: the requests are what arrives between two silences or failures, all of them are
    handled, in order, every response is written, and the port is open at the end. -/
theorem C64_survives (R : Registry) (hR : Quiet R) (db : Databank) :
    ∀ (n : Nat) (s : RtuSrv), s.port.isOpen = true → s.port.opens = [] → (s.block = false → s.port.timeout = some s.timeout) →
    s.port.sched = [] → s.port.future.length < n →
    ∃ s', rtuRuns R db n s = (.ok (), s') ∧ s'.port.isOpen = true ∧ s'.port.buf = [] ∧ s'.port.future = [] ∧
      s'.heap = (serveBursts R db (burstsFrom s.port.buf s.port.future) s.heap).2 ∧
      s'.port.written = s.port.written ++ (serveBursts R db (burstsFrom s.port.buf s.port.future) s.heap).1 := by
  intro n
  induction n with
  | zero => intro s _ _ _ _ h; omega
  | succ n ih =>
    intro s ho hop hto hsch hlen
    obtain ⟨q, hq, hrun⟩ := C64_server R hR db s ho hop hto
    have hle := line2_eq s
    have hqo : q.isOpen = true := by rw [hq]; show s.line2.isOpen = true; rw [hle]; exact ho
    have hqp : q.opens = [] := by rw [hq]; show s.line2.opens = []; rw [hle]; exact hop
    have hqs : q.sched = [] := by rw [hq]; show s.line2.sched = []; rw [hle]; exact hsch
    have hqb : burstsFrom s.port.buf s.port.future =
        (if s.line2.stream = [] then [] else [s.line2.stream]) ++ burstsFrom [] q.future := by
      rw [← line2_bursts s, burstsFrom_eq, hq]; rfl
    have hqbuf : q.buf = [] := by rw [hq]
    have hqw : q.written = s.port.written := by rw [hq]; show s.line2.written = _; rw [hle]
    have hqt : q.timeout = some s.timeout := by rw [hq]
    have hql : q.future.length < n ∨ (n = 0 ∧ q.future = []) := by
      have h1 := line2_length s
      have h2 := afterChunks_length s.line2.future
      have h3 : q.future.length = (afterChunks s.line2.future).length - 1 := by rw [hq]; simp [Port.later]
      rcases Nat.eq_zero_or_pos n with h | h
      · right; exact ⟨h, List.length_eq_zero_iff.mp (by omega)⟩
      · left; omega
    have hrest : ∀ s1 : RtuSrv, s1.port.isOpen = true → s1.port.opens = [] → (s1.block = false → s1.port.timeout = some s1.timeout) →
        s1.port.sched = [] → s1.port.buf = [] → s1.port.future = q.future →
        ∃ s', rtuRuns R db n s1 = (.ok (), s') ∧ s'.port.isOpen = true ∧ s'.port.buf = [] ∧ s'.port.future = [] ∧
          s'.heap = (serveBursts R db (burstsFrom [] q.future) s1.heap).2 ∧
          s'.port.written = s1.port.written ++ (serveBursts R db (burstsFrom [] q.future) s1.heap).1 := by
      intro s1 a0 a0' a1 a2 a3 a4
      rcases hql with h | ⟨h, h'⟩
      · have := ih s1 a0 a0' a1 a2 (by rw [a4]; exact h)
        rw [a3, a4] at this
        exact this
      · subst h
        rw [h'] at a4 ⊢
        exact ⟨s1, rfl, a0, a3, a4, rfl, by simp [burstsFrom, serveBursts]⟩
    rw [hqb]
    by_cases hst : s.line2.stream = []
    · rw [if_pos hst] at hrun ⊢
      obtain ⟨s', e1, e0, e2, e3, e4, e5⟩ := hrest { s with port := q } hqo hqp (fun _ => hqt) hqs hqbuf rfl
      refine ⟨s', ?_, e0, e2, e3, e4, by rw [e5]; show q.written ++ _ = _; rw [hqw]; rfl⟩
      rw [rtuRuns]; simp only [PyM.bind_apply, hrun]; exact e1
    · rw [if_neg hst] at hrun ⊢
      have hwr : q.wrote (replyOf R rtuMac db s.line2.stream s.heap).1 =
          { q with written := q.written ++ (replyOf R rtuMac db s.line2.stream s.heap).1.toList } := by
        match (replyOf R rtuMac db s.line2.stream s.heap).1 with
        | none => simp [Port.wrote]
        | some r =>
          simp only [Port.wrote, hqs, List.headD_nil, Port.arriveN, List.tail_nil, hqbuf, if_true, Option.toList_some]
      rw [hwr] at hrun
      obtain ⟨s', e1, e0, e2, e3, e4, e5⟩ := hrest
        { s with heap := (replyOf R rtuMac db s.line2.stream s.heap).2,
                 port := { q with written := q.written ++ (replyOf R rtuMac db s.line2.stream s.heap).1.toList } }
        hqo hqp (fun _ => hqt) hqs hqbuf rfl
      refine ⟨s', ?_, e0, e2, e3, by rw [e4]; rfl, by
        rw [e5]; show (q.written ++ _) ++ _ = _; rw [hqw]; simp [serveBursts]⟩
      rw [rtuRuns]; simp only [PyM.bind_apply, hrun]; exact e1

/-- A round while the port is closed and cannot be opened: nothing happens, the exception is caught, and one attempt to open
    the port has been made. -/
theorem C64_retries (R : Registry) (hR : Quiet R) (db : Databank) (s : RtuSrv) (hb : s.block = true) (ho : s.port.isOpen = false)
    (rest : List Bool) (hop : s.port.opens = false :: rest) :
    rtuRun R db s = (.ok (), { s with port := { s.port with opens := rest, timeout := none } }) := by
  have h1 : rtuFirst s.timeout s.port = (.error .osError, { s.port with opens := rest, timeout := none }) := by
    unfold rtuFirst portSetTimeout
    simp only [PyM.bind_apply, PyM.tryExcept_apply, PyM.modify_apply, portRead, ho, portClose, portOpen, hop]
    simp
  have h2 : rtuStart s = (.error .osError, { s with port := { s.port with opens := rest, timeout := none } }) := by
    unfold rtuStart
    rw [if_pos hb]
    simp only [RtuSrv.onPort, h1]
  unfold rtuRun rtuBody
  simp only [PyM.tryExcept_apply, PyM.bind_apply, PyM.lift_apply, hR _ _, h2]
  rfl

theorem retries {R : Registry} (hR : Quiet R) (db : Databank) (k n : Nat) (s : RtuSrv) (hb : s.block = true) (ho : s.port.isOpen = false)
    (hop : s.port.opens = List.replicate k false) :
    rtuRuns R db (k + n) s = rtuRuns R db n { s with port := { s.port with opens := [], timeout := if k = 0 then s.port.timeout else none } } := by
  induction k generalizing s with
  | zero =>
    rw [Nat.zero_add, if_pos rfl]
    congr 1
    cases s with
    | mk h p t b => cases p; simp only [List.replicate_zero] at hop; subst hop; rfl
  | succ k ih =>
    rw [show k + 1 + n = (k + n) + 1 by omega, rtuRuns]
    simp only [PyM.bind_apply, C64_retries R hR db s hb ho (List.replicate k false) hop]
    refine (ih { s with port := { s.port with opens := List.replicate k false, timeout := none } } hb ho rfl).trans ?_
    congr 1
    simp

/-- **C64.** The device has gone (the port is closed and `open` fails `k` times) and then comes back: after `k + 1` rounds the
    port is open, nothing that arrived was lost, and the server serves everything that is on the line. -/
theorem C64_comes_back (R : Registry) (hR : Quiet R) (db : Databank) (k n : Nat) (s : RtuSrv) (hb : s.block = true) (ho : s.port.isOpen = false)
    (hop : s.port.opens = List.replicate k false) (hsch : s.port.sched = []) (hn : s.port.future.length < n) :
    ∃ s', rtuRuns R db (k + (1 + n)) s = (.ok (), s') ∧ s'.port.isOpen = true ∧ s'.port.buf = [] ∧ s'.port.future = [] ∧
      s'.heap = (serveBursts R db (burstsFrom s.port.buf s.port.future) s.heap).2 ∧
      s'.port.written = s.port.written ++ (serveBursts R db (burstsFrom s.port.buf s.port.future) s.heap).1 := by
  rw [retries hR db k (1 + n) s hb ho hop]
  generalize hs0 : ({ s with port := { s.port with opens := [], timeout := if k = 0 then s.port.timeout else none } } : RtuSrv) = s0
  have hb0 : s0.block = true := by rw [← hs0]; exact hb
  have ho0 : s0.port.isOpen = false := by rw [← hs0]; exact ho
  have hop0 : s0.port.opens = [] := by rw [← hs0]
  have hsch0 : s0.port.sched = [] := by rw [← hs0]; exact hsch
  have e1 : s0.port.buf = s.port.buf := by rw [← hs0]
  have e2 : s0.port.future = s.port.future := by rw [← hs0]
  have e3 : s0.heap = s.heap := by rw [← hs0]
  have e4 : s0.port.written = s.port.written := by rw [← hs0]
  rw [← e1, ← e2, ← e3, ← e4]
  rw [← e2] at hn
  clear hs0 e1 e2 e3 e4 hop ho hb hsch s
  have h1 : rtuStart s0 = (.ok [], { s0 with port := { s0.port with isOpen := true, timeout := some s0.timeout } }) := by
    have hr : portRead 1 { s0.port with timeout := none } = (.error .osError, { s0.port with timeout := none }) := by
      unfold portRead
      simp only [ho0]
      rfl
    have := rtuFirst_error s0.timeout hr hop0
    unfold rtuStart
    rw [if_pos hb0]
    simp only [RtuSrv.onPort, this]
  have hA := round_from hR db (s := s0) (line := { s0.port with isOpen := true, timeout := some s0.timeout }) rfl hop0 h1 (Port.Got.refl _)
  have hlen : (afterChunks s0.port.future).tail.length < n := by
    have := afterChunks_length s0.port.future
    rw [List.length_tail]; omega
  rw [show 1 + n = n + 1 by omega, rtuRuns, burstsFrom_eq]
  have hstr : ({ s0.port with isOpen := true, timeout := some s0.timeout } : Port).stream = s0.port.buf ++ chunkPrefix s0.port.future := rfl
  rw [hstr] at hA
  simp only [PyM.bind_apply, hA]
  by_cases hst : s0.port.buf ++ chunkPrefix s0.port.future = []
  · rw [if_pos hst, if_pos hst]
    obtain ⟨s', f1, f2, f3, f4, f5, f6⟩ := C64_survives R hR db n
      { s0 with port := { s0.port with isOpen := true, timeout := some s0.timeout, buf := [], future := (afterChunks s0.port.future).tail } } rfl hop0 (fun _ => rfl) hsch0 hlen
    exact ⟨s', f1, f2, f3, f4, f5, f6⟩
  · rw [if_neg hst, if_neg hst]
    generalize hr : replyOf R rtuMac db (s0.port.buf ++ chunkPrefix s0.port.future) s0.heap = r
    have hwr : Port.wrote { s0.port with isOpen := true, timeout := some s0.timeout, buf := [], future := (afterChunks s0.port.future).tail } r.1 =
        { s0.port with isOpen := true, timeout := some s0.timeout, buf := [], future := (afterChunks s0.port.future).tail, written := s0.port.written ++ r.1.toList } := by
      match r.1 with
      | none => simp [Port.wrote]
      | some r => simp only [Port.wrote, hsch0, List.headD_nil, Port.arriveN, List.tail_nil, if_true, Option.toList_some]
    obtain ⟨s', f1, f2, f3, f4, f5, f6⟩ := C64_survives R hR db n
      { s0 with heap := r.2, port := { s0.port with isOpen := true, timeout := some s0.timeout, buf := [], future := (afterChunks s0.port.future).tail, written := s0.port.written ++ r.1.toList } } rfl hop0 (fun _ => rfl) hsch0 hlen
    refine ⟨s', ?_, f2, f3, f4, ?_, ?_⟩
    · rw [← f1]
      congr 2
    · rw [f5]; simp [serveBursts, hr]
    · rw [f6]; simp [serveBursts, hr]

/-! ### instances -/

/-- the server of `exRtuSrv`; the device fails while the server waits, in the middle of the second request, and after it -/
def exFailing : RtuSrv :=
  { exRtuSrv with port := { timeout := some 3, future := [.silence, .fail, .chunk [1, 6, 0, 11], .chunk [0, 7, 185, 202], .silence, .chunk [1, 3], .fail, .fail, .silence,
    .chunk [1, 3, 0, 11, 0, 1, 245, 200]] } }

example : burstsFrom exFailing.port.buf exFailing.port.future = [[1, 6, 0, 11, 0, 7, 185, 202], [1, 3], [1, 3, 0, 11, 0, 1, 245, 200]] := by decide
example : (rtuRuns [] exTwo.st.db 11 exFailing).2.port.written = [[1, 6, 0, 11, 0, 7, 185, 202], [1, 3, 2, 0, 7, 249, 134]] ∧
    (rtuRuns [] exTwo.st.db 11 exFailing).2.port.isOpen = true := by decide +kernel
example : ∃ s', rtuRuns [] exTwo.st.db 11 exFailing = (.ok (), s') ∧ s'.port.isOpen = true := by
  obtain ⟨s', h1, h2, _⟩ := C64_survives [] quiet_nil exTwo.st.db 11 exFailing rfl rfl (fun h => by cases h) rfl (by decide)
  exact ⟨s', h1, h2⟩

/-- the device has gone; it can be opened at the third attempt -/
def exGone : RtuSrv := { exFailing with port := { exFailing.port with isOpen := false, opens := [false, false] } }

example : (rtuRuns [] exTwo.st.db 13 exGone).2.port.written = [[1, 6, 0, 11, 0, 7, 185, 202], [1, 3, 2, 0, 7, 249, 134]] := by decide +kernel
example : ∃ s', rtuRuns [] exTwo.st.db (2 + (1 + 11)) exGone = (.ok (), s') ∧ s'.port.isOpen = true := by
  obtain ⟨s', h1, h2, _⟩ := C64_comes_back [] quiet_nil exTwo.st.db 2 11 exGone rfl rfl rfl rfl (by decide)
  exact ⟨s', h1, h2⟩

/-! ## C65: local echo -/

/-- the port after the input has been dropped and the request written -/
def Port.afterWrite (s : Port) (request : Bytes) : Port :=
  { Port.arriveN (s.sched.headD 0) s with sched := s.sched.tail, buf := [], written := s.written ++ [request] }

theorem afterWrite_isOpen (s : Port) (request : Bytes) : (s.afterWrite request).isOpen = s.isOpen := parriveN_isOpen _ s

theorem written_arriveN (n : Nat) (s : Port) : (Port.arriveN n s).written = s.written := by rw [arriveN_rest]

/-- **C65.** Without `handle_local_echo` the request is written once, after the bytes received before have been dropped, and
    nothing is read. -/
theorem C65_plain (R : Registry) (hR : Quiet R) (cfg : RtuCfg) (hc : cfg.handleLocalEcho = false) (s : Port) (ho : s.isOpen = true) (request : Bytes) :
    rtuSend R cfg request s = (.ok (), s.afterWrite request) := by
  have h1 : (Port.arriveN (s.sched.headD 0) s).isOpen = true := by rw [parriveN_isOpen]; exact ho
  have h2 := written_arriveN (s.sched.headD 0) s
  unfold rtuSend Port.afterWrite
  simp only [PyM.bind_apply, PyM.lift_apply, hR _ _, Option.getD_none, portResetInput, portCheck, portWrite, ho, hc]
  generalize Port.arriveN (s.sched.headD 0) s = A at h1 h2
  simp [PyM.pure_apply, h1, h2]

/-- **C65.** With `handle_local_echo`, when the echo of the request is what comes first, exactly the echo is read and dropped:
    the response after it is left. -/
theorem C65_echo (R : Registry) (hR : Quiet R) (cfg : RtuCfg) (hc : cfg.handleLocalEcho = true) (s : Port) (ho : s.isOpen = true) (request more : Bytes)
    (hq : request ≠ []) (ev : List SerialEvent) (hl : (s.afterWrite request).future = .chunk (request ++ more) :: ev) :
    rtuSend R cfg request s = (.ok (), { s.afterWrite request with buf := more, future := ev }) := by
  obtain ⟨b, bs, rfl⟩ := List.exists_cons_of_ne_nil hq
  have hl' : (Port.arriveN (s.sched.headD 0) s).future = .chunk (b :: (bs ++ more)) :: ev := hl
  have h1 : (Port.arriveN (s.sched.headD 0) s).isOpen = true := by rw [parriveN_isOpen]; exact ho
  have h2 := written_arriveN (s.sched.headD 0) s
  unfold rtuSend Port.afterWrite
  simp only [PyM.bind_apply, PyM.lift_apply, hR _ _, Option.getD_none, portResetInput, portCheck, portWrite, ho, hc]
  generalize Port.arriveN (s.sched.headD 0) s = A at h1 h2 hl'
  simp [PyM.pure_apply, h1, h2, portRead, hl', Port.readWait]

/-- **C65.** A master with `handle_local_echo` on a line that echoes gets the response that a master without it gets on a line
    that does not, whatever the chunks of the response are. -/
theorem C65_same_response (R : Registry) (hR : Quiet R) (cfg : RtuCfg) (hc : cfg.handleLocalEcho = true) (hsw : cfg.useSwTimeout = false) (s : Port)
    (ho : s.isOpen = true) (t : Nat) (ht : s.timeout = some t) (h0 : 0 < t) (request more frame rest : Bytes) (hq : request ≠ []) (hf : frame ≠ []) (ev : List SerialEvent)
    (hl : (s.afterWrite request).future = .chunk (request ++ more) :: ev) (hs : more ++ chunkPrefix ev = frame ++ rest) :
    ∃ s1 s2, rtuSend R cfg request s = (.ok (), s1) ∧ s1.written = s.written ++ [request] ∧ rtuRecv R cfg frame.length s1 = (.ok frame, s2) ∧ s2.stream = rest := by
  have ht' : (s.afterWrite request).timeout = some t := by
    unfold Port.afterWrite
    rw [arriveN_rest]
    exact ht
  obtain ⟨s', e1, e2, _⟩ := C31_master_reads R hR cfg hsw ({ s.afterWrite request with buf := more, future := ev }) (by show (s.afterWrite request).isOpen = true; rw [afterWrite_isOpen]; exact ho) t ht' h0 frame rest hf hs
  exact ⟨_, s', C65_echo R hR cfg hc s ho request more hq ev hl, rfl, e1, e2⟩

/-! ### instances -/

/-- a line that echoes what is sent; two bytes of noise were received before -/
def exEcho : Port :=
  { buf := [9, 9], timeout := some 3, future := [.chunk ([1, 3, 0, 11, 0, 1, 245, 200] ++ [1, 3]), .chunk [2, 0, 7, 249, 134]] }

example : ∃ s1 s2, rtuSend [] { handleLocalEcho := true } [1, 3, 0, 11, 0, 1, 245, 200] exEcho = (.ok (), s1) ∧ s1.written = [[1, 3, 0, 11, 0, 1, 245, 200]] ∧
    rtuRecv [] { handleLocalEcho := true } 7 s1 = (.ok [1, 3, 2, 0, 7, 249, 134], s2) ∧ s2.stream = [] :=
  C65_same_response [] quiet_nil { handleLocalEcho := true } rfl rfl exEcho rfl 3 rfl (by decide) [1, 3, 0, 11, 0, 1, 245, 200] [1, 3] [1, 3, 2, 0, 7, 249, 134] []
    (by simp) (by simp) [.chunk [2, 0, 7, 249, 134]] rfl rfl

/-- Without `handle_local_echo` on a line that echoes: the echo of a `WRITE_SINGLE_REGISTER` request is a correct response to
    it, so the call reports success although no slave is there. -/
theorem C65_false_unhandled :
    (execute [] rtuMac (rtuChan [] {}) (Spec.Call.args 1 (.writeRegister 11 7))
      (⟨true, { timeout := some 3, future := [.chunk [1, 6, 0, 11, 0, 7, 185, 202]] }, 0⟩ : MasterSt Port)).1 = .ok (.values [11, 7]) := by
  decide +kernel

end Modbus
