import Verif.Model.Gateway
import Verif.Props.EndToEnd
import Verif.Props.RtuOverTcp
import Verif.Props.TcpMaster
/-
# C106: RTU over TCP end to end, through a gateway
-/
namespace Modbus
open Spec (word toWord bytesFor Fits8 Fits16 FitsReg toByte Call rtuAdu)

/-! ## the specification -/

/-- the gateway passes on what it gets, in segments of any size, without a silence longer than the time-out -/
def Passes (cut : Bytes → List NetEvent) : Prop := ∀ m, ∃ pieces : List Bytes, cut m = pieces.map .data ∧ pieces.flatten = m

/-- the calls whose normal response is as long as an exception response: those that ask for nothing, and Read Exception Status -/
def AsksNothing : Call → Prop
  | .readCoils _ q | .readDiscrete _ q | .readHolding _ q | .readInput _ q => q = 0
  | .readWrite _ rq _ _ => rq = 0
  | .readExceptionStatus => True
  | _ => False

instance (c : Call) : Decidable (AsksNothing c) := by unfold AsksNothing; cases c <;> infer_instance

/-- what a call gives: the values; the exception of the slave only if the call asks for nothing, otherwise a time-out -/
def outcomeOverTcp (c : Call) : Except UInt8 (List Int) → Except PyErr ExecResult
  | .ok v => outcome (.ok v)
  | .error code => if AsksNothing c then outcome (.error code) else .error .timeout

/-- calls, one after the other -/
def gatewayCalls (R Rs : Registry) (cut : Bytes → List NetEvent) (id : Int) : List Call → MasterSt GwNet → List (Except PyErr ExecResult) × MasterSt GwNet
  | [], s => ([], s)
  | c :: cs, s =>
    let r := execute R rtuMac (gatewayChan R Rs cut) (c.args id) s
    let rest := gatewayCalls R Rs cut id cs r.2
    (r.1 :: rest.1, rest.2)

/-- a connection on which nothing is under way -/
structure Sock.Idle (k : Sock) : Prop where
  alive : k.closed = false
  unread : k.stream = []
  coming : k.later = []

/-- the master has an idle connection, or will get one when it opens -/
def Awake (s : MasterSt GwNet) : Prop :=
  (s.isOpened = true ∧ ∃ k, s.link.link.sock = some k ∧ k.Idle) ∨ (s.isOpened = false ∧ ∃ k rest, s.link.link.peers = some k :: rest ∧ k.Idle)

/-- the gateway reaches slave `sl` under `id`, the connection is in good order -/
structure Reached (id : Int) (sl : Slave) (r : Refs) (s : MasterSt GwNet) : Prop where
  known : Dict.get? s.link.db.slaves id = some sl
  good : Good s.link.heap sl r
  awake : Awake s

/-! ## the connection -/

theorem Sock.Idle.going {k : Sock} (h : k.Idle) : k.ended = none := by
  have := h.coming
  unfold Sock.later at this
  cases he : k.ended with
  | none => rfl
  | some e => rw [he] at this; cases e <;> cases this

theorem Sock.Idle.parts {k : Sock} (h : k.Idle) : k.buf = [] ∧ dataPrefix k.future = [] ∧ afterData k.future = [] := by
  have h1 := h.unread
  have h2 := h.coming
  unfold Sock.stream at h1
  unfold Sock.later at h2
  rw [h.going] at h1 h2
  rw [if_pos rfl] at h1
  exact ⟨(List.append_eq_nil_iff.mp h1).1, (List.append_eq_nil_iff.mp h1).2, h2⟩

theorem idle_of_parts {k : Sock} (h0 : k.closed = false) (h1 : k.ended = none) (h2 : k.buf = []) (h3 : dataPrefix k.future = []) (h4 : afterData k.future = []) : k.Idle :=
  ⟨h0, by unfold Sock.stream; rw [h1, h2, if_pos rfl, h3]; rfl, by unfold Sock.later; rw [h1]; exact h4⟩

theorem idle_arrive {k : Sock} (h : k.Idle) : k.arrive.Idle ∧ k.arrive.sent = k.sent := by
  obtain ⟨h1, h2, h3⟩ := h.parts
  have he := h.going
  obtain ⟨buf, ended, future, sched, sent, closed⟩ := k
  dsimp only at h1 h2 h3 he
  subst h1 he
  cases future with
  | nil => exact ⟨h, rfl⟩
  | cons e ev =>
    cases e with
    | data bs =>
      obtain ⟨hb, hd⟩ : bs = [] ∧ dataPrefix ev = [] := List.append_eq_nil_iff.mp h2
      subst hb
      exact ⟨idle_of_parts h.alive rfl rfl hd h3, rfl⟩
    | pause => cases h3
    | eof => cases h3
    | reset => cases h3

theorem idle_arriveN : ∀ (n : Nat) {k : Sock}, k.Idle → (k.arriveN n).Idle ∧ (k.arriveN n).sent = k.sent
  | 0, _, h => ⟨h, rfl⟩
  | n+1, _, h => ⟨(idle_arriveN n (idle_arrive h).1).1, (idle_arriveN n (idle_arrive h).1).2.trans (idle_arrive h).2⟩

theorem idle_flush {k : Sock} (h : k.Idle) : ∃ k', flushSocket 3 4 0 k = (.ok (), k') ∧ k'.Idle ∧ k'.sent = k.sent := by
  have hp : sockPoll k = (.ok false, { Sock.arriveN (k.sched.headD 0) k with sched := k.sched.tail }) := by
    unfold sockPoll
    rw [if_neg (by rw [h.alive]; decide)]
    dsimp only
    have ha := (idle_arriveN (k.sched.headD 0) h).1
    show ((Except.ok (Sock.readable { Sock.arriveN (k.sched.headD 0) k with sched := k.sched.tail }) : Except PyErr Bool), _) = _
    have : Sock.readable { Sock.arriveN (k.sched.headD 0) k with sched := k.sched.tail } = false := by
      unfold Sock.readable
      dsimp only
      rw [ha.parts.1, ha.going]
      rfl
    rw [this]
  obtain ⟨ha, hs⟩ := idle_arriveN (k.sched.headD 0) h
  refine ⟨_, ?_, (idle_of_parts (k := { Sock.arriveN (k.sched.headD 0) k with sched := k.sched.tail }) ha.alive ha.going ha.parts.1 ha.parts.2.1 ha.parts.2.2), hs⟩
  rw [flushSocket]
  simp only [PyM.bind_apply, hp]
  rfl

theorem tcpSend_idle {R : Registry} (hR : Quiet R) {l : TcpLink} {k : Sock} (hk : l.sock = some k) (h : k.Idle) (b : Bytes) :
    ∃ k', tcpSend R b l = (.ok (), { l with sock := some k' }) ∧ k'.Idle ∧ k'.sent = k.sent ++ [b] := by
  obtain ⟨k1, e1, i1, s1⟩ := idle_flush h
  refine ⟨{ k1 with sent := k1.sent ++ [b] }, ?_, ⟨i1.alive, i1.unread, i1.coming⟩, by rw [s1]⟩
  simp only [tcpSend, PyM.bind_apply, PyM.lift_apply, hR _ _, PyM.tryExcept_apply, onSock, hk, e1, Option.getD_none]
  unfold sockSend
  rw [if_neg (by rw [i1.alive, i1.going]; simp)]

theorem dataPrefix_append (ev : List NetEvent) : ∀ (f : List NetEvent), dataPrefix f = [] → afterData f = [] → dataPrefix (f ++ ev) = dataPrefix ev ∧ afterData (f ++ ev) = afterData ev
  | [], _, _ => ⟨rfl, rfl⟩
  | .data bs :: f, h1, h2 => by
    obtain ⟨hb, hd⟩ : bs = [] ∧ dataPrefix f = [] := List.append_eq_nil_iff.mp h1
    subst hb
    exact dataPrefix_append ev f hd h2
  | .pause :: _, _, h => by cases h
  | .eof :: _, _, h => by cases h
  | .reset :: _, _, h => by cases h

theorem dataPrefix_pieces (pieces : List Bytes) : dataPrefix (pieces.map .data) = pieces.flatten ∧ afterData (pieces.map .data) = [] := by
  induction pieces with
  | nil => exact ⟨rfl, rfl⟩
  | cons p ps ih => exact ⟨by rw [List.map_cons, List.flatten_cons, ← ih.1]; rfl, ih.2⟩

/-- what has been delivered can be read -/
theorem idle_deliver {k : Sock} (h : k.Idle) {cut : Bytes → List NetEvent} (hcut : Passes cut) (m : Bytes) :
    ({ k with future := k.future ++ cut m } : Sock).closed = false ∧ ({ k with future := k.future ++ cut m } : Sock).stream = m ∧ ({ k with future := k.future ++ cut m } : Sock).later = [] := by
  obtain ⟨pieces, e1, e2⟩ := hcut m
  obtain ⟨h1, h2, h3⟩ := h.parts
  obtain ⟨d1, d2⟩ := dataPrefix_append (cut m) k.future h2 h3
  obtain ⟨p1, p2⟩ := dataPrefix_pieces pieces
  refine ⟨h.alive, ?_, ?_⟩
  · unfold Sock.stream
    dsimp only
    rw [h.going, if_pos rfl, h1, List.nil_append, d1, e1, p1, e2]
  · unfold Sock.later
    dsimp only
    rw [h.going]
    dsimp only
    rw [d2, e1, p2]

/-- a response of the expected length is received -/
theorem recv_full {R : Registry} (hR : Quiet R) {l : TcpLink} {k : Sock} (hk : l.sock = some k) (hc : k.closed = false) {n : Int} (hn : 1 ≤ n ∧ n ≤ 255) {frame : Bytes}
    (hf : (frame.length : Int) = n) (hs : k.stream = frame) (hl : k.later = []) :
    ∃ k', rtuOverTcpRecv R n l = (.ok frame, { l with sock := some k' }) ∧ k'.Idle := by
  obtain ⟨k', e1, e2, e3⟩ := rtuLoop_reads (n := n) frame [] 256 [] k hc (by intro h; subst h; simp at hf; omega)
    (by unfold rtuTarget; rw [if_pos (by omega)]; simp; omega) (by rw [hs, List.append_nil]) (by omega)
  refine ⟨k', ?_, ⟨e2.closed.trans hc, e3, e2.later.trans hl⟩⟩
  simp only [rtuOverTcpRecv, PyM.bind_apply, onSock, hk, e1, PyM.lift_apply, hR _ _, List.nil_append]
  rfl

/-- a response that is too short is swallowed and ends in a time-out -/
theorem recv_short {R : Registry} {l : TcpLink} {k : Sock} (hk : l.sock = some k) (hc : k.closed = false) {n : Int}
    (hf : k.stream.length < rtuTarget n) (hl : k.later = []) :
    ∃ k', rtuOverTcpRecv R n l = (.error .timeout, { l with sock := some k' }) ∧ k'.Idle := by
  have ht : rtuTarget n ≤ 255 := by unfold rtuTarget; split <;> omega
  obtain ⟨k', f1, f2, f3, f4⟩ := rtuLoop_short (n := n) k.stream (256 - k.stream.length) [] k hc (by simpa using hf) rfl
  have hi : k'.Idle := ⟨f3, f1, f2.trans hl⟩
  obtain ⟨h1, h2, h3⟩ := hi.parts
  rw [show k.stream.length + (256 - k.stream.length) = 256 by omega] at f4
  have hrecv : sockRecv 1 k' = (.error .timeout, { k' with future := [] }) := by
    unfold sockRecv
    rw [if_neg (by rw [f3]; decide)]
    simp only [h1, hi.going]
    rcases recvWait_nodata 1 k' k'.future h2 with h | ⟨_, h, _⟩ | ⟨_, h, _⟩ | ⟨_, h, _⟩
    · rw [h.2, h1, hi.going]
    all_goals rw [h3] at h; cases h
  have hloop : rtuOverTcpRecvLoop n (256 - k.stream.length) ([] ++ k.stream) k' = (.error .timeout, { k' with future := [] }) := by
    obtain ⟨m, hm⟩ : ∃ m, 256 - k.stream.length = m + 1 := ⟨255 - k.stream.length, by omega⟩
    rw [hm, rtuOverTcpRecvLoop, if_pos (by simp; omega)]
    simp only [PyM.bind_apply, hrecv]
  refine ⟨{ k' with future := [] }, ?_, idle_of_parts f3 hi.going h1 rfl rfl⟩
  simp only [rtuOverTcpRecv, PyM.bind_apply, onSock, hk, f4, hloop]

/-- the master opens -/
theorem open_awake {R Rs : Registry} (hR : Quiet R) (cut : Bytes → List NetEvent) {s : MasterSt GwNet} (h : Awake s) :
    ∃ s1 k, masterOpen (gatewayChan R Rs cut) s = (.ok (), s1) ∧ s1.isOpened = true ∧ s1.link.db = s.link.db ∧ s1.link.heap = s.link.heap ∧ s1.link.link.sock = some k ∧ k.Idle := by
  obtain ⟨o, ⟨db, heap, ⟨sock, peers, gone⟩⟩, tid⟩ := s
  rcases h with ⟨ho, k, hk, hi⟩ | ⟨ho, k, rest, hk, hi⟩
  · dsimp only at ho hk
    subst ho hk
    exact ⟨_, k, rfl, rfl, rfl, rfl, rfl, hi⟩
  · dsimp only at ho hk
    subst ho hk
    refine ⟨⟨true, ⟨db, heap, ⟨some k, rest, gone ++ sock.toList.map Sock.close⟩⟩, tid⟩, k, ?_, rfl, rfl, rfl, rfl, hi⟩
    have hdo : tcpDoOpen R ⟨sock, some k :: rest, gone⟩ = (.ok (), ⟨some k, rest, gone ++ sock.toList.map Sock.close⟩) := by
      unfold tcpDoOpen
      simp only [hR _ _]
    unfold masterOpen
    simp only [gatewayChan, onConnection, hdo, onLink, PyM.bind_apply]
    rfl

/-! ## what the master waits for -/

/-- the expected length is the length of the frame of the normal response (C39) -/
theorem expected_normal {u : Bool} {m : Spec.Mem} {c : Call} (hc : c.Fits) {data : Bytes} (h : (Spec.exec u m c.toReq).1 = .ok data) :
    c.prepared.expectedLength = data.length + 4 := by
  have hn := C39_conforming u m c hc data h
  have ints : ∀ q : Int, Fits16 q → q = (q.toNat : Int) := by
    intro q hq
    have := hq.1
    omega
  cases c with
  | readCoils a q =>
    have e := ints q hc.2
    simp only [Call.responseLength, Option.some.injEq] at hn
    simp only [Call.prepared]
    rw [e, nbBytes_eq, ← hn]; push_cast; omega
  | readDiscrete a q =>
    have e := ints q hc.2
    simp only [Call.responseLength, Option.some.injEq] at hn
    simp only [Call.prepared]
    rw [e, nbBytes_eq, ← hn]; push_cast; omega
  | readHolding a q =>
    have e := ints q hc.2
    simp only [Call.responseLength, Option.some.injEq] at hn
    simp only [Call.prepared]; omega
  | readInput a q =>
    have e := ints q hc.2
    simp only [Call.responseLength, Option.some.injEq] at hn
    simp only [Call.prepared]; omega
  | readWrite ra rq wa vs =>
    have e := ints rq hc.2.1
    simp only [Call.responseLength, Option.some.injEq] at hn
    simp only [Call.prepared]; omega
  | diagnostic sub data => simp [Call.toReq, Spec.exec] at h
  | readFileRecord rs => simp [Call.toReq, Spec.exec] at h
  | deviceInfo a b => simp [Call.toReq, Spec.exec] at h
  | maskWrite a am om => simp only [Call.responseLength, Option.some.injEq] at hn; simp only [Call.prepared]; omega
  | writeCoil a v => simp only [Call.responseLength, Option.some.injEq] at hn; simp only [Call.prepared]; omega
  | writeRegister a v => simp only [Call.responseLength, Option.some.injEq] at hn; simp only [Call.prepared]; omega
  | readExceptionStatus => simp only [Call.responseLength, Option.some.injEq] at hn; simp only [Call.prepared]; omega
  | writeCoils a vs => simp only [Call.responseLength, Option.some.injEq] at hn; simp only [Call.prepared]; omega
  | writeRegisters a vs => simp only [Call.responseLength, Option.some.injEq] at hn; simp only [Call.prepared]; omega

/-- five bytes are enough exactly for the calls that ask for nothing -/
theorem expected_exception {c : Call} (hc : c.Fits) :
    (AsksNothing c → c.prepared.expectedLength = 5) ∧ (¬ AsksNothing c → 5 < rtuTarget c.prepared.expectedLength) := by
  have ints : ∀ q : Int, Fits16 q → q = (q.toNat : Int) := by
    intro q hq
    have := hq.1
    omega
  have bits : ∀ q : Int, Fits16 q → (q = 0 → nbBytes q + 5 = 5) ∧ (q ≠ 0 → 5 < rtuTarget (nbBytes q + 5)) := by
    intro q hq
    rw [ints q hq, nbBytes_eq]
    unfold bytesFor rtuTarget
    refine ⟨fun h => by omega, fun h => ?_⟩
    split <;> omega
  have regs : ∀ q : Int, Fits16 q → (q = 0 → 2 * q + 5 = 5) ∧ (q ≠ 0 → 5 < rtuTarget (2 * q + 5)) := by
    intro q hq
    have := hq.1
    unfold rtuTarget
    refine ⟨fun h => by omega, fun h => ?_⟩
    split <;> omega
  cases c with
  | readCoils a q => exact bits q hc.2
  | readDiscrete a q => exact bits q hc.2
  | readHolding a q => exact regs q hc.2
  | readInput a q => exact regs q hc.2
  | readWrite ra rq wa vs => exact regs rq hc.2.1
  | readExceptionStatus => exact ⟨fun _ => rfl, fun h => absurd trivial h⟩
  | diagnostic sub data =>
    refine ⟨fun h => h.elim, fun _ => ?_⟩
    simp only [Call.prepared]
    cases data with
    | nil => exact (by decide : 5 < rtuTarget (-1))
    | cons d ds =>
      rw [if_neg (by simp)]
      unfold rtuTarget
      dsimp only
      split <;> simp only [List.length_cons] at * <;> omega
  | readFileRecord rs =>
    refine ⟨fun h => h.elim, fun _ => ?_⟩
    have hsum : ∀ rs : List Spec.FileReq, (∀ r ∈ rs, Fits16 r.len) → 0 ≤ (rs.map (·.len)).sum := by
      intro rs
      induction rs with
      | nil => intro _; exact Int.le_refl _
      | cons r rs ih =>
        intro h
        have h1 := ih (fun r' hr' => h r' (List.mem_cons_of_mem _ hr'))
        have h2 := (h r List.mem_cons_self).1
        simp only [List.map_cons, List.sum_cons]
        omega
    have h1 := hsum rs (fun r hr => (hc.2.2 r hr).2.2)
    have h2 : rs.length ≠ 0 := fun h => hc.1 (List.length_eq_zero_iff.mp h)
    simp only [Call.prepared]
    unfold rtuTarget
    split <;> omega
  | deviceInfo a b => exact ⟨fun h => h.elim, fun _ => (by decide : 5 < rtuTarget (-1))⟩
  | maskWrite a am om => exact ⟨fun h => h.elim, fun _ => (by decide : 5 < rtuTarget 10)⟩
  | writeCoil a v => exact ⟨fun h => h.elim, fun _ => (by decide : 5 < rtuTarget 8)⟩
  | writeRegister a v => exact ⟨fun h => h.elim, fun _ => (by decide : 5 < rtuTarget 8)⟩
  | writeCoils a vs => exact ⟨fun h => h.elim, fun _ => (by decide : 5 < rtuTarget 8)⟩
  | writeRegisters a vs => exact ⟨fun h => h.elim, fun _ => (by decide : 5 < rtuTarget 8)⟩

/-! ## the properties -/

/-- the world with other memories and another socket -/
def GwNet.now (l : GwNet) (h : Heap) (k : Sock) : GwNet := { l with heap := h, link := { l.link with sock := some k } }

/-- what is delivered to a socket -/
def Sock.gets (k : Sock) (ev : List NetEvent) : Sock := { k with future := k.future ++ ev }

/-- the master's part of a call: its request reaches the devices, and it reads what comes back -/
theorem gateway_send {R Rs : Registry} (hR : Quiet R) (cut : Bytes → List NetEvent) {l : GwNet} {k : Sock} (hk : l.link.sock = some k) (hi : k.Idle) (request : Bytes)
    {b : Option Bytes} {h' : Heap} (hdb : serverHandle Rs rtuMac l.db request l.heap = (.ok b, h')) :
    ∃ k' : Sock, (gatewayChan R Rs cut).send request l = (.ok (), l.now h' (k'.gets (cut (b.getD [])))) ∧ k'.Idle := by
  obtain ⟨k', e1, e2, e3⟩ := tcpSend_idle hR hk hi request
  refine ⟨k', ?_, e2⟩
  have hlast : ({ l.link with sock := some k' } : TcpLink).lastSent = request := by
    unfold TcpLink.lastSent
    simp only [Option.bind_some, e3, List.getLast?_concat, Option.getD_some]
  simp only [gatewayChan, PyM.bind_apply, onConnection, e1]
  unfold gatewayStep
  dsimp only
  rw [hlast, hdb]
  rfl

variable {R Rs : Registry} {cut : Bytes → List NetEvent} {id : Int} {sl : Slave} {r : Refs} {s : MasterSt GwNet}

/-- **C106.** A call of an `RtuOverTcpMaster` through a gateway.  An accepted call returns exactly what the specification prescribes, whatever the segments.
    A refused call raises the slave's exception only if it asks for nothing; otherwise it waits for the rest of a response that has come already, and ends
    in a time-out.  Either way the slave's memory is as prescribed, and everything is ready for the next call. -/
theorem C106_call (hR : Quiet R) (hRs : Quiet Rs) (hcut : Passes cut) (h0 : 1 ≤ id) (h1 : id ≤ 255) (hs : Reached id sl r s) (c : Call) (hc : c.Fits)
    (hm : sl.unsigned = true ∨ ∀ a am om, c ≠ .maskWrite a am om) :
    ∃ s', execute R rtuMac (gatewayChan R Rs cut) (c.args id) s = (outcomeOverTcp c (c.answer sl.unsigned (absMem s.link.heap sl)), s') ∧
      absMem s'.link.heap sl = c.after sl.unsigned (absMem s.link.heap sl) ∧ Reached id sl r s' := by
  obtain ⟨s1, k, ho, o1, o2, o3, o4, hi⟩ := open_awake (Rs := Rs) hR cut hs.awake
  have hp := prepare_call id hc
  obtain ⟨q, hb, q1⟩ := buildRequest_rtu (pdu := c.prepared.pdu) (by omega : 0 ≤ id) h1 (s := s1)
  rw [execute_main hR ho hp (args_slave c id) hb, prepared_pdu, pdu_toReq]
  have hid : ((UInt8.ofNat id.toNat).toNat : Int) = id := by
    rw [UInt8.toNat_ofNat', Nat.mod_eq_of_lt (by omega)]; omega
  generalize hu : UInt8.ofNat id.toNat = unit at hid q1
  have hm' : sl.unsigned = true ∨ ∀ a am om, c.toReq ≠ .maskWrite a am om := by
    rcases hm with h | h
    · exact .inl h
    · right; intro a am om e
      cases c <;> first | exact absurd rfl (h _ _ _) | (simp [Call.toReq] at e)
  obtain ⟨h', e1, e2, e3, _⟩ := handler_refines hRs hs.good c.toReq (toReq_WF c hc) hm'
  have hrl := reply_length sl.unsigned (absMem s.link.heap sl) c.toReq
  generalize hrep : (Spec.exec sl.unsigned (absMem s.link.heap sl) c.toReq).1.encode c.toReq.fc = rep at e1 hrl
  have hpr : rtuMac.parseRequest (rtuAdu unit c.toReq.encode) rtuMac.new = _ := rtuParseRequest_adu unit c.toReq.encode (rtuMac.new : RtuQuery)
  have e4 := rtuBuildResponse_adu unit rep ({ (rtuMac.new : RtuQuery) with requestAddress := (unit.toNat : Int) }) rfl
  have hdb : dbHandle Rs rtuMac s1.link.db (rtuAdu unit c.toReq.encode) s1.link.heap = (.ok (some (rtuAdu unit rep)), h') := by
    rw [o2, o3]
    exact dbHandle_some hpr (by omega) (by rw [hid]; exact hs.known) e1 e4
  obtain ⟨k', hsend, hi'⟩ := gateway_send (Rs := Rs) hR cut o4 hi (rtuAdu unit c.toReq.encode) (by rw [serverHandle_quiet hRs]; exact hdb)
  obtain ⟨d1, d2, d3⟩ := idle_deliver hi' hcut (rtuAdu unit rep)
  rw [hsend]
  dsimp only [Option.getD_some]
  have hlen : (rtuAdu unit rep).length = rep.length + 3 := by simp [rtuAdu]
  have hparse := ((C25_response (rtuAdu unit rep) q).1 rep).mpr ⟨_, rfl, q1⟩
  -- either the frame has the expected length or it is too short
  have key : (((rtuAdu unit rep).length : Int) = c.prepared.expectedLength ∧
        outcomeOverTcp c (c.answer sl.unsigned (absMem s.link.heap sl)) = outcome (c.answer sl.unsigned (absMem s.link.heap sl))) ∨
      ((rtuAdu unit rep).length < rtuTarget c.prepared.expectedLength ∧ outcomeOverTcp c (c.answer sl.unsigned (absMem s.link.heap sl)) = .error .timeout) := by
    have hx := expected_exception hc
    unfold Call.answer
    cases hans : (Spec.exec sl.unsigned (absMem s.link.heap sl) c.toReq).1 with
    | ok data =>
      left
      rw [hans] at hrep
      have hlr : rep.length = data.length + 1 := by rw [← hrep]; simp [Spec.Reply.encode]
      have := expected_normal hc hans
      exact ⟨by rw [hlen, hlr, this]; push_cast; omega, rfl⟩
    | exc code =>
      rw [hans] at hrep
      have hlr : rep.length = 2 := by rw [← hrep]; simp [Spec.Reply.encode]
      by_cases ha : AsksNothing c
      · left
        exact ⟨by rw [hlen, hlr, hx.1 ha]; rfl, if_pos ha⟩
      · right
        exact ⟨by rw [hlen, hlr]; exact hx.2 ha, if_neg ha⟩
  rcases key with ⟨hl, heq⟩ | ⟨hl, heq⟩
  · obtain ⟨k2, g1, g2⟩ := recv_full hR (l := (s1.link.now h' (k'.gets (cut (rtuAdu unit rep)))).link) rfl d1 (n := c.prepared.expectedLength) (by omega) hl d2 d3
    have hrecv : (gatewayChan R Rs cut).recv c.prepared.expectedLength (s1.link.now h' (k'.gets (cut (rtuAdu unit rep)))) = (.ok (rtuAdu unit rep), s1.link.now h' k2) := by
      show onConnection (rtuOverTcpRecv R _) _ = _
      unfold onConnection
      dsimp only
      rw [g1]
      rfl
    rw [hrecv]
    dsimp only
    rw [show (rtuMac.parseResponse (rtuAdu unit rep) q).1 = _ from hparse]
    dsimp only
    rw [← hrep, analyse_reply _ _ c hc, heq]
    exact ⟨_, rfl, e2, ⟨by show Dict.get? s1.link.db.slaves id = some sl; rw [o2]; exact hs.known, e3, .inl ⟨o1, k2, rfl, g2⟩⟩⟩
  · obtain ⟨k2, g1, g2⟩ := recv_short (R := R) (l := (s1.link.now h' (k'.gets (cut (rtuAdu unit rep)))).link) rfl d1 (n := c.prepared.expectedLength) (by rw [show (Sock.gets _ _).stream = _ from d2]; exact hl) d3
    have hrecv : (gatewayChan R Rs cut).recv c.prepared.expectedLength (s1.link.now h' (k'.gets (cut (rtuAdu unit rep)))) = (.error .timeout, s1.link.now h' k2) := by
      show onConnection (rtuOverTcpRecv R _) _ = _
      unfold onConnection
      dsimp only
      rw [g1]
      rfl
    rw [hrecv, heq]
    exact ⟨_, rfl, e2, ⟨by show Dict.get? s1.link.db.slaves id = some sl; rw [o2]; exact hs.known, e3, .inl ⟨o1, k2, rfl, g2⟩⟩⟩

/-- **C106.** Any program of calls: each gives what `C106_call` says, and the memory ends as prescribed. -/
theorem C106_history (hR : Quiet R) (hRs : Quiet Rs) (hcut : Passes cut) (h0 : 1 ≤ id) (h1 : id ≤ 255) (cs : List Call) (hs : Reached id sl r s)
    (hc : ∀ c ∈ cs, c.Fits ∧ (sl.unsigned = true ∨ ∀ a am om, c ≠ .maskWrite a am om)) :
    (gatewayCalls R Rs cut id cs s).1 = List.zipWith outcomeOverTcp cs (specCalls sl.unsigned cs (absMem s.link.heap sl)).1 ∧
    absMem (gatewayCalls R Rs cut id cs s).2.link.heap sl = (specCalls sl.unsigned cs (absMem s.link.heap sl)).2 := by
  induction cs generalizing s with
  | nil => exact ⟨rfl, rfl⟩
  | cons c cs ih =>
    obtain ⟨a1, a2⟩ := hc c List.mem_cons_self
    obtain ⟨s', e1, e2, e3⟩ := C106_call hR hRs hcut h0 h1 hs c a1 a2
    have := ih e3 (fun c h => hc c (List.mem_cons_of_mem _ h))
    rw [e2] at this
    simp only [gatewayCalls, specCalls, e1, List.zipWith_cons_cons]
    exact ⟨by rw [this.1], this.2⟩

/-- **C106 (unknown slaves).** A call to a number that no device has ends in a time-out; nothing changes, and everything is ready for the next call. -/
theorem C106_unknown (hR : Quiet R) (hRs : Quiet Rs) (hcut : Passes cut) (h0 : 1 ≤ id) (h1 : id ≤ 255) (hs : Awake s) (hu : Dict.get? s.link.db.slaves id = none)
    (c : Call) (hc : c.Fits) :
    ∃ s', execute R rtuMac (gatewayChan R Rs cut) (c.args id) s = (.error .timeout, s') ∧ s'.link.heap = s.link.heap ∧ s'.link.db = s.link.db ∧ Awake s' := by
  obtain ⟨s1, k, ho, o1, o2, o3, o4, hi⟩ := open_awake (Rs := Rs) hR cut hs
  have hp := prepare_call id hc
  obtain ⟨q, hb, q1⟩ := buildRequest_rtu (pdu := c.prepared.pdu) (by omega : 0 ≤ id) h1 (s := s1)
  rw [execute_main hR ho hp (args_slave c id) hb, prepared_pdu, pdu_toReq]
  have hid : ((UInt8.ofNat id.toNat).toNat : Int) = id := by
    rw [UInt8.toNat_ofNat', Nat.mod_eq_of_lt (by omega)]; omega
  generalize hun : UInt8.ofNat id.toNat = unit at hid q1
  have hpr : rtuMac.parseRequest (rtuAdu unit c.toReq.encode) rtuMac.new = _ := rtuParseRequest_adu unit c.toReq.encode (rtuMac.new : RtuQuery)
  have hdb : dbHandle Rs rtuMac s1.link.db (rtuAdu unit c.toReq.encode) s1.link.heap = (.ok (some []), s1.link.heap) :=
    C21_unknown Rs rtuMac _ _ (unit.toNat : Int) c.toReq.encode (by rw [hpr]) (by omega) (by rw [o2, hid]; exact hu) _
  obtain ⟨k', hsend, hi'⟩ := gateway_send (Rs := Rs) hR cut o4 hi (rtuAdu unit c.toReq.encode) (by rw [serverHandle_quiet hRs]; exact hdb)
  obtain ⟨d1, d2, d3⟩ := idle_deliver hi' hcut []
  rw [hsend]
  dsimp only [Option.getD_some]
  have hlt : ([] : Bytes).length < rtuTarget c.prepared.expectedLength := by
    have hx := expected_exception hc
    by_cases ha : AsksNothing c
    · rw [hx.1 ha]; decide
    · exact Nat.lt_of_le_of_lt (Nat.zero_le _) (hx.2 ha)
  obtain ⟨k2, g1, g2⟩ := recv_short (R := R) (l := (s1.link.now s1.link.heap (k'.gets (cut []))).link) rfl d1 (n := c.prepared.expectedLength) (by rw [show (Sock.gets _ _).stream = _ from d2]; exact hlt) d3
  have hrecv : (gatewayChan R Rs cut).recv c.prepared.expectedLength (s1.link.now s1.link.heap (k'.gets (cut []))) = (.error .timeout, s1.link.now s1.link.heap k2) := by
    show onConnection (rtuOverTcpRecv R _) _ = _
    unfold onConnection
    dsimp only
    rw [g1]
    rfl
  rw [hrecv]
  exact ⟨_, rfl, o3, o2, .inl ⟨o1, k2, rfl, g2⟩⟩

/-! ## the hypotheses are met -/

/-- a gateway that sends every byte in a segment of its own -/
def bytewise (m : Bytes) : List NetEvent := m.map fun b => .data [b]

theorem bytewise_passes : Passes bytewise := fun m => ⟨m.map fun b => [b], by unfold bytewise; rw [List.map_map]; rfl, by induction m with | nil => rfl | cons b m ih => rw [List.map_cons, List.flatten_cons, ih]; rfl⟩

/-- a master that has not been opened, in front of the slaves of `exNet` -/
def exGateway : MasterSt GwNet := ⟨false, ⟨exTwo.st.db, exTwo.st.heap, { peers := [some {}] }⟩, 0⟩

theorem exGateway_reached : Reached 1 ⟨1, true, [("a", (3, 10))], 0⟩ ⟨0, 1, 2, 3⟩ exGateway :=
  ⟨exNet_ready.known, exNet_ready.good, .inr ⟨rfl, {}, [], rfl, ⟨rfl, rfl, rfl⟩⟩⟩

/-- two registers are written and read; a refused write and a refused read end in time-outs, a refused read of nothing in the slave's exception; then a
    register is read -/
theorem C106_example : (gatewayCalls [] [] bytewise 1 [.writeRegisters 11 [7, 65535], .readHolding 11 2, .writeRegister 99 1, .readHolding 99 2, .readHolding 11 0,
      .readHolding 12 1] exGateway).1 =
    [.ok (.values [11, 2]), .ok (.values [7, 65535]), .error .timeout, .error .timeout, .error (.modbusError 3), .ok (.values [65535])] := by
  decide +kernel

end Modbus
