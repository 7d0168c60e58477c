import Verif.Lemmas.TcpRecv
import Verif.Props.MasterRead
/-
# Properties C30, C49: the transport of the TCP master
-/
namespace Modbus
open Spec (word wordAt tcpAdu Call)

/-! ## C30 -/

/-- a complete Modbus/TCP frame: six bytes, the last two of which are the number of the following ones -/
def CompleteFrame (f : Bytes) : Prop := 6 ≤ f.length ∧ f.length = (wordAt f 2).toNat + 6

theorem tcpAdu_announced (tid pid : UInt16) (unit : UInt8) {pdu : Bytes} (h : pdu.length ≤ 65534) :
    announced (tcpAdu tid pid unit pdu) = pdu.length + 1 := by
  unfold announced tcpAdu
  have := wordAt_flatMap [tid, pid, UInt16.ofNat (pdu.length + 1)] (i := 2) (by simp)
  have e : wordAt (word tid ++ word pid ++ word (UInt16.ofNat (pdu.length + 1)) ++ unit :: pdu) 2 =
      UInt16.ofNat (pdu.length + 1) := by
    refine Eq.trans ?_ this
    simp [wordAt, word]
  rw [e, UInt16.toNat_ofNat']
  exact Nat.mod_eq_of_lt (by omega)

theorem tcpAdu_length (tid pid : UInt16) (unit : UInt8) (pdu : Bytes) : (tcpAdu tid pid unit pdu).length = pdu.length + 7 := by
  simp [tcpAdu, word]

theorem tcpAdu_complete (tid pid : UInt16) (unit : UInt8) {pdu : Bytes} (h : pdu.length ≤ 65534) :
    CompleteFrame (tcpAdu tid pid unit pdu) := by
  have e := tcpAdu_announced tid pid unit h
  unfold announced at e
  rw [CompleteFrame, e, tcpAdu_length]
  omega

/-- **C30.** If the stream of the connection starts with a complete frame - in segments of any sizes - the master receives
    exactly this frame and leaves the bytes after it (and everything that happens later) for the next reader. -/
theorem C30_reads (R : Registry) (hR : Quiet R) (l : TcpLink) (k : Sock) (hk : l.sock = some k) (ho : k.closed = false)
    (frame rest : Bytes) (hf : CompleteFrame frame) (hs : k.stream = frame ++ rest) (n : Int) :
    ∃ k', tcpRecv R n l = (.ok frame, { l with sock := some k' }) ∧ k'.stream = rest ∧ k'.later = k.later ∧ k'.sent = k.sent ∧
      k'.closed = false := by
  have hlen : frame.length < 65542 := by have := hf.2; have := (wordAt frame 2).toNat_lt; omega
  obtain ⟨k', e1, e2, e3⟩ := tcpRecvLoop_reads frame rest 65542 [] 255 k ho (.inl ⟨by simp, rfl⟩) hf.1 hf.2 hs hlen
  refine ⟨k', ?_, e3, e2.later, e2.sent, by rw [e2.closed]; exact ho⟩
  simp only [tcpRecv, PyM.bind_apply, onSock, hk, e1, PyM.lift_apply, hR _ _, List.nil_append]
  rfl

-- segmented in the middle of everything, with bytes of the next frame glued to the last segment
example : (tcpRecv [] 0 { sock := some { buf := [0, 1, 0], future := [.data [0, 0], .data [], .data [3, 9, 3], .data [7, 0, 2], .pause] } }) =
    (.ok [0, 1, 0, 0, 0, 3, 9, 3, 7], { sock := some { buf := [0, 2], future := [.pause] } }) := by decide +kernel

/-- **C30.** Whatever happens on the connection, receiving ends, and what it yields are the next bytes of the stream: one
    complete frame, or all that there was before the peer closed the connection. -/
theorem C30_sound (R : Registry) (hR : Quiet R) (l : TcpLink) (k : Sock) (hk : l.sock = some k) (ho : k.closed = false) (n : Int) :
    (∃ e l', tcpRecv R n l = (.error e, l') ∧ e ≠ .nonTermination) ∨
    (∃ x k', tcpRecv R n l = (.ok x, { l with sock := some k' }) ∧ k.stream = x ++ k'.stream ∧
      (CompleteFrame x ∨ (k'.ended = some .eof ∧ k'.stream = []))) := by
  rcases tcpRecvLoop_sound 65542 [] 255 k ho (.inl ⟨by simp, rfl⟩) (by omega) with ⟨e, k', e1, e2⟩ | ⟨x, k', e1, e2, e3⟩
  · left
    refine ⟨e, { l with sock := some k' }, ?_, e2⟩
    simp only [tcpRecv, PyM.bind_apply, onSock, hk, e1]
  · right
    refine ⟨x, k', ?_, e2, ?_⟩
    · simp only [tcpRecv, PyM.bind_apply, onSock, hk, e1, PyM.lift_apply, hR _ _, List.nil_append]
      rfl
    · rcases e3 with ⟨_, g⟩ | g
      · left
        rw [List.nil_append] at g
        exact ⟨by omega, g⟩
      · exact .inr g

/-- **C30.** If the peer closes the connection before the frame is complete, the response is refused. -/
theorem C30_early_close (R : Registry) (hR : Quiet R) (l : TcpLink) (k : Sock) (hk : l.sock = some k) (ho : k.closed = false)
    (n : Int) (hcut : ¬ ∃ f rest, CompleteFrame f ∧ k.stream = f ++ rest) :
    (∃ e l', tcpRecv R n l = (.error e, l')) ∨
    (∃ x l', tcpRecv R n l = (.ok x, l') ∧ ∀ q : TcpQuery, ∃ e, (tcpParseResponse x q).1 = .error e) := by
  rcases C30_sound R hR l k hk ho n with ⟨e, l', e1, _⟩ | ⟨x, k', e1, e2, e3⟩
  · exact .inl ⟨e, l', e1⟩
  · right
    refine ⟨x, _, e1, ?_⟩
    intro q
    cases hq : (tcpParseResponse x q).1 with
    | error e => exact ⟨e, rfl⟩
    | ok pdu =>
      exfalso
      obtain ⟨tid, pid, unit, hx, hle, _⟩ := (C24_accepts x q pdu).mp hq
      exact hcut ⟨x, k'.stream, by rw [hx]; exact tcpAdu_complete tid pid unit hle, e2⟩

example : (execute [] tcpMac (tcpChan []) (Call.args 9 (.readHolding 0 2))
    ⟨true, { sock := some { future := [.data [0, 1, 0, 0, 0, 7, 9, 3, 4, 1, 2], .eof] } }, 0⟩).1 = .error .invalidMbap := by
  decide +kernel

/-- the ids of a built request are those of its query object -/
theorem buildRequest_tcp_query {σ : Type} {pdu : Bytes} {slave : Int} {s s2 : MasterSt σ} {request : Bytes} {q : TcpQuery}
    (h : buildRequest tcpMac pdu slave s = (.ok (request, q), s2)) :
    q.request.transactionId = s2.lastTid ∧ q.request.protocolId = 0 ∧ q.request.unitId = slave := by
  unfold buildRequest at h
  rw [show tcpMac.buildRequest pdu slave (tcpMac.new, s.lastTid) =
    tcpBuildRequest pdu slave ((tcpMac.new : TcpQuery), s.lastTid) from rfl] at h
  unfold tcpBuildRequest at h
  by_cases hr : slave < 0 ∨ slave > 255
  · rw [if_pos hr] at h; cases h
  · rw [if_neg hr] at h
    dsimp only at h
    cases hm : Mbap.pack { (tcpMac.new : TcpQuery).request with
        length := pdu.length + 1, transactionId := nextTransactionId s.lastTid, unitId := slave } with
    | error e => rw [hm] at h; cases h
    | ok b => rw [hm] at h; cases h; exact ⟨rfl, rfl, rfl⟩

/-- **C30.** `execute` of a TCP master returns data only if, after the request was sent, the stream of the connection
    started with one complete frame carrying the ids of the request, and exactly this frame was consumed. -/
theorem C30_execute (R : Registry) (hR : Quiet R) (a : ExecArgs) (s s' : MasterSt TcpLink) (r : ExecResult)
    (h : execute R tcpMac (tcpChan R) a s = (.ok r, s')) :
    ∃ (l1 : TcpLink) (k k' : Sock) (frame pdu request : Bytes) (l0 : TcpLink) (p : Prepared),
      tcpSend R request l0 = (.ok (), l1) ∧ l1.sock = some k ∧ s'.link = { l1 with sock := some k' } ∧
      k.stream = frame ++ k'.stream ∧ CompleteFrame frame ∧ prepare a = .ok p ∧ analyse a p pdu = .ok r ∧
      ∃ (tid : UInt16) (unit : UInt8), frame = tcpAdu tid 0 unit pdu ∧ (tid.toNat : Int) = s'.lastTid ∧
        a.slave = some (unit.toNat : Int) := by
  obtain ⟨s1, s2, p, sl, request, q, l1, l2, resp, pdu, ho, hp, hs, hb, h1, h2, h3, h4, rfl⟩ := execute_ok hR h
  obtain ⟨tid, pid, unit, hresp, hle, t1, t2, t3⟩ := (C24_accepts resp q pdu).mp h3
  have h2' : tcpRecv R p.expectedLength l1 = (.ok resp, l2) := h2
  have hcf := tcpAdu_complete tid pid unit hle
  rw [← hresp] at hcf
  match hk : l1.sock with
  | none =>
    simp only [tcpRecv, PyM.bind_apply, onSock, hk] at h2'
    cases h2'
  | some k =>
    cases hcl : k.closed with
    | true =>
      have : tcpRecvLoop 65542 [] 255 k = (.error .osError, k) := by
        rw [tcpRecvLoop]
        simp [PyM.bind_apply, sockRecv, hcl]
      simp only [tcpRecv, PyM.bind_apply, onSock, hk, this] at h2'
      cases h2'
    | false =>
      rcases C30_sound R hR l1 k hk hcl p.expectedLength with ⟨e, l', e1, _⟩ | ⟨x, k', e1, e2, e3⟩
      · rw [e1] at h2'; cases h2'
      · rw [e1] at h2'
        injection h2' with i1 i2
        injection i1 with i1
        subst i1
        obtain ⟨u1, u2, u3⟩ := buildRequest_tcp_query hb
        have hpid : pid = 0 := by
          apply UInt16.toNat_inj.mp
          have : (pid.toNat : Int) = 0 := by rw [← t2, u2]
          simpa using this
        subst hpid
        exact ⟨l1, k, k', x, pdu, request, s2.link, p, h1, hk, i2.symm, e2, hcf, hp, h4, tid, unit, hresp,
          by rw [← t1, u1], by rw [hs, ← u3, t3]⟩

/-! ## C49 -/

/-- the events still to come on `s'` are the last ones of those on `s` -/
def SameConnection (s s' : Sock) : Prop := s'.future <:+ s.future ∧ s'.sent = s.sent ∧ s'.closed = s.closed

theorem SameConnection.refl (s : Sock) : SameConnection s s := ⟨List.suffix_refl _, rfl, rfl⟩

theorem SameConnection.trans {a b c : Sock} (h : SameConnection a b) (h' : SameConnection b c) : SameConnection a c :=
  ⟨h'.1.trans h.1, h'.2.1.trans h.2.1, h'.2.2.trans h.2.2⟩

theorem arrive_same (s : Sock) : SameConnection s s.arrive := by
  unfold Sock.arrive
  split
  · rename_i h; exact ⟨by rw [h]; exact List.suffix_cons _ _, rfl, rfl⟩
  · rename_i h; exact ⟨by rw [h]; exact List.suffix_cons _ _, rfl, rfl⟩
  · rename_i h; exact ⟨by rw [h]; exact List.suffix_cons _ _, rfl, rfl⟩
  · rename_i h; exact ⟨by rw [h]; exact List.suffix_cons _ _, rfl, rfl⟩
  · exact .refl s

theorem arriveN_same (n : Nat) (s : Sock) : SameConnection s (s.arriveN n) := by
  induction n generalizing s with
  | zero => exact .refl s
  | succ n ih => exact (arrive_same s).trans (ih s.arrive)

theorem recvWait_same (n : Nat) (s : Sock) (ev : List NetEvent) :
    ((Sock.recvWait n s ev).2.future <:+ ev) ∧ (Sock.recvWait n s ev).2.sent = s.sent ∧
      (Sock.recvWait n s ev).2.closed = s.closed := by
  induction ev with
  | nil => exact ⟨List.suffix_refl _, rfl, rfl⟩
  | cons e ev ih =>
    match e with
    | .data [] => exact ⟨ih.1.trans (List.suffix_cons _ _), ih.2⟩
    | .data (b :: bs) => exact ⟨List.suffix_cons _ _, rfl, rfl⟩
    | .pause => exact ⟨List.suffix_cons _ _, rfl, rfl⟩
    | .eof => exact ⟨List.suffix_cons _ _, rfl, rfl⟩
    | .reset => exact ⟨List.suffix_cons _ _, rfl, rfl⟩

theorem recv_same (n : Nat) (s : Sock) : SameConnection s (sockRecv n s).2 := by
  unfold sockRecv
  split
  · exact .refl s
  · split
    · exact ⟨List.suffix_refl _, rfl, rfl⟩
    · split
      · exact .refl s
      · exact .refl s
      · exact recvWait_same n s s.future

theorem recv_no_nonTermination (n : Nat) (s : Sock) : (sockRecv n s).1 ≠ .error .nonTermination := by
  have hw : ∀ ev, (Sock.recvWait n s ev).1 ≠ .error .nonTermination := by
    intro ev
    induction ev with
    | nil => simp [Sock.recvWait]
    | cons e ev ih =>
      match e with
      | .data [] => exact ih
      | .data (b :: bs) => simp [Sock.recvWait]
      | .pause => simp [Sock.recvWait]
      | .eof => simp [Sock.recvWait]
      | .reset => simp [Sock.recvWait]
  unfold sockRecv
  split
  · simp
  · split
    · simp
    · split
      · simp
      · simp
      · exact hw _

theorem flush_spec (lim fuel cnt : Nat) (hf : lim < fuel + cnt) (hc : cnt < lim) (s : Sock) :
    SameConnection s (flushSocket lim fuel cnt s).2 ∧
    ((flushSocket lim fuel cnt s).1 = .ok () → (flushSocket lim fuel cnt s).2.readable = false) ∧
    (flushSocket lim fuel cnt s).1 ≠ .error .nonTermination := by
  induction fuel generalizing cnt s with
  | zero => omega
  | succ fuel ih =>
    rw [flushSocket]
    simp only [PyM.bind_apply]
    have hp : SameConnection s (sockPoll s).2 := by
      unfold sockPoll
      split
      · exact .refl s
      · exact arriveN_same _ s
    cases hpoll : sockPoll s with
    | mk r s1 =>
      rw [hpoll] at hp
      cases r with
      | error e =>
        refine ⟨hp, by simp, ?_⟩
        unfold sockPoll at hpoll
        split at hpoll
        · cases hpoll; simp
        · cases hpoll
      | ok ready =>
        have hready : ready = s1.readable := by
          unfold sockPoll at hpoll
          split at hpoll
          · cases hpoll
          · cases hpoll; rfl
        dsimp only at hp ⊢
        cases ready with
        | false => exact ⟨hp, fun _ => hready.symm, by simp⟩
        | true =>
          simp only [if_true, PyM.bind_apply]
          have hr := recv_same 1024 s1
          have hn := recv_no_nonTermination 1024 s1
          cases hrecv : sockRecv 1024 s1 with
          | mk r2 s2 =>
            rw [hrecv] at hr hn
            cases r2 with
            | error e =>
              dsimp only at hr hn ⊢
              exact ⟨hp.trans hr, by simp, fun hh => hn (by injection hh with hh; rw [hh])⟩
            | ok b =>
              dsimp only at hr ⊢
              rw [if_pos (show lim > 0 by omega)]
              by_cases h3 : cnt + 1 ≥ lim
              · rw [if_pos h3]
                exact ⟨hp.trans hr, by simp, by simp⟩
              · rw [if_neg h3]
                obtain ⟨a, b, c⟩ := ih (cnt + 1) (by omega) (by omega) s2
                exact ⟨(hp.trans hr).trans a, b, c⟩

/-- **C49.** When `_send` has sent a request, then either the connection is the same one and every byte that had arrived on
    it has been discarded, or the connection has been closed and replaced by a new one on which the request is the first
    message.  At most three polls are made (the bound of the model's loop is never reached). -/
theorem C49_no_stale (R : Registry) (hR : Quiet R) (l l' : TcpLink) (k : Sock) (hk : l.sock = some k) (request : Bytes)
    (h : tcpSend R request l = (.ok (), l')) :
    (∃ k', l'.sock = some k' ∧ k'.buf = [] ∧ k'.ended = none ∧ k'.future <:+ k.future ∧ k'.sent = k.sent ++ [request] ∧
      l'.peers = l.peers ∧ l'.closedSocks = l.closedSocks) ∨
    (∃ fresh kold, l.peers = some fresh :: l'.peers ∧ l'.sock = some { fresh with sent := fresh.sent ++ [request] } ∧
      SameConnection k kold ∧ l'.closedSocks = l.closedSocks ++ [kold.close]) := by
  obtain ⟨c1, c2, c3⟩ := flush_spec 3 4 0 (by decide) (by decide) k
  simp only [tcpSend, PyM.bind_apply, PyM.lift_apply, hR _ _, PyM.tryExcept_apply, onSock, hk, Option.getD_none] at h
  cases hfl : flushSocket 3 4 0 k with
  | mk rf k1 =>
    rw [hfl] at h c1 c2
    cases rf with
    | ok u =>
      left
      dsimp only at h c1
      have hnr : k1.readable = false := c2 rfl
      cases hse : sockSend request k1 with
      | mk rs k2 =>
        rw [hse] at h
        simp only at h
        injection h with h1 h2
        subst h1
        unfold sockSend at hse
        split at hse
        · cases hse
        · injection hse with i1 i2
          subst i2
          simp only [Sock.readable, ne_eq, Bool.decide_or, Bool.or_eq_false_iff, decide_eq_false_iff_not, not_not] at hnr
          subst h2
          exact ⟨_, rfl, hnr.1, hnr.2, c1.1, congrArg (· ++ [request]) c1.2.1, rfl, rfl⟩
    | error e =>
      right
      dsimp only at h c1
      simp only [tcpDoOpen, hR _ _, Option.toList, List.map_cons, List.map_nil] at h
      match hp : l.peers with
      | [] => rw [hp] at h; cases h
      | none :: rest => rw [hp] at h; cases h
      | some fresh :: rest =>
        rw [hp] at h
        simp only at h
        cases hse : sockSend request fresh with
        | mk rs k2 =>
          rw [hse] at h
          simp only at h
          injection h with h1 h2
          subst h1
          unfold sockSend at hse
          split at hse
          · cases hse
          · injection hse with i1 i2
            subst i2
            exact ⟨fresh, k1, by rw [← h2], by rw [← h2], c1, by rw [← h2]⟩

/-- **C49.** The flush itself always ends within its three rounds.  So it does with any positive limit; when it returns, nothing is
    left to read. -/
theorem C49_bounded (k : Sock) : (flushSocket 3 4 0 k).1 ≠ .error .nonTermination := (flush_spec 3 4 0 (by decide) (by decide) k).2.2

theorem C49_any_limit (lim : Nat) (hl : 0 < lim) (k : Sock) :
    (flushSocket lim (lim + 1) 0 k).1 ≠ .error .nonTermination ∧
    ((flushSocket lim (lim + 1) 0 k).1 = .ok () → (flushSocket lim (lim + 1) 0 k).2.readable = false) :=
  have h := flush_spec lim (lim + 1) 0 (by omega) (by omega) k
  ⟨h.2.2, h.2.1⟩

-- two bytes of an earlier response were waiting: they are discarded
example : tcpSend [] [1, 2] { sock := some { buf := [7, 7], future := [.data [3]] } } =
    (.ok (), { sock := some { future := [.data [3]], sent := [[1, 2]] } }) := by decide +kernel
-- the peer had closed the connection: it is replaced
example : tcpSend [] [1, 2] { sock := some { ended := some .eof }, peers := [some {}] } =
    (.ok (), { sock := some { sent := [[1, 2]] }, closedSocks := [{ ended := some .eof, closed := true }] }) := by decide +kernel
-- without the limit (the default of flush_socket) a closed connection is flushed for ever
theorem C49_unlimited_diverges (fuel : Nat) (k : Sock) (hc : k.closed = false) (hb : k.buf = []) (he : k.ended = some .eof) :
    (flushSocket 0 fuel 0 k).1 = .error .nonTermination := by
  have harr : ∀ n (s : Sock), s.ended = some .eof → s.arriveN n = s := by
    intro n
    induction n with
    | zero => intro s _; rfl
    | succ n ih =>
      intro s hs
      have : s.arrive = s := by unfold Sock.arrive; rw [hs]
      rw [Sock.arriveN, this]; exact ih s hs
  induction fuel generalizing k with
  | zero => rfl
  | succ fuel ih =>
    rw [flushSocket]
    have hp : sockPoll k = (.ok true, { k with sched := k.sched.tail }) := by
      unfold sockPoll
      rw [if_neg (by simp [hc]), harr _ k he]
      simp [Sock.readable, he]
    have hr : sockRecv 1024 { k with sched := k.sched.tail } = (.ok [], { k with sched := k.sched.tail }) := by
      simp only [sockRecv, hc, hb, he, Bool.false_eq_true, if_false]
    simp only [PyM.bind_apply, hp, if_true, hr]
    rw [if_neg (by decide)]
    exact ih _ hc hb he

end Modbus
