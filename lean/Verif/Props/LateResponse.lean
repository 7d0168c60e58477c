import Verif.Props.OpenClose
import Verif.Props.RtuOverTcp
import Verif.Props.RtuRecovery
/-
# Property C83: a response that comes too late

A call of `execute` has ended with an exception (a time-out, say) before its response arrived.  The response arrives during a later
call.  May the later call return it as its own result?
-/
namespace Modbus
open Spec (tcpAdu rtuAdu)
variable {σ : Type}

/-- what happens in the process of a master: its own operations, and requests built by other masters of the same process (which take
    their transaction ids from the same class variable, modbus_tcp.py:71-72, 79-88) -/
inductive ProcOp where
  | mine (op : MasterOp)
  | other

def runProc (R : Registry) (mac : Mac) (ch : Chan σ) : List ProcOp → MasterSt σ → MasterSt σ
  | [], s => s
  | .mine op :: ops, s => runProc R mac ch ops (runMaster R mac ch [op] s)
  | .other :: ops, s => runProc R mac ch ops { s with lastTid := nextTransactionId s.lastTid }

/-- the counter of transaction ids has advanced by at most one -/
def AtMostNext (last now : Int) : Prop := now = last ∨ now = (last + 1) % 65536

theorem next_mod {last : Int} (h : 0 ≤ last ∧ last ≤ 65535) : nextTransactionId last = (last + 1) % 65536 := by
  unfold nextTransactionId; split <;> omega

theorem tcpBuild_tid (pdu : Bytes) (slave : Int) (q : TcpQuery) {last : Int} (h : 0 ≤ last ∧ last ≤ 65535) :
    AtMostNext last (tcpBuildRequest pdu slave (q, last)).2.2 ∧
    ∀ f, (tcpBuildRequest pdu slave (q, last)).1 = .ok f →
      (tcpBuildRequest pdu slave (q, last)).2.1.request.transactionId = (last + 1) % 65536 := by
  unfold tcpBuildRequest
  by_cases hs : slave < 0 ∨ slave > 255
  · rw [if_pos hs]; exact ⟨.inl rfl, fun f hf => by cases hf⟩
  · rw [if_neg hs]
    dsimp only
    rw [next_mod h]
    cases Mbap.pack _ with
    | error e => exact ⟨.inr rfl, fun f hf => by cases hf⟩
    | ok x => exact ⟨.inr rfl, fun f hf => rfl⟩

theorem buildRequest_tid (pdu : Bytes) (slave : Int) {s : MasterSt σ} (h : 0 ≤ s.lastTid ∧ s.lastTid ≤ 65535) :
    AtMostNext s.lastTid (buildRequest tcpMac pdu slave s).2.lastTid ∧
    ∀ f q, (buildRequest tcpMac pdu slave s).1 = .ok (f, q) → (show TcpQuery from q).request.transactionId = (s.lastTid + 1) % 65536 := by
  have hb := tcpBuild_tid pdu slave tcpMac.new h
  rw [show tcpBuildRequest pdu slave (tcpMac.new, s.lastTid) = tcpMac.buildRequest pdu slave (tcpMac.new, s.lastTid) from rfl] at hb
  unfold buildRequest
  cases hc : tcpMac.buildRequest pdu slave (tcpMac.new, s.lastTid) with
  | mk r t =>
    obtain ⟨q, tid⟩ := t
    rw [hc] at hb
    cases r with
    | error e => exact ⟨hb.1, fun f q hf => by cases hf⟩
    | ok f => exact ⟨hb.1, fun f q hf => by cases hf; exact hb.2 _ rfl⟩

theorem execute_tid (R : Registry) (ch : Chan σ) (a : ExecArgs) {s : MasterSt σ} (h : 0 ≤ s.lastTid ∧ s.lastTid ≤ 65535) :
    AtMostNext s.lastTid (execute R tcpMac ch a s).2.lastTid := by
  unfold execute
  have h1 := masterOpen_lastTid (ch := ch) s
  rw [PyM.bind_apply]
  cases ho : masterOpen ch s with
  | mk r1 s1 =>
    rw [ho] at h1
    dsimp only at h1
    cases r1 with
    | error e => exact .inl h1
    | ok u =>
      dsimp only
      rw [PyM.bind_apply]
      cases prepare a with
      | error e => exact .inl h1
      | ok p =>
        show AtMostNext s.lastTid (((match a.slave with
          | none => PyM.raise .typeError
          | some slave => _ : PyM (MasterSt σ) ExecResult) s1).2).lastTid
        cases a.slave with
        | none => exact .inl h1
        | some slave =>
          have h2 := buildRequest_tid (σ := σ) p.pdu slave (s := s1) (by rw [h1]; exact h)
          rw [h1] at h2
          refine snd_bind_inv (P := fun t : MasterSt σ => AtMostNext s.lastTid t.lastTid) h2.1 (fun x s3 h3 => ?_)
          refine snd_bind_inv (P := fun t : MasterSt σ => AtMostNext s.lastTid t.lastTid) (lift_inv (P := fun t : MasterSt σ => AtMostNext s.lastTid t.lastTid) _ h3) (fun _ s4 h4 => ?_)
          refine snd_bind_inv (P := fun t : MasterSt σ => AtMostNext s.lastTid t.lastTid) h4 (fun _ s5 h5 => ?_)
          refine snd_bind_inv (P := fun t : MasterSt σ => AtMostNext s.lastTid t.lastTid) (lift_inv (P := fun t : MasterSt σ => AtMostNext s.lastTid t.lastTid) _ h5) (fun _ s6 h6 => ?_)
          refine snd_bind_inv (P := fun t : MasterSt σ => AtMostNext s.lastTid t.lastTid) h6 (fun _ s7 h7 => ?_)
          refine snd_bind_inv (P := fun t : MasterSt σ => AtMostNext s.lastTid t.lastTid) (lift_inv (P := fun t : MasterSt σ => AtMostNext s.lastTid t.lastTid) _ h7) (fun _ s8 h8 => ?_)
          refine snd_bind_inv (P := fun t : MasterSt σ => AtMostNext s.lastTid t.lastTid) (lift_inv (P := fun t : MasterSt σ => AtMostNext s.lastTid t.lastTid) _ h8) (fun _ s9 h9 => ?_)
          exact lift_inv (P := fun t : MasterSt σ => AtMostNext s.lastTid t.lastTid) _ h9

theorem procOp_tid (R : Registry) (ch : Chan σ) (op : MasterOp) {s : MasterSt σ} (h : 0 ≤ s.lastTid ∧ s.lastTid ≤ 65535) :
    AtMostNext s.lastTid (runMaster R tcpMac ch [op] s).lastTid := by
  cases op with
  | «open» => exact .inl (masterOpen_lastTid s)
  | close =>
    left
    simp only [runMaster, masterClose]
    split
    · split <;> rfl
    · rfl
  | exec a => exact execute_tid R ch a h

/-- after any history the counter has advanced by not more than the number of operations -/
theorem runProc_tid (R : Registry) (ch : Chan σ) : ∀ (ops : List ProcOp) (s : MasterSt σ), 0 ≤ s.lastTid ∧ s.lastTid ≤ 65535 →
    ∃ k : Nat, k ≤ ops.length ∧ (runProc R tcpMac ch ops s).lastTid = (s.lastTid + k) % 65536
  | [], s, h => ⟨0, by simp, by simp only [runProc]; omega⟩
  | op :: ops, s, h => by
    have hstep : ∃ s1, runProc R tcpMac ch (op :: ops) s = runProc R tcpMac ch ops s1 ∧ AtMostNext s.lastTid s1.lastTid := by
      cases op with
      | mine op => exact ⟨_, rfl, procOp_tid R ch op h⟩
      | other => exact ⟨_, rfl, .inr (next_mod h)⟩
    obtain ⟨s1, e, h1⟩ := hstep
    have hb : 0 ≤ s1.lastTid ∧ s1.lastTid ≤ 65535 := by rcases h1 with h1 | h1 <;> omega
    obtain ⟨k, hk, e2⟩ := runProc_tid R ch ops s1 hb
    rw [e, e2]
    rcases h1 with h1 | h1
    · exact ⟨k, by simp; omega, by rw [h1]⟩
    · exact ⟨k + 1, by simp; omega, by rw [h1]; push_cast; omega⟩

/-- **C83 (TCP).** Let `s0` be the state after some call of `execute`, whose request had the transaction id `s0.lastTid`.  In a later
    call - after any history of less than 65535 operations of this master and of others in the process, whatever they raised - what is
    returned was not taken from a response with that transaction id: the response to the earlier call, however late it comes, is
    never taken for the response to the later one. -/
theorem C83_tcp (R : Registry) (hR : Quiet R) (ch : Chan σ) (s0 : MasterSt σ) (h0 : 0 ≤ s0.lastTid ∧ s0.lastTid ≤ 65535)
    (ops : List ProcOp) (hn : ops.length < 65535) (a : ExecArgs) (r : ExecResult) (s' : MasterSt σ)
    (h : execute R tcpMac ch a (runProc R tcpMac ch ops s0) = (.ok r, s')) :
    ∃ (n : Int) (l : σ) (frame : Bytes), ch.recv n l = (.ok frame, s'.link) ∧
      ∀ pid unit pdu, frame ≠ tcpAdu (UInt16.ofNat s0.lastTid.toNat) pid unit pdu := by
  obtain ⟨k, hk, e⟩ := runProc_tid R ch ops s0 h0
  obtain ⟨s1, s2, p, slave, request, q, l1, l2, resp, pdu, ho, hp, hs, hb, h1, h2, h3, h4, rfl⟩ := execute_ok hR h
  refine ⟨_, _, resp, h2, fun pid unit pdu' hresp => ?_⟩
  obtain ⟨tid, pid', unit', hresp', hle', t1, -, -⟩ := (C24_accepts resp q pdu).mp h3
  have hs1 : s1.lastTid = (runProc R tcpMac ch ops s0).lastTid := by
    have := masterOpen_lastTid (ch := ch) (runProc R tcpMac ch ops s0)
    rw [ho] at this; exact this
  rw [e] at hs1
  have hq : q.request.transactionId = (s1.lastTid + 1) % 65536 := by
    have := (buildRequest_tid (σ := σ) p.pdu slave (s := s1) (by omega)).2 request q
    rw [hb] at this
    exact this rfl
  rw [hresp] at hresp'
  have htid : UInt16.ofNat s0.lastTid.toNat = tid := (tcpAdu_inj hresp').1
  subst htid
  rw [hq, hs1] at t1
  have : (UInt16.ofNat s0.lastTid.toNat).toNat = s0.lastTid.toNat := by
    rw [UInt16.toNat_ofNat']; exact Nat.mod_eq_of_lt (by omega)
  rw [this] at t1
  omega

/-! ## RTU and RTU over TCP: no ids -/

/-- **C83 (RTU, partial).** A serial master without local echo: what `execute` returns was made from bytes that arrived after the input
    buffer was reset for this request (`(port.afterWrite request).buf = []`): a response that comes before the next request is sent
    is never taken for the response to that one.
    Missing: one that comes later is (`C83_false_rtu`). -/
theorem C83_rtu_partial (R : Registry) (hR : Quiet R) (cfg : RtuCfg) (hc : cfg.handleLocalEcho = false) (a : ExecArgs)
    (s s' : MasterSt Port) (ho : s.isOpened = true) (hp : s.link.isOpen = true) (t : Nat) (ht : s.link.timeout = some t) (h0 : 0 < t)
    (r : ExecResult) (h : execute R rtuMac (rtuChan R cfg) a s = (.ok r, s')) :
    ∃ (p : Prepared) (request pdu : Bytes) (unit : UInt8), prepare a = .ok p ∧ analyse a p pdu = .ok r ∧
      (s.link.afterWrite request).buf = [] ∧ (s.link.afterWrite request).written = s.link.written ++ [request] ∧
      rtuAdu unit pdu <+: (s.link.afterWrite request).stream := by
  obtain ⟨s1, s2, p, slave, request, q, l1, l2, resp, pdu, h1, h2, h3, h4, h5, h6, h7, h8, rfl⟩ := execute_ok hR h
  have hs1 : s1 = s := by
    unfold masterOpen at h1
    rw [ho] at h1
    cases h1; rfl
  subst hs1
  have hs2 : s2.link = s1.link := by
    unfold buildRequest at h4
    split at h4 <;> cases h4
    rfl
  rw [hs2] at h5
  have h5' : rtuSend R cfg request s1.link = (.ok (), l1) := h5
  rw [C65_plain R hR cfg hc s1.link hp request] at h5'
  cases h5'
  obtain ⟨u, hu, -⟩ := ((C25_response resp q).1 pdu).mp h7
  subst hu
  refine ⟨p, request, pdu, u, h2, h8, rfl, ?_, ?_⟩
  · simp only [Port.afterWrite]
  · have hto : (s1.link.afterWrite request).timeout = some t := by
      rw [← ht]; simp only [Port.afterWrite]; rw [arriveN_rest]
    rcases C31_master_sound R hR cfg (s1.link.afterWrite request) (by rw [afterWrite_isOpen]; exact hp) t hto h0 p.expectedLength with
      ⟨e1, _⟩ | ⟨x, e1, e2, _⟩
    · rw [show rtuRecv R cfg p.expectedLength (s1.link.afterWrite request) = _ from h6] at e1; cases e1
    · rw [show rtuRecv R cfg p.expectedLength (s1.link.afterWrite request) = _ from h6] at e1
      cases e1; exact e2

/-- what the loop of `RtuOverTcpMaster._recv` returns are the next bytes of the stream -/
theorem rtuLoop_sound (n : Int) : ∀ (fuel : Nat) (response : Bytes) (k k' : Sock) (x : Bytes), k.closed = false →
    rtuOverTcpRecvLoop n fuel response k = (.ok x, k') → ∃ y, x = response ++ y ∧ y <+: k.stream := by
  intro fuel
  induction fuel with
  | zero => intro response k k' x _ h; cases h
  | succ fuel ih =>
    intro response k k' x hc h
    by_cases hl : response.length < 255
    · match hst : k.stream with
      | b :: t =>
        obtain ⟨k1, e1, e2, e3⟩ := rtuLoop_step (n := n) (fuel := fuel) hl hc hst
        rw [e3] at h
        split at h
        · cases h; exact ⟨[b], rfl, by simp⟩
        · obtain ⟨y, hy, hp⟩ := ih _ k1 k' x (by rw [e2.closed]; exact hc) h
          exact ⟨b :: y, by rw [hy]; simp, by rw [e1] at hp; exact List.cons_prefix_cons.mpr ⟨rfl, hp⟩⟩
      | [] =>
        rcases recv1_nil hc hst with ⟨s', e1, e2, e3, e4, e5, e6⟩ | ⟨s', e, e1, e2⟩
        · rw [rtuOverTcpRecvLoop, if_pos hl] at h
          simp only [PyM.bind_apply, e1, List.append_nil] at h
          split at h
          · cases h; exact ⟨[], by simp, by simp⟩
          · obtain ⟨y, hy, hp⟩ := ih _ s' k' x e5 h
            rw [e4] at hp
            exact ⟨y, hy, hp⟩
        · rw [rtuOverTcpRecvLoop, if_pos hl] at h
          simp only [PyM.bind_apply, e1] at h
          cases h
    · rw [rtuLoop_full hl] at h; cases h; exact ⟨[], by simp, by simp⟩

/-- **C83 (RTU over TCP, partial).** What `execute` returns was made from bytes that arrived after the input was flushed for this request -
    or on a connection made for this request.  Missing: as for RTU (`C83_false_rtu_over_tcp`). -/
theorem C83_rtu_over_tcp_partial (R : Registry) (hR : Quiet R) (a : ExecArgs) (s s' : MasterSt TcpLink) (k : Sock)
    (ho : s.isOpened = true) (hk : s.link.sock = some k) (r : ExecResult)
    (h : execute R rtuMac (rtuOverTcpChan R) a s = (.ok r, s')) :
    ∃ (p : Prepared) (request pdu : Bytes) (unit : UInt8) (k1 : Sock), prepare a = .ok p ∧ analyse a p pdu = .ok r ∧
      rtuAdu unit pdu <+: k1.stream ∧
      ((k1.buf = [] ∧ k1.future <:+ k.future ∧ k1.sent = k.sent ++ [request]) ∨
       ∃ fresh, s.link.peers.head? = some (some fresh) ∧ k1 = { fresh with sent := fresh.sent ++ [request] }) := by
  obtain ⟨s1, s2, p, slave, request, q, l1, l2, resp, pdu, h1, h2, h3, h4, h5, h6, h7, h8, rfl⟩ := execute_ok hR h
  have hs1 : s1 = s := by
    unfold masterOpen at h1
    rw [ho] at h1
    cases h1; rfl
  subst hs1
  have hs2 : s2.link = s1.link := by
    unfold buildRequest at h4
    split at h4 <;> cases h4
    rfl
  rw [hs2] at h5
  have h5' : tcpSend R request s1.link = (.ok (), l1) := h5
  obtain ⟨u, hu, -⟩ := ((C25_response resp q).1 pdu).mp h7
  subst hu
  have hk1 : ∃ k1, l1.sock = some k1 ∧
      ((k1.buf = [] ∧ k1.future <:+ k.future ∧ k1.sent = k.sent ++ [request]) ∨
       ∃ fresh, s1.link.peers.head? = some (some fresh) ∧ k1 = { fresh with sent := fresh.sent ++ [request] }) := by
    rcases C49_no_stale R hR s1.link l1 k hk request h5' with ⟨k', e1, e2, e3, e4, e5, _⟩ | ⟨fresh, kold, e1, e2, _⟩
    · exact ⟨k', e1, .inl ⟨e2, e4, e5⟩⟩
    · exact ⟨_, e2, .inr ⟨fresh, by rw [e1]; rfl, rfl⟩⟩
  obtain ⟨k1, e1, e2⟩ := hk1
  have h6' : rtuOverTcpRecv R p.expectedLength l1 = (.ok (rtuAdu u pdu), l2) := h6
  have hcl : k1.closed = false := by
    cases hcl : k1.closed with
    | false => rfl
    | true =>
      exfalso
      have hloop : rtuOverTcpRecvLoop p.expectedLength (255+1) [] k1 = (.error .osError, k1) := by
        rw [rtuOverTcpRecvLoop, if_pos (by simp)]
        simp only [PyM.bind_apply, sockRecv, hcl, if_true]
      simp only [rtuOverTcpRecv, onSock, e1, PyM.bind_apply, hloop] at h6'
      cases h6'
  simp only [rtuOverTcpRecv, PyM.bind_apply, onSock, e1] at h6'
  cases hl : rtuOverTcpRecvLoop p.expectedLength 256 [] k1 with
  | mk rr k2 =>
    rw [hl] at h6'
    cases rr with
    | error e => simp at h6'
    | ok x =>
      simp only [PyM.lift_apply, hR _ _, PyM.pure_apply, Option.getD_none] at h6'
      have hx : x = rtuAdu u pdu := by
        have := congrArg Prod.fst h6'
        simpa using this
      obtain ⟨y, hy, hpre⟩ := rtuLoop_sound _ _ _ _ _ _ hcl hl
      refine ⟨p, request, pdu, u, k1, h2, h8, ?_, e2⟩
      rw [← hx, hy]; simpa using hpre

/-- two calls of a master, one after the other, whatever the first one raises -/
def twoCalls (R : Registry) (mac : Mac) (ch : Chan σ) (a b : ExecArgs) (s : MasterSt σ) : Except PyErr ExecResult × Except PyErr ExecResult :=
  let r := execute R mac ch a s
  (r.1, (execute R mac ch b r.2).1)

/-- **C83 is false for RTU masters**: the call for register 11 ends without a response; the response (7) arrives after the call for register 12 has
    sent its request, and 7 is returned as the value of register 12. -/
theorem C83_false_rtu :
    twoCalls [] rtuMac (rtuChan [] {}) (Spec.Call.args 1 (.readHolding 11 1)) (Spec.Call.args 1 (.readHolding 12 1))
      (⟨true, { timeout := some 3, future := [.silence, .chunk (rtuAdu 1 [3, 2, 0, 7]), .silence, .chunk (rtuAdu 1 [3, 2, 0, 9])] }, 0⟩ : MasterSt Port) =
    (.error .invalidResponse, .ok (.values [7])) := by
  decide +kernel

/-- **C83 is false for RTU over TCP**, likewise. -/
theorem C83_false_rtu_over_tcp :
    twoCalls [] rtuMac (rtuOverTcpChan []) (Spec.Call.args 1 (.readHolding 11 1)) (Spec.Call.args 1 (.readHolding 12 1))
      (⟨true, { sock := some { future := [.pause, .data (rtuAdu 1 [3, 2, 0, 7]), .data (rtuAdu 1 [3, 2, 0, 9])] } }, 0⟩ : MasterSt TcpLink) =
    (.error .timeout, .ok (.values [7])) := by
  decide +kernel

/-- the same course of events over TCP: the second call raises, because the response carries the id of the first one -/
example : twoCalls [] tcpMac (tcpChan []) (Spec.Call.args 1 (.readHolding 11 1)) (Spec.Call.args 1 (.readHolding 12 1))
      (⟨true, { sock := some { future := [.pause, .data (tcpAdu 1 0 1 [3, 2, 0, 7]), .data (tcpAdu 2 0 1 [3, 2, 0, 9])] } }, 0⟩ : MasterSt TcpLink) =
    (.error .timeout, .error .invalidMbap) := by
  decide +kernel
/-- the hypotheses of `C83_tcp`: a call, after a history in which another one has timed out, that returns something -/
example :
    let s0 : MasterSt TcpLink := ⟨true, { sock := some { future := [.pause, .data (tcpAdu 3 0 1 [3, 2, 0, 9])] } }, 1⟩
    (execute [] tcpMac (tcpChan []) (Spec.Call.args 1 (.readHolding 12 1))
      (runProc [] tcpMac (tcpChan []) [.mine (.exec (Spec.Call.args 1 (.readHolding 11 1)))] s0)).1 = .ok (.values [9]) := by
  decide +kernel

end Modbus
