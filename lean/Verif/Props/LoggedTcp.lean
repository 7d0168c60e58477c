import Verif.Model.LoggedTcp
import Verif.Props.LoggedServer
import Verif.Props.TcpMaster
/-
# C105: the log of a TCP master, and of a TCP server that ends
-/
namespace Modbus

/-! ## a handler that works -/

theorem beyond_lOnLink {σ α : Type} {f : PyM (σ × List Text) α} {g : PyM σ α} (hf : Beyond f g) : Beyond (lOnLink f) (onLink g) := by
  intro s log
  obtain ⟨lines, e⟩ := hf s.link log
  exact ⟨lines, by unfold lOnLink onLink; dsimp only; rw [e]⟩

theorem beyond_lTcpSend {lg : Logger} (hc : lg.Calm) (txt : PyErr → Text) (R : Registry) (request : Bytes) :
    Beyond (lTcpSend lg txt R request) (tcpSend R request) := by
  unfold lTcpSend tcpSend
  refine beyond_bind (beyond_lift _) (fun rv => beyond_bind (beyond_try (beyond_unlogged _) (fun e => beyond_line hc _ (beyond_unlogged _))) (fun _ => beyond_unlogged _))

theorem beyond_silent {τ α : Type} {f : PyM (τ × List Text) α} {g : PyM τ α} (hf : Beyond f g) : Beyond (do pure (); f) g := hf

/-- **C105.** With a handler that never raises, a call of a `TcpMaster` or `RtuOverTcpMaster`, verbose or not, returns or raises what it does without a log
    and leaves everything as it does; the log only grows. -/
theorem C105_calm (verbose : Bool) (lg : Logger) (hc : lg.Calm) (txt : PyErr → Text) (R : Registry) (mac : Mac) (ch : Chan TcpLink)
    (hch : ch = tcpChan R ∨ ch = rtuOverTcpChan R) (a : ExecArgs) (s : MasterSt TcpLink) (log : List Text) :
    ∃ lines, lExecute verbose lg txt R mac ch.recv a (s, log) = ((execute R mac ch a s).1, ((execute R mac ch a s).2, log ++ lines)) := by
  have hopen : masterOpen (tcpChan R) = masterOpen ch := by rcases hch with h | h <;> subst h <;> rfl
  have hsend : ∀ b, Beyond (lOnLink (lTcpSend lg txt R b)) (onLink (ch.send b)) := fun b => by
    rcases hch with h | h <;> subst h <;> exact beyond_lOnLink (beyond_lTcpSend hc txt R b)
  revert s log
  show Beyond (lExecute verbose lg txt R mac ch.recv a) (execute R mac ch a)
  unfold lExecute execute
  rw [hopen]
  refine beyond_bind (beyond_unlogged _) (fun _ => beyond_bind (beyond_lift _) (fun p => ?_))
  cases a.slave with
  | none => exact beyond_raise _
  | some slave =>
    refine beyond_bind (beyond_unlogged _) (fun x => ?_)
    obtain ⟨request, q⟩ := x
    cases verbose with
    | true =>
      simp only [if_true]
      exact beyond_bind (beyond_lift _) (fun rv => beyond_line hc _ (beyond_bind (hsend _) (fun _ =>
        beyond_bind (beyond_lift _) (fun _ => beyond_bind (beyond_unlogged _) (fun resp => beyond_bind (beyond_lift _) (fun rv => beyond_line hc _
          (beyond_bind (beyond_lift _) (fun _ => beyond_lift _))))))))
    | false =>
      simp only [Bool.false_eq_true, if_false]
      exact beyond_bind (beyond_lift _) (fun rv => beyond_silent (beyond_bind (hsend _) (fun _ =>
        beyond_bind (beyond_lift _) (fun _ => beyond_bind (beyond_unlogged _) (fun resp => beyond_bind (beyond_lift _) (fun rv => beyond_silent
          (beyond_bind (beyond_lift _) (fun _ => beyond_lift _))))))))

/-- what `_send` does with the old socket: `flush_socket` ended well, or failed with `e` -/
def flushOf (l : TcpLink) : Except PyErr Unit × TcpLink := onSock (flushSocket 3 4 0) l

theorem flushOf_keeps (l : TcpLink) : (flushOf l).2.peers = l.peers ∧ (flushOf l).2.closedSocks = l.closedSocks ∧
    (∀ k, l.sock = some k → ∃ k', (flushOf l).2.sock = some k' ∧ k'.sent = k.sent ∧ k'.closed = k.closed) ∧ (l.sock = none → (flushOf l).2.sock = none) := by
  unfold flushOf onSock
  cases hs : l.sock with
  | none => exact ⟨rfl, rfl, (fun k h => by cases h), fun _ => hs⟩
  | some k =>
    have h := (flush_spec 3 4 0 (by omega) (by omega) k).1
    exact ⟨rfl, rfl, (fun k' h' => by cases h'; exact ⟨_, rfl, h.2.1, h.2.2⟩), fun h => by cases h⟩

theorem doOpen_gave_up (R : Registry) (l : TcpLink) :
    (tcpDoOpen R l).2.closedSocks = l.closedSocks ++ l.sock.toList.map Sock.close ∧ ∃ k, (tcpDoOpen R l).2.sock = some k := by
  unfold tcpDoOpen
  dsimp only
  cases callHooks R "modbus_tcp.TcpMaster.before_connect" .obj with
  | error e => exact ⟨rfl, _, rfl⟩
  | ok _ =>
    dsimp only
    cases l.peers with
    | nil => exact ⟨rfl, _, rfl⟩
    | cons p rest =>
      cases p with
      | none => exact ⟨rfl, _, rfl⟩
      | some k =>
        dsimp only
        cases callHooks R "modbus_tcp.TcpMaster.after_connect" .obj with
        | error e => exact ⟨rfl, _, rfl⟩
        | ok _ => exact ⟨rfl, _, rfl⟩

/-- **C105 (the line).** A working handler gets a line from `_send` exactly when the socket could not be emptied and is replaced by a new one. -/
theorem C105_line (lg : Logger) (hc : lg.Calm) (txt : PyErr → Text) (R : Registry) (request : Bytes) (rv : Option Bytes)
    (hR : callHooks R "modbus_tcp.TcpMaster.before_send" (.msg request) = .ok rv) (l : TcpLink) (log : List Text) :
    ((flushOf l).1 = .ok () ∧ (lTcpSend lg txt R request (l, log)).2.2 = log ∧ (lTcpSend lg txt R request (l, log)).2.1.closedSocks = l.closedSocks) ∨
    (∃ e, (flushOf l).1 = .error e ∧ (lTcpSend lg txt R request (l, log)).2.2 = log ++ ["Error while flushing the socket: ".toList ++ txt e] ∧
      (lTcpSend lg txt R request (l, log)).2.1.closedSocks = l.closedSocks ++ (flushOf l).2.sock.toList.map Sock.close) := by
  have hsendc : ∀ (b : Bytes) (t : TcpLink), (onSock (sockSend b) t).2.closedSocks = t.closedSocks := by
    intro b t
    unfold onSock
    cases t.sock <;> rfl
  have hf : onSock (flushSocket 3 4 0) l = flushOf l := rfl
  have hk := flushOf_keeps l
  unfold lTcpSend
  simp only [PyM.bind_apply, PyM.lift_apply, hR, PyM.tryExcept_apply, unlogged_apply, hf]
  unfold flushLine
  generalize "Error while flushing the socket: ".toList = txt0
  cases hfl : flushOf l with
  | mk r l1 =>
    rw [hfl] at hk
    cases r with
    | ok _ =>
      refine .inl ⟨rfl, rfl, ?_⟩
      dsimp only
      rw [hsendc, hk.2.1]
    | error e =>
      refine .inr ⟨e, rfl, ?_⟩
      dsimp only
      rw [logLine_apply, hc]
      dsimp only
      have hd := doOpen_gave_up R l1
      cases hdo : tcpDoOpen R l1 with
      | mk r2 l2 =>
        rw [hdo] at hd
        cases r2 with
        | error e2 => exact ⟨rfl, hd.1.trans (by rw [hk.2.1])⟩
        | ok _ =>
          dsimp only
          refine ⟨rfl, ?_⟩
          rw [hsendc, hd.1, hk.2.1]

/-! ## a handler that raises -/

/-- **C105 (handlers that raise).** Whatever the handler does: `_send` does what it does without a log, or the line about the flush could not be written; then `_send`
    raises what the handler raised, nothing was sent, and the master has not tried to connect again: it keeps the socket it could not empty. -/
theorem C105_raising (lg : Logger) (txt : PyErr → Text) (R : Registry) (request : Bytes) (l : TcpLink) (log : List Text) :
    ((lTcpSend lg txt R request (l, log)).1 = (tcpSend R request l).1 ∧ (lTcpSend lg txt R request (l, log)).2.1 = (tcpSend R request l).2) ∨
    (∃ e x, (flushOf l).1 = .error e ∧ lg log ("Error while flushing the socket: ".toList ++ txt e) = some x ∧
      lTcpSend lg txt R request (l, log) = (.error x, ((flushOf l).2, log)) ∧
      (flushOf l).2.peers = l.peers ∧ (flushOf l).2.closedSocks = l.closedSocks ∧
      ∀ k, l.sock = some k → ∃ k', (flushOf l).2.sock = some k' ∧ k'.sent = k.sent ∧ k'.closed = k.closed) := by
  have hf : onSock (flushSocket 3 4 0) l = flushOf l := rfl
  have hk := flushOf_keeps l
  unfold lTcpSend tcpSend flushLine
  generalize "Error while flushing the socket: ".toList = txt0
  simp only [PyM.bind_apply, PyM.lift_apply]
  cases callHooks R "modbus_tcp.TcpMaster.before_send" (.msg request) with
  | error e => exact .inl ⟨rfl, rfl⟩
  | ok rv =>
    simp only [PyM.bind_apply, PyM.tryExcept_apply, unlogged_apply, hf]
    cases hfl : flushOf l with
    | mk r l1 =>
      rw [hfl] at hk
      cases r with
      | ok _ => exact .inl ⟨rfl, rfl⟩
      | error e =>
        dsimp only
        rw [logLine_apply]
        cases hlg : lg log (txt0 ++ txt e) with
        | some x => exact .inr ⟨e, x, rfl, hlg, rfl, hk.1, hk.2.1, hk.2.2.1⟩
        | none =>
          dsimp only
          cases tcpDoOpen R l1 with
          | mk r2 l2 =>
            cases r2 with
            | error e2 => exact .inl ⟨rfl, rfl⟩
            | ok _ => exact .inl ⟨rfl, rfl⟩

/-- the connection is gone: closed here, or ended by the peer with nothing left to read -/
def Sock.Lost (k : Sock) : Prop := k.closed = true ∨ (k.buf = [] ∧ k.ended ≠ none)

theorem arriveN_after_end : ∀ (n : Nat) (k : Sock), k.ended ≠ none → Sock.arriveN n k = k
  | 0, _, _ => rfl
  | n+1, k, h => by
    have : k.arrive = k := by
      unfold Sock.arrive
      split <;> first | rfl | (rename_i h' _; exact absurd h' h)
    unfold Sock.arriveN
    rw [this]
    exact arriveN_after_end n k h

theorem flush_lost (k : Sock) (hk : k.Lost) :
    ∃ e k', flushSocket 3 4 0 k = (.error e, k') ∧ k'.Lost ∧ k'.sent = k.sent := by
  by_cases hcl : k.closed = true
  · refine ⟨.osError, k, ?_, hk, rfl⟩
    unfold flushSocket
    simp only [PyM.bind_apply, sockPoll, hcl, if_true]
  · obtain ⟨hb, he⟩ : k.buf = [] ∧ k.ended ≠ none := by
      rcases hk with h | h
      · exact absurd h hcl
      · exact h
    have hpoll : ∀ sch, sockPoll { k with sched := sch } = (.ok true, { k with sched := sch.tail }) := by
      intro sch
      unfold sockPoll
      rw [if_neg hcl, arriveN_after_end _ { k with sched := sch } he]
      simp [Sock.readable, he]
    cases hend : k.ended with
    | none => exact absurd hend he
    | some en =>
      cases en with
      | reset =>
        have hrecv : ∀ sch, sockRecv 1024 { k with sched := sch } = (.error .osError, { k with sched := sch }) := by
          intro sch
          unfold sockRecv
          rw [if_neg hcl]
          simp only [hb, hend]
        refine ⟨.osError, { k with sched := k.sched.tail }, ?_, .inr ⟨hb, he⟩, rfl⟩
        rw [flushSocket]
        simp only [PyM.bind_apply]
        rw [show sockPoll k = _ from hpoll k.sched]
        simp only [if_true, PyM.bind_apply, hrecv]
      | eof =>
        have hrecv : ∀ sch, sockRecv 1024 { k with sched := sch } = (.ok [], { k with sched := sch }) := by
          intro sch
          unfold sockRecv
          rw [if_neg hcl]
          simp only [hb, hend]
        refine ⟨.generic, { k with sched := k.sched.tail.tail.tail }, ?_, .inr ⟨hb, he⟩, rfl⟩
        rw [flushSocket]
        simp only [PyM.bind_apply]
        rw [show sockPoll k = _ from hpoll k.sched]
        simp only [if_true, PyM.bind_apply, hrecv]
        rw [if_pos (by omega), if_neg (by omega), flushSocket]
        simp only [PyM.bind_apply, hpoll, if_true, hrecv]
        rw [if_pos (by omega), if_neg (by omega), flushSocket]
        simp only [PyM.bind_apply, hpoll, if_true, hrecv]
        rw [if_pos (by omega), if_pos (by omega)]
        rfl

/-- the master counts as open, its connection is gone, and nothing was sent since `m` -/
def Deaf (m : MasterSt TcpLink) (m' : MasterSt TcpLink) : Prop :=
  m'.isOpened = true ∧ m'.link.peers = m.link.peers ∧ ∃ k k', m.link.sock = some k ∧ m'.link.sock = some k' ∧ k'.Lost ∧ k'.sent = k.sent

/-- calls, one after the other, with the log -/
def lCalls (verbose : Bool) (lg : Logger) (txt : PyErr → Text) (R : Registry) (mac : Mac) (recv : Int → PyM TcpLink Bytes) :
    List ExecArgs → MasterSt TcpLink × List Text → List (Except PyErr ExecResult) × (MasterSt TcpLink × List Text)
  | [], s => ([], s)
  | a :: as, s =>
    let r := lExecute verbose lg txt R mac recv a s
    let rest := lCalls verbose lg txt R mac recv as r.2
    (r.1 :: rest.1, rest.2)

theorem stuck_call (verbose : Bool) (lg : Logger) (txt : PyErr → Text) (hlg : ∀ log e, ∃ x, lg log (flushLine txt e) = some x) (R : Registry) (mac : Mac)
    (recv : Int → PyM TcpLink Bytes) (a : ExecArgs) (s : MasterSt TcpLink) (log : List Text) (k : Sock) (ho : s.isOpened = true) (hs : s.link.sock = some k)
    (hk : k.Lost) :
    (∃ e, (lExecute verbose lg txt R mac recv a (s, log)).1 = .error e) ∧ Deaf s (lExecute verbose lg txt R mac recv a (s, log)).2.1 := by
  have self : Deaf s s := ⟨ho, rfl, k, k, hs, hs, hk, rfl⟩
  unfold lExecute
  simp only [PyM.bind_apply, unlogged_apply, PyM.lift_apply]
  rw [show masterOpen (tcpChan R) s = (.ok (), s) by unfold masterOpen; rw [if_pos ho]]
  dsimp only
  cases prepare a with
  | error e => exact ⟨⟨e, rfl⟩, self⟩
  | ok p =>
    dsimp only
    cases a.slave with
    | none => exact ⟨⟨_, rfl⟩, self⟩
    | some slave =>
      simp only [PyM.bind_apply, unlogged_apply, PyM.lift_apply]
      have hbs : ∀ s', s'.isOpened = s.isOpened → s'.link = s.link → Deaf s s' := fun s' h1 h2 => by
        refine ⟨h1.trans ho, by rw [h2], k, k, hs, by rw [h2]; exact hs, hk, rfl⟩
      have hbr : ∀ pdu, (buildRequest (σ := TcpLink) mac pdu slave s).2.isOpened = s.isOpened ∧ (buildRequest (σ := TcpLink) mac pdu slave s).2.link = s.link := by
        intro pdu
        unfold buildRequest
        split <;> exact ⟨rfl, rfl⟩
      have hbr' := hbr p.pdu
      cases hb : buildRequest (σ := TcpLink) mac p.pdu slave s with
      | mk r s1 =>
        rw [hb] at hbr'
        cases r with
        | error e => exact ⟨⟨e, rfl⟩, hbs s1 hbr'.1 hbr'.2⟩
        | ok x =>
          obtain ⟨request, q⟩ := x
          simp only [PyM.bind_apply, PyM.lift_apply]
          cases callHooks R "modbus.Master.before_send" (.msg request) with
          | error e => exact ⟨⟨e, rfl⟩, hbs s1 hbr'.1 hbr'.2⟩
          | ok rv =>
            have send : ∀ (log : List Text), ∃ x m, lOnLink (lTcpSend lg txt R (rv.getD request)) (s1, log) = (.error x, m) ∧ Deaf s m.1 := by
              intro log
              have hsk : s1.link.sock = some k := by rw [hbr'.2]; exact hs
              unfold lOnLink lTcpSend
              simp only [PyM.bind_apply, PyM.lift_apply]
              cases callHooks R "modbus_tcp.TcpMaster.before_send" (.msg (rv.getD request)) with
              | error e => exact ⟨e, _, rfl, hbs s1 hbr'.1 hbr'.2⟩
              | ok rv2 =>
                obtain ⟨e, k', hfl, hlost, hsent⟩ := flush_lost k hk
                have hon : onSock (flushSocket 3 4 0) s1.link = (.error e, { s1.link with sock := some k' }) := by
                  unfold onSock
                  rw [hsk]
                  dsimp only
                  rw [hfl]
                obtain ⟨x, hx⟩ := hlg log e
                simp only [PyM.bind_apply, PyM.tryExcept_apply, unlogged_apply, hon, logLine_apply, hx]
                exact ⟨x, _, rfl, hbr'.1.trans ho, by show s1.link.peers = _; rw [hbr'.2], k, k', hs, rfl, hlost, hsent⟩
            cases verbose with
            | false =>
              obtain ⟨x, m, e1, e2⟩ := send log
              simp only [Bool.false_eq_true, if_false, PyM.bind_apply, PyM.pure_apply, e1]
              exact ⟨⟨x, rfl⟩, e2⟩
            | true =>
              simp only [if_true, PyM.bind_apply, logLine_apply]
              cases lg log (getLogBuffer "-> ".toList (rv.getD request)) with
              | some e => exact ⟨⟨e, rfl⟩, hbs s1 hbr'.1 hbr'.2⟩
              | none =>
                obtain ⟨x, m, e1, e2⟩ := send (log ++ [getLogBuffer "-> ".toList (rv.getD request)])
                simp only [e1]
                exact ⟨⟨x, rfl⟩, e2⟩

/-- **C105 (a finding).** A handler that cannot write the line about the flush keeps a `TcpMaster` from ever connecting again: once the connection of an open master
    is gone, every call raises, whatever is called and whatever the hooks are; nothing is sent and no connection is attempted.  (Without the line the master reconnects: C50.) -/
theorem C105_stuck (verbose : Bool) (lg : Logger) (txt : PyErr → Text) (hlg : ∀ log e, ∃ x, lg log ("Error while flushing the socket: ".toList ++ txt e) = some x)
    (R : Registry) (mac : Mac) (recv : Int → PyM TcpLink Bytes) (calls : List ExecArgs) (s : MasterSt TcpLink) (log : List Text) (k : Sock)
    (ho : s.isOpened = true) (hs : s.link.sock = some k) (hk : k.Lost) :
    (∀ r ∈ (lCalls verbose lg txt R mac recv calls (s, log)).1, ∃ e, r = .error e) ∧
    (lCalls verbose lg txt R mac recv calls (s, log)).2.1.link.peers = s.link.peers ∧
    ∃ k', (lCalls verbose lg txt R mac recv calls (s, log)).2.1.link.sock = some k' ∧ k'.sent = k.sent := by
  have main : Deaf s (lCalls verbose lg txt R mac recv calls (s, log)).2.1 ∧ ∀ r ∈ (lCalls verbose lg txt R mac recv calls (s, log)).1, ∃ e, r = .error e := by
    induction calls generalizing s log k with
    | nil => exact ⟨⟨ho, rfl, k, k, hs, hs, hk, rfl⟩, fun r h => by cases h⟩
    | cons a as ih =>
      obtain ⟨⟨e, he⟩, h1, h2, k0, k1, h3, h4, h5, h6⟩ := stuck_call verbose lg txt hlg R mac recv a s log k ho hs hk
      obtain ⟨⟨g1, g2, k2, k3, g3, g4, g5, g6⟩, g⟩ := ih (lExecute verbose lg txt R mac recv a (s, log)).2.1 (lExecute verbose lg txt R mac recv a (s, log)).2.2 k1 h1 h4 h5
      rw [h4] at g3
      cases g3
      refine ⟨⟨g1, g2.trans h2, k0, k3, h3, g4, g5, g6.trans h6⟩, fun r hr => ?_⟩
      rcases List.mem_cons.mp hr with hr | hr
      · exact ⟨e, hr.trans he⟩
      · exact g r hr
  obtain ⟨⟨_, h1, k0, k1, h2, h3, _, h4⟩, h⟩ := main
  rw [hs] at h2
  cases h2
  exact ⟨h, h1, k1, h3, h4⟩

/-! ## `TcpServer._do_exit` -/

/-- what the closing loop does to the sockets -/
theorem closeAll_socks (L : SrvLog) (hc : L.lg.Calm) (fails : Nat → Option PyErr) (l : List Nat) (s : Srv) (log : List Text) :
    ∃ s', lSrvCloseAll L fails l (s, log) = (.ok (), (s', log ++ (l.filterMap fails).map L.closing)) ∧ s'.sock = s.sock ∧ s'.sockets = s.sockets ∧
      (∀ i, i ∈ l → fails i = none → (s'.socks i).closed = true) ∧ (∀ i, (s.socks i).closed = true → (s'.socks i).closed = true) ∧
      ∀ i, i ∉ l ∨ fails i ≠ none → s'.socks i = s.socks i := by
  induction l generalizing s log with
  | nil => exact ⟨s, by simp [lSrvCloseAll, PyM.pure_apply], rfl, rfl, (fun i h => by cases h), (fun i h => h), fun i _ => rfl⟩
  | cons j rest ih =>
    cases hj : fails j with
    | none =>
      have step : lSrvCloseAll L fails (j :: rest) (s, log) = lSrvCloseAll L fails rest (s.put j (s.socks j).close, log) := by
        rw [lSrvCloseAll, hj]; rfl
      obtain ⟨s', e1, e2, e3, e4, e5, e6⟩ := ih (s.put j (s.socks j).close) log
      have hput : ∀ i, (s.put j (s.socks j).close).socks i = if i = j then (s.socks j).close else s.socks i := fun _ => rfl
      refine ⟨s', by rw [step, e1]; simp [List.filterMap_cons, hj], e2, e3, fun i hi hn => ?_, fun i hi => ?_, fun i hi => ?_⟩
      · by_cases hir : i ∈ rest
        · exact e4 i hir hn
        · have : i = j := by rcases List.mem_cons.mp hi with h | h <;> [exact h; exact absurd h hir]
          subst this
          refine e5 i ?_
          rw [hput, if_pos rfl]; rfl
      · refine e5 i ?_
        rw [hput]
        split
        · rfl
        · exact hi
      · have hij : i ≠ j := by
          rintro rfl
          rcases hi with h | h
          · exact h List.mem_cons_self
          · exact h hj
        rw [e6 i (hi.imp (fun h h' => h (List.mem_cons_of_mem _ h')) id), hput, if_neg hij]
    | some e =>
      have step : lSrvCloseAll L fails (j :: rest) (s, log) = lSrvCloseAll L fails rest (s, log ++ [L.closing e]) := by
        rw [lSrvCloseAll, hj]
        simp only [PyM.bind_apply, logLine_apply, hc log]
      obtain ⟨s', e1, e2, e3, e4, e5, e6⟩ := ih s (log ++ [L.closing e])
      refine ⟨s', by rw [step, e1]; simp [List.filterMap_cons, hj], e2, e3, fun i hi hn => ?_, e5, fun i hi => ?_⟩
      · rcases List.mem_cons.mp hi with h | h
        · rw [h, hj] at hn; cases hn
        · exact e4 i h hn
      · by_cases hij : i = j
        · by_cases hir : i ∈ rest
          · exact e6 i (.inr (by rw [hij, hj]; nofun))
          · exact e6 i (.inl hir)
        · exact e6 i (hi.imp (fun h h' => h (List.mem_cons_of_mem _ h')) id)

/-- **C105 (the end of a server).** With a handler that works, `_do_exit` closes every socket whose `close` does not raise, the listening one included, whichever of the
    others raise, and gives all of them up; the log gets one line for each `close` that raises, in order.  If `close` of the listening socket raises, `_do_exit` raises this
    and the server keeps it. -/
theorem C105_exit (L : SrvLog) (hc : L.lg.Calm) (fails : Nat → Option PyErr) (s : Srv) (log : List Text) (l : Nat) (hl : s.sock = some l) :
    ∃ s', lSrvExit L fails (s, log) =
        ((match fails l with | none => .ok () | some e => .error e),
          (s', log ++ (s.sockets.filterMap fails).map fun e => "Error while closing socket, Exception occurred: ".toList ++ L.txt e)) ∧
      s'.sockets = [] ∧ (s'.sock = if fails l = none then none else some l) ∧
      (∀ i, i ∈ l :: s.sockets → fails i = none → (s'.socks i).closed = true) ∧ ∀ i, i ∉ l :: s.sockets ∨ fails i ≠ none → s'.socks i = s.socks i := by
  obtain ⟨s', e1, e2, e3, e4, e5, e6⟩ := closeAll_socks L hc fails s.sockets s log
  have hline : (fun e => "Error while closing socket, Exception occurred: ".toList ++ L.txt e) = L.closing := rfl
  rw [hline]
  unfold lSrvExit
  simp only [PyM.bind_apply, unlogged_apply, e1, srvFinish, e2, hl]
  cases hfl : fails l with
  | none =>
    refine ⟨_, rfl, rfl, rfl, fun i hi hn => ?_, fun i hi => ?_⟩
    · show (if i = l then (s'.socks l).close else s'.socks i).closed = true
      split
      · rfl
      · rename_i hne
        rcases List.mem_cons.mp hi with h | h
        · exact absurd h hne
        · exact e4 i h hn
    · have hne : i ≠ l := by
        rintro rfl
        rcases hi with h | h
        · exact h List.mem_cons_self
        · exact h hfl
      show (if i = l then (s'.socks l).close else s'.socks i) = _
      rw [if_neg hne]
      exact e6 i (hi.imp (fun h h' => h (List.mem_cons_of_mem _ h')) id)
  | some e =>
    refine ⟨_, rfl, rfl, by simp [e2, hl], fun i hi hn => ?_, fun i hi => ?_⟩
    · rcases List.mem_cons.mp hi with h | h
      · rw [h, hfl] at hn; cases hn
      · exact e4 i h hn
    · exact e6 i (hi.imp (fun h h' => h (List.mem_cons_of_mem _ h')) id)

/-- **C105 (the end of a server).** A server without a listening socket - creating it failed - closes its clients and writes its lines likewise; then `_do_exit` raises an `AttributeError`. -/
theorem C105_exit_no_socket (L : SrvLog) (hc : L.lg.Calm) (fails : Nat → Option PyErr) (s : Srv) (log : List Text) (hl : s.sock = none) :
    ∃ s', lSrvExit L fails (s, log) =
        (.error .attributeError, (s', log ++ (s.sockets.filterMap fails).map fun e => "Error while closing socket, Exception occurred: ".toList ++ L.txt e)) ∧
      s'.sockets = [] ∧ s'.sock = none ∧
      (∀ i ∈ s.sockets, fails i = none → (s'.socks i).closed = true) ∧ ∀ i, i ∉ s.sockets ∨ fails i ≠ none → s'.socks i = s.socks i := by
  obtain ⟨s', e1, e2, e3, e4, e5, e6⟩ := closeAll_socks L hc fails s.sockets s log
  have hline : (fun e => "Error while closing socket, Exception occurred: ".toList ++ L.txt e) = L.closing := rfl
  rw [hline]
  unfold lSrvExit
  simp only [PyM.bind_apply, unlogged_apply, e1, srvFinish, e2, hl]
  exact ⟨_, rfl, rfl, by simp [e2, hl], e4, e6⟩

/-- **C105 (the end of a server).** If no `close` raises, `_do_exit` does what it does without a log and writes nothing, whatever the handler does. -/
theorem C105_exit_plain (L : SrvLog) (fails : Nat → Option PyErr) (s : Srv) (log : List Text) (h : ∀ i, fails i = none) :
    lSrvExit L fails (s, log) = ((srvExit s).1, ((srvExit s).2, log)) := by
  have loop : ∀ (ids : List Nat) (s : Srv), lSrvCloseAll L fails ids (s, log) = (.ok (), (srvCloseAll ids s, log)) := by
    intro ids
    induction ids with
    | nil => intro s; rfl
    | cons i ids ih =>
      intro s
      rw [lSrvCloseAll, h i]
      exact ih _
  unfold lSrvExit
  simp only [PyM.bind_apply, loop]
  rw [unlogged_apply]
  unfold srvExit srvFinish
  dsimp only
  generalize srvCloseAll s.sockets s = s1
  cases hs : s1.sock with
  | none => rfl
  | some l => simp only [h]

/-- **C105 (a handler that raises, the end of a server).** If a client's `close` raises and the line about it cannot be written, `_do_exit` raises what the handler raised:
    the sockets after this one stay open - the listening socket, too, unless it came before -, and the server keeps all of them. -/
theorem C105_false_exit (L : SrvLog) (fails : Nat → Option PyErr) (pre rest : List Nat) (i : Nat) (s : Srv) (log : List Text) (e x : PyErr)
    (hs : s.sockets = pre ++ i :: rest) (hpre : ∀ j ∈ pre, fails j = none) (hi : fails i = some e)
    (hx : L.lg log ("Error while closing socket, Exception occurred: ".toList ++ L.txt e) = some x) :
    ∃ s', lSrvExit L fails (s, log) = (.error x, (s', log)) ∧ s'.sockets = s.sockets ∧ s'.sock = s.sock ∧ ∀ j, j ∉ pre → s'.socks j = s.socks j := by
  have hx' : L.lg log (L.closing e) = some x := hx
  have loop : ∀ (pre : List Nat) (s : Srv), (∀ j ∈ pre, fails j = none) →
      ∃ s', lSrvCloseAll L fails (pre ++ i :: rest) (s, log) = (.error x, (s', log)) ∧ s'.sockets = s.sockets ∧ s'.sock = s.sock ∧ ∀ j, j ∉ pre → s'.socks j = s.socks j := by
    intro pre
    induction pre with
    | nil =>
      intro s _
      refine ⟨s, ?_, rfl, rfl, fun _ _ => rfl⟩
      rw [List.nil_append, lSrvCloseAll, hi]
      simp only [PyM.bind_apply, logLine_apply, hx']
    | cons j pre ih =>
      intro s hp
      obtain ⟨s', e1, e2, e3, e4⟩ := ih (s.put j (s.socks j).close) (fun j' h => hp j' (List.mem_cons_of_mem _ h))
      refine ⟨s', ?_, e2, e3, fun j' hj' => ?_⟩
      · rw [List.cons_append, lSrvCloseAll, hp j List.mem_cons_self]
        exact e1
      · rw [e4 j' (fun h => hj' (List.mem_cons_of_mem _ h))]
        show (if j' = j then _ else s.socks j') = _
        rw [if_neg (fun h : j' = j => hj' (h ▸ List.mem_cons_self))]
  obtain ⟨s', e1, e2, e3, e4⟩ := loop pre s hpre
  refine ⟨s', ?_, e2, e3, e4⟩
  unfold lSrvExit
  dsimp only
  rw [hs]
  simp only [PyM.bind_apply, e1]

/-! ## the hypotheses are met -/

/-- a handler that cannot write -/
def deafLog : Logger := fun _ _ => some .osError

/-- an open master whose peer has closed the connection, and a server that would accept a new one -/
def exLostMaster : MasterSt TcpLink := { isOpened := true, link := { sock := some { ended := some .eof }, peers := [some {}] }, lastTid := 0 }

/-- a call of `execute`: read one holding register of slave 1 -/
def exLostCall : ExecArgs := { slave := some 1, functionCode := 3, startingAddress := .int 0, quantity := .int 1 }

/-- the same master, without and with the handler that cannot write: it connects again and sends; it does not -/
theorem C105_example :
    (execute [] tcpMac (tcpChan []) exLostCall exLostMaster).2.link.peers = [] ∧
    ((execute [] tcpMac (tcpChan []) exLostCall exLostMaster).2.link.sock.map (·.sent.length)) = some 1 ∧
    (lCalls false deafLog (fun _ => []) [] tcpMac (tcpRecv []) [exLostCall, exLostCall] (exLostMaster, [])).1 = [.error .osError, .error .osError] ∧
    (lCalls false deafLog (fun _ => []) [] tcpMac (tcpRecv []) [exLostCall, exLostCall] (exLostMaster, [])).2.1.link.peers = [some {}] := by
  refine ⟨by decide +kernel, by decide +kernel, by decide +kernel, by decide +kernel⟩

/-- a server with a listening socket and two connections -/
def exTwoSrv : Srv := { heap := exSrv.heap, sock := some 0, sockets := [0, 1, 2], socks := fun _ => {}, timed := [1, 2], next := 3 }

/-- the connection 1 fails to close.  With a working handler the server closes the others and writes a line; with one that raises it leaves 1 and 2 open -/
theorem C105_exit_example :
    ((lSrvExit ⟨fun _ _ => none, fun _ => [], fun _ => [], false⟩ (fun i => if i = 1 then some .osError else none) (exTwoSrv, [])).2.2.length = 1 ∧
     [0, 1, 2].map (fun i => ((lSrvExit ⟨fun _ _ => none, fun _ => [], fun _ => [], false⟩ (fun i => if i = 1 then some .osError else none) (exTwoSrv, [])).2.1.socks i).closed) = [true, false, true]) ∧
    ((lSrvExit ⟨deafLog, fun _ => [], fun _ => [], false⟩ (fun i => if i = 1 then some .osError else none) (exTwoSrv, [])).1 = .error .osError ∧
     [0, 1, 2].map (fun i => ((lSrvExit ⟨deafLog, fun _ => [], fun _ => [], false⟩ (fun i => if i = 1 then some .osError else none) (exTwoSrv, [])).2.1.socks i).closed) = [true, false, false]) := by
  refine ⟨⟨rfl, rfl⟩, rfl, rfl⟩

end Modbus
