import Verif.Model.LoggedServer
import Verif.Props.Logged
import Verif.Props.TcpServer
/-
# C97: the log of a TCP server, and what it costs when it fails
-/
namespace Modbus

theorem beyond_onHeap {α : Type} {f : PyM (Heap × List Text) α} {g : PyM Heap α} (hf : Beyond f g) : Beyond (lOnHeap f) (Conn.onHeap g) := by
  intro c log
  obtain ⟨lines, e⟩ := hf c.heap log
  exact ⟨lines, by simp only [lOnHeap, Conn.onHeap, e]⟩

theorem beyond_only_line {τ : Type} {lg : Logger} (hc : lg.Calm) (L : Text) : Beyond (τ := τ) (logLine lg L) (pure ()) := by
  intro t log
  exact ⟨[L], by simp only [logLine_apply, hc log L]; rfl⟩

theorem beyond_server {lg : Logger} (hc : lg.Calm) (verbose : Bool) (txt : PyErr → Text) (R : Registry) (mac : Mac) (db : Databank) (request : Bytes) :
    Beyond (lServerHandle verbose lg txt R mac db request) (serverHandle R mac db request) := fun h log => C96_calm verbose lg hc txt R mac db request h log

theorem beyond_srvSend {L : SrvLog} (hc : L.lg.Calm) (R : Registry) (i : Nat) (r : Bytes) : Beyond (lSrvSend L R i r) (srvSend R r) :=
  beyond_try (beyond_unlogged _) (fun _ => beyond_only_line hc _)

theorem beyond_srvAnswer {L : SrvLog} (hc : L.lg.Calm) (R : Registry) (db : Databank) (i : Nat) (request : Bytes) : Beyond (lSrvAnswer L R db i request) (srvAnswer R db request) := by
  refine beyond_bind (beyond_try (beyond_onHeap (beyond_server hc _ _ _ _ _ _)) (fun e => beyond_line hc _ (beyond_pure _))) (fun resp => ?_)
  rcases resp with _ | _ | ⟨b, bs⟩
  · exact beyond_pure _
  · exact beyond_pure _
  · exact beyond_srvSend hc R i _

theorem beyond_srvClient {L : SrvLog} (hc : L.lg.Calm) (R : Registry) (db : Databank) (i : Nat) (timed : Bool) : Beyond (lSrvClient L R db i timed) (srvClient R db timed) := by
  refine beyond_bind (beyond_unlogged _) (fun peeked => ?_)
  by_cases hp : peeked.length = 0
  · rw [if_pos hp, if_pos hp]
    exact beyond_line hc _ (beyond_bind (beyond_lift _) (fun _ => beyond_pure _))
  · rw [if_neg hp, if_neg hp]
    refine beyond_bind (beyond_unlogged _) (fun a => ?_)
    obtain ⟨request, isOk⟩ := a
    refine beyond_bind (beyond_lift _) (fun rv => ?_)
    cases isOk with
    | false => exact beyond_pure _
    | true =>
      refine beyond_bind (beyond_lift _) (fun len => beyond_bind (beyond_unlogged _) (fun a => ?_))
      obtain ⟨request', isOk'⟩ := a
      cases isOk' with
      | false => exact beyond_pure _
      | true => exact beyond_bind (beyond_srvAnswer hc R db i _) (fun _ => beyond_pure _)

theorem beyond_srvAccept {L : SrvLog} (hc : L.lg.Calm) (R : Registry) (acc : Option (Except PyErr Unit)) : Beyond (lSrvAccept L R acc) (srvAccept R acc) := by
  intro s log
  unfold lSrvAccept srvAccept
  match acc with
  | none => exact ⟨[], by simp⟩
  | some (.error e) => exact ⟨[], by simp⟩
  | some (.ok ()) =>
    refine ⟨[L.connected s.next], ?_⟩
    simp only [logLine_apply, hc log]
    cases callHooks R "modbus_tcp.TcpServer.on_connect" .obj <;> rfl

theorem beyond_srvOne {L : SrvLog} (hc : L.lg.Calm) (R : Registry) (db : Databank) (acc : Option (Except PyErr Unit)) (i : Nat) : Beyond (lSrvOne L R db acc i) (srvOne R db acc i) := by
  intro s log
  unfold lSrvOne srvOne
  by_cases hl : s.sock = some i
  · rw [if_pos hl, if_pos hl]
    obtain ⟨lines, e⟩ := beyond_srvAccept hc R acc s log
    rw [e]
    refine ⟨lines, ?_⟩
    rcases srvAccept R acc s with ⟨_ | _, _⟩ <;> rfl
  · rw [if_neg hl, if_neg hl]
    obtain ⟨lines, e⟩ := beyond_srvClient hc R db i (s.timed.contains i) ⟨s.heap, s.socks i⟩ log
    dsimp only
    rw [e]
    refine ⟨lines, ?_⟩
    rcases srvClient R db (s.timed.contains i) ⟨s.heap, s.socks i⟩ with ⟨_ | d, c⟩
    · rfl
    · cases d with
      | false => rfl
      | true =>
        dsimp only
        rw [if_pos rfl, if_pos rfl, unlogged_apply]
        dsimp only
        rcases srvDrop i _ with ⟨_ | _, _⟩ <;> rfl

theorem beyond_srvExcept {L : SrvLog} (hc : L.lg.Calm) (R : Registry) (i : Nat) (e : PyErr) :
    Beyond (lSrvExcept L R i e) (do let _ ← PyM.lift (callHooks R "modbus_tcp.TcpServer.on_error" (.exc e [])); srvDrop i) :=
  beyond_line hc _ (beyond_bind (beyond_lift _) (fun _ => beyond_unlogged _))

theorem beyond_srvLoop {L : SrvLog} (hc : L.lg.Calm) (R : Registry) (db : Databank) (acc : Option (Except PyErr Unit)) (ready : List Nat) :
    Beyond (lSrvLoop L R db acc ready) (srvLoop R db acc ready) := by
  induction ready with
  | nil => exact fun s log => ⟨[], by simp [lSrvLoop, srvLoop]⟩
  | cons i rest ih =>
    intro s log
    obtain ⟨l1, e1⟩ := beyond_srvOne hc R db acc i s log
    rw [lSrvLoop, srvLoop]
    dsimp only
    rw [e1]
    rcases srvOne R db acc i s with ⟨e | d, s1⟩
    · dsimp only
      obtain ⟨l2, e2⟩ := beyond_srvExcept hc R i e s1 (log ++ l1)
      rw [e2]
      simp only [PyM.bind_apply, PyM.lift_apply]
      cases callHooks R "modbus_tcp.TcpServer.on_error" (.exc e []) with
      | error x => exact ⟨l1 ++ l2, by simp⟩
      | ok v =>
        dsimp only
        rcases srvDrop i s1 with ⟨_ | _, s2⟩
        · exact ⟨l1 ++ l2, by simp⟩
        · obtain ⟨l3, e3⟩ := ih s2 (log ++ l1 ++ l2)
          exact ⟨l1 ++ l2 ++ l3, by dsimp only; rw [e3]; simp⟩
    · cases d with
      | true => exact ⟨l1, rfl⟩
      | false =>
        obtain ⟨l3, e3⟩ := ih s1 (log ++ l1)
        exact ⟨l1 ++ l3, by dsimp only; rw [e3]; simp⟩

theorem beyond_srvRun {L : SrvLog} (hc : L.lg.Calm) (R : Registry) (db : Databank) (rd : Round) : Beyond (lSrvRun L R db rd) (srvRun R db rd) := by
  intro s log
  unfold lSrvRun srvRun
  dsimp only
  split
  · exact ⟨[], by simp⟩
  · exact beyond_srvLoop hc R db _ _ _ _

theorem beyond_srvRounds {L : SrvLog} (hc : L.lg.Calm) (R : Registry) (db : Databank) (rounds : List Round) : Beyond (lSrvRounds L R db rounds) (srvRounds R db rounds) := by
  induction rounds with
  | nil => exact fun s log => ⟨[], by simp [lSrvRounds, srvRounds]⟩
  | cons rd rest ih =>
    intro s log
    obtain ⟨l1, e1⟩ := beyond_srvRun hc R db rd s log
    rw [lSrvRounds, srvRounds]
    dsimp only
    rw [e1]
    rcases srvRun R db rd s with ⟨e | u, s1⟩
    · exact ⟨l1, rfl⟩
    · obtain ⟨l2, e2⟩ := ih s1 (log ++ l1)
      exact ⟨l1 ++ l2, by dsimp only; rw [e2]; simp⟩

/-- **C97.** As long as its lines can be written the log of a TCP server changes nothing: whatever the clients do, whatever hook functions, the whole life of the server thread
    is the one without a log, and the log only grows. -/
theorem C97_calm (L : SrvLog) (hc : L.lg.Calm) (R : Registry) (db : Databank) (bound : Bool) (rounds : List Round) (s : Srv) (log : List Text) :
    (∃ lines, lSrvRounds L R db rounds (s, log) = ((srvRounds R db rounds s).1, ((srvRounds R db rounds s).2, log ++ lines))) ∧
    ∃ lines, lRunServer L R db bound rounds (s, log) = ((runServer R db bound rounds s).1, ((runServer R db bound rounds s).2, log ++ lines)) := by
  refine ⟨beyond_srvRounds hc R db rounds s log, ?_⟩
  refine beyond_try (beyond_bind (beyond_unlogged _) (fun _ => beyond_bind (beyond_srvRounds hc R db rounds) (fun _ => beyond_line hc _ (beyond_unlogged _))))
    (fun e => beyond_line hc _ (beyond_bind (beyond_lift _) (fun _ => beyond_pure _))) s log

/-! ## A log that fails -/

/-- while one connection is served the socket is not closed -/
def KeepsOpen {α : Type} (f : PyM (Conn × List Text) α) : Prop := ∀ s, (f s).2.1.sock.closed = s.1.sock.closed

theorem ko_pure {α : Type} (a : α) : KeepsOpen (pure a) := fun _ => rfl
theorem ko_raise {α : Type} (e : PyErr) : KeepsOpen (PyM.raise e : PyM _ α) := fun _ => rfl
theorem ko_lift {α : Type} (x : Except PyErr α) : KeepsOpen (PyM.lift x) := fun _ => rfl
theorem ko_line (lg : Logger) (L : Text) : KeepsOpen (logLine lg L) := by
  intro s
  unfold logLine
  cases lg s.2 L <;> rfl
theorem ko_onHeap {α : Type} (f : PyM (Heap × List Text) α) : KeepsOpen (lOnHeap f) := fun _ => rfl
theorem ko_onSock {α : Type} {f : PyM Sock α} (hf : ∀ k, (f k).2.closed = k.closed) : KeepsOpen (unlogged (Conn.onSock f)) := fun s => hf s.1.sock

theorem ko_bind {α β : Type} {f : PyM (Conn × List Text) α} {g : α → PyM (Conn × List Text) β} (hf : KeepsOpen f) (hg : ∀ a, KeepsOpen (g a)) : KeepsOpen (f >>= g) := by
  intro s
  simp only [PyM.bind_apply]
  have := hf s
  generalize f s = gx at this ⊢
  rcases gx with ⟨_ | a, s1⟩
  · exact this
  · exact (hg a s1).trans this

theorem ko_try {α : Type} {f : PyM (Conn × List Text) α} {g : PyErr → PyM (Conn × List Text) α} (hf : KeepsOpen f) (hg : ∀ a, KeepsOpen (g a)) : KeepsOpen (PyM.tryExcept f g) := by
  intro s
  unfold PyM.tryExcept
  have := hf s
  generalize f s = gx at this ⊢
  rcases gx with ⟨a | _, s1⟩
  · exact (hg a s1).trans this
  · exact this

theorem peek_open (b : Bool) (k : Sock) : (sockPeek b k).2.closed = k.closed := by
  have hw : ∀ ev, (Sock.recvWait 1 k ev).2.closed = k.closed := by
    intro ev
    induction ev with
    | nil => rfl
    | cons e ev ih => match e with
      | .data [] => exact ih
      | .data (_ :: _) | .pause | .eof | .reset => rfl
  unfold sockPeek
  split
  · rfl
  · split
    · rfl
    · split
      · rfl
      · rfl
      · split
        · have := hw k.future
          generalize Sock.recvWait 1 k k.future = gx at this ⊢
          rcases gx with ⟨_ | _, k'⟩ <;> exact this
        · rfl

theorem readLoop_open (target : Int) : ∀ (fuel : Nat) (request : Bytes) (k : Sock), (srvReadLoop target fuel request k).2.closed = k.closed := by
  intro fuel
  induction fuel with
  | zero => intro request k; rfl
  | succ n ih =>
    intro request k
    rw [srvReadLoop]
    split
    · simp only [PyM.bind_apply]
      have := (sockRecv_keeps 1 k).2
      generalize sockRecv 1 k = gx at this ⊢
      rcases gx with ⟨_ | b, k'⟩
      · exact this
      · dsimp only
        split
        · exact this
        · exact (ih _ _).trans this
    · rfl

theorem send_open (R : Registry) (r : Bytes) (c : Conn) : ((do
      let retval ← PyM.lift (callHooks R "modbus_tcp.TcpServer.before_send" (.msg r))
      let response := retval.getD r
      Conn.onSock (sockSend response)
      let _ ← PyM.lift (callHooks R "modbus_tcp.TcpServer.after_send" (.msg response))
      return () : PyM Conn Unit) c).2.sock.closed = c.sock.closed := by
  simp only [PyM.bind_apply, PyM.lift_apply]
  cases callHooks R "modbus_tcp.TcpServer.before_send" (.msg r) with
  | error e => rfl
  | ok rv =>
    dsimp only [Conn.onSock]
    have := (send_closed (rv.getD r) c.sock).1
    generalize sockSend (rv.getD r) c.sock = gx at this ⊢
    rcases gx with ⟨_ | _, k⟩
    · exact this
    · dsimp only
      cases callHooks R "modbus_tcp.TcpServer.after_send" (.msg (rv.getD r)) <;> exact this

theorem client_open (L : SrvLog) (R : Registry) (db : Databank) (i : Nat) (timed : Bool) : KeepsOpen (lSrvClient L R db i timed) := by
  refine ko_bind (ko_onSock (peek_open timed)) (fun peeked => ?_)
  by_cases hp : peeked.length = 0
  · rw [if_pos hp]
    exact ko_bind (ko_line _ _) (fun _ => ko_bind (ko_lift _) (fun _ => ko_pure _))
  · rw [if_neg hp]
    refine ko_bind (ko_onSock (readLoop_open 7 8 [])) (fun a => ?_)
    obtain ⟨request, isOk⟩ := a
    refine ko_bind (ko_lift _) (fun rv => ?_)
    cases isOk with
    | false => exact ko_pure _
    | true =>
      refine ko_bind (ko_lift _) (fun len => ko_bind (ko_onSock (readLoop_open _ _ _)) (fun a => ?_))
      obtain ⟨request', isOk'⟩ := a
      cases isOk' with
      | false => exact ko_pure _
      | true =>
        refine ko_bind (ko_bind (ko_try (ko_onHeap _) (fun e => ko_bind (ko_line _ _) (fun _ => ko_pure _))) (fun resp => ?_)) (fun _ => ko_pure _)
        rcases resp with _ | _ | ⟨b, bs⟩
        · exact ko_pure _
        · exact ko_pure _
        · exact ko_try (fun s => send_open R (b :: bs) s.1) (fun e => ko_line _ _)

/-- what a step for the socket `i` can do to the server, whatever the log -/
structure OnlyThis (i : Nat) (s s' : Srv) : Prop where
  others : ∀ j, j ≠ i → s'.socks j = s.socks j
  sock : s'.sock = s.sock
  sockets : ∀ j ∈ s.sockets, j ≠ i → j ∈ s'.sockets

theorem OnlyThis.refl (i : Nat) (s : Srv) : OnlyThis i s s := ⟨fun _ _ => rfl, rfl, fun _ h _ => h⟩
theorem OnlyThis.trans {i : Nat} {a b c : Srv} (h : OnlyThis i a b) (h' : OnlyThis i b c) : OnlyThis i a c :=
  ⟨fun j hj => (h'.others j hj).trans (h.others j hj), h'.sock.trans h.sock, fun j hj hn => h'.sockets j (h.sockets j hj hn) hn⟩

theorem only_drop (i : Nat) (s : Srv) : OnlyThis i s (srvDrop i s).2 := by
  unfold srvDrop
  dsimp only
  split
  · exact ⟨fun j hj => put_other s _ hj, rfl, fun j hj hn => (List.mem_erase_of_ne hn).mpr hj⟩
  · exact ⟨fun j hj => put_other s _ hj, rfl, fun j hj hn => hj⟩

theorem only_accept (L : SrvLog) (R : Registry) (acc : Option (Except PyErr Unit)) (i : Nat) (s : Srv) (log : List Text) : OnlyThis i s (lSrvAccept L R acc (s, log)).2.1 := by
  unfold lSrvAccept
  match acc with
  | none => exact .refl i s
  | some (.error e) => exact .refl i s
  | some (.ok ()) =>
    simp only [logLine_apply]
    cases L.lg log (L.connected s.next) with
    | some e => exact ⟨fun _ _ => rfl, rfl, fun _ h _ => h⟩
    | none =>
      dsimp only
      cases callHooks R "modbus_tcp.TcpServer.on_connect" .obj <;> exact ⟨fun _ _ => rfl, rfl, fun _ h _ => by simp [h]⟩

theorem only_one (L : SrvLog) (R : Registry) (db : Databank) (acc : Option (Except PyErr Unit)) (i : Nat) (s : Srv) (log : List Text) : OnlyThis i s (lSrvOne L R db acc i (s, log)).2.1 := by
  unfold lSrvOne
  dsimp only
  by_cases hl : s.sock = some i
  · rw [if_pos hl]
    have := only_accept L R acc i s log
    generalize lSrvAccept L R acc (s, log) = gx at this ⊢
    rcases gx with ⟨_ | _, _, _⟩ <;> exact this
  · rw [if_neg hl]
    have put : ∀ c : Conn, OnlyThis i s { (s.put i c.sock) with heap := c.heap, timed := i :: s.timed } :=
      fun c => ⟨fun j hj => put_other s _ hj, rfl, fun _ h _ => h⟩
    rcases lSrvClient L R db i (s.timed.contains i) (⟨s.heap, s.socks i⟩, log) with ⟨_ | d, c, log'⟩
    · exact put c
    · dsimp only
      cases d with
      | false => exact put c
      | true =>
        rw [if_pos rfl, unlogged_apply]
        have := (put c).trans (only_drop i _)
        dsimp only
        rcases hd : srvDrop i { (s.put i c.sock) with heap := c.heap, timed := i :: s.timed } with ⟨_ | _, s2⟩ <;> rw [hd] at this <;> exact this

theorem only_except (L : SrvLog) (R : Registry) (i : Nat) (e : PyErr) (s : Srv) (log : List Text) : OnlyThis i s (lSrvExcept L R i e (s, log)).2.1 := by
  unfold lSrvExcept
  simp only [PyM.bind_apply, PyM.lift_apply, logLine_apply]
  cases L.lg log (L.processing i e) with
  | some x => exact .refl i s
  | none =>
    dsimp only
    cases callHooks R "modbus_tcp.TcpServer.on_error" (.exc e []) with
    | error x => exact .refl i s
    | ok v => exact only_drop i s

/-- **C97.** Whatever lines cannot be written, and whatever hook functions: a round touches no connection that had nothing to read when it began. -/
theorem C97_isolated (L : SrvLog) (R : Registry) (db : Databank) (rd : Round) (s : Srv) (log : List Text) (j : Nat) (hj : j ∈ s.sockets) (hr : j ∉ (s.arrivals rd).ready rd) :
    (lSrvRun L R db rd (s, log)).2.1.socks j = (s.arrivals rd).socks j ∧ j ∈ (lSrvRun L R db rd (s, log)).2.1.sockets := by
  have loop : ∀ (ready : List Nat) (s : Srv) (log : List Text), j ∈ s.sockets → j ∉ ready →
      (lSrvLoop L R db rd.accept ready (s, log)).2.1.socks j = s.socks j ∧ j ∈ (lSrvLoop L R db rd.accept ready (s, log)).2.1.sockets := by
    intro ready
    induction ready with
    | nil => intro s log hj _; exact ⟨rfl, hj⟩
    | cons i rest ih =>
      intro s log hj hr
      obtain ⟨hne, hr'⟩ : j ≠ i ∧ j ∉ rest := by simpa using hr
      have o1 := only_one L R db rd.accept i s log
      rw [lSrvLoop]
      dsimp only
      generalize lSrvOne L R db rd.accept i (s, log) = gx at o1 ⊢
      rcases gx with ⟨e | d, s1, log1⟩
      · dsimp only at o1 ⊢
        have o2 := o1.trans (only_except L R i e s1 log1)
        generalize lSrvExcept L R i e (s1, log1) = gx at o2 ⊢
        rcases gx with ⟨_ | _, s2, log2⟩
        · exact ⟨o2.others j hne, o2.sockets j hj hne⟩
        · obtain ⟨a, b⟩ := ih s2 log2 (o2.sockets j hj hne) hr'
          exact ⟨a.trans (o2.others j hne), b⟩
      · dsimp only at o1
        cases d with
        | true => exact ⟨o1.others j hne, o1.sockets j hj hne⟩
        | false =>
          obtain ⟨a, b⟩ := ih s1 log1 (o1.sockets j hj hne) hr'
          exact ⟨a.trans (o1.others j hne), b⟩
  unfold lSrvRun
  dsimp only
  split
  · exact ⟨rfl, hj⟩
  · exact loop _ _ _ hj hr

/-- the lines about connections that go wrong can be written -/
def SrvLog.Warns (L : SrvLog) : Prop := ∀ log i e, L.lg log (L.processing i e) = none
/-- the lines about new connections can be written -/
def SrvLog.Greets (L : SrvLog) : Prop := ∀ log i, L.lg log (L.connected i) = none

/-- dropping a connection that is not the listening socket keeps the server in order -/
theorem inv_drop {s s' : Srv} {i : Nat} (hi : SrvInv s) (hl : s.sock ≠ some i) (hm : i ∈ s.sockets) (hj : ∀ j, j ≠ i → s'.socks j = s.socks j) (hsock : s'.sock = s.sock)
    (hss : s'.sockets = s.sockets.erase i) (hn : s'.next = s.next) : SrvInv s' := by
  obtain ⟨l, h1, h2⟩ := hi.listening
  have hmem : ∀ j ∈ s'.sockets, j ∈ s.sockets ∧ j ≠ i := by
    intro j h
    rw [hss] at h
    refine ⟨List.mem_of_mem_erase h, ?_⟩
    rintro rfl
    exact absurd h (List.Nodup.not_mem_erase hi.nodup)
  refine ⟨⟨l, by rw [hsock, h1], by rw [hss]; exact (List.mem_erase_of_ne (by rintro rfl; exact hl h1)).mpr h2⟩, by rw [hss]; exact hi.nodup.erase i, ?_, ?_, ?_⟩
  · intro j h; rw [hj j (hmem j h).2]; exact hi.opened j (hmem j h).1
  · intro j h; rw [hn]; exact hi.old j (hmem j h).1
  · intro j h
    rw [hn] at h
    have := hi.old i hm
    rw [hj j (by omega)]; exact hi.fresh j h

/-- serving a connection that stays open keeps the server in order -/
theorem inv_put {s : Srv} {i : Nat} (hi : SrvInv s) (hm : i ∈ s.sockets) (c : Conn) (hc : c.sock.closed = (s.socks i).closed) (ts : List Nat) :
    SrvInv { (s.put i c.sock) with heap := c.heap, timed := ts } := by
  have ho := hi.opened i hm
  have all : ∀ j, ((s.put i c.sock).socks j).closed = (s.socks j).closed := by
    intro j
    by_cases hj : j = i
    · subst hj; rw [put_self, hc]
    · rw [put_other s _ hj]
  exact ⟨hi.listening, hi.nodup, fun j h => (all j).trans (hi.opened j h), hi.old, fun j h => (all j).trans (hi.fresh j h)⟩

theorem survive_step (L : SrvLog) (hw : L.Warns) (hg : L.Greets) (R : Registry) (hR : Quiet R) (db : Databank) (acc : Option (Except PyErr Unit)) (i : Nat) (s : Srv) (log : List Text)
    (hi : SrvInv s) (hm : i ∈ s.sockets) (hacc : s.sock = some i → acc = some (.ok ())) :
    (∃ brk s' log', lSrvOne L R db acc i (s, log) = (.ok brk, (s', log')) ∧ SrvInv s' ∧ s'.sock = s.sock) ∨
    ∃ e s1 log1 s' log', lSrvOne L R db acc i (s, log) = (.error e, (s1, log1)) ∧ lSrvExcept L R i e (s1, log1) = (.ok (), (s', log')) ∧ SrvInv s' ∧ s'.sock = s.sock := by
  have hq : ∀ n a, callHooks R n a = .ok none := hR
  unfold lSrvOne
  dsimp only
  by_cases hl : s.sock = some i
  · left
    rw [if_pos hl, hacc hl]
    unfold lSrvAccept
    simp only [logLine_apply, hg log s.next, hq]
    have := (stepped_inv (R := R) (db := db) (.accepted hl rfl) hi hm (fun _ => rfl)).1
    exact ⟨_, _, _, rfl, this, rfl⟩
  · rw [if_neg hl]
    have ko := client_open L R db i (s.timed.contains i) (⟨s.heap, s.socks i⟩, log)
    rcases hcl : lSrvClient L R db i (s.timed.contains i) (⟨s.heap, s.socks i⟩, log) with ⟨e | d, c, log'⟩
    · rw [hcl] at ko
      have inv := inv_put hi hm c ko (i :: s.timed)
      right
      have hex : lSrvExcept L R i e ({ (s.put i c.sock) with heap := c.heap, timed := i :: s.timed }, log') =
          (.ok (), (srvDrop i { (s.put i c.sock) with heap := c.heap, timed := i :: s.timed }).2, log' ++ [L.processing i e]) := by
        unfold lSrvExcept
        simp only [PyM.bind_apply, PyM.lift_apply, logLine_apply, hw log' i e, hq, unlogged_apply]
        rw [srvDrop_mem (by exact hm)]
      rw [srvDrop_mem (by exact hm)] at hex
      exact ⟨e, _, _, _, _, rfl, hex, inv_drop inv hl hm (fun j hj => put_other _ _ hj) rfl rfl rfl, rfl⟩
    · rw [hcl] at ko
      have inv := inv_put hi hm c ko (i :: s.timed)
      left
      cases d with
      | false => exact ⟨_, _, _, rfl, inv, rfl⟩
      | true =>
        dsimp only
        rw [if_pos rfl, unlogged_apply]
        dsimp only
        rw [srvDrop_mem (by exact hm)]
        exact ⟨_, _, _, rfl, inv_drop inv hl hm (fun j hj => put_other _ _ hj) rfl rfl rfl, rfl⟩

theorem survive_loop (L : SrvLog) (hw : L.Warns) (hg : L.Greets) (R : Registry) (hR : Quiet R) (db : Databank) (acc : Option (Except PyErr Unit)) : ∀ (ready : List Nat) (s : Srv) (log : List Text),
    SrvInv s → ready.Nodup → (∀ i ∈ ready, i ∈ s.sockets) → (∀ i ∈ ready, s.sock = some i → acc = some (.ok ())) →
    ∃ s' log', lSrvLoop L R db acc ready (s, log) = (.ok (), (s', log')) ∧ SrvInv s' ∧ s'.sock = s.sock := by
  intro ready
  induction ready with
  | nil => intro s log hi _ _ _; exact ⟨s, log, rfl, hi, rfl⟩
  | cons i rest ih =>
    intro s log hi hnd hsub hacc
    obtain ⟨hni, hnd'⟩ := List.nodup_cons.mp hnd
    have hne : ∀ k ∈ rest, k ≠ i := fun k hk h => hni (h ▸ hk)
    have o1 := only_one L R db acc i s log
    rw [lSrvLoop]
    dsimp only
    rcases survive_step L hw hg R hR db acc i s log hi (hsub i (by simp)) (hacc i (by simp)) with ⟨brk, s1, log1, e1, i1, k1⟩ | ⟨e, s1, log1, s2, log2, e1, e2, i2, k2⟩
    · rw [e1] at o1 ⊢
      cases brk with
      | true => exact ⟨s1, log1, rfl, i1, k1⟩
      | false =>
        obtain ⟨s', log', a, b, c⟩ := ih s1 log1 i1 hnd' (fun k hk => o1.sockets k (hsub k (by simp [hk])) (hne k hk)) (fun k hk h => hacc k (by simp [hk]) (k1 ▸ h))
        exact ⟨s', log', a, b, c.trans k1⟩
    · have o2 := only_except L R i e s1 log1
      rw [e1] at o1 ⊢
      rw [e2] at o2
      dsimp only
      rw [e2]
      have o := o1.trans o2
      obtain ⟨s', log', a, b, c⟩ := ih s2 log2 i2 hnd' (fun k hk => o.sockets k (hsub k (by simp [hk])) (hne k hk)) (fun k hk h => hacc k (by simp [hk]) (k2 ▸ h))
      exact ⟨s', log', a, b, c.trans k2⟩

/-- **C97.** If the lines about new connections and about connections that go wrong can be written, then whatever other lines cannot (about requests, exceptions, sending, disconnecting,
    the verbose dumps), the server never stops, keeps its listening socket, and every registered socket is open (`accept` not failing, C47). -/
theorem C97_survives (L : SrvLog) (hw : L.Warns) (hg : L.Greets) (R : Registry) (hR : Quiet R) (db : Databank) (rounds : List Round) (s : Srv) (log : List Text) (hi : SrvInv s)
    (hacc : ∀ rd ∈ rounds, ∀ e, rd.accept ≠ some (.error e)) :
    ∃ s' log', lSrvRounds L R db rounds (s, log) = (.ok (), (s', log')) ∧ SrvInv s' ∧ s'.sock = s.sock := by
  induction rounds generalizing s log with
  | nil => exact ⟨s, log, rfl, hi, rfl⟩
  | cons rd rest ih =>
    have hi1 := hi.arrivals rd
    have hopen : ¬ ((s.arrivals rd).sockets.any (fun i => ((s.arrivals rd).socks i).closed) = true) := by
      simp only [List.any_eq_true, not_exists, not_and]
      intro i h
      rw [hi1.opened i h]; simp
    obtain ⟨s1, log1, e1, i1, k1⟩ := survive_loop L hw hg R hR db rd.accept ((s.arrivals rd).ready rd) (s.arrivals rd) log hi1 (hi1.nodup.filter _) (fun i h => (List.mem_filter.mp h).1) (by
      intro i h hl
      have := (List.mem_filter.mp h).2
      rw [if_pos hl] at this
      match ha : rd.accept with
      | none => rw [ha] at this; cases this
      | some (.error e) => exact absurd ha (hacc rd (by simp) e)
      | some (.ok ()) => rfl)
    have hrun : lSrvRun L R db rd (s, log) = (.ok (), (s1, log1)) := by
      unfold lSrvRun
      dsimp only
      rw [if_neg hopen, e1]
    obtain ⟨s', log', a, b, c⟩ := ih s1 log1 i1 (fun r hr => hacc r (by simp [hr]))
    refine ⟨s', log', ?_, b, c.trans k1⟩
    rw [lSrvRounds]
    dsimp only
    rw [hrun]
    exact a

/-- **C97 is false of the line about a new connection.** If it cannot be written, the listening socket is closed and forgotten (as in `C47_false_accept`): nobody can connect any more. -/
theorem C97_false_listener (L : SrvLog) (hw : L.Warns) (R : Registry) (hR : Quiet R) (db : Databank) (s : Srv) (log : List Text) (l : Nat) (e : PyErr) (hl : s.sock = some l) (hs : s.sockets = [l])
    (ho : (s.socks l).closed = false) (he : L.lg log (L.connected s.next) = some e) :
    ∃ s' log', lSrvRun L R db { accept := some (.ok ()) } (s, log) = (.ok (), (s', log')) ∧ s'.sockets = [] ∧ (s'.socks l).closed = true := by
  have hq : ∀ n a, callHooks R n a = .ok none := hR
  have h1 : (s.arrivals { accept := some (.ok ()) }).sockets = [l] := hs
  have h2 : (s.arrivals { accept := some (.ok ()) }).sock = some l := hl
  have h3 : ((s.arrivals { accept := some (.ok ()) }).socks l).closed = false := by
    simp only [Srv.arrivals, (arriveN_keeps _ _).2]; exact ho
  have h4 : L.lg log (L.connected (s.arrivals { accept := some (.ok ()) }).next) = some e := he
  have hr : (s.arrivals { accept := some (.ok ()) }).ready { accept := some (.ok ()) } = [l] := by
    unfold Srv.ready
    rw [h1, h2]; simp
  have hrun : lSrvRun L R db { accept := some (.ok ()) } (s, log) = lSrvLoop L R db (some (.ok ())) [l] (s.arrivals { accept := some (.ok ()) }, log) := by
    unfold lSrvRun
    dsimp only
    rw [if_neg (by rw [h1]; simp [h3]), hr]
  rw [hrun]
  generalize s.arrivals { accept := some (.ok ()) } = s1 at h1 h2 h3 h4
  simp only [lSrvLoop, lSrvOne, h2, if_true, lSrvAccept, logLine_apply, h4, lSrvExcept, PyM.bind_apply, PyM.lift_apply, hw log l e, hq, unlogged_apply]
  rw [srvDrop_mem (by show l ∈ s1.sockets; rw [h1]; simp)]
  exact ⟨_, _, rfl, by simp [h1], by simp [Srv.put, Sock.close]⟩

/-- **C97 is false of the line about the end.** If it cannot be written, the stopped server has not closed its listening socket. -/
theorem C97_false_stop (L : SrvLog) (R : Registry) (hR : Quiet R) (db : Databank) (s : Srv) (log : List Text) (e : PyErr) (ho : (s.socks s.next).closed = false)
    (he : L.lg log "<class 'modbus_tk.modbus_tcp.TcpServer'> has stopped".toList = some e) (hx : L.lg log ("server error: ".toList ++ L.txt e) = none) :
    ∃ s' log', lRunServer L R db true [] (s, log) = (.ok (), (s', log')) ∧ s'.sock = some s.next ∧ (s'.socks s.next).closed = false ∧
      (runServer R db true [] s).1 = .ok () ∧ ((runServer R db true [] s).2.socks s.next).closed = true := by
  have hq : ∀ n a, callHooks R n a = .ok none := hR
  refine ⟨(srvInit true s).2, log ++ ["server error: ".toList ++ L.txt e], ?_, rfl, ho, ?_⟩
  · unfold lRunServer PyM.tryExcept
    simp only [PyM.bind_apply, PyM.lift_apply, unlogged_apply]
    simp only [srvInit, if_true, lSrvRounds, logLine_apply, he]
    simp only [PyM.bind_apply, PyM.lift_apply, logLine_apply, hx, hq]
    rfl
  · have keep : ∀ (l : List Nat) (t : Srv), (srvCloseAll l t).sock = t.sock := by
      intro l
      induction l with
      | nil => intro t; rfl
      | cons i l ih => intro t; rw [srvCloseAll, ih]; rfl
    have hex : ∃ t, srvExit (srvInit true s).2 = (.ok (), t) ∧ (t.socks s.next).closed = true := by
      unfold srvExit
      dsimp only
      rw [keep]
      exact ⟨_, rfl, by simp [Srv.put, Sock.close]⟩
    obtain ⟨t, h1, h2⟩ := hex
    have hrun : runServer R db true [] s = (.ok (), t) := by
      unfold runServer PyM.tryExcept
      simp only [PyM.bind_apply]
      rw [show srvInit true s = (.ok (), (srvInit true s).2) from rfl]
      dsimp only
      rw [show srvRounds R db [] (srvInit true s).2 = (.ok (), (srvInit true s).2) from rfl]
      dsimp only
      rw [h1]
    rw [hrun]
    exact ⟨rfl, h2⟩

/-- **C97 is false of the lines about connections that go wrong.** If such a line cannot be written when a connection goes wrong, the server thread ends without `_do_exit`; and if the line
    about that cannot be written either, `_make_thread` is not reached, so that the server cannot be started again. -/
theorem C97_false_thread (L : SrvLog) (R : Registry) (db : Databank) (bound : Bool) (rounds : List Round) (s s1 : Srv) (log log1 : List Text) (e x : PyErr)
    (h1 : (do unlogged (srvInit bound); lSrvRounds L R db rounds : PyM (Srv × List Text) Unit) (s, log) = (.error e, (s1, log1)))
    (hx : L.lg log1 ("server error: ".toList ++ L.txt e) = some x) : lRunServer L R db bound rounds (s, log) = (.error x, (s1, log1)) := by
  unfold lRunServer PyM.tryExcept
  simp only [PyM.bind_apply, unlogged_apply] at h1 ⊢
  rcases hin : srvInit bound s with ⟨y | u, t⟩
  · rw [hin] at h1
    cases h1
    dsimp only
    simp only [PyM.bind_apply, logLine_apply, hx]
  · rw [hin] at h1
    dsimp only at h1 ⊢
    rw [h1]
    dsimp only
    simp only [PyM.bind_apply, logLine_apply, hx]

/-- **C97.** The lines: one for a new connection. -/
theorem C97_connect_line (L : SrvLog) (hc : L.lg.Calm) (R : Registry) (db : Databank) (l : Nat) (s : Srv) (log : List Text) (hl : s.sock = some l) :
    (lSrvOne L R db (some (.ok ())) l (s, log)).2 = ({ s with sockets := s.sockets ++ [s.next], next := s.next + 1 }, log ++ [L.connected s.next]) := by
  unfold lSrvOne lSrvAccept
  simp only [hl, if_true, logLine_apply, hc log]
  cases callHooks R "modbus_tcp.TcpServer.on_connect" .obj <;> simp [← hl]

/-- **C97.** One for a client that has gone. -/
theorem C97_disconnect_line (L : SrvLog) (hc : L.lg.Calm) (R : Registry) (db : Databank) (i : Nat) (timed : Bool) (c c' : Conn) (log : List Text)
    (hp : Conn.onSock (sockPeek timed) c = (.ok [], c')) : (lSrvClient L R db i timed (c, log)).2 = (c', log ++ [L.disconnected i]) := by
  unfold lSrvClient
  simp only [PyM.bind_apply, unlogged_apply, hp, List.length_nil, if_true, PyM.lift_apply, logLine_apply, hc log]
  cases callHooks R "modbus_tcp.TcpServer.on_disconnect" .obj <;> rfl

/-- **C97.** For a request, those of `C96`, and one more if the request could not be handled or the response could not be sent. -/
theorem C97_request_lines (L : SrvLog) (hc : L.lg.Calm) (R : Registry) (hR : Quiet R) (db : Databank) (i : Nat) (request : Bytes) (c : Conn) (log lines : List Text) (h' : Heap)
    (r : Except PyErr (Option Bytes)) (hr : lServerHandle L.verbose L.lg L.txt R tcpMac db request (c.heap, log) = (r, (h', lines))) :
    (lSrvAnswer L R db i request (c, log)).1 = .ok () ∧
    (lSrvAnswer L R db i request (c, log)).2.2 = lines ++ (match r with
      | .error e => [L.handling e]
      | .ok none => []
      | .ok (some []) => []
      | .ok (some (b :: bs)) => match (sockSend (b :: bs) c.sock).1 with
        | .ok _ => []
        | .error e => [L.sending i e]) := by
  have hq : ∀ n a, callHooks R n a = .ok none := hR
  have hh : lOnHeap (lServerHandle L.verbose L.lg L.txt R tcpMac db request) (c, log) = (r, ({ c with heap := h' }, lines)) := by simp only [lOnHeap, hr]
  unfold lSrvAnswer
  simp only [PyM.bind_apply]
  cases r with
  | error e =>
    have key : PyM.tryExcept (lOnHeap (lServerHandle L.verbose L.lg L.txt R tcpMac db request)) (fun e => do logLine L.lg (L.handling e); return some []) (c, log) =
        (.ok (some []), ({ c with heap := h' }, lines ++ [L.handling e])) := by
      unfold PyM.tryExcept
      rw [hh]
      simp only [PyM.bind_apply, logLine_apply, hc lines]
      rfl
    rw [key]
    exact ⟨rfl, rfl⟩
  | ok resp =>
    have key : PyM.tryExcept (lOnHeap (lServerHandle L.verbose L.lg L.txt R tcpMac db request)) (fun e => do logLine L.lg (L.handling e); return some []) (c, log) =
        (.ok resp, ({ c with heap := h' }, lines)) := by
      unfold PyM.tryExcept
      rw [hh]
    rw [key]
    rcases resp with _ | _ | ⟨b, bs⟩
    · exact ⟨rfl, by simp⟩
    · exact ⟨rfl, by simp⟩
    · dsimp only
      unfold lSrvSend PyM.tryExcept
      simp only [unlogged_apply, PyM.bind_apply, PyM.lift_apply, hq, Option.getD_none, Conn.onSock]
      rcases sockSend (b :: bs) c.sock with ⟨e | u, k⟩
      · dsimp only
        rw [logLine_apply, hc lines]
        exact ⟨rfl, rfl⟩
      · exact ⟨rfl, by simp⟩

/-- **C97.** One for a connection that goes wrong, before the hook is told and before the connection is dropped. -/
theorem C97_wrong_line (L : SrvLog) (hc : L.lg.Calm) (R : Registry) (i : Nat) (e : PyErr) (s : Srv) (log : List Text) :
    (lSrvExcept L R i e (s, log)).2.2 = log ++ [L.processing i e] ∧
    ∀ x, callHooks R "modbus_tcp.TcpServer.on_error" (.exc e []) = .error x → lSrvExcept L R i e (s, log) = (.error x, (s, log ++ [L.processing i e])) := by
  unfold lSrvExcept
  simp only [PyM.bind_apply, PyM.lift_apply, logLine_apply, hc log]
  cases hh : callHooks R "modbus_tcp.TcpServer.on_error" (.exc e []) with
  | error y => exact ⟨rfl, fun x hx => by cases hx; rfl⟩
  | ok v => exact ⟨rfl, fun x hx => by cases hx⟩

/-- **C97.** One for a thread that ends with an exception, before the hook is told; the server can be started again unless that hook raises. -/
theorem C97_end_line (L : SrvLog) (R : Registry) (db : Databank) (bound : Bool) (rounds : List Round) (s s1 : Srv) (log log1 : List Text) (e : PyErr)
    (h1 : (do unlogged (srvInit bound); lSrvRounds L R db rounds : PyM (Srv × List Text) Unit) (s, log) = (.error e, (s1, log1)))
    (hx : L.lg log1 ("server error: ".toList ++ L.txt e) = none) :
    lRunServer L R db bound rounds (s, log) =
      ((callHooks R "modbus.Server.on_exception" (.exc e [])).map (fun _ => ()), (s1, log1 ++ ["server error: ".toList ++ L.txt e])) := by
  have fin : (do
      logLine L.lg ("server error: ".toList ++ L.txt e)
      let _ ← PyM.lift (callHooks R "modbus.Server.on_exception" (.exc e []))
      return () : PyM (Srv × List Text) Unit) (s1, log1) =
      ((callHooks R "modbus.Server.on_exception" (.exc e [])).map (fun _ => ()), (s1, log1 ++ ["server error: ".toList ++ L.txt e])) := by
    simp only [PyM.bind_apply, PyM.lift_apply, logLine_apply, hx]
    cases callHooks R "modbus.Server.on_exception" (.exc e []) <;> rfl
  unfold lRunServer PyM.tryExcept
  simp only [PyM.bind_apply, unlogged_apply] at h1 ⊢
  rcases hin : srvInit bound s with ⟨y | u, t⟩
  · rw [hin] at h1
    cases h1
    exact fin
  · rw [hin] at h1
    dsimp only at h1 ⊢
    rw [h1]
    exact fin

/-! ## Instances -/

/-- the log of the examples, with a handler that cannot write lines with a given start -/
def exSrvLog (t : Text) : SrvLog := ⟨failsAt t, exText, fun _ => "('10.0.0.7', 4711)".toList, false⟩

-- the whole log of the server of `exSrv`: three connections, the requests answered normally, one connection reset, one closed
example : (lSrvRounds ⟨fun _ _ => none, exText, fun _ => "('10.0.0.7', 4711)".toList, true⟩ [] exTwo.st.db exRounds (exSrv, [])).2.2 =
    ["('10.0.0.7', 4711) is connected with socket 1...".toList, "('10.0.0.7', 4711) is connected with socket 2...".toList, "('10.0.0.7', 4711) is connected with socket 3...".toList,
     "-->0-1-0-0-0-6-1-6-0-11-0-7".toList, "<--0-1-0-0-0-6-1-6-0-11-0-7".toList, "Error while processing data on socket 2: ?".toList,
     "-->0-3-0-0-0-6-1-3-0-11-0-2".toList, "<--0-3-0-0-0-7-1-3-4-0-7-0-0".toList,
     "-->0-2-0-0-0-6-1-3-0-11-0-1".toList, "<--0-2-0-0-0-5-1-3-2-0-7".toList, "1 is disconnected".toList] := by decide +kernel

-- the hypotheses of `C97_survives`: a handler that fails at the lines about requests that go wrong
example : (exSrvLog "Modbus".toList).Warns ∧ (exSrvLog "Modbus".toList).Greets := by
  constructor
  · intro log i e
    rfl
  · intro log i
    rfl

/-- client 1 reads a register that is not there, client 2 writes one -/
def exOdd : Srv := { exSrv with socks := fun i =>
    if i = 1 then { future := [.data [0, 1, 0, 0, 0, 6, 1, 3, 0, 50, 0, 1]] }
    else if i = 2 then { future := [.data [0, 2, 0, 0, 0, 6, 1, 6, 0, 11, 0, 7]] } else {} }

/-- two connections, then their data -/
def exOddRounds : List Round := [{ accept := some (.ok ()) }, { accept := some (.ok ()) }, { arrivals := fun _ => 1 }]

-- a log that cannot take the line of the exception: the exception response is code 4 instead of 2, the other client is served
example : let r := lSrvRounds (exSrvLog "Modbus".toList) [] exTwo.st.db exOddRounds (exOdd, [])
    (r.1, r.2.1.sockets, (r.2.1.socks 1).sent, (r.2.1.socks 2).sent) =
      (.ok (), [0, 1, 2], [[0x83, 4]], [[0, 2, 0, 0, 0, 6, 1, 6, 0, 11, 0, 7]]) := by decide +kernel

/-- a handler that works until it has written `n` lines (a full disk) -/
def failsAfter (n : Nat) : Logger := fun log _ => if n ≤ log.length then some .osError else none

-- a disk that is full after the two connections: the exception cannot be logged; neither can the failure, the error of handling, the connection that goes wrong: the server thread ends,
-- the other client is never served
example : let r := lSrvRounds ⟨failsAfter 2, exText, fun _ => [], false⟩ [] exTwo.st.db exOddRounds (exOdd, [])
    (r.1, r.2.1.sockets, (r.2.1.socks 1).sent, (r.2.1.socks 2).sent, (r.2.1.socks 0).closed) =
      (.error .osError, [0, 1, 2], [], [], false) := by decide +kernel

/-- **C97 is false of a full disk.** One request that is logged ends the server thread: the request of the other client is not served, the sockets stay open, and the server cannot be
    started again. -/
theorem C97_false_full : ∃ (L : SrvLog) (rounds : List Round) (s : Srv), L.lg.Foreign ∧
    (runServer [] exTwo.st.db true rounds s).1 = .ok () ∧ ((runServer [] exTwo.st.db true rounds s).2.socks 2).sent = [[0, 2, 0, 0, 0, 6, 1, 6, 0, 11, 0, 7]] ∧
    (lRunServer L [] exTwo.st.db true rounds (s, [])).1 = .error .osError ∧ ((lRunServer L [] exTwo.st.db true rounds (s, [])).2.1.socks 2).sent = [] ∧
    ((lRunServer L [] exTwo.st.db true rounds (s, [])).2.1.socks 0).closed = false := by
  refine ⟨⟨failsAfter 2, exText, fun _ => [], false⟩, exOddRounds, { exOdd with sock := none, sockets := [], next := 0 }, ?_, ?_, ?_, ?_, ?_, ?_⟩
  · intro log line e he
    replace he : (if 2 ≤ log.length then some PyErr.osError else none) = some e := he
    split at he
    · cases he; exact ⟨fun c => PyErr.noConfusion, PyErr.noConfusion, PyErr.noConfusion⟩
    · cases he
  all_goals decide +kernel

-- the hypotheses of `C97_false_listener` and `C97_false_stop`
example : (exSrvLog "(".toList).Warns ∧ (exSrvLog "(".toList).lg [] ((exSrvLog "(".toList).connected exSrv.next) = some .osError := by
  refine ⟨?_, by decide +kernel⟩
  intro log i e
  rfl
example : (exSrvLog "<".toList).lg [] "<class 'modbus_tk.modbus_tcp.TcpServer'> has stopped".toList = some .osError ∧
    (exSrvLog "<".toList).lg [] ("server error: ".toList ++ (exSrvLog "<".toList).txt .osError) = none := by decide +kernel

-- the hypotheses of `C97_end_line` and `C97_false_thread`: the port is taken, the log works or not
example : (do unlogged (srvInit false); lSrvRounds (exSrvLog "x".toList) [] exTwo.st.db [] : PyM (Srv × List Text) Unit) (exOdd, []) = (.error .osError, ((srvInit false exOdd).2, [])) := rfl
example : (exSrvLog "x".toList).lg [] ("server error: ".toList ++ (exSrvLog "x".toList).txt .osError) = none ∧
    (exSrvLog "server".toList).lg [] ("server error: ".toList ++ (exSrvLog "server".toList).txt .osError) = some .osError := by decide +kernel

end Modbus
