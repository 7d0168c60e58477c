import Verif.Model.ClockedServer
import Verif.Props.Timeouts
import Verif.Props.TcpServer
/-
# Property C74: the TCP server serves every client; how long that takes
-/
namespace Modbus

/-! ## How long a round lasts -/

theorem cPeek_waits (p : Nat × CSock) : Waits 1 p (cPeek p).2 := by
  have h := (cRecv_spec 1 p).1
  unfold cPeek
  cases hr : cRecv 1 p with
  | mk r q =>
    rw [hr] at h
    obtain ⟨now, s⟩ := q
    cases r with
    | error e => exact h
    | ok x => exact ⟨h.mode, h.closed, h.forward, h.bound⟩

theorem cReadLoop_waits (target : Int) (fuel : Nat) (request : Bytes) (p : Nat × CSock) :
    Waits (target - request.length).toNat p (cReadLoop target fuel request p).2 := by
  induction fuel generalizing request p with
  | zero => exact (Waits.refl _).mono (by omega)
  | succ fuel ih =>
    rw [cReadLoop]
    by_cases hlt : (request.length : Int) < target
    · rw [if_pos hlt]
      simp only [PyM.bind_apply]
      have hs := cRecv_spec 1 p
      cases hr : cRecv 1 p with
      | mk r p1 =>
        rw [hr] at hs
        obtain ⟨h1, _, h3⟩ := hs
        cases r with
        | error e => exact h1.mono (by omega)
        | ok x =>
          dsimp only
          by_cases hx : x.length = 0
          · rw [if_pos hx]
            exact h1.mono (by omega)
          · rw [if_neg hx]
            have hl := h3 x rfl
            exact (h1.trans (ih (request ++ x) p1)).mono (by simp only [List.length_append]; omega)
    · rw [if_neg hlt]
      exact (Waits.refl _).mono (by omega)

/-- a socket of a client is non-blocking or has the time-out of a second -/
def CSock.Timed (sec : Nat) (k : CSock) : Prop := k.timeout = some 0 ∨ k.timeout = some sec

/-- serving a connection for at most `n` seconds; what is sent meanwhile is logged -/
structure Adv (sec n : Nat) (c c' : CConn) : Prop where
  id : c'.id = c.id
  closed : c'.sock.closed = c.sock.closed
  timed : c'.sock.Timed sec
  forward : c.now ≤ c'.now
  bound : c'.now ≤ c.now + n * sec
  log : ∃ new, c'.log = c.log ++ new ∧ ∀ e ∈ new, c.now ≤ e.1 ∧ e.1 ≤ c'.now ∧ e.2.1 = c.id

theorem Adv.refl {sec : Nat} {c : CConn} (h : c.sock.Timed sec) : Adv sec 0 c c :=
  ⟨rfl, rfl, h, Nat.le_refl _, by omega, [], by simp, by simp⟩

theorem Adv.trans {sec m n : Nat} {a b c : CConn} (h : Adv sec m a b) (h' : Adv sec n b c) : Adv sec (m + n) a c := by
  obtain ⟨n1, e1, p1⟩ := h.log
  obtain ⟨n2, e2, p2⟩ := h'.log
  have hf := h.forward
  have hf' := h'.forward
  refine ⟨h'.id.trans h.id, h'.closed.trans h.closed, h'.timed, Nat.le_trans h.forward h'.forward, ?_, n1 ++ n2, by rw [e2, e1, List.append_assoc], ?_⟩
  · have := h.bound; have := h'.bound; rw [Nat.add_mul]; omega
  · intro e he
    rcases List.mem_append.mp he with he | he
    · obtain ⟨q1, q2, q3⟩ := p1 e he; exact ⟨q1, by omega, q3⟩
    · obtain ⟨q1, q2, q3⟩ := p2 e he; exact ⟨by omega, q2, q3.trans h.id⟩

theorem Adv.mono {sec m n : Nat} {a b : CConn} (h : Adv sec m a b) (hmn : m ≤ n) : Adv sec n a b :=
  ⟨h.id, h.closed, h.timed, h.forward, by have := h.bound; have := Nat.mul_le_mul_right sec hmn; omega, h.log⟩

theorem onSock_adv {α : Type} {sec n : Nat} {f : PyM (Nat × CSock) α} {c : CConn} (hc : c.sock.Timed sec) (h : Waits n (c.now, c.sock) (f (c.now, c.sock)).2) :
    Adv sec n c (CConn.onSock f c).2 := by
  refine ⟨rfl, h.closed, ?_, h.forward, ?_, [], by simp [CConn.onSock], by simp⟩
  · unfold CSock.Timed
    rw [show (CConn.onSock f c).2.sock.timeout = _ from h.mode]
    exact hc
  · rcases hc with hc | hc
    · have := h.bound 0 (fun _ => hc)
      exact Nat.le_trans this (by dsimp only; omega)
    · exact h.bound sec (fun _ => hc)

theorem cSrvSend_adv (sec : Nat) (R : Registry) (response : Bytes) (c : CConn) (hc : c.sock.Timed sec) : Adv sec 0 c (cSrvSend R response c).2 := by
  unfold cSrvSend
  simp only [PyM.tryExcept_apply, PyM.bind_apply, PyM.lift_apply]
  cases callHooks R "modbus_tcp.TcpServer.before_send" (.msg response) with
  | error e => exact .refl hc
  | ok v =>
    dsimp only
    have h1 := onSock_adv hc (cSend_waits (v.getD response) (c.now, c.sock))
    cases hs : CConn.onSock (cSend (v.getD response)) c with
    | mk r c1 =>
      rw [hs] at h1
      cases r with
      | error e => exact h1
      | ok u =>
        have h2 : Adv sec 0 c1 { c1 with log := c1.log ++ [(c1.now, c1.id, v.getD response)] } :=
          ⟨rfl, rfl, h1.timed, Nat.le_refl _, by dsimp only; omega, _, rfl, by simp⟩
        dsimp only [PyM.modify_apply]
        cases callHooks R "modbus_tcp.TcpServer.after_send" (.msg (v.getD response)) with
        | error e => exact h1.trans h2
        | ok w => exact h1.trans h2

theorem cSrvAnswer_adv (sec : Nat) (R : Registry) (db : Databank) (request : Bytes) (c : CConn) (hc : c.sock.Timed sec) :
    Adv sec 0 c (cSrvAnswer R db request c).2 := by
  unfold cSrvAnswer
  simp only [PyM.bind_apply, PyM.tryExcept_apply, CConn.onHeap]
  have h0 : ∀ h', Adv sec 0 c { c with heap := h' } := fun h' => ⟨rfl, rfl, hc, Nat.le_refl _, by dsimp only; omega, [], by simp, by simp⟩
  cases hx : serverHandle R tcpMac db request c.heap with
  | mk o h' =>
    dsimp only
    match o with
    | .error e => exact h0 h'
    | .ok none => exact h0 h'
    | .ok (some []) => exact h0 h'
    | .ok (some (b :: bs)) => exact (h0 h').trans (cSrvSend_adv sec R (b :: bs) { c with heap := h' } hc)

/-- **C74.** Serving one connection takes at most 65543 seconds, whatever the client sends and the hooks do. -/
theorem cSrvClient_adv (sec : Nat) (R : Registry) (db : Databank) (c : CConn) (hc : c.sock.Timed sec) :
    Adv sec 65543 c (cSrvClient sec R db c).2 := by
  unfold cSrvClient
  simp only [PyM.bind_apply]
  have h1 := onSock_adv hc (cPeek_waits (c.now, c.sock))
  cases hp : CConn.onSock cPeek c with
  | mk r c1 =>
    rw [hp] at h1
    cases r with
    | error e => exact h1.mono (by omega)
    | ok x =>
      dsimp only
      by_cases hx : x.length = 0
      · rw [if_pos hx]
        simp only [PyM.bind_apply, PyM.lift_apply]
        cases callHooks R "modbus_tcp.TcpServer.on_disconnect" .obj <;> exact h1.mono (by omega)
      · rw [if_neg hx]
        simp only [PyM.bind_apply, PyM.modify_apply]
        have h2 : Adv sec 0 c1 { c1 with sock := { c1.sock with timeout := some sec } } :=
          ⟨rfl, rfl, .inr rfl, Nat.le_refl _, by dsimp only; omega, [], by simp, by simp⟩
        have h2' := h1.trans h2
        generalize hc2 : ({ c1 with sock := { c1.sock with timeout := some sec } } : CConn) = c2 at h2'
        have h3 := onSock_adv h2'.timed (cReadLoop_waits 7 8 [] (c2.now, c2.sock))
        cases hl : CConn.onSock (cReadLoop 7 8 []) c2 with
        | mk r c3 =>
          rw [hl] at h3
          have h3' := h2'.trans h3
          cases r with
          | error e => exact h3'.mono (by simp)
          | ok y =>
            obtain ⟨request, isOk⟩ := y
            dsimp only
            simp only [PyM.lift_apply]
            cases callHooks R "modbus_tcp.TcpServer.after_recv" (.msg request) with
            | error e => exact h3'.mono (by simp)
            | ok v =>
              dsimp only
              generalize v.getD request = request'
              cases isOk with
              | false => exact h3'.mono (by simp)
              | true =>
                simp only [if_true, PyM.bind_apply, PyM.lift_apply]
                by_cases h6 : request'.length < 6
                · unfold getRequestLength
                  rw [if_pos h6]
                  exact h3'.mono (by simp)
                · rw [getRequestLength_ok (by omega)]
                  dsimp only
                  have h4 := onSock_adv h3'.timed (cReadLoop_waits ((announced request' : Int) + 6) 65543 request' (c3.now, c3.sock))
                  have hn := announced_lt request'
                  cases hl2 : CConn.onSock (cReadLoop ((announced request' : Int) + 6) 65543 request') c3 with
                  | mk r c4 =>
                    rw [hl2] at h4
                    have h4' : Adv sec 65543 c c4 := (h3'.trans h4).mono (by simp only [List.length_nil]; omega)
                    cases r with
                    | error e => exact h4'
                    | ok z =>
                      obtain ⟨request2, isOk2⟩ := z
                      dsimp only
                      cases isOk2 with
                      | false => exact h4'
                      | true =>
                        simp only [if_true, PyM.bind_apply]
                        have h5 := cSrvAnswer_adv sec R db request2 c4 h4'.timed
                        cases ha : cSrvAnswer R db request2 c4 with
                        | mk r c5 =>
                          rw [ha] at h5
                          cases r with
                          | error e => exact h4'.trans h5
                          | ok u => exact h4'.trans h5

/-- the sockets the server watches are different, open, and time out -/
structure CSrvInv (sec : Nat) (s : CSrv) : Prop where
  nodup : s.sockets.Nodup
  opened : ∀ i ∈ s.sockets, (s.socks i).closed = false
  timed : ∀ i ∈ s.sockets, s.sock ≠ some i → (s.socks i).Timed sec
  fresh : ∀ i ∈ s.sockets, i < s.next
  listens : ∀ l, s.sock = some l → l < s.next

/-- the body of the loop: one socket, with the exception handler -/
def cSrvStep (sec : Nat) (R : Registry) (db : Databank) (i : Nat) : PyM CSrv Bool := fun s =>
  match cSrvOne sec R db i s with
  | (.ok brk, s') => (.ok brk, s')
  | (.error e, s') =>
    match callHooks R "modbus_tcp.TcpServer.on_error" (.exc e []) with
    | .error e' => (.error e', s')
    | .ok _ =>
      match cSrvDrop i s' with
      | (.ok _, s'') => (.ok false, s'')
      | (.error e', s'') => (.error e', s'')

theorem cSrvLoop_cons (sec : Nat) (R : Registry) (db : Databank) (i : Nat) (rest : List Nat) (s : CSrv) :
    cSrvLoop sec R db (i :: rest) s = match cSrvStep sec R db i s with
      | (.ok true, s') => (.ok (), s')
      | (.ok false, s') => cSrvLoop sec R db rest s'
      | (.error e, s') => (.error e, s') := by
  simp only [cSrvLoop, cSrvStep]
  cases cSrvOne sec R db i s with
  | mk o s' =>
    match o with
    | .ok true => rfl
    | .ok false => rfl
    | .error e =>
      simp only
      cases callHooks R "modbus_tcp.TcpServer.on_error" (.exc e []) with
      | error e' => rfl
      | ok r =>
        simp only
        cases cSrvDrop i s' with
        | mk o s'' => cases o <;> rfl

/-- what the server does for one ready socket -/
structure StepAdv (sec : Nat) (s : CSrv) (i : Nat) (r : Except PyErr Bool) (s' : CSrv) : Prop where
  sock : s'.sock = s.sock
  forward : s.now ≤ s'.now
  bound : s'.now ≤ s.now + if s.sock = some i then 0 else 65543 * sec
  log : ∃ new, s'.log = s.log ++ new ∧ ∀ e ∈ new, s.now ≤ e.1 ∧ e.1 ≤ s'.now ∧ e.2.1 = i
  next : s.next ≤ s'.next
  others : ∀ j, j ≠ i → j < s.next → s'.socks j = s.socks j
  sockets : ∃ base, (base = s.sockets ∨ (s.sock = some i ∧ base = s.sockets ++ [s.next])) ∧ (s'.sockets = base ∨ s'.sockets = base.erase i)
  brk : r = .ok true → s'.sockets = s.sockets.erase i
  inv : (∃ b, r = .ok b) → CSrvInv sec s'

theorem cSrvDrop_mem {i : Nat} {s : CSrv} (h : i ∈ s.sockets) :
    cSrvDrop i s = (.ok (), { s.put i { s.socks i with closed := true } with sockets := s.sockets.erase i }) := by
  unfold cSrvDrop
  exact if_pos h

/-- dropping a socket -/
theorem CSrvInv.drop {sec : Nat} {s : CSrv} (h : CSrvInv sec s) (i : Nat) :
    CSrvInv sec { s.put i { s.socks i with closed := true } with sockets := s.sockets.erase i } := by
  have hm : ∀ j, j ∈ s.sockets.erase i → j ≠ i ∧ j ∈ s.sockets := fun j hj => (h.nodup.mem_erase_iff).mp hj
  have hs : ∀ j, j ∈ s.sockets.erase i → (s.put i { s.socks i with closed := true }).socks j = s.socks j := fun j hj => by
    simp [CSrv.put, (hm j hj).1]
  refine ⟨h.nodup.erase i, fun j hj => ?_, fun j hj hl => ?_, fun j hj => h.fresh j (hm j hj).2, h.listens⟩
  · rw [show (_ : CSock) = _ from hs j hj]; exact h.opened j (hm j hj).2
  · rw [show (_ : CSock) = _ from hs j hj]; exact h.timed j (hm j hj).2 hl

theorem served_inv {sec n : Nat} {s : CSrv} (h : CSrvInv sec s) {i : Nat} (hi : i ∈ s.sockets) {c' : CConn}
    (ha : Adv sec n ⟨s.heap, i, s.now, s.socks i, s.log⟩ c') : CSrvInv sec (s.served i c') := by
  refine ⟨h.nodup, fun j hj => ?_, fun j hj hl => ?_, h.fresh, h.listens⟩
  · by_cases hji : j = i
    · subst hji
      show ((s.put j c'.sock).socks j).closed = false
      simp only [CSrv.put, if_true]
      exact ha.closed.trans (h.opened j hj)
    · show ((s.put i c'.sock).socks j).closed = false
      simp only [CSrv.put, if_neg hji]
      exact h.opened j hj
  · by_cases hji : j = i
    · subst hji
      show ((s.put j c'.sock).socks j).Timed sec
      simp only [CSrv.put, if_true]
      exact ha.timed
    · show ((s.put i c'.sock).socks j).Timed sec
      simp only [CSrv.put, if_neg hji]
      exact h.timed j hj hl

theorem accepted_inv {sec : Nat} {s : CSrv} (h : CSrvInv sec s) (rest : List (Nat × Option (List (Nat × CEvent)))) (future : List (Nat × CEvent)) :
    CSrvInv sec { ({ s with coming := rest } : CSrv).put s.next { connected := true, timeout := some 0, future := future } with
      sockets := s.sockets ++ [s.next], next := s.next + 1 } := by
  have hne : ∀ j ∈ s.sockets, j ≠ s.next := fun j hj => by have := h.fresh j hj; omega
  refine ⟨?_, fun j hj => ?_, fun j hj hl => ?_, fun j hj => ?_, fun l hl => ?_⟩
  · dsimp only
    rw [List.nodup_append]
    exact ⟨h.nodup, by simp, fun a ha b hb => by simp only [List.mem_singleton] at hb; subst hb; exact hne a ha⟩
  · dsimp only [CSrv.put]
    rcases List.mem_append.mp hj with hj | hj
    · rw [if_neg (hne j hj)]; exact h.opened j hj
    · rw [if_pos (by simpa using hj)]
  · dsimp only [CSrv.put]
    rcases List.mem_append.mp hj with hj | hj
    · rw [if_neg (hne j hj)]; exact h.timed j hj hl
    · rw [if_pos (by simpa using hj)]; exact .inl rfl
  · dsimp only
    rcases List.mem_append.mp hj with hj | hj
    · have := h.fresh j hj; omega
    · simp only [List.mem_singleton] at hj; omega
  · have := h.listens l hl
    dsimp only; omega

/-- the exception handler: the socket is dropped -/
theorem step_drop {sec : Nat} {R : Registry} {s s1 : CSrv} {i : Nat} {e : PyErr} (_ : i ∈ s.sockets) (h1 : StepAdv sec s i (.ok false) s1)
    (hm : i ∈ s1.sockets) (hb : ∃ base, (base = s.sockets ∨ (s.sock = some i ∧ base = s.sockets ++ [s.next])) ∧ s1.sockets = base) :
    ∃ r s', (match callHooks R "modbus_tcp.TcpServer.on_error" (.exc e []) with
      | .error e' => ((.error e' : Except PyErr Bool), s1)
      | .ok _ =>
        match cSrvDrop i s1 with
        | (.ok _, s'') => (.ok false, s'')
        | (.error e', s'') => (.error e', s'')) = (r, s') ∧ StepAdv sec s i r s' := by
  cases callHooks R "modbus_tcp.TcpServer.on_error" (.exc e []) with
  | error e' => exact ⟨_, _, rfl, h1.sock, h1.forward, h1.bound, h1.log, h1.next, h1.others, h1.sockets, (fun h => by cases h), (fun ⟨_, h⟩ => by cases h)⟩
  | ok v =>
    dsimp only
    rw [cSrvDrop_mem hm]
    refine ⟨_, _, rfl, h1.sock, h1.forward, h1.bound, h1.log, h1.next, fun j hj hn => ?_, ?_, (fun h => by cases h), fun _ => (h1.inv ⟨_, rfl⟩).drop i⟩
    · simp only [CSrv.put, if_neg hj]
      exact h1.others j hj hn
    · obtain ⟨base, hb1, hb2⟩ := hb
      exact ⟨base, hb1, .inr (by dsimp only; rw [hb2])⟩

theorem cSrvStep_adv (sec : Nat) (R : Registry) (db : Databank) (s : CSrv) (h : CSrvInv sec s) (i : Nat) (hi : i ∈ s.sockets) :
    ∃ r s', cSrvStep sec R db i s = (r, s') ∧ StepAdv sec s i r s' := by
  unfold cSrvStep cSrvOne
  by_cases hl : s.sock = some i
  · rw [if_pos hl]
    have same : ∀ rest, StepAdv sec s i (.ok false) { s with coming := rest } := fun rest =>
      ⟨rfl, Nat.le_refl _, by dsimp only; omega, ⟨[], by simp⟩, Nat.le_refl _, fun _ _ _ => rfl, ⟨_, .inl rfl, .inl rfl⟩, (fun h => by cases h),
        fun _ => ⟨h.nodup, h.opened, h.timed, h.fresh, h.listens⟩⟩
    unfold cSrvAccept
    cases hcm : s.coming with
    | nil =>
      dsimp only
      have hs := same s.coming
      exact step_drop (s1 := s) hi hs hi ⟨_, .inl rfl, rfl⟩
    | cons x rest =>
      obtain ⟨T, c⟩ := x
      dsimp only
      by_cases hT : s.now < T
      · rw [if_pos hT]
        dsimp only
        exact step_drop (s1 := s) hi (same s.coming) hi ⟨_, .inl rfl, rfl⟩
      · rw [if_neg hT]
        cases c with
        | none =>
          dsimp only
          exact step_drop (s1 := { s with coming := rest }) hi (same rest) hi ⟨_, .inl rfl, rfl⟩
        | some future =>
          dsimp only
          have hacc : StepAdv sec s i (.ok false) { ({ s with coming := rest } : CSrv).put s.next { connected := true, timeout := some 0, future := future } with
              sockets := s.sockets ++ [s.next], next := s.next + 1 } :=
            ⟨rfl, Nat.le_refl _, by dsimp only [CSrv.put]; omega, ⟨[], by simp [CSrv.put]⟩, by dsimp only; omega,
              fun j _ hn => by simp only [CSrv.put, if_neg (by omega : ¬ j = s.next)], ⟨_, .inr ⟨hl, rfl⟩, .inl rfl⟩, (fun h => by cases h),
              fun _ => accepted_inv h rest future⟩
          cases callHooks R "modbus_tcp.TcpServer.on_connect" .obj with
          | error e => exact step_drop hi hacc (List.mem_append_left _ hi) ⟨_, .inr ⟨hl, rfl⟩, rfl⟩
          | ok v => exact ⟨_, _, rfl, hacc⟩
  · rw [if_neg hl]
    have ha := cSrvClient_adv sec R db ⟨s.heap, i, s.now, s.socks i, s.log⟩ (h.timed i hi hl)
    cases hc : cSrvClient sec R db ⟨s.heap, i, s.now, s.socks i, s.log⟩ with
    | mk r c =>
      rw [hc] at ha
      have hsv : StepAdv sec s i (.ok false) (s.served i c) :=
        ⟨rfl, ha.forward, by rw [if_neg hl]; exact ha.bound, ha.log, Nat.le_refl _, fun j hj _ => by simp only [CSrv.served, CSrv.put, if_neg hj],
          ⟨_, .inl rfl, .inl rfl⟩, (fun h => by cases h), fun _ => served_inv h hi ha⟩
      cases r with
      | error e => exact step_drop hi hsv hi ⟨_, .inl rfl, rfl⟩
      | ok b =>
        dsimp only
        cases b with
        | false => exact ⟨_, _, rfl, hsv⟩
        | true =>
          rw [if_pos rfl, cSrvDrop_mem (s := s.served i c) hi]
          refine ⟨_, _, rfl, hsv.sock, hsv.forward, hsv.bound, hsv.log, hsv.next, fun j hj hn => ?_, ⟨_, .inl rfl, .inr rfl⟩, fun _ => rfl,
            fun _ => (hsv.inv ⟨_, rfl⟩).drop i⟩
          simp only [CSrv.put, if_neg hj]
          exact hsv.others j hj hn

/-- the clients among some sockets -/
def CSrv.clients (s : CSrv) (L : List Nat) : List Nat := L.filter fun i => s.sock ≠ some i

/-- after a step, the sockets still to be looked at are still watched -/
theorem StepAdv.rest {sec : Nat} {s s' : CSrv} {i : Nat} {r : Except PyErr Bool} (h : StepAdv sec s i r s') {L : List Nat} (hL : (i :: L).Sublist s.sockets) :
    L.Sublist s'.sockets := by
  obtain ⟨base, hb, hs⟩ := h.sockets
  have hbase : (i :: L).Sublist base := by
    rcases hb with rfl | ⟨_, rfl⟩
    · exact hL
    · exact hL.trans (List.sublist_append_left _ _)
  rcases hs with hs | hs
  · rw [hs]; exact (List.sublist_cons_self i L).trans hbase
  · rw [hs]
    have := hbase.erase i
    rwa [List.erase_cons_head] at this

/-- the server between two moments: time passes, responses are sent -/
structure SrvAdv (s s' : CSrv) (d : Nat) : Prop where
  sock : s'.sock = s.sock
  forward : s.now ≤ s'.now
  bound : s'.now ≤ s.now + d
  log : ∃ new, s'.log = s.log ++ new ∧ ∀ e ∈ new, s.now ≤ e.1 ∧ e.1 ≤ s'.now

theorem cSrvLoop_adv (sec : Nat) (R : Registry) (db : Databank) : ∀ (L : List Nat) (s : CSrv), CSrvInv sec s → L.Sublist s.sockets →
    SrvAdv s (cSrvLoop sec R db L s).2 ((s.clients L).length * (65543 * sec)) ∧
    ((cSrvLoop sec R db L s).1 = .ok () → CSrvInv sec (cSrvLoop sec R db L s).2)
  | [], s, h, _ => ⟨⟨rfl, Nat.le_refl _, by simp [cSrvLoop], [], by simp [cSrvLoop]⟩, fun _ => h⟩
  | i :: L, s, h, hL => by
    obtain ⟨r, s1, he, ha⟩ := cSrvStep_adv sec R db s h i (hL.subset (by simp))
    rw [cSrvLoop_cons, he]
    have hone : SrvAdv s s1 ((s.clients (i :: L)).length * (65543 * sec)) ∧ s1.now + (s.clients L).length * (65543 * sec) ≤ s.now + (s.clients (i :: L)).length * (65543 * sec) := by
      have hb := ha.bound
      obtain ⟨new, e1, e2⟩ := ha.log
      have hlen : (if s.sock = some i then 0 else 65543 * sec) + (s.clients L).length * (65543 * sec) = (s.clients (i :: L)).length * (65543 * sec) := by
        unfold CSrv.clients
        by_cases hl : s.sock = some i
        · rw [if_pos hl, List.filter_cons_of_neg (by simp [hl])]; omega
        · rw [if_neg hl, List.filter_cons_of_pos (by simp [hl]), List.length_cons, Nat.add_mul]; omega
      exact ⟨⟨ha.sock, ha.forward, by omega, new, e1, fun e he => ⟨(e2 e he).1, (e2 e he).2.1⟩⟩, by omega⟩
    match r with
    | .error e => exact ⟨hone.1, (fun h => by cases h)⟩
    | .ok true => exact ⟨hone.1, fun _ => ha.inv ⟨_, rfl⟩⟩
    | .ok false =>
      dsimp only
      obtain ⟨h1, h2⟩ := cSrvLoop_adv sec R db L s1 (ha.inv ⟨_, rfl⟩) (ha.rest hL)
      refine ⟨?_, h2⟩
      have hcl : s1.clients L = s.clients L := by unfold CSrv.clients; rw [ha.sock]
      rw [hcl] at h1
      obtain ⟨n1, e1, p1⟩ := hone.1.log
      obtain ⟨n2, e2, p2⟩ := h1.log
      have f1 := hone.1.forward
      have f2 := h1.forward
      refine ⟨h1.sock.trans ha.sock, Nat.le_trans hone.1.forward h1.forward, ?_, n1 ++ n2, by rw [e2, e1, List.append_assoc], fun e he => ?_⟩
      · have := h1.bound; have := hone.2; omega
      · rcases List.mem_append.mp he with he | he
        · have := p1 e he; omega
        · have := p2 e he; omega

/-- `select` waits at most a second, and not at all when a socket is ready -/
theorem wake_bound (sec : Nat) (s : CSrv) : s.now ≤ s.wake sec ∧ s.wake sec ≤ s.now + sec ∧ (s.sockets.any (s.readableAt s.now) = true → s.wake sec = s.now) := by
  have hf : ∀ (l : List Nat) (a : Nat), s.now ≤ a →
      s.now ≤ l.foldl (fun a T => if s.now < T then min a T else a) a ∧ l.foldl (fun a T => if s.now < T then min a T else a) a ≤ a := by
    intro l
    induction l with
    | nil => intro a h; exact ⟨h, Nat.le_refl _⟩
    | cons T l ih =>
      intro a h
      rw [List.foldl_cons]
      by_cases hT : s.now < T
      · rw [if_pos hT]
        have := ih (min a T) (by omega)
        omega
      · rw [if_neg hT]; exact ih a h
  unfold CSrv.wake
  by_cases hr : s.sockets.any (s.readableAt s.now) = true
  · rw [if_pos hr]; exact ⟨by omega, by omega, fun _ => rfl⟩
  · rw [if_neg hr]
    have := hf s.events (s.now + sec) (by omega)
    exact ⟨this.1, this.2, fun h => absurd h hr⟩

theorem cSrvRun_adv (sec : Nat) (R : Registry) (db : Databank) (s : CSrv) (h : CSrvInv sec s) :
    SrvAdv s (cSrvRun sec R db s).2 (sec + (s.clients s.sockets).length * (65543 * sec)) ∧
    ((cSrvRun sec R db s).1 = .ok () → CSrvInv sec (cSrvRun sec R db s).2) := by
  unfold cSrvRun
  have hw := wake_bound sec s
  rw [if_neg (by
    simp only [List.any_eq_true, not_exists, not_and]
    intro i hi
    rw [h.opened i hi]; simp)]
  dsimp only
  have h1 : CSrvInv sec { s with now := s.wake sec } := ⟨h.nodup, h.opened, h.timed, h.fresh, h.listens⟩
  generalize hL : s.sockets.filter (({ s with now := s.wake sec } : CSrv).readableAt (s.wake sec)) = L
  have hsub : L.Sublist s.sockets := by rw [← hL]; exact List.filter_sublist
  obtain ⟨a, b⟩ := cSrvLoop_adv sec R db L { s with now := s.wake sec } h1 hsub
  refine ⟨?_, b⟩
  obtain ⟨new, e1, e2⟩ := a.log
  have ha := a.bound
  have hf := a.forward
  dsimp only at ha hf
  have hlen : (({ s with now := s.wake sec } : CSrv).clients L).length ≤ (s.clients s.sockets).length := (hsub.filter _).length_le
  have := Nat.mul_le_mul_right (65543 * sec) hlen
  refine ⟨a.sock, by omega, by omega, new, e1, fun e he => ?_⟩
  have := e2 e he
  dsimp only at this
  omega

theorem started_inv (sec : Nat) (heap : Heap) (coming : List (Nat × Option (List (Nat × CEvent)))) (now : Nat) : CSrvInv sec (CSrv.started heap coming now) :=
  ⟨by simp [CSrv.started], by simp [CSrv.started], fun i hi hl => by simp [CSrv.started] at hi hl; omega, by simp [CSrv.started], by simp [CSrv.started]⟩

theorem cSrvRounds_inv (sec : Nat) (R : Registry) (db : Databank) (n : Nat) (s s' : CSrv) (h : CSrvInv sec s) (hs : cSrvRounds sec R db n s = (.ok (), s')) :
    CSrvInv sec s' := by
  induction n generalizing s with
  | zero => cases hs; exact h
  | succ n ih =>
    unfold cSrvRounds at hs
    have := (cSrvRun_adv sec R db s h).2
    cases hr : cSrvRun sec R db s with
    | mk r s1 =>
      rw [hr] at hs this
      cases r with
      | error e => cases hs
      | ok u => exact ih s1 (this rfl) hs

/-- **C74.** A round of a TCP server - the reaction to a stop request included - lasts at most a second for waiting, and 65543 seconds for every
    client, whatever clients and hooks do. -/
theorem C74_round (sec : Nat) (R : Registry) (db : Databank) (heap : Heap) (coming : List (Nat × Option (List (Nat × CEvent)))) (now : Nat)
    (n : Nat) (s : CSrv) (hs : cSrvRounds sec R db n (CSrv.started heap coming now) = (.ok (), s)) :
    s.now ≤ (cSrvRun sec R db s).2.now ∧
    (cSrvRun sec R db s).2.now ≤ s.now + sec * (1 + 65543 * (s.sockets.filter fun i => s.sock ≠ some i).length) := by
  have h := cSrvRounds_inv sec R db n _ s (started_inv sec heap coming now) hs
  have ha := (cSrvRun_adv sec R db s h).1
  refine ⟨ha.forward, Nat.le_trans ha.bound (Nat.add_le_add_left (Nat.le_of_eq ?_) _)⟩
  unfold CSrv.clients
  rw [Nat.mul_add, Nat.mul_one, Nat.mul_left_comm, Nat.mul_comm _ sec, Nat.mul_left_comm]

/-! ## Serving a client -/

/-- the client does not break the connection -/
def CSock.Unbroken (k : CSock) : Prop := k.ended ≠ some .reset ∧ ∀ e ∈ k.future, e.2 ≠ .reset

theorem arrived_unbroken (now : Nat) : ∀ (ev : List (Nat × CEvent)) (s : CSock), s.ended ≠ some .reset → (∀ e ∈ ev, e.2 ≠ .reset) →
    (CSock.arrived now ev s).Unbroken
  | [], s, he, _ => ⟨he, by simp [CSock.arrived]⟩
  | (T, e) :: ev, s, he, h => by
    unfold CSock.arrived
    split
    · refine arrived_unbroken now ev _ ?_ (fun e' h' => h e' (List.mem_cons_of_mem _ h'))
      cases e with
      | data b bs => exact he
      | eof => simp [CSock.take]
      | reset => exact absurd rfl (h (T, .reset) (by simp))
    · exact ⟨he, h⟩

theorem at_unbroken (now : Nat) {s : CSock} (h : s.Unbroken) : (s.at now).Unbroken := arrived_unbroken now s.future s h.1 h.2

theorem ready_unbroken {n : Nat} {s : CSock} {r : Except PyErr Bytes × CSock} (h : s.ready n = some r) (hs : s.Unbroken) : r.2.Unbroken := by
  unfold CSock.ready at h
  split at h <;> cases h <;> exact hs

theorem cRecv_unbroken (n now : Nat) (s : CSock) (h : s.Unbroken) : (cRecv n (now, s)).2.2.Unbroken := by
  unfold cRecv
  dsimp only
  have ha := at_unbroken now h
  split
  · exact h
  · cases hr : (s.at now).ready n with
    | some r => exact ready_unbroken hr ha
    | none =>
      dsimp only
      split
      · exact ha
      · split
        · cases hr2 : ((s.at now).at _).ready n with
          | some r => exact ready_unbroken hr2 (at_unbroken _ ha)
          | none => exact ha
        · exact ha
      · exact ha
      · cases hr2 : ((s.at now).at _).ready n with
        | some r => exact ready_unbroken hr2 (at_unbroken _ ha)
        | none => exact ha
      · exact ha

/-- a healthy connection of a client with the time-out of a second -/
structure CSock.Fine (x : Nat) (s : CSock) : Prop where
  closed : s.closed = false
  connected : s.connected = true
  timeout : s.timeout = some x
  unbroken : s.Unbroken

theorem cReadLoop_prompt {x : Nat} (hx : 0 < x) (T : Nat) (target : Int) : ∀ (f : Bytes) (more fuel : Nat) (request : Bytes) (now : Nat) (s : CSock),
    target ≤ request.length + f.length → (f ≠ [] → target = request.length + f.length) → s.Fine x →
    f <+: comingBytes s.buf s.toCome → f.length < fuel → completeAt x now s.buf.length s.toCome (f.length + more) = some T →
    ∃ T1 s', cReadLoop target fuel request (now, s) = (.ok (request ++ f, true), (T1, s')) ∧
      comingBytes s.buf s.toCome = f ++ comingBytes s'.buf s'.toCome ∧ completeAt x T1 s'.buf.length s'.toCome more = some T ∧ s'.Fine x := by
  intro f
  induction f with
  | nil =>
    intro more fuel request now s h1 _ hf _ hfuel h
    match fuel with
    | 0 => simp at hfuel
    | fuel+1 =>
      rw [cReadLoop, if_neg (by simp at h1; omega)]
      exact ⟨now, s, by rw [List.append_nil]; rfl, rfl, by simpa using h, hf⟩
  | cons c f ih =>
    intro more fuel request now s h1 h2 hf hp hfuel h
    have ht := h2 (by simp)
    match fuel with
    | 0 => simp at hfuel
    | fuel+1 =>
      rw [List.length_cons, Nat.add_right_comm] at h
      obtain ⟨b, rest, now', s', e1, e2, e3, e4, e5, e6, e7⟩ := cRecv_next hx hf.closed hf.connected hf.timeout h
      rw [e1, List.cons_prefix_cons] at hp
      obtain ⟨rfl, hpf⟩ := hp
      have hu := cRecv_unbroken 1 now s hf.unbroken
      rw [e2] at hu
      rw [cReadLoop, if_pos (by simp only [List.length_cons] at ht; omega)]
      simp only [PyM.bind_apply, e2]
      rw [if_neg (by simp)]
      obtain ⟨T1, s'', g1, g2, g3, g4⟩ := ih more fuel (request ++ [c]) now' s' (by simp only [List.length_append, List.length_cons, List.length_nil] at h1 ⊢; omega)
        (fun _ => by simp only [List.length_append, List.length_cons, List.length_nil] at ht ⊢; omega) ⟨e5, e6, e7, hu⟩ (by rw [e3]; exact hpf)
        (by simpa using hfuel) e4
      refine ⟨T1, s'', by rw [g1]; simp, ?_, g3, g4⟩
      rw [e1, ← e3, g2]
      rfl

theorem cPeek_ready {now : Nat} {s : CSock} (hc : s.closed = false) (hk : s.connected = true) {b : UInt8} {bs : Bytes} (hb : (s.at now).buf = b :: bs) :
    cPeek (now, s) = (.ok [b], (now, s.at now)) := by
  unfold cPeek cRecv
  dsimp only
  rw [if_neg (by simp [hc, hk])]
  have : (s.at now).ready 1 = some (.ok [b], { s.at now with buf := bs }) := by simp [CSock.ready, hb]
  rw [this]
  dsimp only
  rw [show [b] ++ bs = (s.at now).buf from by rw [hb]; rfl]

theorem cSrvAnswer_spec {R : Registry} (hR : Quiet R) (db : Databank) (request : Bytes) (c : CConn) (x : Nat) (hf : c.sock.Fine x) :
    ∃ sent, cSrvAnswer R db request c = (.ok (), ⟨(answerTo R db request c.heap).2, c.id, c.now, { c.sock with sent := sent },
      c.log ++ (answerTo R db request c.heap).1.toList.map fun m => (c.now, c.id, m)⟩) := by
  unfold cSrvAnswer answerTo
  simp only [PyM.bind_apply, PyM.tryExcept_apply, CConn.onHeap]
  cases hx : serverHandle R tcpMac db request c.heap with
  | mk o h' =>
    dsimp only
    match o with
    | .error e => exact ⟨_, by simp; rfl⟩
    | .ok none => exact ⟨_, by simp; rfl⟩
    | .ok (some []) => exact ⟨_, by simp; rfl⟩
    | .ok (some (b :: bs)) =>
      dsimp only
      have hs : cSend (b :: bs) (c.now, c.sock) = (.ok (), (c.now, { c.sock with sent := c.sock.sent ++ [b :: bs] })) := by
        unfold cSend
        dsimp only
        rw [if_neg (by
          have := (at_unbroken c.now hf.unbroken).1
          simp [hf.closed, hf.connected, this])]
      simp only [cSrvSend, PyM.tryExcept_apply, PyM.bind_apply, PyM.lift_apply, hR _ _, Option.getD_none, CConn.onSock, hs, PyM.modify_apply]
      exact ⟨_, rfl⟩

/-- A client whose next request has begun to arrive, and arrives completely with gaps of less than a second, is answered at the moment when the
    request is complete. -/
theorem cSrvClient_frame {R : Registry} (hR : Quiet R) (db : Databank) {sec : Nat} (hx : 0 < sec) (c : CConn) (hc : c.sock.closed = false)
    (hk : c.sock.connected = true) (hu : c.sock.Unbroken) (hb : (c.sock.at c.now).buf ≠ []) (f : Bytes) (hf : ServerFrame f)
    (hp : f <+: comingBytes c.sock.buf c.sock.toCome) (T : Nat) (hT : completeAt sec c.now c.sock.buf.length c.sock.toCome f.length = some T) :
    ∃ k, cSrvClient sec R db c = (.ok false, ⟨(answerTo R db f c.heap).2, c.id, T, k,
        c.log ++ (answerTo R db f c.heap).1.toList.map fun m => (T, c.id, m)⟩) ∧
      comingBytes c.sock.buf c.sock.toCome = f ++ comingBytes k.buf k.toCome ∧ k.Fine sec := by
  cases hbuf : (c.sock.at c.now).buf with
  | nil => exact absurd hbuf hb
  | cons b bs =>
    unfold cSrvClient
    simp only [PyM.bind_apply, CConn.onSock, cPeek_ready hc hk hbuf]
    rw [if_neg (by simp)]
    simp only [PyM.bind_apply, PyM.modify_apply, PyM.lift_apply]
    have hkeep := at_keeps c.now c.sock
    have hat := at_complete sec c.now f.length hx c.sock
    rw [← hat.1] at hT
    rw [← hat.2] at hp
    rw [← hat.2]
    have hfine : CSock.Fine sec { c.sock.at c.now with timeout := some sec } :=
      ⟨hkeep.2.1.trans hc, hkeep.2.2.trans hk, rfl, at_unbroken _ hu⟩
    have h7 : 7 ≤ f.length := by unfold ServerFrame at hf; omega
    have hsplit : f = f.take 7 ++ f.drop 7 := (List.take_append_drop 7 f).symm
    have hl7 : (f.take 7).length = 7 := by rw [List.length_take]; omega
    obtain ⟨T1, s1, g1, g2, g3, g4⟩ := cReadLoop_prompt hx T 7 (f.take 7) (f.drop 7).length 8 [] c.now { c.sock.at c.now with timeout := some sec }
      (by rw [hl7]; simp) (fun _ => by rw [hl7]; simp) hfine ((List.take_prefix 7 f).trans hp) (by omega)
      (by rw [← List.length_append, List.take_append_drop]; exact hT)
    dsimp only at g1 g2
    simp only [CConn.onSock, g1, hR _ _, Option.getD_none, if_true, PyM.bind_apply, PyM.lift_apply, List.nil_append]
    rw [getRequestLength_ok (by omega)]
    simp only
    have hann : announced (f.take 7) = announced f := by
      conv => rhs; rw [hsplit]
      exact (announced_append (by omega) _).symm
    unfold ServerFrame at hf
    have hp2 : f.drop 7 <+: comingBytes s1.buf s1.toCome := by
      rw [show comingBytes (c.sock.at c.now).buf (c.sock.at c.now).toCome = _ from g2] at hp
      conv at hp => lhs; rw [hsplit]
      exact (List.prefix_append_right_inj _).mp hp
    have hn := announced_lt f
    have hdl : (f.drop 7).length = f.length - 7 := List.length_drop
    obtain ⟨T2, s2, k1, k2, k3, k4⟩ := cReadLoop_prompt hx T ((announced (f.take 7) : Int) + 6) (f.drop 7) 0 65543 (f.take 7) T1 s1
      (by rw [hann, hl7, hdl]; omega) (fun hne => by
        have : 0 < (f.drop 7).length := List.length_pos_of_ne_nil hne
        rw [hann, hl7, hdl]; omega) g4 hp2 (by omega) g3
    simp only [k1, List.take_append_drop, if_true, PyM.bind_apply]
    rw [completeAt_enough (Nat.zero_le _)] at k3
    cases k3
    obtain ⟨sent, ha⟩ := cSrvAnswer_spec hR db f ⟨c.heap, c.id, T, s2, c.log⟩ sec k4
    rw [ha]
    refine ⟨_, rfl, ?_, k4.closed, k4.connected, k4.timeout, k4.unbroken⟩
    rw [show comingBytes (c.sock.at c.now).buf (c.sock.at c.now).toCome = _ from g2, k2, ← List.append_assoc, List.take_append_drop]
    rfl

/-- while a connection was served, the requests `reqs` were handled -/
structure ConnPast (R : Registry) (db : Databank) (c c' : CConn) (reqs : List (Nat × Bytes)) : Prop where
  mine : ∀ r ∈ reqs, r.1 = c.id
  heap : c'.heap = (serveAll R db reqs c.heap).1
  log : ∃ new, c'.log = c.log ++ new ∧ (new.map Prod.snd).Sublist (serveAll R db reqs c.heap).2

theorem ConnPast.none {R : Registry} {db : Databank} {c c' : CConn} (hh : c'.heap = c.heap) (hl : c'.log = c.log) : ConnPast R db c c' [] :=
  ⟨by simp, hh, [], by simp [hl], by simp⟩

theorem cSrvSend_quiet {R : Registry} (hR : Quiet R) (r : Bytes) (c : CConn) :
    (cSrvSend R r c).1 = .ok () ∧ (cSrvSend R r c).2.heap = c.heap ∧
    ((cSrvSend R r c).2.log = c.log ∨ (cSrvSend R r c).2.log = c.log ++ [(c.now, c.id, r)]) := by
  unfold cSrvSend
  simp only [PyM.tryExcept_apply, PyM.bind_apply, PyM.lift_apply, hR _ _, Option.getD_none, CConn.onSock]
  by_cases h : c.sock.closed = true ∨ ¬ c.sock.connected = true ∨ (c.sock.at c.now).ended = some .reset
  · simp only [cSend, if_pos h]
    exact ⟨rfl, rfl, .inl rfl⟩
  · simp only [cSend, if_neg h, PyM.modify_apply]
    exact ⟨rfl, rfl, .inr rfl⟩

theorem cSrvAnswer_past {R : Registry} (hR : Quiet R) (db : Databank) (request : Bytes) (c : CConn) :
    (cSrvAnswer R db request c).1 = .ok () ∧ ConnPast R db c (cSrvAnswer R db request c).2 [(c.id, request)] := by
  unfold cSrvAnswer
  simp only [PyM.bind_apply, PyM.tryExcept_apply, CConn.onHeap]
  have hs : serveAll R db [(c.id, request)] c.heap = ((answerTo R db request c.heap).2, (answerTo R db request c.heap).1.toList.map fun m => (c.id, m)) := by
    simp [serveAll]
  cases hx : serverHandle R tcpMac db request c.heap with
  | mk o h' =>
    dsimp only
    have silent : ∀ o', serverHandle R tcpMac db request c.heap = (o', h') → (∀ b bs, o' ≠ .ok (some (b :: bs))) → ConnPast R db c { c with heap := h' } [(c.id, request)] := by
      intro o' ho hne
      refine ⟨by simp, ?_, [], by simp, by simp⟩
      rw [hs]
      unfold answerTo
      rw [ho]
      match o', hne with
      | .error e, _ => rfl
      | .ok none, _ => rfl
      | .ok (some []), _ => rfl
      | .ok (some (b :: bs)), hne => exact absurd rfl (hne b bs)
    match o with
    | .error e => exact ⟨rfl, silent _ hx (by simp)⟩
    | .ok none => exact ⟨rfl, silent _ hx (by simp)⟩
    | .ok (some []) => exact ⟨rfl, silent _ hx (by simp)⟩
    | .ok (some (b :: bs)) =>
      dsimp only
      have h := cSrvSend_quiet hR (b :: bs) { c with heap := h' }
      have ha : answerTo R db request c.heap = (some (b :: bs), h') := by unfold answerTo; rw [hx]
      refine ⟨h.1, by simp, by rw [h.2.1, hs, ha], ?_⟩
      rw [hs, ha]
      rcases h.2.2 with h2 | h2
      · exact ⟨[], by rw [h2]; simp, by simp⟩
      · exact ⟨_, h2, by simp⟩

theorem cSrvClient_past {R : Registry} (hR : Quiet R) (sec : Nat) (db : Databank) (c : CConn) : ∃ reqs, ConnPast R db c (cSrvClient sec R db c).2 reqs := by
  unfold cSrvClient
  simp only [PyM.bind_apply, CConn.onSock]
  cases cPeek (c.now, c.sock) with
  | mk r q =>
    cases r with
    | error e => exact ⟨[], .none rfl rfl⟩
    | ok x =>
      dsimp only
      by_cases hx : x.length = 0
      · rw [if_pos hx]
        simp only [PyM.bind_apply, PyM.lift_apply, hR _ _]
        exact ⟨[], .none rfl rfl⟩
      · rw [if_neg hx]
        simp only [PyM.bind_apply, PyM.modify_apply, CConn.onSock, PyM.lift_apply, hR _ _, Option.getD_none]
        cases cReadLoop 7 8 [] (q.1, { q.2 with timeout := some sec }) with
        | mk r p =>
          cases r with
          | error e => exact ⟨[], .none rfl rfl⟩
          | ok y =>
            obtain ⟨request, isOk⟩ := y
            dsimp only
            cases isOk with
            | false => exact ⟨[], .none rfl rfl⟩
            | true =>
              simp only [if_true, PyM.bind_apply, PyM.lift_apply]
              cases getRequestLength request with
              | error e => exact ⟨[], .none rfl rfl⟩
              | ok length =>
                dsimp only [CConn.onSock]
                cases cReadLoop (length + 6) 65543 request (p.1, p.2) with
                | mk r p2 =>
                  cases r with
                  | error e => exact ⟨[], .none rfl rfl⟩
                  | ok z =>
                    obtain ⟨request2, isOk2⟩ := z
                    dsimp only
                    cases isOk2 with
                    | false => exact ⟨[], .none rfl rfl⟩
                    | true =>
                      simp only [if_true, PyM.bind_apply]
                      obtain ⟨h1, h2⟩ := cSrvAnswer_past hR db request2 ⟨c.heap, c.id, p2.1, p2.2, c.log⟩
                      cases ha : cSrvAnswer R db request2 ⟨c.heap, c.id, p2.1, p2.2, c.log⟩ with
                      | mk r c5 =>
                        rw [ha] at h1 h2
                        cases h1
                        exact ⟨_, h2.mine, h2.heap, h2.log⟩

/-! ## Every client is served -/

/-- what was sent on a connection -/
def sentOn (i : Nat) (log : List (Nat × Nat × Bytes)) : List Bytes := (log.filter fun e => e.2.1 = i).map fun e => e.2.2

theorem sentOn_append (i : Nat) (a b : List (Nat × Nat × Bytes)) : sentOn i (a ++ b) = sentOn i a ++ sentOn i b := by simp [sentOn]

/-- The server between two moments: the requests `reqs` (with their connections) were handled one after the other, in this order; the
    responses to those of connection `i` were sent, and only those. -/
structure SrvPast (R : Registry) (db : Databank) (i : Nat) (s s' : CSrv) (reqs : List (Nat × Bytes)) : Prop where
  heap : s'.heap = (serveAll R db reqs s.heap).1
  sent : sentOn i s'.log = sentOn i s.log ++ ofConn i (serveAll R db reqs s.heap).2

theorem SrvPast.trans {R : Registry} {db : Databank} {i : Nat} {a b c : CSrv} {r1 r2 : List (Nat × Bytes)} (h : SrvPast R db i a b r1)
    (h' : SrvPast R db i b c r2) : SrvPast R db i a c (r1 ++ r2) := by
  refine ⟨?_, ?_⟩
  · rw [h'.heap, h.heap, serveAll_append]
  · rw [h'.sent, h.sent, serveAll_append, h.heap, ofConn_append, List.append_assoc]

theorem SrvPast.same {R : Registry} {db : Databank} {i : Nat} {s s' : CSrv} (hh : s'.heap = s.heap) (hl : s'.log = s.log) : SrvPast R db i s s' [] :=
  ⟨hh, by rw [hl]; simp [serveAll, ofConn]⟩

theorem serveAll_ids (R : Registry) (db : Databank) : ∀ (reqs : List (Nat × Bytes)) (h : Heap) (e : Nat × Bytes), e ∈ (serveAll R db reqs h).2 →
    ∃ r ∈ reqs, r.1 = e.1
  | [], _, e, he => by simp [serveAll] at he
  | (i, f) :: reqs, h, e, he => by
    simp only [serveAll, List.mem_append, List.mem_map] at he
    rcases he with ⟨m, _, rfl⟩ | he
    · exact ⟨(i, f), by simp, rfl⟩
    · obtain ⟨r, h1, h2⟩ := serveAll_ids R db reqs _ e he
      exact ⟨r, by simp [h1], h2⟩

theorem ofConn_others {i j : Nat} (hij : i ≠ j) {reqs : List (Nat × Bytes)} (h : ∀ r ∈ reqs, r.1 = j) : ofConn i reqs = [] := by
  unfold ofConn
  rw [List.filter_eq_nil_iff.mpr]
  · rfl
  · intro r hr
    have := h r hr
    simp only [decide_eq_true_eq]
    omega

theorem serveAll_others (R : Registry) (db : Databank) {i j : Nat} (hij : i ≠ j) {reqs : List (Nat × Bytes)} (h : ∀ r ∈ reqs, r.1 = j) (hp : Heap) :
    ofConn i (serveAll R db reqs hp).2 = [] := by
  refine ofConn_others (j := j) hij (fun e he => ?_)
  obtain ⟨r, h1, h2⟩ := serveAll_ids R db reqs hp e he
  rw [← h2]; exact h r h1

/-- with quiet hooks the server goes on, whatever a socket brings -/
theorem cSrvStep_quiet {R : Registry} (hR : Quiet R) {sec : Nat} (db : Databank) {s : CSrv} (h : CSrvInv sec s) {j : Nat} (hj : j ∈ s.sockets) :
    ∃ b s' reqs, cSrvStep sec R db j s = (.ok b, s') ∧ StepAdv sec s j (.ok b) s' ∧ (∀ r ∈ reqs, r.1 = j) ∧
      (∀ i, i ≠ j → SrvPast R db i s s' reqs) ∧ (s.sock = some j → b = false) := by
  obtain ⟨r, s', he, ha⟩ := cSrvStep_adv sec R db s h j hj
  have hother : ∀ reqs, (∀ r ∈ reqs, r.1 = j) → s'.heap = (serveAll R db reqs s.heap).1 → ∀ i, i ≠ j → SrvPast R db i s s' reqs := by
    intro reqs h1 h2 i hij
    refine ⟨h2, ?_⟩
    rw [serveAll_others R db hij h1, List.append_nil]
    obtain ⟨new, e1, e2⟩ := ha.log
    rw [e1, sentOn_append]
    have : sentOn i new = [] := by
      unfold sentOn
      rw [List.filter_eq_nil_iff.mpr]
      · rfl
      · intro e he
        have := (e2 e he).2.2
        simp only [decide_eq_true_eq]
        omega
    rw [this, List.append_nil]
  have key : (∃ b, r = .ok b ∧ (s.sock = some j → b = false)) ∧ ∃ reqs, (∀ r ∈ reqs, r.1 = j) ∧ s'.heap = (serveAll R db reqs s.heap).1 := by
    unfold cSrvStep cSrvOne at he
    simp only [hR _ _] at he
    have drop : ∀ s1 : CSrv, j ∈ s1.sockets → ∃ s2, cSrvDrop j s1 = (.ok (), s2) ∧ s2.heap = s1.heap := fun s1 hm => ⟨_, cSrvDrop_mem hm, rfl⟩
    by_cases hl : s.sock = some j
    · rw [if_pos hl] at he
      unfold cSrvAccept at he
      simp only [hR _ _] at he
      cases hcm : s.coming with
      | nil =>
        rw [hcm] at he
        obtain ⟨s2, d1, d2⟩ := drop s hj
        simp only [d1] at he
        cases he
        exact ⟨⟨_, rfl, fun _ => rfl⟩, [], by simp, d2⟩
      | cons x rest =>
        obtain ⟨T, c⟩ := x
        rw [hcm] at he
        dsimp only at he
        by_cases hT : s.now < T
        · rw [if_pos hT] at he
          obtain ⟨s2, d1, d2⟩ := drop s hj
          simp only [d1] at he
          cases he
          exact ⟨⟨_, rfl, fun _ => rfl⟩, [], by simp, d2⟩
        · rw [if_neg hT] at he
          cases c with
          | none =>
            obtain ⟨s2, d1, d2⟩ := drop { s with coming := rest } hj
            simp only [d1] at he
            cases he
            exact ⟨⟨_, rfl, fun _ => rfl⟩, [], by simp, d2⟩
          | some future =>
            cases he
            exact ⟨⟨_, rfl, fun _ => rfl⟩, [], by simp, rfl⟩
    · rw [if_neg hl] at he
      obtain ⟨reqs, hp⟩ := cSrvClient_past hR sec db ⟨s.heap, j, s.now, s.socks j, s.log⟩
      cases hc : cSrvClient sec R db ⟨s.heap, j, s.now, s.socks j, s.log⟩ with
      | mk r1 c =>
        rw [hc] at he hp
        obtain ⟨s2, d1, d2⟩ := drop (s.served j c) hj
        cases r1 with
        | error e =>
          simp only [d1] at he
          cases he
          exact ⟨⟨_, rfl, fun h => absurd h hl⟩, reqs, hp.mine, d2.trans hp.heap⟩
        | ok b =>
          cases b with
          | true =>
            simp only [if_true, d1] at he
            cases he
            exact ⟨⟨_, rfl, fun h => absurd h hl⟩, reqs, hp.mine, d2.trans hp.heap⟩
          | false =>
            cases he
            exact ⟨⟨_, rfl, fun h => absurd h hl⟩, reqs, hp.mine, hp.heap⟩
  obtain ⟨⟨b, rfl, hb⟩, reqs, h1, h2⟩ := key
  exact ⟨b, s', reqs, he, ha, h1, hother reqs h1 h2, hb⟩

/-- a client whose connection is alive and whose next request `f` has arrived -/
structure ReqHere (i : Nat) (f : Bytes) (s : CSrv) : Prop where
  client : s.sock ≠ some i
  connected : (s.socks i).connected = true
  unbroken : (s.socks i).Unbroken
  frame : ServerFrame f
  here : f <+: ((s.socks i).at s.now).buf

theorem arrived_prefix (now : Nat) : ∀ (ev : List (Nat × CEvent)) (s : CSock), s.buf <+: (CSock.arrived now ev s).buf
  | [], _ => List.prefix_refl _
  | (T, e) :: ev, s => by
    unfold CSock.arrived
    split
    · refine List.IsPrefix.trans ?_ (arrived_prefix now ev _)
      cases e with
      | data b bs => exact List.prefix_append _ _
      | eof => exact List.prefix_refl _
      | reset => exact List.prefix_refl _
    · exact List.prefix_refl _

theorem arrived_mono {now now' : Nat} (hn : now ≤ now') : ∀ (ev : List (Nat × CEvent)) (s : CSock),
    (CSock.arrived now ev s).buf <+: (CSock.arrived now' ev s).buf
  | [], _ => List.prefix_refl _
  | (T, e) :: ev, s => by
    unfold CSock.arrived
    by_cases h : T ≤ now ∧ s.ended = none
    · rw [if_pos h, if_pos ⟨by omega, h.2⟩]
      exact arrived_mono hn ev _
    · rw [if_neg h]
      have := arrived_prefix now' ((T, e) :: ev) s
      unfold CSock.arrived at this
      exact this

theorem ReqHere.later {i : Nat} {f : Bytes} {s s' : CSrv} (h : ReqHere i f s) (hs : s'.sock = s.sock) (hk : s'.socks i = s.socks i) (hn : s.now ≤ s'.now) :
    ReqHere i f s' := by
  refine ⟨by rw [hs]; exact h.client, by rw [hk]; exact h.connected, by rw [hk]; exact h.unbroken, h.frame, ?_⟩
  rw [hk]
  exact h.here.trans (arrived_mono hn _ _)

/-- what arrives on a connection and has not been read yet -/
def CSock.unread (k : CSock) : Bytes := comingBytes k.buf k.toCome

theorem comingBytes_prefix : ∀ (ev : List (Nat × CEvent)) (buf : Bytes), buf <+: comingBytes buf ev
  | [], _ => List.prefix_refl _
  | (T, e) :: ev, buf => by
    cases e with
    | data b bs => exact (List.prefix_append _ _).trans (comingBytes_prefix ev _)
    | eof => exact List.prefix_refl _
    | reset => exact List.prefix_refl _

/-- a waiting client is served at once when its turn comes -/
theorem cSrvStep_waiting {R : Registry} (hR : Quiet R) {sec : Nat} (hx : 0 < sec) (db : Databank) {s : CSrv} (h : CSrvInv sec s) {i : Nat} (hi : i ∈ s.sockets)
    {f : Bytes} (hw : ReqHere i f s) :
    ∃ s', cSrvStep sec R db i s = (.ok false, s') ∧ StepAdv sec s i (.ok false) s' ∧ SrvPast R db i s s' [(i, f)] ∧ s'.now = s.now ∧ s'.sockets = s.sockets ∧
      (s.socks i).unread = f ++ (s'.socks i).unread ∧ s'.log = s.log ++ (answerTo R db f s.heap).1.toList.map fun m => (s.now, i, m) := by
  have h7 : 7 ≤ f.length := by have := hw.frame; unfold ServerFrame at this; omega
  have hne : ((s.socks i).at s.now).buf ≠ [] := by
    intro he
    have := hw.here
    rw [he] at this
    have := List.prefix_nil.mp this
    rw [this] at h7
    simp at h7
  have hat := at_complete sec s.now f.length hx (s.socks i)
  obtain ⟨k, e1, e2, e3⟩ := cSrvClient_frame hR db hx ⟨s.heap, i, s.now, s.socks i, s.log⟩ (h.opened i hi) hw.connected hw.unbroken hne f hw.frame
    (by dsimp only; rw [← hat.2]; exact hw.here.trans (comingBytes_prefix _ _)) s.now
    (by dsimp only; rw [← hat.1]; exact completeAt_enough hw.here.length_le)
  obtain ⟨r, s', g1, g2⟩ := cSrvStep_adv sec R db s h i hi
  have hstep : cSrvStep sec R db i s = (.ok false, s.served i ⟨(answerTo R db f s.heap).2, i, s.now, k,
      s.log ++ (answerTo R db f s.heap).1.toList.map fun m => (s.now, i, m)⟩) := by
    unfold cSrvStep cSrvOne
    rw [if_neg hw.client, e1]
    rfl
  rw [hstep] at g1
  cases g1
  refine ⟨_, hstep, g2, ⟨?_, ?_⟩, rfl, rfl, ?_, rfl⟩
  · simp [serveAll, CSrv.served]
  · show sentOn i (s.log ++ _) = _
    rw [sentOn_append]
    congr 1
    simp only [serveAll, List.append_nil]
    cases (answerTo R db f s.heap).1 <;> simp [sentOn, ofConn]
  · show _ = f ++ ((s.put i k).socks i).unread
    simp only [CSrv.put, if_true]
    exact e2

theorem idxOf_erase_le {i j : Nat} (hij : i ≠ j) : ∀ l : List Nat, (l.erase j).idxOf i ≤ l.idxOf i
  | [] => by simp
  | a :: l => by
    by_cases ha : a = j
    · subst ha
      rw [List.erase_cons_head, List.idxOf_cons_ne _ (Ne.symm hij)]
      omega
    · rw [List.erase_cons_tail (by simpa using ha)]
      by_cases hi : a = i
      · subst hi; simp
      · rw [List.idxOf_cons_ne _ hi, List.idxOf_cons_ne _ hi]
        have := idxOf_erase_le hij l
        omega

theorem idxOf_erase_lt {i j : Nat} {L : List Nat} (hiL : i ∈ L) : ∀ l : List Nat, (j :: L).Sublist l → l.Nodup → (l.erase j).idxOf i < l.idxOf i
  | [], hs, _ => by cases hs
  | a :: l, hs, hn => by
    have hn' := List.nodup_cons.mp hn
    by_cases ha : a = j
    · subst ha
      have hil : i ∈ l := (List.cons_sublist_cons.mp hs).subset hiL
      have hne : a ≠ i := fun h => hn'.1 (h ▸ hil)
      rw [List.erase_cons_head, List.idxOf_cons_ne _ hne]
      omega
    · rw [List.erase_cons_tail (by simpa using ha)]
      have hs' : (j :: L).Sublist l := by
        cases hs with
        | cons _ h => exact h
        | cons_cons _ h => exact absurd rfl ha
      have hne : a ≠ i := fun h => hn'.1 (h ▸ hs'.subset (List.mem_cons_of_mem _ hiL))
      rw [List.idxOf_cons_ne _ hne, List.idxOf_cons_ne _ hne]
      have := idxOf_erase_lt hiL l hs' hn'.2
      omega

/-- the position of a watched socket never grows -/
theorem StepAdv.position {sec : Nat} {s s' : CSrv} {j : Nat} {r : Except PyErr Bool} (h : StepAdv sec s j r s') {i : Nat} (hij : i ≠ j) (hi : i ∈ s.sockets) :
    i ∈ s'.sockets ∧ s'.sockets.idxOf i ≤ s.sockets.idxOf i := by
  obtain ⟨base, hb, hs⟩ := h.sockets
  have hbase : i ∈ base ∧ base.idxOf i = s.sockets.idxOf i := by
    rcases hb with rfl | ⟨_, rfl⟩
    · exact ⟨hi, rfl⟩
    · exact ⟨List.mem_append_left _ hi, List.idxOf_append_of_mem hi⟩
  rcases hs with hs | hs
  · rw [hs, hbase.2]; exact ⟨hbase.1, Nat.le_refl _⟩
  · rw [hs]
    exact ⟨(List.mem_erase_of_ne hij).mpr hbase.1, by rw [← hbase.2]; exact idxOf_erase_le hij base⟩

/-- connection `i` has been served: exactly its request `f` was handled and answered, and what follows is still to be read -/
structure Answered (R : Registry) (db : Databank) (i : Nat) (f : Bytes) (s s' : CSrv) (reqs : List (Nat × Bytes)) : Prop where
  past : SrvPast R db i s s' reqs
  once : ofConn i reqs = [f]
  unread : (s.socks i).unread = f ++ (s'.socks i).unread
  member : i ∈ s'.sockets

theorem cSrvLoop_quiet {R : Registry} (hR : Quiet R) {sec : Nat} (db : Databank) (i : Nat) : ∀ (L : List Nat) (s : CSrv),
    CSrvInv sec s → L.Sublist s.sockets → i ∉ L → i ∈ s.sockets →
    ∃ s' reqs, cSrvLoop sec R db L s = (.ok (), s') ∧ CSrvInv sec s' ∧ SrvPast R db i s s' reqs ∧ ofConn i reqs = [] ∧ s'.socks i = s.socks i ∧ i ∈ s'.sockets
  | [], s, h, _, _, hi => ⟨s, [], rfl, h, .same rfl rfl, rfl, rfl, hi⟩
  | j :: L, s, h, hL, hiL, hi => by
    have hij : i ≠ j := fun e => hiL (by simp [e])
    obtain ⟨b, s1, reqs, e1, ha, hm, hp, _⟩ := cSrvStep_quiet hR db h (hL.subset (by simp : j ∈ j :: L))
    have hk := ha.others i hij (h.fresh i hi)
    have hpos := ha.position hij hi
    rw [cSrvLoop_cons, e1]
    cases b with
    | true => exact ⟨s1, reqs, rfl, ha.inv ⟨_, rfl⟩, hp i hij, ofConn_others hij hm, hk, hpos.1⟩
    | false =>
      dsimp only
      obtain ⟨s', reqs', g1, g2, g3, g4, g5, g6⟩ := cSrvLoop_quiet hR db i L s1 (ha.inv ⟨_, rfl⟩) (ha.rest hL) (fun hh => hiL (by simp [hh])) hpos.1
      exact ⟨s', reqs ++ reqs', g1, g2, (hp i hij).trans g3, by rw [ofConn_append, ofConn_others hij hm, g4]; rfl, g5.trans hk, g6⟩

theorem cSrvLoop_waiting {R : Registry} (hR : Quiet R) {sec : Nat} (hx : 0 < sec) (db : Databank) (i : Nat) (f : Bytes) : ∀ (L : List Nat) (s : CSrv),
    CSrvInv sec s → L.Sublist s.sockets → i ∈ L → ReqHere i f s →
    ∃ s' reqs, cSrvLoop sec R db L s = (.ok (), s') ∧ CSrvInv sec s' ∧
      (Answered R db i f s s' reqs ∨
       (SrvPast R db i s s' reqs ∧ ofConn i reqs = [] ∧ s'.socks i = s.socks i ∧ i ∈ s'.sockets ∧ s'.sockets.idxOf i < s.sockets.idxOf i))
  | [], s, _, _, hi, _ => by cases hi
  | j :: L, s, h, hL, hiL, hw => by
    have hnd := hL.nodup h.nodup
    have hi : i ∈ s.sockets := hL.subset hiL
    rw [cSrvLoop_cons]
    by_cases hij : i = j
    · subst hij
      obtain ⟨s1, e1, ha, hp, _, hs, hun, _⟩ := cSrvStep_waiting hR hx db h hi hw
      rw [e1]
      dsimp only
      obtain ⟨s', reqs', g1, g2, g3, g4, g5, g6⟩ := cSrvLoop_quiet hR db i L s1 (ha.inv ⟨_, rfl⟩) (ha.rest hL) (List.nodup_cons.mp hnd).1 (by rw [hs]; exact hi)
      refine ⟨s', (i, f) :: reqs', g1, g2, .inl ⟨hp.trans g3, ?_, ?_, g6⟩⟩
      · rw [show (i, f) :: reqs' = [(i, f)] ++ reqs' from rfl, ofConn_append, g4]; simp [ofConn]
      · rw [hun, g5]
    · have hiL' : i ∈ L := by
        rcases List.mem_cons.mp hiL with h | h
        · exact absurd h hij
        · exact h
      obtain ⟨b, s1, reqs, e1, ha, hm, hp, _⟩ := cSrvStep_quiet hR db h (hL.subset (by simp : j ∈ j :: L))
      have hk := ha.others i hij (h.fresh i hi)
      have hpos := ha.position hij hi
      rw [e1]
      cases b with
      | true =>
        refine ⟨s1, reqs, rfl, ha.inv ⟨_, rfl⟩, .inr ⟨hp i hij, ofConn_others hij hm, hk, hpos.1, ?_⟩⟩
        rw [ha.brk rfl]
        exact idxOf_erase_lt hiL' s.sockets hL h.nodup
      | false =>
        dsimp only
        obtain ⟨s', reqs', g1, g2, g3⟩ := cSrvLoop_waiting hR hx db i f L s1 (ha.inv ⟨_, rfl⟩) (ha.rest hL) hiL' (hw.later ha.sock hk ha.forward)
        refine ⟨s', reqs ++ reqs', g1, g2, ?_⟩
        rcases g3 with g3 | ⟨p1, p2, p3, p4, p5⟩
        · exact .inl ⟨(hp i hij).trans g3.past, by rw [ofConn_append, ofConn_others hij hm, g3.once]; rfl, by rw [← hk]; exact g3.unread, g3.member⟩
        · exact .inr ⟨(hp i hij).trans p1, by rw [ofConn_append, ofConn_others hij hm, p2]; rfl, p3.trans hk, p4, by omega⟩

theorem ReqHere.ready {i : Nat} {f : Bytes} {s : CSrv} (h : ReqHere i f s) : s.readableAt s.now i = true := by
  unfold CSrv.readableAt
  rw [if_neg h.client, ready_isSome]
  left
  intro he
  have h1 := h.here
  rw [he] at h1
  have h2 := List.prefix_nil.mp h1
  have := h.frame
  unfold ServerFrame at this
  rw [h2] at this
  simp at this
  omega

theorem cSrvRun_waiting {R : Registry} (hR : Quiet R) {sec : Nat} (hx : 0 < sec) (db : Databank) (i : Nat) (f : Bytes) (s : CSrv)
    (h : CSrvInv sec s) (hi : i ∈ s.sockets) (hw : ReqHere i f s) :
    ∃ s' reqs, cSrvRun sec R db s = (.ok (), s') ∧ CSrvInv sec s' ∧
      (Answered R db i f s s' reqs ∨
       (SrvPast R db i s s' reqs ∧ ofConn i reqs = [] ∧ s'.socks i = s.socks i ∧ i ∈ s'.sockets ∧ s'.sockets.idxOf i < s.sockets.idxOf i)) := by
  have hr := hw.ready
  have hwake : s.wake sec = s.now := (wake_bound sec s).2.2 (List.any_eq_true.mpr ⟨i, hi, hr⟩)
  unfold cSrvRun
  rw [if_neg (by
    simp only [List.any_eq_true, not_exists, not_and]
    intro i hi
    rw [h.opened i hi]; simp)]
  rw [hwake]
  exact cSrvLoop_waiting hR hx db i f _ s h List.filter_sublist (List.mem_filter.mpr ⟨hi, hr⟩) hw

theorem served_within (R : Registry) (hR : Quiet R) (sec : Nat) (hx : 0 < sec) (db : Databank) (i : Nat) (f : Bytes) (s : CSrv)
    (h : CSrvInv sec s) (hi : i ∈ s.sockets) (hw : ReqHere i f s) :
    ∃ n, n ≤ s.sockets.idxOf i ∧ ∃ s' reqs, cSrvRounds sec R db (n + 1) s = (.ok (), s') ∧ Answered R db i f s s' reqs := by
  generalize hN : s.sockets.idxOf i = N
  induction N using Nat.strongRecOn generalizing s with
  | ind N ih =>
    obtain ⟨s1, reqs, e1, hi1, hc⟩ := cSrvRun_waiting hR hx db i f s h hi hw
    have hadv := (cSrvRun_adv sec R db s h).1
    rw [e1] at hadv
    rcases hc with hc | ⟨p1, p2, p3, p4, p5⟩
    · refine ⟨0, Nat.zero_le _, s1, reqs, ?_, hc⟩
      simp only [cSrvRounds, e1]
    · obtain ⟨n, hn, s', reqs', g1, g2⟩ := ih _ (by omega) s1 hi1 p4 (hw.later hadv.sock p3 hadv.forward) rfl
      refine ⟨n + 1, by omega, s', reqs ++ reqs', ?_, p1.trans g2.past, by rw [ofConn_append, p2, g2.once]; rfl, by rw [← p3]; exact g2.unread, g2.member⟩
      rw [cSrvRounds]
      dsimp only
      rw [e1]
      exact g1

/-- **C74.** Nobody starves: a client whose request has arrived is served within as many rounds as sockets are watched before its own, plus one,
    whatever the other clients do - slow, broken and malicious ones included. -/
theorem C74_served (R : Registry) (hR : Quiet R) (sec : Nat) (hx : 0 < sec) (db : Databank) (heap : Heap)
    (coming : List (Nat × Option (List (Nat × CEvent)))) (now m : Nat) (s : CSrv)
    (hs : cSrvRounds sec R db m (CSrv.started heap coming now) = (.ok (), s)) (i : Nat) (f : Bytes) (hi : i ∈ s.sockets) (hw : ReqHere i f s) :
    ∃ n, n ≤ s.sockets.idxOf i ∧ ∃ s' reqs, cSrvRounds sec R db (n + 1) s = (.ok (), s') ∧ Answered R db i f s s' reqs :=
  served_within R hR sec hx db i f s (cSrvRounds_inv sec R db m _ s (started_inv sec heap coming now) hs) hi hw

theorem cSrvLoop_prompt {R : Registry} (hR : Quiet R) {sec : Nat} (hx : 0 < sec) (db : Databank) (fr : Nat → Bytes) : ∀ (L : List Nat) (s : CSrv),
    CSrvInv sec s → L.Sublist s.sockets → (∀ j ∈ L, s.sock ≠ some j → ReqHere j (fr j) s) →
    ∃ s' reqs, cSrvLoop sec R db L s = (.ok (), s') ∧ s'.now = s.now ∧
      (∀ j ∈ L, s.sock ≠ some j → Answered R db j (fr j) s s' reqs) ∧
      (∀ j ∈ s.sockets, j ∉ L → SrvPast R db j s s' reqs ∧ ofConn j reqs = [] ∧ s'.socks j = s.socks j ∧ j ∈ s'.sockets)
  | [], s, _, _, _ => ⟨s, [], rfl, rfl, by simp, fun j hj _ => ⟨.same rfl rfl, rfl, rfl, hj⟩⟩
  | j :: L, s, h, hL, hw => by
    have hnd := List.nodup_cons.mp (hL.nodup h.nodup)
    have hj : j ∈ s.sockets := hL.subset (by simp)
    rw [cSrvLoop_cons]
    have main : ∀ s1 reqs, cSrvStep sec R db j s = (.ok false, s1) → StepAdv sec s j (.ok false) s1 → (∀ r ∈ reqs, r.1 = j) →
        (∀ i, i ≠ j → SrvPast R db i s s1 reqs) → s1.now = s.now → (s.sock ≠ some j → Answered R db j (fr j) s s1 reqs) →
        ∃ s' reqs', cSrvLoop sec R db L s1 = (.ok (), s') ∧ s'.now = s.now ∧
          (∀ j' ∈ j :: L, s.sock ≠ some j' → Answered R db j' (fr j') s s' (reqs ++ reqs')) ∧
          (∀ j' ∈ s.sockets, j' ∉ j :: L → SrvPast R db j' s s' (reqs ++ reqs') ∧ ofConn j' (reqs ++ reqs') = [] ∧ s'.socks j' = s.socks j' ∧ j' ∈ s'.sockets) := by
      intro s1 reqs e1 ha hm hp hn hans
      have hpre : ∀ i, i ≠ j → i ∈ s.sockets → s1.socks i = s.socks i ∧ i ∈ s1.sockets := fun i hij hi => ⟨ha.others i hij (h.fresh i hi), (ha.position hij hi).1⟩
      obtain ⟨s', reqs', g1, g2, g3, g4⟩ := cSrvLoop_prompt hR hx db fr L s1 (ha.inv ⟨_, rfl⟩) (ha.rest hL) (fun i hi hl => by
        have hij : i ≠ j := fun e => hnd.1 (e ▸ hi)
        rw [ha.sock] at hl
        exact (hw i (List.mem_cons_of_mem _ hi) hl).later ha.sock (hpre i hij (hL.subset (List.mem_cons_of_mem _ hi))).1 ha.forward)
      refine ⟨s', reqs', g1, g2.trans hn, fun i hi hl => ?_, fun i hi hn => ?_⟩
      · by_cases hij : i = j
        · subst hij
          have ha1 := hans hl
          obtain ⟨q1, q2, q3, q4⟩ := g4 i ha1.member hnd.1
          exact ⟨ha1.past.trans q1, by rw [ofConn_append, ha1.once, q2]; rfl, by rw [ha1.unread, q3], q4⟩
        · have hiL : i ∈ L := by
            rcases List.mem_cons.mp hi with h | h
            · exact absurd h hij
            · exact h
          have ha1 := g3 i hiL (by rw [ha.sock]; exact hl)
          exact ⟨(hp i hij).trans ha1.past, by rw [ofConn_append, ofConn_others hij hm, ha1.once]; rfl,
            by rw [← (hpre i hij (hL.subset hi)).1]; exact ha1.unread, ha1.member⟩
      · have hij : i ≠ j := fun e => hn (by simp [e])
        obtain ⟨q1, q2, q3, q4⟩ := g4 i (hpre i hij hi).2 (fun hh => hn (List.mem_cons_of_mem _ hh))
        exact ⟨(hp i hij).trans q1, by rw [ofConn_append, ofConn_others hij hm, q2]; rfl, q3.trans (hpre i hij hi).1, q4⟩
    by_cases hl : s.sock = some j
    · obtain ⟨b, s1, reqs, e1, ha, hm, hp, hb⟩ := cSrvStep_quiet hR db h hj
      have hbf := hb hl
      subst hbf
      have hbound := ha.bound
      have hfw := ha.forward
      rw [if_pos hl] at hbound
      obtain ⟨s', reqs', q⟩ := main s1 reqs e1 ha hm hp (by omega) (fun h => absurd hl h)
      rw [e1]
      exact ⟨s', reqs ++ reqs', q⟩
    · obtain ⟨s1, e1, ha, hp, hnow, hss, hun, _⟩ := cSrvStep_waiting hR hx db h hj (hw j (by simp) hl)
      obtain ⟨b, s1', reqs, e1', _, hm, hp', _⟩ := cSrvStep_quiet hR db h hj
      rw [e1] at e1'
      cases e1'
      have hothers : ∀ i, i ≠ j → SrvPast R db i s s1 [(j, fr j)] := by
        intro i hij
        refine ⟨hp.heap, ?_⟩
        rw [serveAll_others R db hij (by simp : ∀ r ∈ [(j, fr j)], r.1 = j), (hp' i hij).sent, serveAll_others R db hij hm]
      obtain ⟨s', reqs', q⟩ := main s1 [(j, fr j)] e1 ha (by simp) hothers hnow
        (fun _ => ⟨hp, by simp [ofConn], hun, by rw [hss]; exact hj⟩)
      rw [e1]
      exact ⟨s', _, q⟩

/-- **C74.** Clients that send whole requests are answered at once: if at the moment `select` returns the next request of every readable client is
    complete, the round takes no more time, and every such client gets its answer in this round. -/
theorem C74_prompt (R : Registry) (hR : Quiet R) (sec : Nat) (hx : 0 < sec) (db : Databank) (heap : Heap)
    (coming : List (Nat × Option (List (Nat × CEvent)))) (now m : Nat) (s : CSrv)
    (hs : cSrvRounds sec R db m (CSrv.started heap coming now) = (.ok (), s)) (W : Nat) (hW : W = s.wake sec) (fr : Nat → Bytes)
    (hw : ∀ j ∈ s.sockets, s.sock ≠ some j → ({ s with now := W } : CSrv).readableAt W j = true → ReqHere j (fr j) { s with now := W }) :
    W ≤ s.now + sec ∧ ∃ s' reqs, cSrvRun sec R db s = (.ok (), s') ∧ s'.now = W ∧
      ∀ j ∈ s.sockets, s.sock ≠ some j → ({ s with now := W } : CSrv).readableAt W j = true → Answered R db j (fr j) { s with now := W } s' reqs := by
  have h := cSrvRounds_inv sec R db m _ s (started_inv sec heap coming now) hs
  refine ⟨by rw [hW]; exact (wake_bound sec s).2.1, ?_⟩
  unfold cSrvRun
  rw [if_neg (by
    simp only [List.any_eq_true, not_exists, not_and]
    intro i hi
    rw [h.opened i hi]; simp)]
  dsimp only
  rw [← hW]
  obtain ⟨s', reqs, g1, g2, g3, _⟩ := cSrvLoop_prompt hR hx db fr (s.sockets.filter (({ s with now := W } : CSrv).readableAt W)) { s with now := W }
    ⟨h.nodup, h.opened, h.timed, h.fresh, h.listens⟩ List.filter_sublist
    (fun j hj hl => hw j (List.mem_filter.mp hj).1 hl (List.mem_filter.mp hj).2)
  exact ⟨s', reqs, g1, g2, fun j hj hl hr => g3 j (List.mem_filter.mpr ⟨hj, hr⟩) hl⟩

/-! ## A slow client -/

/-- `n` bytes, one after the other, one every `step` ticks -/
def drip (step : Nat) : (n t : Nat) → List (Nat × CEvent)
  | 0, _ => []
  | n+1, t => (t + step, .data 0 []) :: drip step n (t + step)

theorem completeAt_drip {x step : Nat} (h : step < x) (have_ : Nat) : ∀ (n t : Nat), completeAt x t have_ (drip step n t) (have_ + n) = some (t + n * step) := by
  intro n
  induction n generalizing have_ with
  | zero => intro t; rw [completeAt_enough (by omega)]; simp
  | succ n ih =>
    intro t
    unfold drip completeAt
    rw [if_neg (by omega)]
    dsimp only
    rw [if_pos (by omega), Nat.max_eq_right (by omega)]
    have := ih (have_ + 1) (t + step)
    show completeAt x (t + step) (have_ + 1) (drip step n (t + step)) (have_ + (n + 1)) = _
    rw [show have_ + (n + 1) = have_ + 1 + n from by omega, this, Nat.add_mul]
    congr 1
    omega

theorem comingBytes_drip (step : Nat) : ∀ (n t : Nat) (buf : Bytes), comingBytes buf (drip step n t) = buf ++ List.replicate n 0
  | 0, _, buf => by simp [drip, comingBytes]
  | n+1, t, buf => by
    unfold drip comingBytes
    rw [comingBytes_drip step n]
    simp [List.replicate_succ]

theorem drip_data (step : Nat) : ∀ (n t : Nat) (e : Nat × CEvent), e ∈ drip step n t → e.2 ≠ .reset
  | 0, _, e, h => by simp [drip] at h
  | n+1, t, e, h => by
    unfold drip at h
    rcases List.mem_cons.mp h with h | h
    · rw [h]; simp
    · exact drip_data step n _ e h

/-- Client 1 sends the seven bytes `h :: hs` at time 1, then `N` zero bytes, one every `sec - 1` ticks; client 2 sends the request `b :: g` at time 1. -/
def slowEvents (sec : Nat) (h : UInt8) (hs : Bytes) (N : Nat) : List (Nat × CEvent) := (1, .data h hs) :: drip (sec - 1) N 1

def slowClients (sec : Nat) (h : UInt8) (hs : Bytes) (N : Nat) (b : UInt8) (g : Bytes) : List (Nat × Option (List (Nat × CEvent))) :=
  [(0, some (slowEvents sec h hs N)), (0, some [(1, .data b g)])]

/-- the server when the first is connected (`F`: the events of client 1, `G`: of client 2) -/
def heldSrv1 (F G : List (Nat × CEvent)) (heap : Heap) : CSrv where
  heap := heap
  sock := some 0
  sockets := [0, 1]
  socks := fun i => if i = 1 then { connected := true, timeout := some 0, future := F } else { connected := true }
  next := 2
  coming := [(0, some G)]
  now := 0
  log := []

/-- the server when both are connected -/
def heldSrv (F G : List (Nat × CEvent)) (heap : Heap) : CSrv where
  heap := heap
  sock := some 0
  sockets := [0, 1, 2]
  socks := fun i => if i = 2 then { connected := true, timeout := some 0, future := G }
    else if i = 1 then { connected := true, timeout := some 0, future := F }
    else { connected := true }
  next := 3
  coming := []
  now := 0
  log := []

theorem heldSrv_inv (sec : Nat) (F G : List (Nat × CEvent)) (heap : Heap) : CSrvInv sec (heldSrv F G heap) := by
  refine ⟨by simp [heldSrv], fun i hi => ?_, fun i hi hl => ?_, by simp [heldSrv], by simp [heldSrv]⟩
  · simp only [heldSrv, List.mem_cons, List.not_mem_nil, or_false] at hi
    rcases hi with rfl | rfl | rfl <;> rfl
  · simp only [heldSrv, List.mem_cons, List.not_mem_nil, or_false] at hi
    rcases hi with rfl | rfl | rfl
    · exact absurd rfl hl
    · exact .inl rfl
    · exact .inl rfl

theorem heldSrv_reached (R : Registry) (hR : Quiet R) (sec : Nat) (db : Databank) (e : CEvent) (F G : List (Nat × CEvent)) (heap : Heap) :
    cSrvRounds sec R db 2 (CSrv.started heap [(0, some ((1, e) :: F)), (0, some G)] 0) = (.ok (), heldSrv ((1, e) :: F) G heap) := by
  have h1 : cSrvRun sec R db (CSrv.started heap [(0, some ((1, e) :: F)), (0, some G)] 0) = (.ok (), heldSrv1 ((1, e) :: F) G heap) := by
    unfold cSrvRun
    rw [if_neg (by simp [CSrv.started])]
    have hw : (CSrv.started heap [(0, some ((1, e) :: F)), (0, some G)] 0).wake sec = 0 := (wake_bound sec _).2.2 (by simp [CSrv.started, CSrv.readableAt])
    rw [hw]
    simp only [CSrv.started, CSrv.readableAt, List.filter_cons, if_true, List.filter_nil, decide_true, Nat.le_refl,
      cSrvLoop, cSrvOne, cSrvAccept, hR _ _, CSrv.put]
    rfl
  have hat : CSock.at 0 { connected := true, timeout := some 0, future := (1, e) :: F } = { connected := true, timeout := some 0, future := (1, e) :: F } := by
    unfold CSock.at CSock.arrived
    rw [if_neg (by omega)]
  have h2 : cSrvRun sec R db (heldSrv1 ((1, e) :: F) G heap) = (.ok (), heldSrv ((1, e) :: F) G heap) := by
    unfold cSrvRun
    rw [if_neg (by simp [heldSrv1])]
    have hw : (heldSrv1 ((1, e) :: F) G heap).wake sec = 0 :=
      (wake_bound sec _).2.2 (by simp [heldSrv1, CSrv.readableAt])
    have hr : [0, 1].filter ((heldSrv1 ((1, e) :: F) G heap).readableAt 0) = [0] := by
      have r0 : (heldSrv1 ((1, e) :: F) G heap).readableAt 0 0 = true := rfl
      have r1 : (heldSrv1 ((1, e) :: F) G heap).readableAt 0 1 = false := by
        show ((CSock.at 0 { connected := true, timeout := some 0, future := (1, e) :: F }).ready 1).isSome = false
        rw [hat]; rfl
      simp [r0, r1]
    rw [hw]
    show cSrvLoop sec R db ([0, 1].filter ((heldSrv1 ((1, e) :: F) G heap).readableAt 0)) (heldSrv1 ((1, e) :: F) G heap) = _
    rw [hr]
    simp only [cSrvLoop, cSrvOne, cSrvAccept, hR _ _, heldSrv1, CSrv.put, if_true, Nat.lt_irrefl, if_false]
    rfl
  simp only [cSrvRounds, h1, h2]

theorem cSrvRounds_next {sec : Nat} {R : Registry} {db : Databank} : ∀ {n : Nat} {a c d : CSrv}, cSrvRounds sec R db n a = (.ok (), c) →
    cSrvRun sec R db c = (.ok (), d) → cSrvRounds sec R db (n + 1) a = (.ok (), d)
  | 0, a, c, d, h, h' => by
    cases h
    simp only [cSrvRounds, h']
  | n+1, a, c, d, h, h' => by
    rw [cSrvRounds] at h ⊢
    dsimp only at h ⊢
    cases hr : cSrvRun sec R db a with
    | mk r s => cases r with
      | error e => rw [hr] at h; cases h
      | ok u =>
        rw [hr] at h
        exact cSrvRounds_next h h'

/-- **C74.** A client may keep the others - and `stop()` - waiting almost a second for every byte of its request: client 1 sends the header of a
    request and then its remaining `N` bytes one every `sec - 1` ticks; the request of client 2, there at time 1 like the header, is handled after the
    request of client 1 and answered at time 1 + N * (sec - 1).  `N` can be 65534, see the example below. -/
theorem C74_hold (R : Registry) (hR : Quiet R) (sec : Nat) (hx : 2 ≤ sec) (db : Databank) (h : UInt8) (hs : Bytes) (N : Nat) (hlen : hs.length = 6)
    (hf : ServerFrame (h :: hs ++ List.replicate N 0)) (b : UInt8) (g : Bytes) (hg : ServerFrame (b :: g)) (heap : Heap)
    (T : Nat) (hT : T = 1 + N * (sec - 1)) :
    ∃ s', cSrvRounds sec R db 3 (CSrv.started heap (slowClients sec h hs N b g) 0) = (.ok (), s') ∧ s'.now = T ∧
      s'.heap = (serveAll R db [(1, h :: hs ++ List.replicate N 0), (2, b :: g)] heap).1 ∧
      s'.log = (serveAll R db [(1, h :: hs ++ List.replicate N 0), (2, b :: g)] heap).2.map fun e => (T, e) := by
  generalize hF : slowEvents sec h hs N = F
  have hF' : F = (1, .data h hs) :: drip (sec - 1) N 1 := hF.symm
  generalize hW : heldSrv F [(1, .data b g)] heap = W
  have hinv : CSrvInv sec W := hW ▸ heldSrv_inv sec F _ heap
  have hinv1 : CSrvInv sec { W with now := 1 } := ⟨hinv.nodup, hinv.opened, hinv.timed, hinv.fresh, hinv.listens⟩
  have hk1 : W.socks 1 = { connected := true, timeout := some 0, future := (1, .data h hs) :: drip (sec - 1) N 1 } := by rw [← hW, ← hF']; rfl
  have hk2 : W.socks 2 = { connected := true, timeout := some 0, future := [(1, .data b g)] } := by rw [← hW]; rfl
  have hss : W.sockets = [0, 1, 2] := by rw [← hW]; rfl
  have hsk : W.sock = some 0 := by rw [← hW]; rfl
  have hnow : W.now = 0 := by rw [← hW]; rfl
  have hhp : W.heap = heap := by rw [← hW]; rfl
  have hlg : W.log = [] := by rw [← hW]; rfl
  have hcm : W.coming = [] := by rw [← hW]; rfl
  have hnx : W.next = 3 := by rw [← hW]; rfl
  have hat1 : CSock.at 1 (W.socks 1) = { connected := true, timeout := some 0, buf := h :: hs, future := drip (sec - 1) N 1 } := by
    rw [hk1]
    unfold CSock.at
    dsimp only
    unfold CSock.arrived
    rw [if_pos ⟨Nat.le_refl _, rfl⟩]
    cases N with
    | zero => rfl
    | succ N =>
      unfold drip CSock.arrived
      rw [if_neg (by omega)]
      rfl
  have hat2 : CSock.at 1 (W.socks 2) = { connected := true, timeout := some 0, buf := b :: g, future := [] } := by rw [hk2]; rfl
  have hat1' : CSock.at 0 (W.socks 1) = W.socks 1 := by
    rw [hk1]
    unfold CSock.at CSock.arrived
    rw [if_neg (by omega)]
  have hat2' : CSock.at 0 (W.socks 2) = W.socks 2 := by rw [hk2]; rfl
  have hr0 : W.readableAt 0 0 = false ∧ W.readableAt 0 1 = false ∧ W.readableAt 0 2 = false := by
    refine ⟨?_, ?_, ?_⟩
    · unfold CSrv.readableAt; rw [if_pos hsk, hcm]
    · unfold CSrv.readableAt; rw [if_neg (by rw [hsk]; simp), hat1', hk1]; rfl
    · unfold CSrv.readableAt; rw [if_neg (by rw [hsk]; simp), hat2', hk2]; rfl
  have hwake : W.wake sec = 1 := by
    unfold CSrv.wake
    rw [if_neg (by rw [hss, hnow]; simp [hr0])]
    have he : W.events = [1, 1] := by
      unfold CSrv.events
      rw [hss, hcm]
      have h0 : (W.socks 0).future = [] := by rw [← hW]; rfl
      simp [h0, hk1, hk2]
    rw [he, hnow]
    simp only [List.foldl_cons, List.foldl_nil, Nat.zero_lt_one, if_true]
    omega
  have hr1 : [0, 1, 2].filter (({ W with now := 1 } : CSrv).readableAt 1) = [1, 2] := by
    have h0 : ({ W with now := 1 } : CSrv).readableAt 1 0 = false := by
      unfold CSrv.readableAt; rw [if_pos hsk]; dsimp only; rw [hcm]
    have h1 : ({ W with now := 1 } : CSrv).readableAt 1 1 = true := by
      unfold CSrv.readableAt; rw [if_neg (by dsimp only; rw [hsk]; simp)]; dsimp only; rw [hat1]; rfl
    have h2 : ({ W with now := 1 } : CSrv).readableAt 1 2 = true := by
      unfold CSrv.readableAt; rw [if_neg (by dsimp only; rw [hsk]; simp)]; dsimp only; rw [hat2]; rfl
    simp [h0, h1, h2]
  -- the slow client
  obtain ⟨k, e1, e2, e3⟩ := cSrvClient_frame hR db (sec := sec) (by omega) ⟨heap, 1, 1, W.socks 1, []⟩ (by rw [hk1]) (by rw [hk1])
    ⟨by rw [hk1]; simp, fun e he => by
      rw [hk1] at he
      rcases List.mem_cons.mp he with h | h
      · rw [h]; simp
      · exact drip_data _ _ _ e h⟩ (by dsimp only; rw [hat1]; simp) (h :: hs ++ List.replicate N 0) hf
    (by
      dsimp only
      rw [hk1]
      show h :: hs ++ List.replicate N 0 <+: comingBytes ([] ++ h :: hs) (drip (sec - 1) N 1)
      rw [comingBytes_drip]
      exact List.prefix_refl _) T
    (by
      have hl : (h :: hs ++ List.replicate N 0).length = 7 + N := by simp [hlen]; omega
      rw [hl]
      dsimp only
      rw [hk1]
      show completeAt sec 1 0 ((1, .data h hs) :: drip (sec - 1) N 1) (7 + N) = some T
      unfold completeAt
      rw [if_neg (by omega)]
      dsimp only
      rw [if_pos (by omega), hT, hlen]
      exact completeAt_drip (by omega) 7 N 1)
  obtain ⟨r1, s1, g1, g2⟩ := cSrvStep_adv sec R db _ hinv1 1 (by dsimp only; rw [hss]; simp)
  have hstep : cSrvStep sec R db 1 { W with now := 1 } = (.ok false, (({ W with now := 1 } : CSrv)).served 1
      ⟨(answerTo R db (h :: hs ++ List.replicate N 0) heap).2, 1, T, k,
        [] ++ (answerTo R db (h :: hs ++ List.replicate N 0) heap).1.toList.map fun m => (T, 1, m)⟩) := by
    unfold cSrvStep cSrvOne
    rw [if_neg (by dsimp only; rw [hsk]; simp)]
    dsimp only
    rw [hhp, hlg, e1]
    rfl
  rw [hstep] at g1
  cases g1
  have hs2 := g2.others 2 (by omega) (by dsimp only; rw [hnx]; omega)
  obtain ⟨s2, q1, q2, q3, q4, q5, q6, q7⟩ := cSrvStep_waiting hR (by omega : 0 < sec) db (g2.inv ⟨_, rfl⟩) (i := 2) (by
      show 2 ∈ W.sockets
      rw [hss]; simp)
    (f := b :: g) ⟨by
      show W.sock ≠ some 2
      rw [hsk]; simp, by rw [hs2]; dsimp only; rw [hk2], by rw [hs2]; dsimp only; rw [hk2]; exact ⟨by simp, by simp⟩, hg, by
      rw [hs2]
      dsimp only
      have hTT : 1 ≤ T := by omega
      exact (show b :: g <+: (CSock.at 1 (W.socks 2)).buf from by rw [hat2]).trans (arrived_mono hTT _ _)⟩
  refine ⟨s2, ?_, q4, ?_, ?_⟩
  · have h3 : cSrvRun sec R db W = (.ok (), s2) := by
      unfold cSrvRun
      rw [if_neg (by
        simp only [List.any_eq_true, not_exists, not_and]
        intro i hi
        rw [hinv.opened i hi]; simp)]
      rw [hwake]
      dsimp only
      rw [show W.sockets.filter (({ W with now := 1 } : CSrv).readableAt 1) = [1, 2] from (congrArg (List.filter _) hss).trans hr1, cSrvLoop_cons, hstep]
      dsimp only
      rw [cSrvLoop_cons, q1]
      rfl
    have h12 := heldSrv_reached R hR sec db (.data h hs) (drip (sec - 1) N 1) [(1, .data b g)] heap
    rw [← hF', hW] at h12
    rw [show slowClients sec h hs N b g = [(0, some F), (0, some [(1, .data b g)])] from by rw [← hF]; rfl]
    exact cSrvRounds_next h12 h3
  · rw [q3.heap]
    rfl
  · rw [q7]
    show ([] ++ List.map _ _) ++ List.map _ _ = _
    simp only [serveAll, List.map_append, List.map_map, List.append_nil, List.nil_append]
    rfl

/-- `N` = 65534: the longest request.  Whoever sends it like this keeps the server for 65534 * (sec - 1) ticks: more than 18 hours if a tick is a millisecond. -/
example (R : Registry) (hR : Quiet R) (sec : Nat) (hx : 2 ≤ sec) (db : Databank) (b : UInt8) (g : Bytes) (hg : ServerFrame (b :: g)) (heap : Heap) :
    ∃ s', cSrvRounds sec R db 3 (CSrv.started heap (slowClients sec 0 [0, 0, 0, 255, 255, 1] 65534 b g) 0) = (.ok (), s') ∧ s'.now = 1 + 65534 * (sec - 1) := by
  obtain ⟨s', h1, h2, _⟩ := C74_hold R hR sec hx db 0 [0, 0, 0, 255, 255, 1] 65534 rfl (by
    unfold ServerFrame
    rw [announced_append (by simp), show announced [0, 0, 0, 0, 255, 255, 1] = 65535 from by decide, List.length_append, List.length_replicate]
    rfl) b g hg heap _ rfl
  exact ⟨s', h1, h2⟩

/-! ## A case -/

/-- client 1 sends half a header at time 2, client 2 writes the register 10 of slave 1 at time 2, client 3 disconnects at time 2 -/
def exComing : List (Nat × Option (List (Nat × CEvent))) :=
  [(0, some [(2, .data 0 [1, 0])]), (0, some [(2, .data 0 [2, 0, 0, 0, 6, 1, 6, 0, 10, 0, 7])]), (1, some [(2, .eof)])]

/-- the server after three rounds: all are connected -/
def exHeld : CSrv := (cSrvRounds 100 [] exTwo.st.db 3 (CSrv.started exTwo.st.heap exComing 0)).2

theorem exHeld_ok : (cSrvRounds 100 [] exTwo.st.db 3 (CSrv.started exTwo.st.heap exComing 0)).1.toOption = some () ∧ exHeld.sockets = [0, 1, 2, 3] ∧ exHeld.now = 1 ∧
    exHeld.wake 100 = 2 := by decide +kernel

/-- the hypotheses of `C74_served` hold for client 2 at time 2 -/
example : ReqHere 2 [0, 2, 0, 0, 0, 6, 1, 6, 0, 10, 0, 7] { exHeld with now := 2 } :=
  ⟨by decide +kernel, by decide +kernel, ⟨by decide +kernel, by decide +kernel⟩, by unfold ServerFrame; decide, by decide +kernel⟩

/-- The slow client costs a second and its connection, then client 2 is answered, then client 3 is dropped. -/
example : ((cSrvRun 100 [] exTwo.st.db exHeld).2.sockets, (cSrvRun 100 [] exTwo.st.db exHeld).2.now, (cSrvRun 100 [] exTwo.st.db exHeld).2.log) =
    ([0, 2], 102, [(102, 2, [0, 2, 0, 0, 0, 6, 1, 6, 0, 10, 0, 7])]) := by decide +kernel

/-- two clients that send whole requests at time 2 -/
def exPrompt : CSrv := (cSrvRounds 100 [] exTwo.st.db 2 (CSrv.started exTwo.st.heap
  [(0, some [(2, .data 0 [2, 0, 0, 0, 6, 1, 6, 0, 10, 0, 7])]), (0, some [(2, .data 0 [3, 0, 0, 0, 6, 1, 3, 0, 10, 0, 1])])] 0)).2

theorem exPrompt_ok : exPrompt.sockets = [0, 1, 2] ∧ exPrompt.sock = some 0 ∧ exPrompt.wake 100 = 2 ∧ exPrompt.coming = [] := by decide +kernel

/-- the hypotheses of `C74_prompt` hold -/
example : ∃ s' reqs, cSrvRun 100 [] exTwo.st.db exPrompt = (.ok (), s') ∧ s'.now = 2 ∧
    Answered [] exTwo.st.db 1 [0, 2, 0, 0, 0, 6, 1, 6, 0, 10, 0, 7] { exPrompt with now := 2 } s' reqs ∧
    Answered [] exTwo.st.db 2 [0, 3, 0, 0, 0, 6, 1, 3, 0, 10, 0, 1] { exPrompt with now := 2 } s' reqs := by
  obtain ⟨h1, h2, h3, h4⟩ := exPrompt_ok
  have hok : cSrvRounds 100 [] exTwo.st.db 2 (CSrv.started exTwo.st.heap
      [(0, some [(2, .data 0 [2, 0, 0, 0, 6, 1, 6, 0, 10, 0, 7])]), (0, some [(2, .data 0 [3, 0, 0, 0, 6, 1, 3, 0, 10, 0, 1])])] 0) = (.ok (), exPrompt) := by
    have : (cSrvRounds 100 [] exTwo.st.db 2 (CSrv.started exTwo.st.heap
      [(0, some [(2, .data 0 [2, 0, 0, 0, 6, 1, 6, 0, 10, 0, 7])]), (0, some [(2, .data 0 [3, 0, 0, 0, 6, 1, 3, 0, 10, 0, 1])])] 0)).1 = .ok () := by decide +kernel
    exact Prod.ext this rfl
  have w1 : ReqHere 1 [0, 2, 0, 0, 0, 6, 1, 6, 0, 10, 0, 7] { exPrompt with now := 2 } :=
    ⟨by decide +kernel, by decide +kernel, ⟨by decide +kernel, by decide +kernel⟩, by unfold ServerFrame; decide, by decide +kernel⟩
  have w2 : ReqHere 2 [0, 3, 0, 0, 0, 6, 1, 3, 0, 10, 0, 1] { exPrompt with now := 2 } :=
    ⟨by decide +kernel, by decide +kernel, ⟨by decide +kernel, by decide +kernel⟩, by unfold ServerFrame; decide, by decide +kernel⟩
  obtain ⟨_, s', reqs, g1, g2, g3⟩ := C74_prompt [] quiet_nil 100 (by omega) exTwo.st.db _ _ _ _ exPrompt hok 2 h3.symm
    (fun j => if j = 1 then [0, 2, 0, 0, 0, 6, 1, 6, 0, 10, 0, 7] else [0, 3, 0, 0, 0, 6, 1, 3, 0, 10, 0, 1]) (fun j hj hl hr => by
      rw [h1] at hj
      simp only [List.mem_cons, List.not_mem_nil, or_false] at hj
      rcases hj with rfl | rfl | rfl
      · exact absurd h2 hl
      · exact w1
      · exact w2)
  exact ⟨s', reqs, g1, g2, g3 1 (by rw [h1]; simp) (by rw [h2]; simp) w1.ready, g3 2 (by rw [h1]; simp) (by rw [h2]; simp) w2.ready⟩

end Modbus
