import Verif.Props.TcpServer
/-
# C63: what a server opens it closes

Sockets of a `TcpServer` (`_do_init`, `_do_run`, `_do_exit`, modbus_tcp.py:261-360).
-/
namespace Modbus

/-! ## TCP -/

/-- a server that is not running: no listening socket, nothing registered; the connections to come are not closed -/
structure Srv.Idle (s : Srv) : Prop where
  sockets : s.sockets = []
  sock : s.sock = none
  fresh : ∀ i, s.next ≤ i → (s.socks i).closed = false

/-- Every socket created since number `n0` is registered or closed. -/
structure Srv.Tidy (n0 l : Nat) (s : Srv) : Prop where
  sock : s.sock = some l
  old : ∀ i ∈ s.sockets, i < s.next
  fresh : ∀ i, s.next ≤ i → (s.socks i).closed = false
  accounted : ∀ i, n0 ≤ i → i < s.next → i ∈ s.sockets ∨ (s.socks i).closed = true

theorem srvClient_closed (R : Registry) (db : Databank) (t : Bool) {c : Conn} (h : c.sock.closed = true) :
    srvClient R db t c = (.error .osError, c) := by
  simp only [srvClient, PyM.bind_apply, Conn.onSock, sockPeek, h, if_true]

theorem tidy_arrivals {n0 l : Nat} {s : Srv} (rd : Round) (h : s.Tidy n0 l) : (s.arrivals rd).Tidy n0 l :=
  ⟨h.sock, h.old, fun i hi => by simp only [Srv.arrivals, (arriveN_keeps _ _).2]; exact h.fresh i hi,
    fun i h1 h2 => by simp only [Srv.arrivals, (arriveN_keeps _ _).2]; exact h.accounted i h1 h2⟩

theorem tidy_drop {n0 l i : Nat} {s : Srv} (hi : i < s.next) (h : s.Tidy n0 l) : (srvDrop i s).2.Tidy n0 l := by
  have hput : ∀ j, ((s.put i (s.socks i).close).socks j).closed = if j = i then true else (s.socks j).closed := by
    intro j
    simp only [Srv.put]
    split <;> rfl
  unfold srvDrop
  dsimp only
  split
  · refine ⟨h.sock, fun j hj => h.old j (List.mem_of_mem_erase hj), fun j hj => ?_, fun j h1 h2 => ?_⟩
    · have hj' : s.next ≤ j := hj
      show ((s.put i (s.socks i).close).socks j).closed = false
      rw [hput, if_neg (by omega)]
      exact h.fresh j hj
    · show _ ∨ ((s.put i (s.socks i).close).socks j).closed = true
      rw [hput]
      by_cases hji : j = i
      · exact .inr (by rw [if_pos hji])
      · rw [if_neg hji]
        rcases h.accounted j h1 h2 with g | g
        · exact .inl ((List.mem_erase_of_ne hji).mpr g)
        · exact .inr g
  · refine ⟨h.sock, h.old, fun j hj => ?_, fun j h1 h2 => ?_⟩
    · have hj' : s.next ≤ j := hj
      rw [hput, if_neg (by omega)]
      exact h.fresh j hj
    · rw [hput]
      by_cases hji : j = i
      · exact .inr (by rw [if_pos hji])
      · rw [if_neg hji]
        exact h.accounted j h1 h2

theorem drop_next (i : Nat) (s : Srv) : (srvDrop i s).2.next = s.next ∧ (srvDrop i s).2.heap = s.heap := by
  unfold srvDrop
  dsimp only
  split <;> exact ⟨rfl, rfl⟩

/-- serving one ready connection keeps the account: what was closed stays closed -/
theorem tidy_conn {n0 l i : Nat} {s : Srv} (R : Registry) (db : Databank) (t : Bool) (tm : List Nat) (hi : i < s.next) (h : s.Tidy n0 l) :
    ({ (s.put i (srvClient R db t ⟨s.heap, s.socks i⟩).2.sock) with heap := (srvClient R db t ⟨s.heap, s.socks i⟩).2.heap, timed := tm } : Srv).Tidy n0 l := by
  have hcl : (s.socks i).closed = true → (srvClient R db t ⟨s.heap, s.socks i⟩).2.sock.closed = true := by
    intro hc
    rw [srvClient_closed R db t (c := ⟨s.heap, s.socks i⟩) hc]
    exact hc
  generalize srvClient R db t ⟨s.heap, s.socks i⟩ = o at hcl
  refine ⟨h.sock, h.old, fun j hj => ?_, fun j h1 h2 => ?_⟩
  · have hj' : s.next ≤ j := hj
    simp only [Srv.put]
    rw [if_neg (by omega)]
    exact h.fresh j hj
  · simp only [Srv.put]
    rcases h.accounted j h1 h2 with g | g
    · exact .inl g
    · right
      by_cases hji : j = i
      · subst hji; rw [if_pos rfl]; exact hcl g
      · rw [if_neg hji]; exact g

theorem tidy_one {n0 l i : Nat} {s : Srv} (R : Registry) (db : Databank) (acc : Option (Except PyErr Unit)) (hn : n0 ≤ s.next) (hi : i < s.next) (h : s.Tidy n0 l) :
    (srvOne R db acc i s).2.Tidy n0 l ∧ s.next ≤ (srvOne R db acc i s).2.next := by
  unfold srvOne
  by_cases hl : s.sock = some i
  · rw [if_pos hl]
    have hacc : (srvAccept R acc s).2.Tidy n0 l ∧ s.next ≤ (srvAccept R acc s).2.next := by
      have new : ({ s with sockets := s.sockets ++ [s.next], next := s.next + 1 } : Srv).Tidy n0 l := by
        refine ⟨h.sock, fun j hj => ?_, fun j hj => h.fresh j (by have : s.next + 1 ≤ j := hj; omega), fun j h1 h2 => ?_⟩
        · show j < s.next + 1
          rcases List.mem_append.mp hj with g | g
          · have := h.old j g; omega
          · have : j = s.next := by simpa using g
            omega
        · have h2' : j < s.next + 1 := h2
          by_cases hj : j = s.next
          · exact .inl (by simp [hj])
          · rcases h.accounted j h1 (by omega) with g | g
            · exact .inl (by simp [g])
            · exact .inr g
      unfold srvAccept
      match acc with
      | none => exact ⟨h, Nat.le_refl _⟩
      | some (.error e) => exact ⟨h, Nat.le_refl _⟩
      | some (.ok ()) =>
        dsimp only
        cases callHooks R "modbus_tcp.TcpServer.on_connect" .obj with
        | error e => exact ⟨new, Nat.le_succ _⟩
        | ok _ => exact ⟨new, Nat.le_succ _⟩
    cases hs : srvAccept R acc s with
    | mk o s1 =>
      rw [hs] at hacc
      cases o <;> exact hacc
  · rw [if_neg hl]
    have hc := tidy_conn R db (s.timed.contains i) (i :: s.timed) hi h
    cases hs : srvClient R db (s.timed.contains i) ⟨s.heap, s.socks i⟩ with
    | mk o c =>
      rw [hs] at hc
      cases o with
      | error e => exact ⟨hc, Nat.le_refl _⟩
      | ok d =>
        dsimp only
        cases d with
        | false => exact ⟨hc, Nat.le_refl _⟩
        | true =>
          dsimp only at hc
          have hd := tidy_drop (i := i) (s := { (s.put i c.sock) with heap := c.heap, timed := i :: s.timed }) hi hc
          have hx := (drop_next i ({ (s.put i c.sock) with heap := c.heap, timed := i :: s.timed } : Srv)).1
          simp only [if_true]
          cases hdr : srvDrop i ({ (s.put i c.sock) with heap := c.heap, timed := i :: s.timed } : Srv) with
          | mk o2 s2 =>
            rw [hdr] at hd hx
            cases o2 <;> exact ⟨hd, Nat.le_of_eq hx.symm⟩

theorem tidy_loop {n0 l : Nat} (R : Registry) (db : Databank) (acc : Option (Except PyErr Unit)) : ∀ (ready : List Nat) (s : Srv), n0 ≤ s.next →
    (∀ i ∈ ready, i < s.next) → s.Tidy n0 l → (srvLoop R db acc ready s).2.Tidy n0 l ∧ s.next ≤ (srvLoop R db acc ready s).2.next := by
  intro ready
  induction ready with
  | nil => exact fun s _ _ h => ⟨h, Nat.le_refl _⟩
  | cons i rest ih =>
    intro s hn hr h
    obtain ⟨h1, h2⟩ := tidy_one R db acc hn (hr i (by simp)) h
    unfold srvLoop
    cases hs : srvOne R db acc i s with
    | mk o s1 =>
      rw [hs] at h1 h2
      dsimp only at h1 h2
      have hlt : ∀ j ∈ rest, j < s1.next := fun j hj => Nat.lt_of_lt_of_le (hr j (by simp [hj])) h2
      match o with
      | .ok true => exact ⟨h1, h2⟩
      | .ok false =>
        obtain ⟨g1, g2⟩ := ih s1 (Nat.le_trans hn h2) hlt h1
        exact ⟨g1, Nat.le_trans h2 g2⟩
      | .error e =>
        dsimp only
        cases callHooks R "modbus_tcp.TcpServer.on_error" (.exc e []) with
        | error e' => exact ⟨h1, h2⟩
        | ok _ =>
          dsimp only
          have hd := tidy_drop (i := i) (Nat.lt_of_lt_of_le (hr i (by simp)) h2) h1
          have hx := (drop_next i s1).1
          cases hdr : srvDrop i s1 with
          | mk o2 s2 =>
            rw [hdr] at hd hx
            dsimp only at hd hx
            cases o2 with
            | error e' => exact ⟨hd, by rw [hx]; exact h2⟩
            | ok _ =>
              obtain ⟨g1, g2⟩ := ih s2 (by omega) (fun j hj => by have := hlt j hj; omega) hd
              exact ⟨g1, Nat.le_trans (by omega) g2⟩

theorem tidy_run {n0 l : Nat} (R : Registry) (db : Databank) (rd : Round) {s : Srv} (hn : n0 ≤ s.next) (h : s.Tidy n0 l) :
    (srvRun R db rd s).2.Tidy n0 l ∧ s.next ≤ (srvRun R db rd s).2.next := by
  have ha := tidy_arrivals rd h
  unfold srvRun
  dsimp only
  split
  · exact ⟨ha, Nat.le_refl _⟩
  · exact tidy_loop R db rd.accept _ (s.arrivals rd) hn (fun i hi => ha.old i (List.mem_filter.mp hi).1) ha

theorem tidy_rounds {n0 l : Nat} (R : Registry) (db : Databank) : ∀ (rounds : List Round) (s : Srv), n0 ≤ s.next → s.Tidy n0 l →
    (srvRounds R db rounds s).2.Tidy n0 l ∧ s.next ≤ (srvRounds R db rounds s).2.next := by
  intro rounds
  induction rounds with
  | nil => exact fun s _ h => ⟨h, Nat.le_refl _⟩
  | cons rd rest ih =>
    intro s hn h
    obtain ⟨h1, h2⟩ := tidy_run R db rd hn h
    unfold srvRounds
    cases hs : srvRun R db rd s with
    | mk o s1 =>
      rw [hs] at h1 h2
      cases o with
      | error e => exact ⟨h1, h2⟩
      | ok _ =>
        obtain ⟨g1, g2⟩ := ih s1 (Nat.le_trans hn h2) h1
        exact ⟨g1, Nat.le_trans h2 g2⟩

theorem closeAll_spec (l : List Nat) (s : Srv) :
    (∀ j, ((srvCloseAll l s).socks j) = if j ∈ l then (s.socks j).close else s.socks j) ∧ (srvCloseAll l s).sock = s.sock ∧
      (srvCloseAll l s).next = s.next ∧ (srvCloseAll l s).heap = s.heap ∧ (srvCloseAll l s).sockets = s.sockets := by
  induction l generalizing s with
  | nil => exact ⟨fun j => rfl, rfl, rfl, rfl, rfl⟩
  | cons i rest ih =>
    obtain ⟨h1, h2, h3, h4, h5⟩ := ih (s.put i (s.socks i).close)
    refine ⟨fun j => ?_, h2, h3, h4, h5⟩
    rw [srvCloseAll, h1]
    simp only [Srv.put]
    by_cases hji : j = i
    · subst hji
      simp only [if_true, List.mem_cons, true_or]
      split <;> simp [Sock.close]
    · simp only [hji, if_false, List.mem_cons, false_or]

/-- **C63.** `_do_exit` of a server in any state: all the registered sockets and the listening socket are closed and forgotten;
    no other socket and no memory is touched. -/
theorem C63_exit (s : Srv) (l : Nat) (hl : s.sock = some l) :
    ∃ s', srvExit s = (.ok (), s') ∧ s'.sockets = [] ∧ s'.sock = none ∧ s'.heap = s.heap ∧ s'.next = s.next ∧
      (∀ i, i ∈ s.sockets ∨ i = l → (s'.socks i).closed = true) ∧ (∀ i, i ∉ s.sockets → i ≠ l → s'.socks i = s.socks i) := by
  obtain ⟨h1, h2, h3, h4, h5⟩ := closeAll_spec s.sockets s
  unfold srvExit
  dsimp only
  rw [h2, hl]
  refine ⟨_, rfl, rfl, rfl, h4, h3, fun i hi => ?_, fun i h6 h7 => ?_⟩
  · simp only [Srv.put]
    by_cases hil : i = l
    · rw [if_pos hil]; rfl
    · rw [if_neg hil, h1, if_pos (hi.resolve_right hil)]; rfl
  · simp only [Srv.put]
    rw [if_neg h7, h1, if_neg h6]

/-- **C63.** `_do_init` on a server that is not running: a new socket is created, it is the listening socket, registered and
    open, and the server is in the state in which it serves (`C47_partial`, `C29_*`). -/
theorem C63_init (s : Srv) (hs : s.Idle) :
    ∃ s', srvInit true s = (.ok (), s') ∧ s'.sock = some s.next ∧ s'.sockets = [s.next] ∧ s'.next = s.next + 1 ∧ s'.heap = s.heap ∧
      s'.socks = s.socks ∧ SrvInv s' := by
  refine ⟨_, rfl, rfl, by simp [hs.sockets], rfl, rfl, rfl, ⟨s.next, rfl, by simp⟩, by simp [hs.sockets], fun i hi => ?_, fun i hi => ?_, fun i hi => hs.fresh i (by have : s.next + 1 ≤ i := hi; omega)⟩
  · have : i = s.next := by simpa [hs.sockets] using hi
    exact hs.fresh i (by omega)
  · have : i = s.next := by simpa [hs.sockets] using hi
    show i < s.next + 1
    omega

/-- one life of the server thread: `_do_init`, some rounds, `_do_exit` (modbus.py:1059-1073) -/
def srvLife (R : Registry) (db : Databank) (rounds : List Round) : PyM Srv Unit := do
  srvInit true
  srvRounds R db rounds
  srvExit

/-- **C63.** A life of the server in which no round raises: whatever the clients did and whatever the hooks returned, `accept`
    failing or not, afterwards every socket the server has created is closed - also those of earlier lives -, and the
    server is as it was before it was started: it can be started again. -/
theorem C63_life (R : Registry) (db : Databank) (rounds : List Round) (n0 : Nat) (s s1 s2 : Srv) (hs : s.Idle) (hn : n0 ≤ s.next)
    (hc : ∀ i, n0 ≤ i → i < s.next → (s.socks i).closed = true) (hi : srvInit true s = (.ok (), s1))
    (hr : srvRounds R db rounds s1 = (.ok (), s2)) :
    ∃ s', srvLife R db rounds s = (.ok (), s') ∧ s'.Idle ∧ s.next < s'.next ∧ s'.heap = s2.heap ∧
      (∀ i, n0 ≤ i → i < s'.next → (s'.socks i).closed = true) := by
  obtain ⟨s1', hi', h1, h2, h3, h4, h5, h6⟩ := C63_init s hs
  rw [hi] at hi'
  cases hi'
  have ht : s1.Tidy n0 s.next := by
    refine ⟨h1, h6.old, h6.fresh, fun i g1 g2 => ?_⟩
    by_cases hin : i = s.next
    · exact .inl (by rw [h2]; simp [hin])
    · exact .inr (by rw [h5]; exact hc i g1 (by omega))
  obtain ⟨t1, t2⟩ := tidy_rounds R db rounds s1 (by omega) ht
  rw [hr] at t1 t2
  dsimp only at t1 t2
  obtain ⟨s', e1, e2, e3, e4, e5, e6, e7⟩ := C63_exit s2 s.next t1.sock
  have hlife : srvLife R db rounds s = (.ok (), s') := by
    simp only [srvLife, PyM.bind_apply, hi, hr, e1]
  refine ⟨s', hlife, ⟨e2, e3, fun i hi => ?_⟩, by omega, e4, fun i g1 g2 => ?_⟩
  · rw [e7 i (fun hm => by have := t1.old i hm; omega) (by omega)]
    exact t1.fresh i (by omega)
  · by_cases hm : i ∈ s2.sockets ∨ i = s.next
    · exact e6 i hm
    · rw [e7 i (fun h => hm (.inl h)) (fun h => hm (.inr h))]
      rcases t1.accounted i g1 (by omega) with g | g
      · exact absurd (.inl g) hm
      · exact g

/-- several lives, one after the other -/
def srvLives (R : Registry) (db : Databank) : List (List Round) → PyM Srv Unit
  | [] => return ()
  | rounds :: rest => do
    srvLife R db rounds
    srvLives R db rest

/-- **C63 (partial: without hooks, and `accept` does not fail; see `C63_false_hook`).** A server can be started and stopped as
    often as one likes: every time it starts, serves and stops without an exception, whatever the clients do, and in the
    end every socket it ever created is closed. -/
theorem C63_restart_partial (R : Registry) (hR : Quiet R) (db : Databank) (lives : List (List Round))
    (hacc : ∀ rounds ∈ lives, ∀ rd ∈ rounds, ∀ e, rd.accept ≠ some (.error e)) (n0 : Nat) (s : Srv) (hs : s.Idle) (hn : n0 ≤ s.next)
    (hc : ∀ i, n0 ≤ i → i < s.next → (s.socks i).closed = true) :
    ∃ s', srvLives R db lives s = (.ok (), s') ∧ s'.Idle ∧ s.next + lives.length ≤ s'.next ∧
      (∀ i, n0 ≤ i → i < s'.next → (s'.socks i).closed = true) := by
  induction lives generalizing s with
  | nil => exact ⟨s, rfl, hs, Nat.le_refl _, hc⟩
  | cons rounds rest ih =>
    obtain ⟨s1, hi, _, _, _, _, _, h6⟩ := C63_init s hs
    obtain ⟨s2, hr, _, _⟩ := C47_partial R hR db rounds s1 h6 (hacc rounds (by simp))
    obtain ⟨s3, e1, e2, e3, _, e5⟩ := C63_life R db rounds n0 s s1 s2 hs hn hc hi hr
    obtain ⟨s', f1, f2, f3, f4⟩ := ih (fun r hr => hacc r (by simp [hr])) s3 e2 (by omega) e5
    refine ⟨s', ?_, f2, by simp only [List.length_cons]; omega, f4⟩
    simp only [srvLives, PyM.bind_apply, e1, f1]

/-- **C63 is false in general: `bind` fails.** When the port is in use, `_do_init` raises; the socket it has created stays open
    (the server thread ends without calling `_do_exit`). -/
theorem C63_false_bind (s : Srv) (hs : s.Idle) :
    ∃ s', srvInit false s = (.error .osError, s') ∧ s'.next = s.next + 1 ∧ (s'.socks s.next).closed = false ∧ s'.sockets = [] :=
  ⟨_, rfl, rfl, hs.fresh _ (Nat.le_refl _), hs.sockets⟩

/-- **C63 is false in general: a hook raises.** When `accept` fails and an `on_error` hook raises, the round raises, the server
    thread ends without `_do_exit`, and the listening socket stays open. -/
theorem C63_false_hook (R : Registry) (db : Databank) (s : Srv) (l : Nat) (e e' : PyErr) (hl : s.sock = some l) (hs : s.sockets = [l])
    (ho : (s.socks l).closed = false) (hR : callHooks R "modbus_tcp.TcpServer.on_error" (.exc e []) = .error e') :
    ∃ s', srvRun R db { accept := some (.error e) } s = (.error e', s') ∧ s'.sockets = [l] ∧ (s'.socks l).closed = false := by
  have h1 : (s.arrivals { accept := some (.error e) }).sockets = [l] := hs
  have h2 : (s.arrivals { accept := some (.error e) }).sock = some l := hl
  have h3 : ((s.arrivals { accept := some (.error e) }).socks l).closed = false := by
    simp only [Srv.arrivals, (arriveN_keeps _ _).2]; exact ho
  have hr : (s.arrivals { accept := some (.error e) }).ready { accept := some (.error e) } = [l] := by
    unfold Srv.ready
    rw [h1, h2]; simp
  have hrun : srvRun R db { accept := some (.error e) } s = srvLoop R db (some (.error e)) [l] (s.arrivals { accept := some (.error e) }) := by
    unfold srvRun
    dsimp only
    rw [if_neg (by rw [h1]; simp [h3]), hr]
  rw [hrun]
  generalize s.arrivals { accept := some (.error e) } = s1 at h1 h2 h3
  simp only [srvLoop, srvOne, h2, if_true, srvAccept, hR]
  exact ⟨s1, rfl, h1, h3⟩

/-! ### instances -/

-- the hypotheses of `C63_false_hook` are met by the server of `exSrv` with one hook
example : ∃ s', srvRun [("modbus_tcp.TcpServer.on_error", [⟨0, fun _ => .error .valueError⟩])] exTwo.st.db { accept := some (.error .osError) } exSrv =
    (.error .valueError, s') ∧ s'.sockets = [0] ∧ (s'.socks 0).closed = false :=
  C63_false_hook _ _ exSrv 0 .osError .valueError rfl rfl rfl rfl

/-- the server of `exSrv` before it is started; its clients come when it listens -/
def exIdle : Srv := { exSrv with sock := none, sockets := [], next := 0 }

theorem exIdle_idle : exIdle.Idle := ⟨rfl, rfl, fun i _ => by
  show (exSrv.socks i).closed = false
  simp only [exSrv]
  split
  · rfl
  · split
    · rfl
    · split <;> rfl⟩

example : ∃ s', srvLives [] exTwo.st.db [[{ accept := some (.ok ()) }, { arrivals := fun _ => 9 }], [], [{ accept := some (.ok ()) }]] exIdle = (.ok (), s') ∧
    s'.Idle ∧ 3 ≤ s'.next ∧ ∀ i, 0 ≤ i → i < s'.next → (s'.socks i).closed = true :=
  C63_restart_partial [] quiet_nil _ _ (by
    intro rounds h1 rd h2 e he
    simp at h1
    rcases h1 with rfl | rfl | rfl <;> simp at h2
    · rcases h2 with rfl | rfl <;> simp at he
    · subst h2; simp at he) 0 exIdle exIdle_idle (by decide) (fun i _ h => absurd h (Nat.not_lt_zero i))

end Modbus
