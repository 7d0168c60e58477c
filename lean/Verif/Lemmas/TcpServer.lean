import Verif.Model.TcpServer
import Verif.Lemmas.TcpRecv
/- The server side of a connection. -/
namespace Modbus
open Spec (word wordAt)
set_option linter.unusedSimpArgs false

/-- all the bytes of the events, silences notwithstanding -/
def evData : List NetEvent → Bytes
  | .data bs :: ev => bs ++ evData ev
  | .pause :: ev => evData ev
  | _ => []

/-- all the bytes that are unread or will arrive before the end of the stream -/
def Sock.allData (s : Sock) : Bytes := s.buf ++ (if s.ended = none then evData s.future else [])

/-- the connection neither is nor will be reset -/
def Sock.Unbroken (s : Sock) : Prop := NetEvent.reset ∉ s.later

theorem evData_split (ev : List NetEvent) : evData ev = dataPrefix ev ++ evData (afterData ev) := by
  induction ev with
  | nil => rfl
  | cons e ev ih =>
    match e with
    | .data bs => simp [evData, dataPrefix, afterData, ih]
    | .pause => rfl
    | .eof => rfl
    | .reset => rfl

theorem allData_split (s : Sock) : s.allData = s.stream ++ evData s.later := by
  unfold Sock.allData Sock.stream Sock.later
  match h : s.ended with
  | none => simp only [if_true]; rw [evData_split, List.append_assoc]
  | some .eof => simp [evData]
  | some .reset => simp [evData]

theorem Sock.Read.allData {s s' : Sock} {x : Bytes} (h : s.Read x s') : s.allData = x ++ s'.allData := by
  rw [allData_split, allData_split, h.later, h.stream, List.append_assoc]

theorem arrive_allData (s : Sock) : s.arrive.allData = s.allData := by
  unfold Sock.arrive
  split <;> simp_all [Sock.allData, evData]

theorem arriveN_allData (n : Nat) (s : Sock) : (Sock.arriveN n s).allData = s.allData := by
  induction n generalizing s with
  | zero => rfl
  | succ n ih => rw [Sock.arriveN, ih, arrive_allData]

theorem arrive_keeps (s : Sock) : s.arrive.sent = s.sent ∧ s.arrive.closed = s.closed := by
  unfold Sock.arrive
  split <;> exact ⟨rfl, rfl⟩

theorem arriveN_keeps (n : Nat) (s : Sock) : (Sock.arriveN n s).sent = s.sent ∧ (Sock.arriveN n s).closed = s.closed := by
  induction n generalizing s with
  | zero => exact ⟨rfl, rfl⟩
  | succ n ih => rw [Sock.arriveN, (ih _).1, (ih _).2]; exact arrive_keeps s

theorem arrive_ended {s : Sock} {e : Ending} (h : s.ended = some e) : s.arrive = s := by
  unfold Sock.arrive
  split <;> simp_all

theorem arriveN_ended (n : Nat) {s : Sock} {e : Ending} (h : s.ended = some e) : Sock.arriveN n s = s := by
  induction n with
  | zero => rfl
  | succ n ih => rw [Sock.arriveN, arrive_ended h, ih]

theorem mem_afterData {ev : List NetEvent} (h : NetEvent.reset ∈ ev) : NetEvent.reset ∈ afterData ev := by
  induction ev with
  | nil => cases h
  | cons e ev ih =>
    match e with
    | .data bs => exact ih (by simpa using h)
    | .pause => exact h
    | .eof => exact h
    | .reset => exact h

theorem afterData_mem {e : NetEvent} {ev : List NetEvent} (h : e ∈ afterData ev) : e ∈ ev := by
  induction ev with
  | nil => cases h
  | cons e' ev ih =>
    match e' with
    | .data bs => exact List.mem_cons_of_mem _ (ih h)
    | .pause => exact h
    | .eof => exact h
    | .reset => exact h

theorem arrive_unbroken {s : Sock} (h : s.Unbroken) : s.arrive.Unbroken := by
  unfold Sock.Unbroken at *
  match he : s.ended with
  | some e => rw [arrive_ended he]; exact h
  | none =>
    unfold Sock.arrive
    rw [he]
    match hf : s.future with
    | [] => exact h
    | .data bs :: ev =>
      simp only [Sock.later, he, hf, afterData] at h ⊢
      exact h
    | .pause :: ev =>
      simp only [Sock.later, he, hf, afterData] at h ⊢
      exact fun hm => h (List.mem_cons_of_mem _ (afterData_mem hm))
    | .eof :: ev => simp [Sock.later]
    | .reset :: ev => simp [Sock.later, he, hf, afterData] at h

theorem Sock.Read.unbroken {s s' : Sock} {x : Bytes} (h : s.Read x s') (hu : s.Unbroken) : s'.Unbroken := by
  unfold Sock.Unbroken at *
  rw [h.later]; exact hu

theorem unbroken_send {s : Sock} (hc : s.closed = false) (hu : s.Unbroken) (data : Bytes) :
    sockSend data s = (.ok (), { s with sent := s.sent ++ [data] }) := by
  unfold sockSend
  rw [if_neg]
  rintro (h | h)
  · rw [hc] at h; cases h
  · simp [Sock.Unbroken, Sock.later, h] at hu

theorem arriveN_unbroken (n : Nat) {s : Sock} (h : s.Unbroken) : (Sock.arriveN n s).Unbroken := by
  induction n generalizing s with
  | zero => exact h
  | succ n ih => exact ih (arrive_unbroken h)

/-! ### reading -/

theorem recvWait_keeps (n : Nat) (s : Sock) (ev : List NetEvent) :
    (Sock.recvWait n s ev).2.sent = s.sent ∧ (Sock.recvWait n s ev).2.closed = s.closed := by
  induction ev with
  | nil => exact ⟨rfl, rfl⟩
  | cons e ev ih =>
    match e with
    | .data [] => exact ih
    | .data (_ :: _) => exact ⟨rfl, rfl⟩
    | .pause => exact ⟨rfl, rfl⟩
    | .eof => exact ⟨rfl, rfl⟩
    | .reset => exact ⟨rfl, rfl⟩

theorem sockRecv_keeps (n : Nat) (s : Sock) : (sockRecv n s).2.sent = s.sent ∧ (sockRecv n s).2.closed = s.closed := by
  unfold sockRecv
  split
  · exact ⟨rfl, rfl⟩
  · split
    · exact ⟨rfl, rfl⟩
    · split
      · exact ⟨rfl, rfl⟩
      · exact ⟨rfl, rfl⟩
      · exact recvWait_keeps n s _

/-- `recv` itself returns or raises one of its own errors -/
theorem sockRecv_error (n : Nat) (s : Sock) (e : PyErr) (h : (sockRecv n s).1 = .error e) : e = .osError ∨ e = .timeout := by
  have wait : ∀ ev, (Sock.recvWait n s ev).1 = .error e → e = .osError ∨ e = .timeout := by
    intro ev
    induction ev with
    | nil => intro h; cases h; exact .inr rfl
    | cons x ev ih =>
      match x with
      | .data [] => exact ih
      | .data (_ :: _) => intro h; cases h
      | .pause => intro h; cases h; exact .inr rfl
      | .eof => intro h; cases h
      | .reset => intro h; cases h; exact .inl rfl
  unfold sockRecv at h
  split at h
  · cases h; exact .inl rfl
  · split at h
    · cases h
    · split at h
      · cases h
      · cases h; exact .inl rfl
      · exact wait _ h

/-- the outcomes of a reading loop: an exception, the wanted number of bytes, or the end of the stream -/
theorem srvReadLoop_spec (target : Int) : ∀ (fuel : Nat) (request : Bytes) (s : Sock), s.closed = false → 0 < fuel →
    target < fuel + request.length → 
    (∃ e s', srvReadLoop target fuel request s = (.error e, s') ∧ s'.sent = s.sent ∧ s'.closed = false ∧
      (e = .osError ∨ e = .timeout) ∧ ((request ++ s.stream).length : Int) < target ∧ s.later.head? ≠ some .eof) ∨
    (∃ x s', srvReadLoop target fuel request s = (.ok (request ++ x, true), s') ∧ s.Read x s' ∧
      target ≤ ((request ++ x).length : Int) ∧ (x = [] ∨ ((request ++ x).length : Int) = target)) ∨
    (∃ x s', srvReadLoop target fuel request s = (.ok (request ++ x, false), s') ∧ s'.ended = some .eof ∧ s'.stream = [] ∧
      s'.sent = s.sent ∧ s'.closed = false ∧ x = s.stream ∧ ((request ++ x).length : Int) < target) := by
  intro fuel
  induction fuel with
  | zero => intro request s hc h0; omega
  | succ fuel ih =>
    intro request s hc _ hf
    by_cases hl : (request.length : Int) < target
    · match hst : s.stream with
      | b :: t =>
        obtain ⟨s1, e1, e2, e3⟩ := recv1_cons hc hst
        have estep : srvReadLoop target (fuel+1) request s = srvReadLoop target fuel (request ++ [b]) s1 := by
          rw [srvReadLoop, if_pos hl]
          simp only [PyM.bind_apply, e1]
          rfl
        have ea : ∀ x, request ++ [b] ++ x = request ++ b :: x := by simp
        have hlen : (request ++ [b]).length = request.length + 1 := by simp
        rw [estep]
        rcases ih (request ++ [b]) s1 (by rw [e3.closed]; exact hc) (by omega) (by omega) with
          ⟨e, s', f1, f2, f3, f4, f5, f6⟩ | ⟨x, s', f1, f2, f3, f4⟩ | ⟨x, s', f1, f2, f3, f4, f5, f6, f7⟩
        · exact .inl ⟨e, s', f1, by rw [f2, e3.sent], f3, f4, by rw [← ea, ← e2]; exact f5, by rw [← e3.later]; exact f6⟩
        · refine .inr (.inl ⟨b :: x, s', by rw [f1, ea], e3.trans f2, by rw [← ea]; exact f3, .inr ?_⟩)
          rw [← ea]
          rcases f4 with f4 | f4
          · subst f4
            rw [List.append_nil] at f3 ⊢
            omega
          · exact f4
        · exact .inr (.inr ⟨b :: x, s', by rw [f1, ea], f2, f3, by rw [f4, e3.sent], f5, by rw [f6, e2], by rw [← ea]; exact f7⟩)
      | [] =>
        rcases recv1_nil hc hst with ⟨s', e1, e2, e3, e4, e5, e6⟩ | ⟨s', e, e1, e2⟩
        · right; right
          refine ⟨[], s', ?_, e3, e4, e6, e5, rfl, by simpa using hl⟩
          rw [srvReadLoop, if_pos hl]
          simp [PyM.bind_apply, e1]
        · left
          have h1 := sockRecv_keeps 1 s
          rw [e1] at h1
          refine ⟨e, s', ?_, h1.1, by rw [h1.2]; exact hc, sockRecv_error 1 s e (by rw [e1]), by simpa using hl, e2⟩
          rw [srvReadLoop, if_pos hl]
          simp only [PyM.bind_apply, e1]
    · right; left
      refine ⟨[], s, ?_, .refl s, by simp; omega, .inl rfl⟩
      rw [srvReadLoop, if_neg hl]
      simp

/-- looking at a readable connection -/
theorem sockPeek_spec (blocking : Bool) {s : Sock} (hc : s.closed = false) :
    (∃ e s', sockPeek blocking s = (.error e, s') ∧ s'.sent = s.sent ∧ s'.closed = false ∧ s.buf = [] ∧
      (s.ended = some .reset ∨ s.ended = none)) ∨
    (∃ b t s', sockPeek blocking s = (.ok [b], s') ∧ s.Read [] s' ∧ s.stream = b :: t) ∨
    (∃ s', sockPeek blocking s = (.ok [], s') ∧ s.stream = [] ∧ s.later.head? = some .eof ∧ s'.sent = s.sent ∧ s'.closed = false) := by
  unfold sockPeek
  rw [if_neg (by simp [hc])]
  match hb : s.buf with
  | b :: bs => exact .inr (.inl ⟨b, _, s, rfl, .refl s, by simp [Sock.stream, hb]; rfl⟩)
  | [] =>
    dsimp only
    match he : s.ended with
    | some .eof => exact .inr (.inr ⟨s, rfl, by simp [Sock.stream, hb, he], by simp [Sock.later, he], rfl, hc⟩)
    | some .reset => exact .inl ⟨_, s, rfl, rfl, hc, rfl, .inl rfl⟩
    | none =>
      cases blocking with
      | false => exact .inl ⟨_, s, rfl, rfl, hc, rfl, .inr rfl⟩
      | true =>
        dsimp only
        rw [if_pos rfl]
        match hst : s.stream with
        | b :: t =>
          have hp : dataPrefix s.future = b :: t := by
            unfold Sock.stream at hst
            rw [hb, he] at hst
            simpa using hst
          obtain ⟨bs, ev', e1, e2, e3⟩ := recvWait_data 1 s s.future hp
          rw [e1]
          refine .inr (.inl ⟨b, t, _, rfl, ⟨?_, ?_, rfl, rfl, rfl⟩, rfl⟩)
          · rw [hst]; simp [Sock.stream, he, e2]
          · simp [Sock.later, he, e3]
        | [] =>
          have hp : dataPrefix s.future = [] := by
            unfold Sock.stream at hst
            rw [hb, he] at hst
            simpa using hst
          rcases recvWait_nodata 1 s s.future hp with ⟨e1, e2⟩ | ⟨ev, e1, e2⟩ | ⟨ev, e1, e2⟩ | ⟨ev, e1, e2⟩
          · rw [e2]; exact .inl ⟨_, _, rfl, rfl, hc, rfl, .inr rfl⟩
          · rw [e2]; exact .inl ⟨_, _, rfl, rfl, hc, rfl, .inr rfl⟩
          · rw [e2]; exact .inr (.inr ⟨_, rfl, rfl, by simp [Sock.later, he, e1], rfl, hc⟩)
          · rw [e2]; exact .inl ⟨_, _, rfl, rfl, hc, rfl, .inr rfl⟩

/-! ### serving one request -/

/-- a frame as the server reads it: the length it announces, but at least seven bytes -/
def ServerFrame (f : Bytes) : Prop := f.length = max 7 (announced f + 6)

/-- the response the server sends to a request (none: nothing is sent) and the memories afterwards -/
def answerTo (R : Registry) (db : Databank) (request : Bytes) (h : Heap) : Option Bytes × Heap :=
  match serverHandle R tcpMac db request h with
  | (.ok (some (b :: bs)), h') => (some (b :: bs), h')
  | (_, h') => (none, h')

theorem srvAnswer_spec {R : Registry} (hR : Quiet R) (db : Databank) (request : Bytes) (c : Conn) :
    srvAnswer R db request c = (.ok (), ⟨(answerTo R db request c.heap).2,
      match (answerTo R db request c.heap).1 with
      | none => c.sock
      | some r => (sockSend r c.sock).2⟩) := by
  unfold srvAnswer answerTo
  simp only [PyM.bind_apply, PyM.tryExcept_apply, Conn.onHeap]
  cases hx : serverHandle R tcpMac db request c.heap with
  | mk o h' =>
    dsimp only
    match o with
    | .error e => rfl
    | .ok none => rfl
    | .ok (some []) => rfl
    | .ok (some (b :: bs)) =>
      dsimp only
      simp only [srvSend, PyM.tryExcept_apply, PyM.bind_apply, PyM.lift_apply, hR _ _, Option.getD_none, Conn.onSock]
      cases hs : sockSend (b :: bs) c.sock with
      | mk o' s' => cases o' <;> rfl

/-- the stream starts with a frame -/
def Framed (st : Bytes) : Prop := 7 ≤ st.length ∧ announced st + 6 ≤ st.length

theorem framed_of_frame {f : Bytes} (hf : ServerFrame f) (rest : Bytes) : Framed (f ++ rest) := by
  unfold ServerFrame at hf
  unfold Framed
  rw [announced_append (by omega), List.length_append]
  omega

theorem getRequestLength_ok {r : Bytes} (h : 6 ≤ r.length) : getRequestLength r = .ok (announced r : Int) := by
  unfold getRequestLength
  rw [if_neg (by omega)]
  obtain ⟨vs, e1, e2⟩ := unpack_HHH (r := slice r 0 6) (by simp [slice]; omega)
  rw [e1]
  have hr : announced r = announced (slice r 0 6) := by
    have hr : r = slice r 0 6 ++ r.drop 6 := by simp [slice]
    conv => lhs; rw [hr]
    exact announced_append (by simp [slice]; omega) _
  rw [hr, ← e2]
  rfl

/-- what serving a ready connection comes to -/
inductive Served (R : Registry) (db : Databank) (c : Conn) : Except PyErr Bool × Conn → Prop where
  /-- an exception; nothing was handled -/
  | failed (e : PyErr) (c' : Conn) (hh : c'.heap = c.heap) (hs : c'.sock.sent = c.sock.sent) (hc : c'.sock.closed = c.sock.closed)
      (cause : c.sock.closed = true ∨ c.sock.buf = [] ∨ ¬ Framed c.sock.stream) : Served R db c (.error e, c')
  /-- the client has disconnected -/
  | gone (c' : Conn) (hh : c'.heap = c.heap) (hs : c'.sock.sent = c.sock.sent) (hc : c'.sock.closed = c.sock.closed)
      (hst : c.sock.stream = []) (he : c.sock.later.head? = some .eof) : Served R db c (.ok true, c')
  /-- the stream ended inside a frame: nothing was handled -/
  | cut (c' : Conn) (hh : c'.heap = c.heap) (hs : c'.sock.sent = c.sock.sent) (hc : c'.sock.closed = c.sock.closed)
      (hst : ¬ Framed c.sock.stream) (hne : c.sock.stream ≠ []) (he : c'.sock.ended = some .eof) (hst' : c'.sock.stream = []) : Served R db c (.ok false, c')
  /-- one frame was read and handled -/
  | handled (c' : Conn) (frame : Bytes) (k : Sock) (hf : ServerFrame frame) (hr : c.sock.Read frame k)
      (ho : c.sock.closed = false)
      (hh : c'.heap = (answerTo R db frame c.heap).2)
      (hs : c'.sock = match (answerTo R db frame c.heap).1 with
        | none => k
        | some r => (sockSend r k).2) : Served R db c (.ok false, c')

theorem srvClient_spec {R : Registry} (hR : Quiet R) (db : Databank) (timed : Bool) (c : Conn) :
    Served R db c (srvClient R db timed c) := by
  cases hcl : c.sock.closed with
  | true =>
    have : srvClient R db timed c = (.error .osError, c) := by
      simp [srvClient, Conn.onSock, sockPeek, hcl]
    rw [this]
    exact .failed _ _ rfl rfl rfl (.inl hcl)
  | false =>
    unfold srvClient
    simp only [PyM.bind_apply, Conn.onSock]
    rcases sockPeek_spec timed hcl with ⟨e, k, e1, e2, e3, e4, _⟩ | ⟨b, t, k, e1, e2, e3⟩ | ⟨k, e1, e2, e3, e4, e5⟩
    · rw [e1]
      exact .failed _ _ rfl e2 (e3.trans hcl.symm) (.inr (.inl e4))
    · rw [e1]
      dsimp only
      rw [if_neg (by simp)]
      have hk : k.closed = false := by rw [e2.closed]; exact hcl
      have hstk : k.stream = c.sock.stream := by rw [e2.stream]; rfl
      rcases srvReadLoop_spec 7 8 [] k hk (by omega) (by simp) with
        ⟨e, k1, f1, f2, f3, f4, f5, f6⟩ | ⟨x, k1, f1, f2, f3, f4⟩ | ⟨x, k1, f1, f2, f3, f4, f5, f6, f7⟩
      · simp only [PyM.bind_apply, PyM.pure_apply, Conn.onSock, f1]
        refine .failed _ _ rfl (f2.trans e2.sent) (f3.trans hcl.symm) (.inr (.inr ?_))
        rw [hstk] at f5
        intro h
        have := h.1
        simp at f5
        omega
      · have hx7 : x.length = 7 := by
          simp only [List.nil_append] at f3 f4
          rcases f4 with f4 | f4
          · subst f4; simp at f3
          · omega
        simp only [PyM.bind_apply, PyM.pure_apply, Conn.onSock, f1, PyM.lift_apply, hR _ _, Option.getD_none, List.nil_append, if_true, getRequestLength_ok (r := x) (by omega)]
        have hk1 : k1.closed = false := by rw [f2.closed]; exact hk
        have hann := announced_lt x
        rcases srvReadLoop_spec (announced x + 6) 65543 x k1 hk1 (by omega) (by omega) with
          ⟨e, k2, g1, g2, g3, g4, g5, g6⟩ | ⟨y, k2, g1, g2, g3, g4⟩ | ⟨y, k2, g1, g2, g3, g4, g5, g6, g7⟩
        · simp only [PyM.bind_apply, PyM.pure_apply, Conn.onSock, g1]
          refine .failed _ _ rfl (g2.trans (f2.sent.trans e2.sent)) (g3.trans hcl.symm) (.inr (.inr ?_))
          rw [← hstk, f2.stream]
          intro h
          have := h.2
          rw [announced_append (by omega)] at this
          omega
        · simp only [PyM.bind_apply, PyM.pure_apply, Conn.onSock, g1, if_true, srvAnswer_spec hR]
          have hann' : announced (x ++ y) = announced x := announced_append (by omega) y
          have hread : c.sock.Read (x ++ y) k2 := by
            have := (e2.trans f2).trans g2
            simpa using this
          refine .handled _ (x ++ y) k2 ?_ hread hcl rfl rfl
          unfold ServerFrame
          rw [hann']
          rcases g4 with g4 | g4
          · subst g4
            simp only [List.append_nil] at g3 ⊢
            omega
          · rw [List.length_append] at g4 ⊢
            omega
        · simp only [PyM.bind_apply, PyM.pure_apply, Conn.onSock, g1]
          refine .cut _ rfl (g4.trans (f2.sent.trans e2.sent)) (g5.trans hcl.symm) ?_ (by rw [e3]; simp) g2 g3
          rw [← hstk, f2.stream]
          intro h
          have := h.2
          rw [announced_append (by omega)] at this
          rw [← g6] at this
          omega
      · simp only [PyM.bind_apply, PyM.pure_apply, Conn.onSock, f1, PyM.lift_apply, hR _ _]
        refine .cut _ rfl (f4.trans e2.sent) (f5.trans hcl.symm) ?_ (by rw [e3]; simp) f2 f3
        rw [← hstk, ← f6]
        intro h
        have := h.1
        simp at f7
        omega
    · rw [e1]
      simp only [List.length_nil, if_true, PyM.lift_apply, hR _ _]
      exact .gone _ rfl e4 (e5.trans hcl.symm) e2 e3

end Modbus
