import Verif.Lemmas.TcpServer
import Verif.Props.EndToEnd
import Verif.Props.TcpMaster
/-
# Properties C29, C47: the TCP server
-/
namespace Modbus
open Spec (word wordAt tcpAdu Call)

/-! ## C29 -/

/-- The memories after the requests of the list (pairs of a connection and a request) have been answered in this order, and
    the responses with the connections they are sent on. -/
def serveAll (R : Registry) (db : Databank) : List (Nat × Bytes) → Heap → Heap × List (Nat × Bytes)
  | [], h => (h, [])
  | (i, f) :: log, h =>
    let r := answerTo R db f h
    let (h', out) := serveAll R db log r.2
    (h', (r.1.toList.map fun m => (i, m)) ++ out)

/-- the part of a list that concerns one connection -/
def ofConn (j : Nat) (log : List (Nat × Bytes)) : List Bytes := (log.filter (fun p => p.1 = j)).map (·.2)

theorem ofConn_append (j : Nat) (a b : List (Nat × Bytes)) : ofConn j (a ++ b) = ofConn j a ++ ofConn j b := by
  simp [ofConn]

theorem serveAll_append (R : Registry) (db : Databank) (a b : List (Nat × Bytes)) (h : Heap) :
    serveAll R db (a ++ b) h = ((serveAll R db b (serveAll R db a h).1).1,
      (serveAll R db a h).2 ++ (serveAll R db b (serveAll R db a h).1).2) := by
  induction a generalizing h with
  | nil => rfl
  | cons p a ih =>
    obtain ⟨i, f⟩ := p
    simp only [List.cons_append, serveAll, ih]
    simp

/-- the reader has met the end of the stream, or will meet it next -/
def Sock.AtEnd (k : Sock) : Prop := k.stream = [] ∧ k.later.head? = some .eof

/-- What happened on one connection between two moments: the requests `frames` were read from it and the responses `replies`
    were sent on it; what was not read is still to be read, or the stream is over. -/
structure ConnHistory (k0 k : Sock) (frames replies : List Bytes) : Prop where
  frame : ∀ f ∈ frames, ServerFrame f
  data : ∃ rest, k0.allData = frames.flatten ++ rest ∧ (k.closed = false → rest = k.allData ∨ k.AtEnd)
  sent : k0.Unbroken → k.sent = k0.sent ++ replies
  unbroken : k0.Unbroken → k.closed = false → k.Unbroken
  atEnd : k0.AtEnd → frames = [] ∧ (k.closed = false → k.AtEnd)
  closed : k0.closed = true → k.closed = true ∧ frames = [] ∧ replies = [] ∧ k.sent = k0.sent

/-- What happened on the whole server: the requests of `log` were handled one after the other, in this order. -/
structure SrvHistory (R : Registry) (db : Databank) (s0 s : Srv) (log : List (Nat × Bytes)) : Prop where
  heap : s.heap = (serveAll R db log s0.heap).1
  conn : ∀ j, ConnHistory (s0.socks j) (s.socks j) (ofConn j log) (ofConn j (serveAll R db log s0.heap).2)

theorem ConnHistory.refl (k : Sock) : ConnHistory k k [] [] :=
  ⟨by simp, ⟨k.allData, by simp, fun _ => .inl rfl⟩, fun _ => by simp, fun h _ => h, fun h => ⟨rfl, fun _ => h⟩,
    fun h => ⟨h, rfl, rfl, rfl⟩⟩

theorem SrvHistory.refl (R : Registry) (db : Databank) (s : Srv) : SrvHistory R db s s [] :=
  ⟨rfl, fun _ => ConnHistory.refl _⟩

theorem ConnHistory.trans {a b c : Sock} {f1 f2 r1 r2 : List Bytes} (h : ConnHistory a b f1 r1) (h' : ConnHistory b c f2 r2) :
    ConnHistory a c (f1 ++ f2) (r1 ++ r2) := by
  obtain ⟨rest1, d1, d2⟩ := h.data
  obtain ⟨rest2, e1, e2⟩ := h'.data
  cases hb : b.closed with
  | true =>
    obtain ⟨c1, c2, c3, c4⟩ := h'.closed hb
    subst c2 c3
    refine ⟨?_, ⟨rest1, by simp [d1], ?_⟩, ?_, ?_, ?_, ?_⟩
    · simpa using h.frame
    · rw [c1]; intro h; cases h
    · intro hu; rw [c4, h.sent hu, List.append_nil]
    · rw [c1]; intro _ h; cases h
    · intro ha; exact ⟨by simp [(h.atEnd ha).1], by rw [c1]; intro h; cases h⟩
    · intro ha
      obtain ⟨_, g2, g3, g4⟩ := h.closed ha
      exact ⟨c1, by simp [g2], by simp [g3], by rw [c4, g4]⟩
  | false =>
    refine ⟨?_, ?_, ?_, ?_, ?_, ?_⟩
    · intro f hf
      rcases List.mem_append.mp hf with hf | hf
      · exact h.frame f hf
      · exact h'.frame f hf
    · rcases d2 hb with d2 | d2
      · refine ⟨rest2, ?_, e2⟩
        rw [d1, d2, e1]; simp
      · obtain ⟨g1, g2⟩ := h'.atEnd d2
        subst g1
        exact ⟨rest1, by simp [d1], fun hc => .inr (g2 hc)⟩
    · intro hu
      rw [h'.sent (h.unbroken hu hb), h.sent hu, List.append_assoc]
    · intro hu hc; exact h'.unbroken (h.unbroken hu hb) hc
    · intro ha
      obtain ⟨g1, g2⟩ := h.atEnd ha
      obtain ⟨k1, k2⟩ := h'.atEnd (g2 hb)
      exact ⟨by simp [g1, k1], k2⟩
    · intro ha
      rw [(h.closed ha).1] at hb; cases hb

theorem SrvHistory.trans {R : Registry} {db : Databank} {a b c : Srv} {l1 l2 : List (Nat × Bytes)}
    (h : SrvHistory R db a b l1) (h' : SrvHistory R db b c l2) : SrvHistory R db a c (l1 ++ l2) := by
  refine ⟨?_, fun j => ?_⟩
  · rw [serveAll_append, h'.heap, h.heap]
  · rw [serveAll_append, ofConn_append, ofConn_append, ← h.heap]
    exact (h.conn j).trans (h'.conn j)

/-- a step in which nothing is handled -/
theorem history_none {R : Registry} {db : Databank} {s s' : Srv} (hh : s'.heap = s.heap)
    (hc : ∀ j, ConnHistory (s.socks j) (s'.socks j) [] []) : SrvHistory R db s s' [] := ⟨hh, hc⟩

/-- a step in which one request is handled -/
theorem history_frame {R : Registry} {db : Databank} {s s' : Srv} (i : Nat) (f : Bytes)
    (hh : s'.heap = (answerTo R db f s.heap).2)
    (hi : ConnHistory (s.socks i) (s'.socks i) [f] (answerTo R db f s.heap).1.toList)
    (hj : ∀ j, j ≠ i → s'.socks j = s.socks j) : SrvHistory R db s s' [(i, f)] := by
  refine ⟨hh, fun j => ?_⟩
  by_cases hji : j = i
  · subst hji
    have e1 : ofConn j [(j, f)] = [f] := by simp [ofConn]
    have e2 : ofConn j (serveAll R db [(j, f)] s.heap).2 = (answerTo R db f s.heap).1.toList := by
      simp only [serveAll, List.append_nil]
      cases (answerTo R db f s.heap).1 <;> simp [ofConn]
    rw [e1, e2]; exact hi
  · have e1 : ofConn j [(i, f)] = [] := by simp [ofConn, Ne.symm hji]
    have e2 : ofConn j (serveAll R db [(i, f)] s.heap).2 = [] := by
      simp only [serveAll, List.append_nil]
      cases (answerTo R db f s.heap).1 <;> simp [ofConn, Ne.symm hji]
    rw [hj j hji, e1, e2]
    exact ConnHistory.refl _

/-! ### the steps -/

theorem readable_arrive_atEnd {k : Sock} (h : k.AtEnd) : k.arrive.AtEnd := by
  obtain ⟨h1, h2⟩ := h
  unfold Sock.AtEnd at *
  match he : k.ended with
  | some e => rw [arrive_ended he]; exact ⟨h1, h2⟩
  | none =>
    unfold Sock.stream at h1
    unfold Sock.later at h2
    rw [he] at h1 h2
    simp only [if_true, List.append_eq_nil_iff] at h1
    obtain ⟨hb, hp⟩ := h1
    unfold Sock.arrive
    rw [he]
    match hf : k.future with
    | [] => rw [hf] at h2; simp [afterData] at h2
    | .data bs :: ev =>
      rw [hf] at hp h2
      simp only [dataPrefix, List.append_eq_nil_iff] at hp
      simp only [Sock.stream, Sock.later, hb, hp.1, hp.2, if_true]
      exact ⟨rfl, h2⟩
    | .pause :: ev => rw [hf] at h2; simp [afterData] at h2
    | .eof :: ev => simp [Sock.stream, Sock.later, hb]
    | .reset :: ev => rw [hf] at h2; simp [afterData] at h2

theorem arriveN_atEnd (n : Nat) {k : Sock} (h : k.AtEnd) : (Sock.arriveN n k).AtEnd := by
  induction n generalizing k with
  | zero => exact h
  | succ n ih => exact ih (readable_arrive_atEnd h)

theorem history_arrivals (R : Registry) (db : Databank) (rd : Round) (s : Srv) : SrvHistory R db s (s.arrivals rd) [] := by
  refine ⟨rfl, fun j => ⟨by simp [ofConn], ⟨_, by simp [ofConn]; rfl, ?_⟩, ?_, ?_, ?_, ?_⟩⟩
  · intro _; left; exact (arriveN_allData _ _).symm
  · intro _; simp only [Srv.arrivals, (arriveN_keeps _ _).1, ofConn, serveAll]; simp
  · intro h _; exact arriveN_unbroken _ h
  · intro h; exact ⟨rfl, fun _ => arriveN_atEnd _ h⟩
  · intro h
    refine ⟨?_, rfl, rfl, ?_⟩
    · simp only [Srv.arrivals, (arriveN_keeps _ _).2]; exact h
    · simp only [Srv.arrivals, (arriveN_keeps _ _).1]

theorem serverFrame_pos {f : Bytes} (h : ServerFrame f) : f ≠ [] := by
  intro hf; subst hf; unfold ServerFrame at h; simp only [List.length_nil] at h; omega

theorem conn_close (k k' : Sock) (hs : k'.sent = k.sent) (hc : k'.closed = true) : ConnHistory k k' [] [] := by
  refine ⟨by simp, ⟨_, rfl, ?_⟩, fun _ => by simp [hs], ?_, fun _ => ⟨rfl, ?_⟩, fun _ => ⟨hc, rfl, rfl, hs⟩⟩
  · rw [hc]; intro h; cases h
  · rw [hc]; intro _ h; cases h
  · rw [hc]; intro h; cases h

theorem send_closed (r : Bytes) (k : Sock) : (sockSend r k).2.closed = k.closed ∧ (sockSend r k).2.allData = k.allData ∧
    ((sockSend r k).2.stream = k.stream) ∧ ((sockSend r k).2.later = k.later) := by
  unfold sockSend
  split <;> exact ⟨rfl, rfl, rfl, rfl⟩

theorem conn_cut {k k' : Sock} (hs : k'.sent = k.sent) (hc : k'.closed = k.closed) (hne : k.stream ≠ [])
    (he : k'.ended = some .eof) (hst : k'.stream = []) : ConnHistory k k' [] [] := by
  have hae : k'.AtEnd := ⟨hst, by simp [Sock.later, he]⟩
  refine ⟨by simp, ⟨_, rfl, fun _ => .inr hae⟩, fun _ => by simp [hs], fun _ _ => ?_, fun h => absurd h.1 hne,
    fun h => ⟨hc.trans h, rfl, rfl, hs⟩⟩
  simp [Sock.Unbroken, Sock.later, he]

theorem conn_handled {k k1 k' : Sock} {f : Bytes} {r : Option Bytes} (hf : ServerFrame f) (hr : k.Read f k1) (ho : k.closed = false)
    (hk : k' = match r with
      | none => k1
      | some m => (sockSend m k1).2) : ConnHistory k k' [f] r.toList := by
  have hne := serverFrame_pos hf
  have same : k'.closed = k1.closed ∧ k'.allData = k1.allData ∧ k'.stream = k1.stream ∧ k'.later = k1.later := by
    subst hk
    cases r with
    | none => exact ⟨rfl, rfl, rfl, rfl⟩
    | some m => exact send_closed m k1
  refine ⟨by simpa using hf, ⟨k'.allData, ?_, fun _ => .inl rfl⟩, ?_, ?_, ?_, ?_⟩
  · rw [same.2.1, hr.allData]; simp
  · intro hu
    subst hk
    cases r with
    | none => simp [hr.sent]
    | some m =>
      dsimp only
      rw [unbroken_send (by rw [hr.closed]; exact ho) (hr.unbroken hu)]
      simp [hr.sent]
  · intro hu _
    have := hr.unbroken hu
    unfold Sock.Unbroken at *
    rw [same.2.2.2]; exact this
  · intro h
    have := h.1
    rw [hr.stream] at this
    exact absurd (List.append_eq_nil_iff.mp this).1 hne
  · intro h; rw [ho] at h; cases h

theorem put_self (s : Srv) (i : Nat) (k : Sock) : (s.put i k).socks i = k := by simp [Srv.put]
theorem put_other (s : Srv) {i j : Nat} (k : Sock) (h : j ≠ i) : (s.put i k).socks j = s.socks j := by simp [Srv.put, h]

theorem srvDrop_state (i : Nat) (s : Srv) : (srvDrop i s).2.heap = s.heap ∧ ((srvDrop i s).2.socks i) = (s.socks i).close ∧
    ∀ j, j ≠ i → (srvDrop i s).2.socks j = s.socks j := by
  unfold srvDrop
  dsimp only
  split
  · exact ⟨rfl, put_self _ _ _, fun j h => put_other _ _ h⟩
  · exact ⟨rfl, put_self _ _ _, fun j h => put_other _ _ h⟩

theorem history_drop {R : Registry} {db : Databank} {s s' : Srv} (i : Nat) (hh : s'.heap = s.heap)
    (hi : (s'.socks i).sent = (s.socks i).sent) (hj : ∀ j, j ≠ i → s'.socks j = s.socks j) :
    SrvHistory R db s (srvDrop i s').2 [] := by
  obtain ⟨d1, d2, d3⟩ := srvDrop_state i s'
  refine history_none (d1.trans hh) fun j => ?_
  by_cases hji : j = i
  · subst hji; exact conn_close _ _ (by rw [d2]; exact hi) (by rw [d2]; rfl)
  · rw [d3 j hji, hj j hji]; exact ConnHistory.refl _

/-- one ready socket -/
theorem history_one {R : Registry} (hR : Quiet R) (db : Databank) (acc : Option (Except PyErr Unit)) (i : Nat) (s : Srv) :
    (∃ e s', srvOne R db acc i s = (.error e, s') ∧ s'.heap = s.heap ∧ (s'.socks i).sent = (s.socks i).sent ∧
      ∀ j, j ≠ i → s'.socks j = s.socks j) ∨
    (∃ brk s' log, srvOne R db acc i s = (.ok brk, s') ∧ SrvHistory R db s s' log) := by
  unfold srvOne
  by_cases hl : s.sock = some i
  · rw [if_pos hl]
    unfold srvAccept
    match acc with
    | none => exact .inl ⟨_, _, rfl, rfl, rfl, fun _ _ => rfl⟩
    | some (.error e) => exact .inl ⟨_, _, rfl, rfl, rfl, fun _ _ => rfl⟩
    | some (.ok ()) =>
      simp only [hR _ _]
      exact .inr ⟨_, _, [], rfl, history_none rfl fun j => ConnHistory.refl _⟩
  · rw [if_neg hl]
    have := srvClient_spec hR db (s.timed.contains i) ⟨s.heap, s.socks i⟩
    generalize srvClient R db (s.timed.contains i) ⟨s.heap, s.socks i⟩ = out at this
    cases this with
    | failed e c' hh hs hc cause =>
      exact .inl ⟨_, _, rfl, hh, by rw [← hs]; exact congrArg _ (put_self _ _ _), fun j h => put_other _ _ h⟩
    | gone c' hh hs hc hst he =>
      dsimp only
      rw [if_pos rfl]
      have hist := history_drop (R := R) (db := db) (s := s)
        (s' := { (s.put i c'.sock) with heap := c'.heap, timed := i :: s.timed }) i hh
        (by rw [← hs]; exact congrArg _ (put_self _ _ _)) (fun j h => put_other _ _ h)
      have hst := srvDrop_state i { (s.put i c'.sock) with heap := c'.heap, timed := i :: s.timed }
      cases hd : srvDrop i { (s.put i c'.sock) with heap := c'.heap, timed := i :: s.timed } with
      | mk o s2 =>
        rw [hd] at hist hst
        cases o with
        | ok _ => exact .inr ⟨true, s2, [], rfl, hist⟩
        | error e =>
          refine .inl ⟨e, s2, rfl, hist.heap, ?_, fun j h => (hst.2.2 j h).trans (put_other _ _ h)⟩
          dsimp only at hst
          rw [hst.2.1, ← hs]
          show ((s.put i c'.sock).socks i).sent = _
          rw [put_self]
    | cut c' hh hs hc hst hne he hst' =>
      refine .inr ⟨false, _, [], rfl, history_none hh fun j => ?_⟩
      by_cases hji : j = i
      · subst hji
        have : ({ (s.put j c'.sock) with heap := c'.heap, timed := j :: s.timed } : Srv).socks j = c'.sock := put_self _ _ _
        rw [this]
        exact conn_cut hs hc hne he hst'
      · have : ({ (s.put i c'.sock) with heap := c'.heap, timed := i :: s.timed } : Srv).socks j = s.socks j := put_other _ _ hji
        rw [this]; exact ConnHistory.refl _
    | handled c' frame k hf hr ho hh hs =>
      refine .inr ⟨false, _, [(i, frame)], rfl, history_frame i frame hh ?_ fun j h => put_other _ _ h⟩
      have : ({ (s.put i c'.sock) with heap := c'.heap, timed := i :: s.timed } : Srv).socks i = c'.sock := put_self _ _ _
      rw [this]
      exact conn_handled hf hr ho hs

theorem history_loop {R : Registry} (hR : Quiet R) (db : Databank) (acc : Option (Except PyErr Unit)) (ready : List Nat) (s : Srv) :
    ∃ log, SrvHistory R db s (srvLoop R db acc ready s).2 log := by
  induction ready generalizing s with
  | nil => exact ⟨[], SrvHistory.refl R db s⟩
  | cons i rest ih =>
    rw [srvLoop]
    rcases history_one hR db acc i s with ⟨e, s', e1, e2, e3, e4⟩ | ⟨brk, s', log, e1, e2⟩
    · simp only [e1, hR _ _]
      have hist := history_drop (R := R) (db := db) (s := s) (s' := s') i e2 e3 e4
      cases hd : srvDrop i s' with
      | mk o s2 =>
        rw [hd] at hist
        cases o with
        | ok _ =>
          obtain ⟨log, h⟩ := ih s2
          exact ⟨_, hist.trans h⟩
        | error e => exact ⟨_, hist⟩
    · simp only [e1]
      cases brk with
      | true => exact ⟨log, e2⟩
      | false =>
        obtain ⟨log', h⟩ := ih s'
        exact ⟨_, e2.trans h⟩

theorem history_run {R : Registry} (hR : Quiet R) (db : Databank) (rd : Round) (s : Srv) :
    ∃ log, SrvHistory R db s (srvRun R db rd s).2 log := by
  have h := history_arrivals R db rd s
  unfold srvRun
  dsimp only
  split
  · exact ⟨_, h⟩
  · obtain ⟨log, h'⟩ := history_loop hR db rd.accept ((s.arrivals rd).ready rd) (s.arrivals rd)
    exact ⟨_, h.trans h'⟩

/-- **C29.** Whatever the clients send, in whatever segments, at whatever times, and however the server is scheduled: what
    the server does is to answer a sequence of requests, one after the other; the requests taken from each connection are
    consecutive whole frames from the start of what its client sent, no byte being skipped, lost or used twice between
    them, and nothing is taken from a frame that is cut; the responses go, in order, to the connection of the request. -/
theorem C29_history (R : Registry) (hR : Quiet R) (db : Databank) (rounds : List Round) (s : Srv) :
    ∃ log, SrvHistory R db s (srvRounds R db rounds s).2 log := by
  induction rounds generalizing s with
  | nil => exact ⟨[], SrvHistory.refl R db s⟩
  | cons rd rest ih =>
    obtain ⟨log, h⟩ := history_run hR db rd s
    simp only [srvRounds]
    cases hr : srvRun R db rd s with
    | mk o s' =>
      rw [hr] at h
      cases o with
      | error e => exact ⟨log, h⟩
      | ok _ =>
        obtain ⟨log', h'⟩ := ih s'
        exact ⟨_, h.trans h'⟩

/-! ### exactly the frames that were sent -/

theorem frame_prefix {f g a b : Bytes} (hf : ServerFrame f) (hg : ServerFrame g) (h : f ++ a = g ++ b) : f = g ∧ a = b := by
  have h1 := announced_append (r := f) (by unfold ServerFrame at hf; omega) a
  have h2 := announced_append (r := g) (by unfold ServerFrame at hg; omega) b
  have hlen : f.length = g.length := by
    unfold ServerFrame at hf hg
    rw [hf, hg, ← h1, ← h2, h]
  exact List.append_inj h hlen

theorem frames_prefix : ∀ (fs gs : List Bytes) (a b : Bytes), (∀ f ∈ fs, ServerFrame f) → (∀ g ∈ gs, ServerFrame g) →
    ¬ Framed b → fs.flatten ++ a = gs.flatten ++ b → fs <+: gs
  | [], gs, _, _, _, _, _, _ => List.nil_prefix
  | f :: fs, [], a, b, hf, _, hb, h => by
    exfalso
    apply hb
    have : b = f ++ (fs.flatten ++ a) := by simpa using h.symm
    rw [this]
    exact framed_of_frame (hf f (by simp)) _
  | f :: fs, g :: gs, a, b, hf, hg, hb, h => by
    simp only [List.flatten_cons, List.append_assoc] at h
    obtain ⟨h1, h2⟩ := frame_prefix (hf f (by simp)) (hg g (by simp)) h
    subst h1
    have := frames_prefix fs gs a b (fun x hx => hf x (by simp [hx])) (fun x hx => hg x (by simp [hx])) hb h2
    exact List.cons_prefix_cons.mpr ⟨rfl, this⟩

/-- **C29.** If a client sends the given frames and possibly an incomplete one, the requests taken from its connection are the
    first of these frames, in order; the responses sent to it are those of these requests. -/
theorem C29_frames (R : Registry) (hR : Quiet R) (db : Databank) (rounds : List Round) (s : Srv) (j : Nat)
    (frames : List Bytes) (partialFrame : Bytes) (hf : ∀ f ∈ frames, ServerFrame f) (hp : ¬ Framed partialFrame)
    (hd : (s.socks j).allData = frames.flatten ++ partialFrame) :
    ∃ log, (srvRounds R db rounds s).2.heap = (serveAll R db log s.heap).1 ∧ ofConn j log <+: frames ∧
      ((s.socks j).Unbroken → ((srvRounds R db rounds s).2.socks j).sent =
        (s.socks j).sent ++ ofConn j (serveAll R db log s.heap).2) := by
  obtain ⟨log, h⟩ := C29_history R hR db rounds s
  obtain ⟨rest, d, _⟩ := (h.conn j).data
  exact ⟨log, h.heap, frames_prefix _ _ rest partialFrame (h.conn j).frame hf hp (by rw [← d, hd]), (h.conn j).sent⟩

/-- the frames of a client are frames for the server -/
theorem serverFrame_adu (tid pid : UInt16) (unit : UInt8) {pdu : Bytes} (h : pdu.length ≤ 65534) :
    ServerFrame (tcpAdu tid pid unit pdu) := by
  unfold ServerFrame
  rw [tcpAdu_announced tid pid unit h, tcpAdu_length]
  omega

/-! ### one round in detail -/

/-- what one round of the loop over the ready sockets does -/
inductive Stepped (R : Registry) (db : Databank) (acc : Option (Except PyErr Unit)) (s : Srv) (i : Nat) :
    Except PyErr Bool × Srv → Prop where
  /-- a new connection -/
  | accepted (hl : s.sock = some i) (ha : acc = some (.ok ())) :
      Stepped R db acc s i (.ok false, { s with sockets := s.sockets ++ [s.next], next := s.next + 1 })
  /-- the socket is closed and forgotten -/
  | dropped (brk : Bool) (s' : Srv) (hh : s'.heap = s.heap) (hi : (s'.socks i).closed = true)
      (hj : ∀ j, j ≠ i → s'.socks j = s.socks j) (hsock : s'.sock = s.sock) (hss : s'.sockets = s.sockets.erase i)
      (hn : s'.next = s.next)
      (cause : (s.sock = some i ∧ acc ≠ some (.ok ())) ∨
        (s.sock ≠ some i ∧ ((s.socks i).closed = true ∨ (s.socks i).buf = [] ∨ ¬ Framed (s.socks i).stream)))
      (hbrk : brk = true → s.sock ≠ some i ∧ (s.socks i).AtEnd) : Stepped R db acc s i (.ok brk, s')
  /-- the stream ended inside a frame -/
  | cut (s' : Srv) (hl : s.sock ≠ some i) (hh : s'.heap = s.heap) (hc : (s'.socks i).closed = (s.socks i).closed)
      (hj : ∀ j, j ≠ i → s'.socks j = s.socks j) (hsock : s'.sock = s.sock) (hss : s'.sockets = s.sockets) (hn : s'.next = s.next)
      (hf : ¬ Framed (s.socks i).stream) : Stepped R db acc s i (.ok false, s')
  /-- a request was handled -/
  | handled (s' : Srv) (frame : Bytes) (k : Sock) (hl : s.sock ≠ some i) (hf : ServerFrame frame) (hr : (s.socks i).Read frame k)
      (ho : (s.socks i).closed = false) (hh : s'.heap = (answerTo R db frame s.heap).2)
      (hs : s'.socks i = match (answerTo R db frame s.heap).1 with
        | none => k
        | some r => (sockSend r k).2)
      (hj : ∀ j, j ≠ i → s'.socks j = s.socks j) (hsock : s'.sock = s.sock) (hss : s'.sockets = s.sockets) (hn : s'.next = s.next) :
      Stepped R db acc s i (.ok false, s')

/-- the body of the loop: one socket, with the exception handler -/
def srvStep (R : Registry) (db : Databank) (acc : Option (Except PyErr Unit)) (i : Nat) : PyM Srv Bool := fun s =>
  match srvOne R db acc i s with
  | (.ok brk, s') => (.ok brk, s')
  | (.error e, s') =>
    match callHooks R "modbus_tcp.TcpServer.on_error" (.exc e []) with
    | .error e' => (.error e', s')
    | .ok _ =>
      match srvDrop i s' with
      | (.ok _, s'') => (.ok false, s'')
      | (.error e', s'') => (.error e', s'')

theorem srvLoop_cons (R : Registry) (db : Databank) (acc : Option (Except PyErr Unit)) (i : Nat) (rest : List Nat) (s : Srv) :
    srvLoop R db acc (i :: rest) s = match srvStep R db acc i s with
      | (.ok true, s') => (.ok (), s')
      | (.ok false, s') => srvLoop R db acc rest s'
      | (.error e, s') => (.error e, s') := by
  simp only [srvLoop, srvStep]
  cases srvOne R db acc i s with
  | mk o s' =>
    match o with
    | .ok true => rfl
    | .ok false => rfl
    | .error e =>
      simp only
      cases callHooks R "modbus_tcp.TcpServer.on_error" (.exc e []) with
      | error e' => rfl
      | ok r =>
        simp only
        cases srvDrop i s' with
        | mk o s'' => cases o <;> rfl

theorem srvDrop_mem {i : Nat} {s : Srv} (h : i ∈ s.sockets) :
    srvDrop i s = (.ok (), { s.put i (s.socks i).close with sockets := s.sockets.erase i }) := by
  unfold srvDrop
  dsimp only
  rw [if_pos (by exact h)]
  rfl

theorem srvStep_spec {R : Registry} (hR : Quiet R) (db : Databank) (acc : Option (Except PyErr Unit)) {i : Nat} {s : Srv}
    (hm : i ∈ s.sockets) : Stepped R db acc s i (srvStep R db acc i s) := by
  unfold srvStep srvOne
  by_cases hl : s.sock = some i
  · rw [if_pos hl]
    unfold srvAccept
    match hacc : acc with
    | none =>
      simp only [hR _ _, srvDrop_mem hm]
      exact .dropped _ _ rfl (by simp [Srv.put, Sock.close]) (fun j h => put_other _ _ h) rfl rfl rfl (.inl ⟨hl, by simp⟩)
        (by intro h; cases h)
    | some (.error e) =>
      simp only [hR _ _, srvDrop_mem hm]
      exact .dropped _ _ rfl (by simp [Srv.put, Sock.close]) (fun j h => put_other _ _ h) rfl rfl rfl (.inl ⟨hl, by simp⟩)
        (by intro h; cases h)
    | some (.ok ()) =>
      simp only [hR _ _]
      exact .accepted hl rfl
  · rw [if_neg hl]
    have := srvClient_spec hR db (s.timed.contains i) ⟨s.heap, s.socks i⟩
    generalize srvClient R db (s.timed.contains i) ⟨s.heap, s.socks i⟩ = out at this
    cases this with
    | failed e c' hh hs hc cause =>
      have hm' : i ∈ ({ (s.put i c'.sock) with heap := c'.heap, timed := i :: s.timed } : Srv).sockets := hm
      simp only [hR _ _, srvDrop_mem hm']
      refine .dropped _ _ hh (by simp [Srv.put, Sock.close]) ?_ rfl rfl rfl (.inr ⟨hl, cause⟩) (by intro h; cases h)
      intro j h
      simp [Srv.put, h]
    | gone c' hh hs hc hst he =>
      have hm' : i ∈ ({ (s.put i c'.sock) with heap := c'.heap, timed := i :: s.timed } : Srv).sockets := hm
      simp only [srvDrop_mem hm', if_true]
      refine .dropped _ _ hh (by simp [Srv.put, Sock.close]) ?_ rfl rfl rfl (.inr ⟨hl, .inr (.inr ?_)⟩) (fun _ => ⟨hl, hst, he⟩)
      · intro j h
        simp [Srv.put, h]
      · dsimp only at hst
        rw [hst]
        intro h
        have := h.1
        simp at this
    | cut c' hh hs hc hst hne he hst' =>
      refine .cut _ hl hh ?_ ?_ rfl rfl rfl hst
      · show ((s.put i c'.sock).socks i).closed = _
        rw [put_self]; exact hc
      · intro j h
        simp [Srv.put, h]
    | handled c' frame k hf hr ho hh hs =>
      refine .handled _ frame k hl hf hr ho hh ?_ ?_ rfl rfl rfl
      · show (s.put i c'.sock).socks i = _
        rw [put_self]; exact hs
      · intro j h
        simp [Srv.put, h]

/-! ## C47 -/

/-- the registered sockets are open and distinct, the listening socket is one of them -/
structure SrvInv (s : Srv) : Prop where
  listening : ∃ l, s.sock = some l ∧ l ∈ s.sockets
  nodup : s.sockets.Nodup
  opened : ∀ i ∈ s.sockets, (s.socks i).closed = false
  old : ∀ i ∈ s.sockets, i < s.next
  fresh : ∀ i, s.next ≤ i → (s.socks i).closed = false

theorem SrvInv.arrivals {s : Srv} (h : SrvInv s) (rd : Round) : SrvInv (s.arrivals rd) :=
  ⟨h.listening, h.nodup, fun i hi => by simp only [Srv.arrivals, (arriveN_keeps _ _).2]; exact h.opened i hi, h.old,
    fun i hi => by simp only [Srv.arrivals, (arriveN_keeps _ _).2]; exact h.fresh i hi⟩

theorem stepped_inv {R : Registry} {db : Databank} {acc : Option (Except PyErr Unit)} {s : Srv} {i : Nat}
    {out : Except PyErr Bool × Srv} (h : Stepped R db acc s i out) (hi : SrvInv s) (hm : i ∈ s.sockets)
    (hacc : s.sock = some i → acc = some (.ok ())) : SrvInv out.2 ∧ out.2.sock = s.sock ∧ s.next ≤ out.2.next := by
  obtain ⟨l, hl, hlm⟩ := hi.listening
  cases h with
  | accepted hl' ha =>
    refine ⟨⟨⟨l, hl, by simp [hlm]⟩, ?_, ?_, ?_, ?_⟩, rfl, by simp⟩
    · refine List.nodup_append.mpr ⟨hi.nodup, by simp, ?_⟩
      intro a ha b hb
      simp at hb
      subst hb
      have := hi.old a ha
      omega
    · intro j hj
      simp at hj
      rcases hj with hj | hj
      · exact hi.opened j hj
      · subst hj; exact hi.fresh _ (Nat.le_refl _)
    · intro j hj
      simp at hj
      rcases hj with hj | hj
      · have := hi.old j hj; dsimp only; omega
      · dsimp only; omega
    · intro j hj
      dsimp only at hj
      exact hi.fresh j (by omega)
  | dropped brk s' hh hi' hj hsock hss hn cause hbrk =>
    have hil : s.sock ≠ some i := by
      intro hc
      rcases cause with ⟨_, c⟩ | ⟨c, _⟩
      · exact c (hacc hc)
      · exact c hc
    dsimp only
    refine ⟨⟨⟨l, hsock.trans hl, ?_⟩, ?_, ?_, ?_, ?_⟩, hsock, by omega⟩
    · rw [hss]
      refine (List.mem_erase_of_ne ?_).mpr hlm
      intro h; subst h; exact hil hl
    · rw [hss]; exact hi.nodup.erase i
    · intro j hj'
      rw [hss] at hj'
      have : j ≠ i := by
        intro h; subst h
        exact (hi.nodup.mem_erase_iff.mp hj').1 rfl
      rw [hj j this]
      exact hi.opened j (List.mem_of_mem_erase hj')
    · intro j hj'
      rw [hss] at hj'
      rw [hn]; exact hi.old j (List.mem_of_mem_erase hj')
    · intro j hj'
      have := hi.old i hm
      rw [hj j (by omega)]
      exact hi.fresh j (by omega)
  | cut s' hl' hh hc hj hsock hss hn hf =>
    dsimp only
    refine ⟨⟨⟨l, hsock.trans hl, by rw [hss]; exact hlm⟩, by rw [hss]; exact hi.nodup, ?_, ?_, ?_⟩, hsock, by omega⟩
    · intro j hj'
      rw [hss] at hj'
      by_cases h : j = i
      · subst h; rw [hc]; exact hi.opened j hj'
      · rw [hj j h]; exact hi.opened j hj'
    · intro j hj'
      rw [hss] at hj'
      rw [hn]; exact hi.old j hj'
    · intro j hj'
      have := hi.old i hm
      rw [hj j (by omega)]
      exact hi.fresh j (by omega)
  | handled s' frame k hl' hf hr ho hh hs hj hsock hss hn =>
    dsimp only
    refine ⟨⟨⟨l, hsock.trans hl, by rw [hss]; exact hlm⟩, by rw [hss]; exact hi.nodup, ?_, ?_, ?_⟩, hsock, by omega⟩
    · intro j hj'
      rw [hss] at hj'
      by_cases h : j = i
      · subst h
        rw [hs]
        have hk : k.closed = false := by rw [hr.closed]; exact ho
        cases (answerTo R db frame s.heap).1 with
        | none => exact hk
        | some r => exact (send_closed r k).1.trans hk
      · rw [hj j h]; exact hi.opened j hj'
    · intro j hj'
      rw [hss] at hj'
      rw [hn]; exact hi.old j hj'
    · intro j hj'
      have := hi.old i hm
      rw [hj j (by omega)]
      exact hi.fresh j (by omega)

/-- nothing is wrong with the connection: it is silent, or its stream starts with a frame -/
def Sock.Healthy (k : Sock) : Prop := k.readable = false ∨ (k.buf ≠ [] ∧ Framed k.stream)

theorem loop_inv {R : Registry} (hR : Quiet R) (db : Databank) (acc : Option (Except PyErr Unit)) : ∀ (ready : List Nat) (s : Srv),
    ready.Nodup → (∀ i ∈ ready, i ∈ s.sockets) → SrvInv s → (∀ i ∈ ready, s.sock = some i → acc = some (.ok ())) →
    ∃ s', srvLoop R db acc ready s = (.ok (), s') ∧ SrvInv s' ∧ s'.sock = s.sock ∧ s.next ≤ s'.next ∧
      (∀ j, j ∉ ready → s'.socks j = s.socks j) ∧
      (∀ j ∈ s.sockets, s.sock ≠ some j → j ∉ ready ∨ ((s.socks j).buf ≠ [] ∧ Framed (s.socks j).stream) → j ∈ s'.sockets) := by
  intro ready
  induction ready with
  | nil => intro s _ _ hi _; exact ⟨s, rfl, hi, rfl, Nat.le_refl _, fun _ _ => rfl, fun j hj _ _ => hj⟩
  | cons i rest ih =>
    intro s hnd hsub hi hacc
    obtain ⟨hni, hnd'⟩ := List.nodup_cons.mp hnd
    have hm := hsub i (by simp)
    have hst := srvStep_spec hR db acc hm
    obtain ⟨hi1, hsock1, hn1⟩ := stepped_inv hst hi hm (hacc i (by simp))
    rw [srvLoop_cons]
    -- what the step keeps
    have keep : (∃ brk, (srvStep R db acc i s).1 = .ok brk) ∧
        (∀ j, j ≠ i → (srvStep R db acc i s).2.socks j = s.socks j) ∧
        (∀ j ∈ s.sockets, j ≠ i → j ∈ (srvStep R db acc i s).2.sockets) ∧
        (s.sock ≠ some i → (s.socks i).buf ≠ [] ∧ Framed (s.socks i).stream → i ∈ (srvStep R db acc i s).2.sockets) := by
      generalize srvStep R db acc i s = out at hst
      cases hst with
      | accepted hl' ha => exact ⟨⟨_, rfl⟩, fun _ _ => rfl, fun j hj _ => by simp [hj], fun h => absurd hl' h⟩
      | dropped brk s' hh hi' hj hsock hss hn cause hbrk =>
        refine ⟨⟨_, rfl⟩, hj, fun j hj' hne => ?_, fun hl hg => ?_⟩
        · dsimp only; rw [hss]; exact (List.mem_erase_of_ne hne).mpr hj'
        · rcases cause with ⟨c, _⟩ | ⟨_, c | c | c⟩
          · exact absurd c hl
          · rw [hi.opened i hm] at c; cases c
          · exact absurd c hg.1
          · exact absurd hg.2 c
      | cut s' hl' hh hc hj hsock hss hn hf =>
        exact ⟨⟨_, rfl⟩, hj, fun j hj' _ => by dsimp only; rw [hss]; exact hj', fun _ _ => by dsimp only; rw [hss]; exact hm⟩
      | handled s' frame k hl' hf hr ho hh hs hj hsock hss hn =>
        exact ⟨⟨_, rfl⟩, hj, fun j hj' _ => by dsimp only; rw [hss]; exact hj', fun _ _ => by dsimp only; rw [hss]; exact hm⟩
    obtain ⟨⟨brk, hk0⟩, hk1, hk2, hk3⟩ := keep
    cases hs : srvStep R db acc i s with
    | mk o s1 =>
      rw [hs] at hk0 hk1 hk2 hk3 hi1 hsock1 hn1
      dsimp only at hk0 hk1 hk2 hk3 hi1 hsock1 hn1
      subst hk0
      have stay : ∀ j ∈ s.sockets, s.sock ≠ some j → j ∉ i :: rest ∨ ((s.socks j).buf ≠ [] ∧ Framed (s.socks j).stream) →
          j ∈ s1.sockets := by
        intro j hj hlj hg
        by_cases hji : j = i
        · subst hji
          rcases hg with hg | hg
          · simp at hg
          · exact hk3 hlj hg
        · exact hk2 j hj hji
      cases brk with
      | true =>
        refine ⟨s1, rfl, hi1, hsock1, hn1, fun j hj => ?_, stay⟩
        have hj' : j ≠ i ∧ j ∉ rest := by simpa using hj
        exact hk1 j hj'.1
      | false =>
        obtain ⟨s2, g1, g2, g3, g4, g5, g6⟩ := ih s1 hnd'
          (fun k hk => hk2 k (hsub k (by simp [hk])) (by intro h; subst h; exact hni hk)) hi1
          (fun k hk h => hacc k (by simp [hk]) (hsock1 ▸ h))
        refine ⟨s2, g1, g2, g3.trans hsock1, Nat.le_trans hn1 g4, fun j hj => ?_, fun j hj hlj hg => ?_⟩
        · have hj' : j ≠ i ∧ j ∉ rest := by simpa using hj
          rw [g5 j hj'.2, hk1 j hj'.1]
        · refine g6 j (stay j hj hlj hg) (by rw [hsock1]; exact hlj) ?_
          by_cases hji : j = i
          · subst hji; exact .inl hni
          · rw [hk1 j hji]
            rcases hg with hg | hg
            · exact .inl (show j ≠ i ∧ j ∉ rest by simpa using hg).2
            · exact .inr hg

theorem srvRun_inv {R : Registry} (hR : Quiet R) (db : Databank) (rd : Round) {s : Srv} (hi : SrvInv s)
    (hacc : ∀ e, rd.accept ≠ some (.error e)) :
    ∃ s', srvRun R db rd s = (.ok (), s') ∧ SrvInv s' ∧ s'.sock = s.sock ∧
      (∀ j ∈ s.sockets, s.sock ≠ some j → ((s.arrivals rd).socks j).Healthy → j ∈ s'.sockets) := by
  have hi1 := hi.arrivals rd
  have hopen : ¬ ((s.arrivals rd).sockets.any (fun i => ((s.arrivals rd).socks i).closed) = true) := by
    simp only [List.any_eq_true, not_exists, not_and]
    intro i h
    rw [hi1.opened i h]; simp
  unfold srvRun
  dsimp only
  rw [if_neg hopen]
  have hsub : ∀ i ∈ (s.arrivals rd).ready rd, i ∈ (s.arrivals rd).sockets := fun i h => (List.mem_filter.mp h).1
  obtain ⟨s', g1, g2, g3, g4, g5, g6⟩ := loop_inv hR db rd.accept ((s.arrivals rd).ready rd) (s.arrivals rd)
    (hi1.nodup.filter _) hsub hi1 (by
      intro i h hl
      have := (List.mem_filter.mp h).2
      rw [if_pos hl] at this
      match ha : rd.accept with
      | none => rw [ha] at this; cases this
      | some (.error e) => exact absurd ha (hacc e)
      | some (.ok ()) => rfl)
  refine ⟨s', g1, g2, g3, fun j hj hl hh => g6 j hj hl ?_⟩
  rcases hh with hh | hh
  · left
    intro hm
    have := (List.mem_filter.mp hm).2
    rw [if_neg (by exact hl), hh] at this
    cases this
  · exact .inr hh

/-- **C47 (partial: as long as `accept` itself does not fail).** Whatever the clients do - send anything, stop in the middle of a
    frame, disconnect, break the connection - the server never stops: every round ends normally, the listening socket
    stays registered, and every registered socket is open. -/
theorem C47_partial (R : Registry) (hR : Quiet R) (db : Databank) (rounds : List Round) (s : Srv) (hi : SrvInv s)
    (hacc : ∀ rd ∈ rounds, ∀ e, rd.accept ≠ some (.error e)) :
    ∃ s', srvRounds R db rounds s = (.ok (), s') ∧ SrvInv s' ∧ s'.sock = s.sock := by
  induction rounds generalizing s with
  | nil => exact ⟨s, rfl, hi, rfl⟩
  | cons rd rest ih =>
    obtain ⟨s1, e1, e2, e3, _⟩ := srvRun_inv hR db rd hi (hacc rd (by simp))
    obtain ⟨s', f1, f2, f3⟩ := ih s1 e2 (fun r hr => hacc r (by simp [hr]))
    refine ⟨s', ?_, f2, f3.trans e3⟩
    simp only [srvRounds, e1, f1]

/-- **C47 (partial: as long as `accept` itself does not fail).** What happens on the other connections never closes a connection
    that is silent or whose client sends whole frames. -/
theorem C47_isolation_partial (R : Registry) (hR : Quiet R) (db : Databank) (rd : Round) (s : Srv) (hi : SrvInv s)
    (hacc : ∀ e, rd.accept ≠ some (.error e)) (j : Nat) (hj : j ∈ s.sockets) (hl : s.sock ≠ some j)
    (hh : ((s.arrivals rd).socks j).Healthy) :
    j ∈ (srvRun R db rd s).2.sockets ∧ ((srvRun R db rd s).2.socks j).closed = false := by
  obtain ⟨s1, e1, e2, e3, e4⟩ := srvRun_inv hR db rd hi hacc
  rw [e1]
  exact ⟨e4 j hj hl hh, e2.opened j (e4 j hj hl hh)⟩

/-! ### every request is answered -/

theorem history_step {R : Registry} (hR : Quiet R) (db : Databank) (acc : Option (Except PyErr Unit)) (i : Nat) (s : Srv) :
    ∃ log, SrvHistory R db s (srvStep R db acc i s).2 log := by
  obtain ⟨log, h⟩ := history_loop hR db acc [i] s
  refine ⟨log, ?_⟩
  rw [srvLoop_cons] at h
  cases hs : srvStep R db acc i s with
  | mk o s1 =>
    rw [hs] at h
    match o with
    | .ok true => exact h
    | .ok false => exact h
    | .error e => exact h

/-- nothing was taken from a connection that has not changed -/
theorem log_nil {R : Registry} {db : Databank} {s s' : Srv} {log : List (Nat × Bytes)} (h : SrvHistory R db s s' log) {j : Nat}
    (hj : s'.socks j = s.socks j) (ho : (s.socks j).closed = false) : ofConn j log = [] := by
  have hc := h.conn j
  rw [hj] at hc
  by_cases ha : (s.socks j).AtEnd
  · exact (hc.atEnd ha).1
  · obtain ⟨rest, d1, d2⟩ := hc.data
    rcases d2 ho with d2 | d2
    · rw [d2] at d1
      have hnil : (ofConn j log).flatten = [] := by
        have := congrArg List.length d1
        rw [List.length_append] at this
        exact List.length_eq_zero_iff.mp (by omega)
      match hl : ofConn j log with
      | [] => rfl
      | f :: fs =>
        rw [hl] at hnil
        simp only [List.flatten_cons, List.append_eq_nil_iff] at hnil
        exact absurd hnil.1 (serverFrame_pos (hc.frame f (by rw [hl]; simp)))
    · exact absurd d2 ha

theorem loop_answers {R : Registry} (hR : Quiet R) (db : Databank) (acc : Option (Except PyErr Unit)) (j : Nat) (frame rest : Bytes)
    (hf : ServerFrame frame) : ∀ (ready : List Nat) (s : Srv),
    ready.Nodup → (∀ i ∈ ready, i ∈ s.sockets) → SrvInv s → (∀ i ∈ ready, s.sock = some i → acc = some (.ok ())) →
    (∀ i ∈ ready, s.sock ≠ some i → ¬ (s.socks i).AtEnd) → j ∈ ready → s.sock ≠ some j → (s.socks j).buf ≠ [] →
    (s.socks j).stream = frame ++ rest →
    ∃ log s', srvLoop R db acc ready s = (.ok (), s') ∧ SrvHistory R db s s' log ∧ ofConn j log = [frame] ∧
      (s'.socks j).closed = false ∧ (s'.socks j).stream = rest ∧ (s'.socks j).later = (s.socks j).later := by
  intro ready
  induction ready with
  | nil => intro s _ _ _ _ _ h; cases h
  | cons i tl ih =>
    intro s hnd hsub hi hacc hend hj hlj hbuf hst
    obtain ⟨hni, hnd'⟩ := List.nodup_cons.mp hnd
    have hm := hsub i (by simp)
    have hsp := srvStep_spec hR db acc hm
    obtain ⟨hi1, hsock1, hn1⟩ := stepped_inv hsp hi hm (hacc i (by simp))
    obtain ⟨log1, hist1⟩ := history_step hR db acc i s
    by_cases hji : i = j
    · subst hji
      rw [srvLoop_cons]
      generalize srvStep R db acc i s = out at hsp hi1 hsock1 hn1
      have framed := framed_of_frame hf rest
      rw [← hst] at framed
      cases hsp with
      | accepted hl' ha => exact absurd hl' hlj
      | dropped brk s' hh hi' hj' hsock hss hn cause hbrk =>
        exfalso
        rcases cause with ⟨c, _⟩ | ⟨_, c | c | c⟩
        · exact hlj c
        · rw [hi.opened i hm] at c; cases c
        · exact hbuf c
        · exact c framed
      | cut s' hl' hh hc hj' hsock hss hn hf' => exact absurd framed hf'
      | handled s1 frame' k hl' hf' hr ho hh hs hj' hsock hss hn =>
        have heq := hr.stream
        rw [hst] at heq
        obtain ⟨e1, e2⟩ := frame_prefix hf hf' heq
        subst e1
        have hist := history_frame (R := R) (db := db) i frame hh (conn_handled hf hr ho hs) hj'
        obtain ⟨s2, g1, g2, g3, g4, g5, g6⟩ := loop_inv hR db acc tl s1 hnd'
          (fun k hk => by rw [hss]; exact hsub k (by simp [hk])) hi1 (fun k hk h => hacc k (by simp [hk]) (hsock ▸ h))
        obtain ⟨log2, hist2⟩ := history_loop hR db acc tl s1
        rw [g1] at hist2
        have ho1 : (s1.socks i).closed = false := hi1.opened i (by rw [hss]; exact hm)
        have hnil := log_nil hist2 (g5 i hni) ho1
        refine ⟨[(i, frame)] ++ log2, s2, g1, hist.trans hist2, ?_, by rw [g5 i hni]; exact ho1, ?_, ?_⟩
        · rw [ofConn_append, hnil]; simp [ofConn]
        · rw [g5 i hni, hs, e2]
          cases (answerTo R db frame s.heap).1 with
          | none => rfl
          | some r => exact (send_closed r k).2.2.1
        · rw [g5 i hni, hs, ← hr.later]
          cases (answerTo R db frame s.heap).1 with
          | none => rfl
          | some r => exact (send_closed r k).2.2.2
    · have hj' : j ∈ tl := by
        rcases List.mem_cons.mp hj with h | h
        · exact absurd h.symm hji
        · exact h
      have hjs : j ∈ s.sockets := hsub j hj
      rw [srvLoop_cons]
      have keep : (srvStep R db acc i s).1 = .ok false ∧ (∀ j, j ≠ i → (srvStep R db acc i s).2.socks j = s.socks j) ∧
          (∀ j ∈ s.sockets, j ≠ i → j ∈ (srvStep R db acc i s).2.sockets) := by
        generalize srvStep R db acc i s = out at hsp
        cases hsp with
        | accepted hl' ha => exact ⟨rfl, fun _ _ => rfl, fun j hj _ => by simp [hj]⟩
        | dropped brk s' hh hi' hj hsock hss hn cause hbrk =>
          refine ⟨?_, hj, fun j hj' hne => ?_⟩
          · cases brk with
            | false => rfl
            | true => exact absurd (hbrk rfl).2 (hend i (by simp) (hbrk rfl).1)
          · dsimp only; rw [hss]; exact (List.mem_erase_of_ne hne).mpr hj'
        | cut s' hl' hh hc hj hsock hss hn hf => exact ⟨rfl, hj, fun j hj' _ => by dsimp only; rw [hss]; exact hj'⟩
        | handled s' frame k hl' hf hr ho hh hs hj hsock hss hn =>
          exact ⟨rfl, hj, fun j hj' _ => by dsimp only; rw [hss]; exact hj'⟩
      cases hs : srvStep R db acc i s with
      | mk o s1 =>
        rw [hs] at keep hist1 hi1 hsock1 hn1
        obtain ⟨k0, k1, k2⟩ := keep
        dsimp only at k0 k1 k2 hist1 hi1 hsock1 hn1
        subst k0
        have hne : ∀ k ∈ tl, k ≠ i := fun k hk h => hni (h ▸ hk)
        obtain ⟨log2, s2, g1, g2, g3, g4, g5, g6⟩ := ih s1 hnd' (fun k hk => k2 k (hsub k (by simp [hk])) (hne k hk)) hi1
          (fun k hk h => hacc k (by simp [hk]) (hsock1 ▸ h))
          (fun k hk h => by rw [k1 k (hne k hk)]; exact hend k (by simp [hk]) (by rw [← hsock1]; exact h))
          hj' (by rw [hsock1]; exact hlj) (by rw [k1 j (hne j hj')]; exact hbuf) (by rw [k1 j (hne j hj')]; exact hst)
        refine ⟨log1 ++ log2, s2, g1, hist1.trans g2, ?_, g4, g5, by rw [g6, k1 j (hne j hj')]⟩
        rw [ofConn_append, log_nil hist1 (k1 j (hne j hj')) (hi.opened j hjs), g3]
        rfl

/-- **C29.** In a round in which no client disconnects, a client whose request has begun to arrive (and whose remaining bytes
    arrive without a silence of a second) is served: exactly its next frame is handled and the bytes after it are left. -/
theorem C29_answers (R : Registry) (hR : Quiet R) (db : Databank) (rd : Round) (s : Srv) (hi : SrvInv s)
    (hacc : ∀ e, rd.accept ≠ some (.error e)) (hend : ∀ i ∈ s.sockets, s.sock ≠ some i → ¬ ((s.arrivals rd).socks i).AtEnd)
    (j : Nat) (hj : j ∈ s.sockets) (hl : s.sock ≠ some j) (hbuf : ((s.arrivals rd).socks j).buf ≠ [])
    (frame rest : Bytes) (hf : ServerFrame frame) (hst : ((s.arrivals rd).socks j).stream = frame ++ rest) :
    ∃ log s', srvRun R db rd s = (.ok (), s') ∧ SrvHistory R db s s' log ∧ ofConn j log = [frame] ∧
      (s'.socks j).closed = false ∧ (s'.socks j).stream = rest := by
  have hi1 := hi.arrivals rd
  have hopen : ¬ ((s.arrivals rd).sockets.any (fun i => ((s.arrivals rd).socks i).closed) = true) := by
    simp only [List.any_eq_true, not_exists, not_and]
    intro i h
    rw [hi1.opened i h]; simp
  unfold srvRun
  dsimp only
  rw [if_neg hopen]
  have hsub : ∀ i ∈ (s.arrivals rd).ready rd, i ∈ (s.arrivals rd).sockets := fun i h => (List.mem_filter.mp h).1
  have hjr : j ∈ (s.arrivals rd).ready rd := by
    refine List.mem_filter.mpr ⟨hj, ?_⟩
    rw [if_neg (by exact hl)]
    simp [Sock.readable, hbuf]
  obtain ⟨log, s', g1, g2, g3, g4, g5, _⟩ := loop_answers hR db rd.accept j frame rest hf ((s.arrivals rd).ready rd) (s.arrivals rd)
    (hi1.nodup.filter _) hsub hi1 (by
      intro i h hl
      have := (List.mem_filter.mp h).2
      rw [if_pos hl] at this
      match ha : rd.accept with
      | none => rw [ha] at this; cases this
      | some (.error e) => exact absurd ha (hacc e)
      | some (.ok ()) => rfl) (fun i h hne => hend i (hsub i h) hne) hjr hl hbuf hst
  have hist := (history_arrivals R db rd s).trans g2
  exact ⟨log, s', g1, hist, g3, g4, g5⟩

/-! ### C47 is false when `accept` fails -/

/-- **C47 is false in general.** If `accept` raises (for example because the process has too many open files, or the client
    has gone away again), the listening socket itself is closed and forgotten. -/
theorem C47_false_accept (R : Registry) (hR : Quiet R) (db : Databank) (s : Srv) (l : Nat) (e : PyErr) (hl : s.sock = some l)
    (hs : s.sockets = [l]) (ho : (s.socks l).closed = false) :
    ∃ s', srvRun R db { accept := some (.error e) } s = (.ok (), s') ∧ s'.sockets = [] ∧ (s'.socks l).closed = true := by
  have h1 : (s.arrivals { accept := some (.error e) }).sockets = [l] := hs
  have h2 : (s.arrivals { accept := some (.error e) }).sock = some l := hl
  have h3 : ((s.arrivals { accept := some (.error e) }).socks l).closed = false := by
    simp only [Srv.arrivals, (arriveN_keeps _ _).2]; exact ho
  have hr : (s.arrivals { accept := some (.error e) }).ready { accept := some (.error e) } = [l] := by
    unfold Srv.ready
    rw [h1, h2]; simp
  have hrun : srvRun R db { accept := some (.error e) } s = srvLoop R db (some (.error e)) [l] (s.arrivals { accept := some (.error e) }) := by
    unfold srvRun
    dsimp only
    rw [if_neg (by rw [h1]; simp [h3]), hr]
  rw [hrun]
  generalize s.arrivals { accept := some (.error e) } = s1 at h1 h2 h3
  simp only [srvLoop, srvOne, h2, if_true, srvAccept, hR _ _, srvDrop_mem (s := s1) (i := l) (by rw [h1]; simp)]
  exact ⟨_, rfl, by simp [h1], by simp [Srv.put, Sock.close]⟩

/-- afterwards no client is ever accepted again: nothing is registered any more, so nothing happens -/
theorem C47_false_deaf (R : Registry) (db : Databank) (rounds : List Round) (s : Srv) (hs : s.sockets = []) :
    (srvRounds R db rounds s).2.sockets = [] ∧ (srvRounds R db rounds s).2.next = s.next := by
  induction rounds generalizing s with
  | nil => exact ⟨hs, rfl⟩
  | cons rd rest ih =>
    have : srvRun R db rd s = (.ok (), s.arrivals rd) := by
      unfold srvRun
      dsimp only
      have h1 : (s.arrivals rd).sockets = [] := hs
      rw [if_neg (by rw [h1]; simp)]
      have hr : (s.arrivals rd).ready rd = [] := by unfold Srv.ready; rw [h1]; rfl
      rw [hr]; rfl
    simp only [srvRounds, this]
    exact ih (s.arrivals rd) hs

/-! ### a concrete server -/

/-- A server with two slaves.  Client 1 sends two requests (write register 11 := 7 of slave 1, read it) and the beginning of a
    third one, in odd segments, and disconnects.  Client 2 sends three bytes and breaks the connection.  Client 3 reads. -/
def exSrv : Srv where
  heap := exTwo.st.heap
  sock := some 0
  sockets := [0]
  socks := fun i =>
    if i = 1 then { future := [.data [0, 1, 0, 0, 0], .data [6, 1, 6, 0, 11, 0, 7, 0, 2], .data [0, 0, 0, 6, 1, 3, 0, 11, 0, 1, 9],
      .data [9, 9], .eof] }
    else if i = 2 then { future := [.data [1, 2, 3], .reset] }
    else if i = 3 then { future := [.data [0, 3, 0, 0, 0, 6, 1, 3, 0, 11, 0, 2]] }
    else {}
  timed := []
  next := 1

/-- three connections are accepted; then events arrive one by one -/
def exRounds : List Round :=
  [{ accept := some (.ok ()) }, { accept := some (.ok ()) }, { accept := some (.ok ()) }] ++
  List.replicate 9 { arrivals := fun _ => 1 }

theorem exSrv_inv : SrvInv exSrv := by
  refine ⟨⟨0, rfl, by simp [exSrv]⟩, by simp [exSrv], ?_, by simp [exSrv], ?_⟩
  · intro i _
    simp only [exSrv]
    split
    · rfl
    · split
      · rfl
      · split <;> rfl
  · intro i _
    simp only [exSrv]
    split
    · rfl
    · split
      · rfl
      · split <;> rfl

example : ((srvRounds [] exTwo.st.db exRounds exSrv).2.socks 1).sent =
    [[0, 1, 0, 0, 0, 6, 1, 6, 0, 11, 0, 7], [0, 2, 0, 0, 0, 5, 1, 3, 2, 0, 7]] := by decide +kernel
example : ((srvRounds [] exTwo.st.db exRounds exSrv).2.socks 2).sent = [] := by decide +kernel
example : ((srvRounds [] exTwo.st.db exRounds exSrv).2.socks 3).sent = [[0, 3, 0, 0, 0, 7, 1, 3, 4, 0, 7, 0, 0]] := by decide +kernel
-- only the healthy connection and the listening socket are left
example : (srvRounds [] exTwo.st.db exRounds exSrv).2.sockets = [0, 3] := by decide +kernel
-- the hypotheses of C29_frames
example : (exSrv.socks 1).allData = [[0, 1, 0, 0, 0, 6, 1, 6, 0, 11, 0, 7], [0, 2, 0, 0, 0, 6, 1, 3, 0, 11, 0, 1]].flatten ++ [9, 9, 9] := by
  decide
example : ¬ Framed [9, 9, 9] := by simp [Framed]
example : ∀ rd ∈ exRounds, ∀ e, rd.accept ≠ some (.error e) := by
  intro rd h e he
  simp [exRounds] at h
  rcases h with h | h <;> (subst h; simp at he)

end Modbus
