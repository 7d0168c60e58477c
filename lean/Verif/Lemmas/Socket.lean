import Verif.Model.TcpMaster
import Verif.Spec.Frames
import Verif.Lemmas.Analyse
/- Reading a stream byte by byte, whatever its segmentation. -/
namespace Modbus
open Spec (word wordAt)

/-- the bytes of the leading segments -/
def dataPrefix : List NetEvent → Bytes
  | .data bs :: ev => bs ++ dataPrefix ev
  | _ => []

/-- what follows the leading segments -/
def afterData : List NetEvent → List NetEvent
  | .data _ :: ev => afterData ev
  | ev => ev

/-- the bytes that a reader can get without meeting a silence or an end: already arrived, or arriving without a longer
    silence -/
def Sock.stream (s : Sock) : Bytes := s.buf ++ (if s.ended = none then dataPrefix s.future else [])

/-- what happens after `stream` -/
def Sock.later (s : Sock) : List NetEvent :=
  match s.ended with
  | none => afterData s.future
  | some .eof => [.eof]
  | some .reset => [.reset]

theorem recvWait_data (n : Nat) (s : Sock) (ev : List NetEvent) {b : UInt8} {t : Bytes} (h : dataPrefix ev = b :: t) :
    ∃ bs ev', Sock.recvWait n s ev = (.ok ((b :: bs).take n), { s with buf := (b :: bs).drop n, future := ev' }) ∧
      t = bs ++ dataPrefix ev' ∧ afterData ev' = afterData ev := by
  induction ev with
  | nil => simp [dataPrefix] at h
  | cons e ev ih =>
    match e with
    | .data [] => exact ih h
    | .data (c :: cs) =>
      simp only [dataPrefix, List.cons_append, List.cons.injEq] at h
      obtain ⟨rfl, rfl⟩ := h
      exact ⟨cs, ev, rfl, rfl, rfl⟩
    | .pause => simp [dataPrefix] at h
    | .eof => simp [dataPrefix] at h
    | .reset => simp [dataPrefix] at h

/-- the ways a stream can stop -/
theorem recvWait_nodata (n : Nat) (s : Sock) (ev : List NetEvent) (h : dataPrefix ev = []) :
    (afterData ev = [] ∧ Sock.recvWait n s ev = (.error .timeout, { s with future := [] })) ∨
    (∃ ev', afterData ev = .pause :: ev' ∧ Sock.recvWait n s ev = (.error .timeout, { s with future := ev' })) ∨
    (∃ ev', afterData ev = .eof :: ev' ∧ Sock.recvWait n s ev = (.ok [], { s with ended := some .eof, future := ev' })) ∨
    (∃ ev', afterData ev = .reset :: ev' ∧
      Sock.recvWait n s ev = (.error .osError, { s with ended := some .reset, future := ev' })) := by
  induction ev with
  | nil => exact .inl ⟨rfl, rfl⟩
  | cons e ev ih =>
    match e with
    | .data [] => exact ih h
    | .data (c :: cs) => simp [dataPrefix] at h
    | .pause => exact .inr (.inl ⟨ev, rfl, rfl⟩)
    | .eof => exact .inr (.inr (.inl ⟨ev, rfl, rfl⟩))
    | .reset => exact .inr (.inr (.inr ⟨ev, rfl, rfl⟩))

/-- `s'` is `s` after reading `x` -/
structure Sock.Read (s : Sock) (x : Bytes) (s' : Sock) : Prop where
  stream : s.stream = x ++ s'.stream
  later : s'.later = s.later
  sent : s'.sent = s.sent
  sched : s'.sched = s.sched
  closed : s'.closed = s.closed

theorem Sock.Read.refl (s : Sock) : s.Read [] s := ⟨rfl, rfl, rfl, rfl, rfl⟩

theorem Sock.Read.trans {s s' s'' : Sock} {x y : Bytes} (h : s.Read x s') (h' : s'.Read y s'') : s.Read (x ++ y) s'' :=
  ⟨by rw [h.stream, h'.stream, List.append_assoc], h'.later.trans h.later, h'.sent.trans h.sent, h'.sched.trans h.sched,
    h'.closed.trans h.closed⟩

/-- a byte is there: `recv(1)` gives it -/
theorem recv1_cons {s : Sock} (hc : s.closed = false) {b : UInt8} {t : Bytes} (h : s.stream = b :: t) :
    ∃ s', sockRecv 1 s = (.ok [b], s') ∧ s'.stream = t ∧ s.Read [b] s' := by
  unfold sockRecv
  rw [if_neg (by simp [hc])]
  match hb : s.buf with
  | c :: cs =>
    unfold Sock.stream at h
    rw [hb] at h
    simp only [List.cons_append, List.cons.injEq] at h
    obtain ⟨rfl, h⟩ := h
    refine ⟨_, rfl, ?_, ?_, ?_, rfl, rfl, rfl⟩
    · exact h
    · simp only [Sock.stream, hb]; rfl
    · rfl
  | [] =>
    unfold Sock.stream at h
    rw [hb] at h
    dsimp only
    match he : s.ended with
    | some .eof => rw [he] at h; simp at h
    | some .reset => rw [he] at h; simp at h
    | none =>
      rw [he] at h
      obtain ⟨bs, ev', e1, e2, e3⟩ := recvWait_data 1 s s.future (by simpa using h)
      refine ⟨_, e1, ?_, ?_, ?_, rfl, rfl, rfl⟩
      · simp [Sock.stream, he, e2]
      · simp only [Sock.stream, hb, he, if_true, List.nil_append]
        simp at h
        rw [h, e2]; simp
      · simp [Sock.later, he, e3]

/-- the outcome of `recv(1)` when no byte is there -/
theorem recv1_nil {s : Sock} (hc : s.closed = false) (h : s.stream = []) :
    (∃ s', sockRecv 1 s = (.ok [], s') ∧ s.later.head? = some .eof ∧ s'.ended = some .eof ∧
        s'.stream = [] ∧ s'.closed = false ∧ s'.sent = s.sent) ∨
    (∃ s' e, sockRecv 1 s = (.error e, s') ∧ s.later.head? ≠ some .eof) := by
  have hb : s.buf = [] := by unfold Sock.stream at h; exact (List.append_eq_nil_iff.mp h).1
  unfold sockRecv
  rw [if_neg (by simp [hc]), hb]
  dsimp only
  match he : s.ended with
  | some .eof => exact .inl ⟨s, rfl, by simp [Sock.later, he], he, h, hc, rfl⟩
  | some .reset => exact .inr ⟨s, _, rfl, by simp [Sock.later, he]⟩
  | none =>
    have hp : dataPrefix s.future = [] := by
      unfold Sock.stream at h
      rw [he] at h
      simpa using (List.append_eq_nil_iff.mp h).2
    rcases recvWait_nodata 1 s s.future hp with ⟨e1, e2⟩ | ⟨ev, e1, e2⟩ | ⟨ev, e1, e2⟩ | ⟨ev, e1, e2⟩
    · exact .inr ⟨_, _, e2, by simp [Sock.later, he, e1]⟩
    · exact .inr ⟨_, _, e2, by simp [Sock.later, he, e1]⟩
    · refine .inl ⟨_, e2, by simp [Sock.later, he, e1], rfl, ?_, hc, rfl⟩
      simp [Sock.stream, hb]
    · exact .inr ⟨_, _, e2, by simp [Sock.later, he, e1]⟩

end Modbus
