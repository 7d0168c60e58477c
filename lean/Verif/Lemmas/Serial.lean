import Verif.Model.Rtu
/- Reading from a serial line, whatever its chunks. -/
namespace Modbus

/-- the bytes of the leading chunks -/
def chunkPrefix : List SerialEvent → Bytes
  | .chunk bs :: ev => bs ++ chunkPrefix ev
  | _ => []

/-- what follows the leading chunks -/
def afterChunks : List SerialEvent → List SerialEvent
  | .chunk _ :: ev => afterChunks ev
  | ev => ev

/-- the bytes before the next silence or failure -/
def Port.stream (s : Port) : Bytes := s.buf ++ chunkPrefix s.future

/-- what happens after `stream` -/
def Port.later (s : Port) : List SerialEvent := afterChunks s.future

/-- `s'` is `s` after reading `x` -/
structure Port.Got (s : Port) (x : Bytes) (s' : Port) : Prop where
  stream : s.stream = x ++ s'.stream
  later : s'.later = s.later
  rest : s' = { s with buf := s'.buf, future := s'.future }

theorem Port.Got.refl (s : Port) : s.Got [] s := ⟨rfl, rfl, rfl⟩

theorem Port.Got.trans {a b c : Port} {x y : Bytes} (h : a.Got x b) (h' : b.Got y c) : a.Got (x ++ y) c :=
  ⟨by rw [h.stream, h'.stream, List.append_assoc], h'.later.trans h.later, by
    have e1 := h.rest; have e2 := h'.rest
    rw [e2]; simp only
    rw [e1]⟩

theorem Port.Got.isOpen {a b : Port} {x : Bytes} (h : a.Got x b) : b.isOpen = a.isOpen := by rw [h.rest]
theorem Port.Got.timeout {a b : Port} {x : Bytes} (h : a.Got x b) : b.timeout = a.timeout := by rw [h.rest]
theorem Port.Got.written {a b : Port} {x : Bytes} (h : a.Got x b) : b.written = a.written := by rw [h.rest]

theorem readWait_data (n : Nat) (bl : Bool) (s : Port) (ev : List SerialEvent) {b : UInt8} {t : Bytes}
    (h : chunkPrefix ev = b :: t) :
    ∃ bs ev', Port.readWait n bl s ev = (.ok ((b :: bs).take n), { s with buf := (b :: bs).drop n, future := ev' }) ∧
      t = bs ++ chunkPrefix ev' ∧ afterChunks ev' = afterChunks ev := by
  induction ev with
  | nil => simp [chunkPrefix] at h
  | cons e ev ih =>
    match e with
    | .chunk [] => exact ih h
    | .chunk (c :: cs) =>
      simp only [chunkPrefix, List.cons_append, List.cons.injEq] at h
      obtain ⟨rfl, rfl⟩ := h
      exact ⟨cs, ev, rfl, rfl, rfl⟩
    | .silence => simp [chunkPrefix] at h
    | .fail => simp [chunkPrefix] at h

theorem readWait_nodata (n : Nat) (s : Port) (ev : List SerialEvent) (h : chunkPrefix ev = []) :
    (afterChunks ev = [] ∧ Port.readWait n false s ev = (.ok [], { s with future := [] })) ∨
    (∃ ev', afterChunks ev = .silence :: ev' ∧ Port.readWait n false s ev = (.ok [], { s with future := ev' })) ∨
    (∃ ev', afterChunks ev = .fail :: ev' ∧ Port.readWait n false s ev = (.error .osError, { s with future := ev' })) := by
  induction ev with
  | nil => exact .inl ⟨rfl, rfl⟩
  | cons e ev ih =>
    match e with
    | .chunk [] => exact ih h
    | .chunk (c :: cs) => simp [chunkPrefix] at h
    | .silence => exact .inr (.inl ⟨ev, rfl, rfl⟩)
    | .fail => exact .inr (.inr ⟨ev, rfl, rfl⟩)

/-- there are bytes: `read` gives some of them -/
theorem portRead_cons {n : Nat} (hn : 1 ≤ n) {s : Port} (ho : s.isOpen = true) (h : s.stream ≠ []) :
    ∃ x s', portRead n s = (.ok x, s') ∧ x ≠ [] ∧ x.length ≤ n ∧ s.Got x s' := by
  have htk : ∀ (b : UInt8) (bs : Bytes), (b :: bs).take n ≠ [] := by
    intro b bs
    match n, hn with
    | n+1, _ => simp
  unfold portRead
  rw [if_neg (by simp [ho])]
  match hb : s.buf with
  | c :: cs =>
    refine ⟨_, _, rfl, htk c cs, by simp; omega, ?_, rfl, rfl⟩
    simp only [Port.stream, hb]
    rw [← List.append_assoc, List.take_append_drop]
  | [] =>
    have hp : chunkPrefix s.future ≠ [] := by simpa [Port.stream, hb] using h
    match hc : chunkPrefix s.future with
    | [] => exact absurd hc hp
    | b :: t =>
      obtain ⟨bs, ev', e1, e2, e3⟩ := readWait_data n s.timeout.isNone s s.future hc
      refine ⟨_, _, e1, htk b bs, by simp; omega, ?_, e3, rfl⟩
      simp only [Port.stream, hb, hc, e2, List.nil_append]
      rw [← List.append_assoc, List.take_append_drop]
      rfl

/-- there are no bytes -/
theorem portRead_nil (n : Nat) {s : Port} (ho : s.isOpen = true) (ht : s.timeout ≠ none) (h : s.stream = []) :
    (s.later = [] ∧ portRead n s = (.ok [], { s with future := [] })) ∨
    (∃ ev, s.later = .silence :: ev ∧ portRead n s = (.ok [], { s with future := ev })) ∨
    (∃ ev, s.later = .fail :: ev ∧ portRead n s = (.error .osError, { s with future := ev })) := by
  obtain ⟨hb, hp⟩ := List.append_eq_nil_iff.mp h
  have ht' : s.timeout.isNone = false := by
    match hs : s.timeout with
    | none => exact absurd hs ht
    | some _ => rfl
  unfold portRead
  rw [if_neg (by simp [ho]), hb, ht']
  have := readWait_nodata n s s.future hp
  rw [hb] at this
  exact this

theorem stream_le_total (s : Port) : s.stream.length ≤ s.total := by
  unfold Port.stream Port.total
  rw [List.length_append]
  apply Nat.add_le_add_left
  induction s.future with
  | nil => simp [chunkPrefix]
  | cons e ev ih =>
    match e with
    | .chunk bs => simp only [chunkPrefix, List.length_append, List.map_cons, List.sum_cons]; omega
    | .silence => simp [chunkPrefix]
    | .fail => simp [chunkPrefix]

end Modbus
