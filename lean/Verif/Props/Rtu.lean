import Verif.Lemmas.Serial
import Verif.Props.EndToEnd
/-
# Property C31: the serial transports
-/
namespace Modbus
open Spec (rtuAdu Call)

/-! ## The master -/

theorem rtuAsk_pos (t : Option Nat) (L r : Int) : 1 ≤ rtuAsk t L r := by
  unfold rtuAsk
  split <;> split <;> omega

/-- one round of the receiving loop when there are bytes -/
theorem rtuRecv_step {cfg : RtuCfg} (hsw : cfg.useSwTimeout = false) (L : Int) (fuel : Nat) (response : Bytes) {s : Port} {t : Nat}
    (ho : s.isOpen = true) (ht : s.timeout = some t) (h0 : 0 < t) (hs : s.stream ≠ []) :
    ∃ x s', x ≠ [] ∧ (0 < L → (response.length : Int) < L → (response ++ x).length ≤ L.toNat) ∧ s.Got x s' ∧
      rtuRecvLoop cfg L (fuel+1) response response.length s =
        if L ≥ 0 ∧ ((response ++ x).length : Int) ≥ L then (.ok (response ++ x), s')
        else rtuRecvLoop cfg L fuel (response ++ x) (response ++ x).length s' := by
  obtain ⟨x, s', e1, e2, e3, e4⟩ := portRead_cons (rtuAsk_pos s.timeout L response.length) ho hs
  refine ⟨x, s', e2, ?_, e4, ?_⟩
  · intro h1 h2
    unfold rtuAsk at e3
    rw [if_pos (by rw [ht]; simp; omega), if_pos (by omega)] at e3
    rw [List.length_append]; omega
  · rw [ht] at e1
    rw [rtuRecvLoop]
    simp only [PyM.bind_apply, PyM.get_apply, ht, e1, rtuDuration, hsw, Bool.false_eq_true, if_false, PyM.pure_apply, if_neg e2,
      if_neg (show ¬ (0 > t) by omega)]
    split
    · rfl
    · rw [List.length_append]; push_cast; rfl

/-- receiving the expected number of bytes -/
theorem rtuRecv_full {cfg : RtuCfg} (hsw : cfg.useSwTimeout = false) (L : Nat) {t : Nat} (h0 : 0 < t) :
    ∀ (fuel : Nat) (response x rest : Bytes) (s : Port), s.isOpen = true → s.timeout = some t → s.stream = x ++ rest → x ≠ [] →
    (response ++ x).length = L → x.length ≤ fuel →
    ∃ s', rtuRecvLoop cfg L fuel response response.length s = (.ok (response ++ x), s') ∧ s.Got x s' ∧ s'.stream = rest := by
  intro fuel
  induction fuel with
  | zero => intro response x rest s _ _ _ hx _ hf; exact absurd (List.length_eq_zero_iff.mp (by omega)) hx
  | succ fuel ih =>
    intro response x rest s ho ht hs hx hl hf
    have hne : s.stream ≠ [] := by rw [hs]; simp [hx]
    have hxl : 0 < x.length := List.length_pos_iff.mpr hx
    have hlen := hl
    rw [List.length_append] at hlen
    obtain ⟨y, s1, e1, e2, e3, e4⟩ := rtuRecv_step hsw L fuel response ho ht h0 hne
    have hy := e2 (by omega) (by omega)
    rw [Int.toNat_natCast, List.length_append] at hy
    have hst := e3.stream
    rw [hs] at hst
    -- y is a prefix of x
    have hyx : ∃ z, x = y ++ z ∧ s1.stream = z ++ rest := by
      have hpre : y <+: x := by
        refine List.prefix_of_prefix_length_le (l₃ := x ++ rest) ⟨s1.stream, hst.symm⟩ (List.prefix_append _ _) (by omega)
      obtain ⟨z, hz⟩ := hpre
      refine ⟨z, hz.symm, ?_⟩
      rw [← hz, List.append_assoc] at hst
      exact (List.append_cancel_left hst).symm
    obtain ⟨z, hz, hz'⟩ := hyx
    rw [e4]
    by_cases hd : (L : Int) ≥ 0 ∧ ((response ++ y).length : Int) ≥ L
    · rw [if_pos hd]
      have hz0 : z = [] := by
        have := hd.2
        rw [List.length_append] at this
        rw [hz, List.length_append] at hlen
        exact List.length_eq_zero_iff.mp (by omega)
      subst hz0
      rw [List.append_nil] at hz
      subst hz
      exact ⟨s1, rfl, e3, by simpa using hz'⟩
    · rw [if_neg hd]
      have hz0 : z ≠ [] := by
        intro h; subst h
        rw [List.append_nil] at hz
        subst hz
        exact hd ⟨by omega, by omega⟩
      have hyl : 0 < y.length := List.length_pos_iff.mpr e1
      have hzl := congrArg List.length hz
      rw [List.length_append] at hzl
      obtain ⟨s', f1, f2, f3⟩ := ih (response ++ y) z rest s1 (by rw [e3.isOpen]; exact ho) (by rw [e3.timeout]; exact ht) hz' hz0
        (by rw [List.append_assoc, ← hz]; exact hl) (by omega)
      exact ⟨s', by rw [f1, List.append_assoc, ← hz], by rw [hz]; exact e3.trans f2, f3⟩

/-- **C31.** An RTU master receives a response of the expected length whole, whatever the chunks in which the serial port
    delivers it, and leaves the bytes after it. -/
theorem C31_master_reads (R : Registry) (hR : Quiet R) (cfg : RtuCfg) (hsw : cfg.useSwTimeout = false) (s : Port)
    (ho : s.isOpen = true) (t : Nat) (ht : s.timeout = some t) (h0 : 0 < t) (frame rest : Bytes) (hf : frame ≠ [])
    (hs : s.stream = frame ++ rest) :
    ∃ s', rtuRecv R cfg frame.length s = (.ok frame, s') ∧ s'.stream = rest ∧ s'.later = s.later := by
  have hfuel : frame.length ≤ s.total + 1 := by
    have := stream_le_total s
    rw [hs, List.length_append] at this
    omega
  obtain ⟨s', e1, e2, e3⟩ := rtuRecv_full hsw frame.length h0 (s.total + 1) [] frame rest s ho ht hs hf rfl hfuel
  refine ⟨s', ?_, e3, e2.later⟩
  have e1' : rtuRecvLoop cfg (frame.length : Int) (s.total + 1) [] 0 s = (.ok frame, s') := e1
  simp only [rtuRecv, PyM.bind_apply, PyM.get_apply, e1', PyM.lift_apply, hR _ _]
  rfl

/-- receiving until silence -/
theorem rtuRecv_silence {cfg : RtuCfg} (hsw : cfg.useSwTimeout = false) (L : Int) {t : Nat} (h0 : 0 < t) :
    ∀ (fuel : Nat) (response : Bytes) (s : Port), s.isOpen = true → s.timeout = some t → s.stream.length < fuel →
    (L < 0 ∨ ((response ++ s.stream).length : Int) < L) → s.later.head? ≠ some .fail →
    ∃ s', rtuRecvLoop cfg L fuel response response.length s = (.ok (response ++ s.stream), s') ∧
      s'.buf = [] ∧ s'.future = s.later.tail ∧ s' = { s with buf := s'.buf, future := s'.future } := by
  intro fuel
  induction fuel with
  | zero => intro _ _ _ _ h; omega
  | succ fuel ih =>
    intro response s ho ht hf hL hlate
    by_cases hs : s.stream = []
    · rw [hs, List.append_nil]
      have hbuf : s.buf = [] := (List.append_eq_nil_iff.mp hs).1
      have hr : ∀ n, ∃ s', portRead n s = (.ok [], s') ∧ s' = { s with future := s.later.tail } := by
        intro n
        rcases portRead_nil n ho (by rw [ht]; simp) hs with ⟨h1, h2⟩ | ⟨ev, h1, h2⟩ | ⟨ev, h1, h2⟩
        · exact ⟨_, h2, by rw [h1]; rfl⟩
        · exact ⟨_, h2, by rw [h1]; rfl⟩
        · rw [h1] at hlate; simp at hlate
      obtain ⟨s', h1, h2⟩ := hr (rtuAsk s.timeout L response.length)
      refine ⟨s', ?_, by rw [h2]; exact hbuf, by rw [h2], by rw [h2]⟩
      rw [rtuRecvLoop]
      simp only [PyM.bind_apply, PyM.get_apply, h1, rtuDuration, hsw, Bool.false_eq_true, if_false, PyM.pure_apply, if_true]
    · obtain ⟨x, s1, e1, e2, e3, e4⟩ := rtuRecv_step hsw L fuel response ho ht h0 hs
      have hst := e3.stream
      have hl := congrArg List.length hst
      rw [List.length_append] at hl
      have hxl : 0 < x.length := List.length_pos_iff.mpr e1
      rw [e4, if_neg]
      · obtain ⟨s', f1, f2, f3, f4⟩ := ih (response ++ x) s1 (by rw [e3.isOpen]; exact ho) (by rw [e3.timeout]; exact ht)
          (by omega) (by rw [List.append_assoc, ← hst]; exact hL) (by rw [e3.later]; exact hlate)
        refine ⟨s', by rw [f1, List.append_assoc, ← hst], f2, by rw [f3, e3.later], ?_⟩
        rw [f4]
        have := e3.rest
        rw [this]
      · rintro ⟨h1, h2⟩
        rcases hL with hL | hL
        · omega
        · rw [List.length_append] at hL h2; omega

/-- **C31.** If fewer bytes than expected arrive before a silence (or the number is unknown), the master takes exactly the bytes
    before the silence. -/
theorem C31_master_silence (R : Registry) (hR : Quiet R) (cfg : RtuCfg) (hsw : cfg.useSwTimeout = false) (s : Port)
    (ho : s.isOpen = true) (t : Nat) (ht : s.timeout = some t) (h0 : 0 < t) (L : Int) (hL : L < 0 ∨ (s.stream.length : Int) < L)
    (hlate : s.later.head? ≠ some .fail) :
    ∃ s', rtuRecv R cfg L s = (.ok s.stream, s') ∧ s'.buf = [] ∧ s'.future = s.later.tail := by
  have hfuel := stream_le_total s
  obtain ⟨s', e1, e2, e3, _⟩ := rtuRecv_silence hsw L h0 (s.total + 1) [] s ho ht (by omega) (by simpa using hL) hlate
  refine ⟨s', ?_, e2, e3⟩
  have e1' : rtuRecvLoop cfg L (s.total + 1) [] 0 s = (.ok s.stream, s') := e1
  simp only [rtuRecv, PyM.bind_apply, PyM.get_apply, e1', PyM.lift_apply, hR _ _]
  rfl

theorem portDuration_apply (s : Port) : portDuration s = (.ok (s.clock.headD 0), { s with clock := s.clock.tail }) := rfl

/-- whatever happens -/
theorem rtuRecv_sound (cfg : RtuCfg) (L : Int) {t : Nat} (h0 : 0 < t) :
    ∀ (fuel : Nat) (response : Bytes) (s : Port), s.isOpen = true → s.timeout = some t → s.stream.length < fuel →
    (0 < L → (response.length : Int) < L) →
    (∃ s', rtuRecvLoop cfg L fuel response response.length s = (.error .osError, s') ∧ s.later.head? = some .fail) ∨
    (∃ x s', rtuRecvLoop cfg L fuel response response.length s = (.ok (response ++ x), s') ∧ x <+: s.stream ∧
      (0 < L → ((response ++ x).length : Int) ≤ L)) := by
  intro fuel
  induction fuel with
  | zero => intro _ _ _ _ h; omega
  | succ fuel ih =>
    intro response s ho ht hf hL
    by_cases hs : s.stream = []
    · rcases portRead_nil (rtuAsk s.timeout L response.length) ho (by rw [ht]; simp) hs with ⟨h1, h2⟩ | ⟨ev, h1, h2⟩ | ⟨ev, h1, h2⟩
      · right
        refine ⟨[], ?_⟩
        rw [rtuRecvLoop]
        simp only [PyM.bind_apply, PyM.get_apply, h2, rtuDuration]
        cases cfg.useSwTimeout <;>
          exact ⟨_, by simp [portDuration_apply]; rfl, List.nil_prefix, fun h => by have := hL h; simp; omega⟩
      · right
        refine ⟨[], ?_⟩
        rw [rtuRecvLoop]
        simp only [PyM.bind_apply, PyM.get_apply, h2, rtuDuration]
        cases cfg.useSwTimeout <;>
          exact ⟨_, by simp [portDuration_apply]; rfl, List.nil_prefix, fun h => by have := hL h; simp; omega⟩
      · left
        refine ⟨{ s with future := ev }, ?_, by rw [h1]; rfl⟩
        rw [rtuRecvLoop]
        simp only [PyM.bind_apply, PyM.get_apply, h2]
    · obtain ⟨x, s', e1, e2, e3, e4⟩ := portRead_cons (rtuAsk_pos s.timeout L response.length) ho hs
      have hxl : 0 < x.length := List.length_pos_iff.mpr e2
      have hst := e4.stream
      have hl := congrArg List.length hst
      rw [List.length_append] at hl
      have hlen : 0 < L → ((response ++ x).length : Int) ≤ L := by
        intro h
        have := hL h
        unfold rtuAsk at e3
        rw [if_pos (by rw [ht]; simp; omega), if_pos (by omega)] at e3
        rw [List.length_append]; omega
      -- the state after reading the clock
      have hdur : ∃ d s1, rtuDuration cfg s' = (.ok d, s1) ∧
          s1.stream = s'.stream ∧ s1.later = s'.later ∧ s1.isOpen = s'.isOpen ∧ s1.timeout = s'.timeout := by
        unfold rtuDuration
        cases cfg.useSwTimeout
        · exact ⟨0, s', rfl, rfl, rfl, rfl, rfl⟩
        · exact ⟨_, _, rfl, rfl, rfl, rfl, rfl⟩
      obtain ⟨d, s1, d1, d2, d3, d4, d5⟩ := hdur
      rw [ht] at e1
      rw [rtuRecvLoop]
      simp only [PyM.bind_apply, PyM.get_apply, ht, e1, d1, if_neg e2]
      by_cases hd : d > t
      · right
        rw [if_pos hd]
        refine ⟨[], s1, by simp, List.nil_prefix, fun h => by have := hL h; simp; omega⟩
      · rw [if_neg hd]
        by_cases hdone : L ≥ 0 ∧ ((response ++ x).length : Int) ≥ L
        · right
          rw [if_pos hdone]
          exact ⟨x, s1, rfl, ⟨s'.stream, hst.symm⟩, hlen⟩
        · rw [if_neg hdone]
          have hcast : (response.length : Int) + x.length = ((response ++ x).length : Nat) := by
            rw [List.length_append]; push_cast; rfl
          rw [hcast]
          rcases ih (response ++ x) s1 (by rw [d4, e4.isOpen]; exact ho) (by rw [d5, e4.timeout]; exact ht) (by rw [d2]; omega)
            (fun h => by omega) with ⟨s'', f1, f2⟩ | ⟨y, s'', f1, f2, f3⟩
          · exact .inl ⟨s'', f1, by rw [← e4.later, ← d3]; exact f2⟩
          · refine .inr ⟨x ++ y, s'', by rw [f1, List.append_assoc], ?_, by rw [← List.append_assoc]; exact f3⟩
            rw [hst, ← d2]
            exact (List.prefix_append_right_inj x).mpr f2

/-- **C31.** In every configuration (with a positive time-out) and whatever happens on the line, receiving ends; the response
    is the beginning of what arrives before the next silence and never longer than expected. -/
theorem C31_master_sound (R : Registry) (hR : Quiet R) (cfg : RtuCfg) (s : Port) (ho : s.isOpen = true) (t : Nat)
    (ht : s.timeout = some t) (h0 : 0 < t) (L : Int) :
    ((rtuRecv R cfg L s).1 = .error .osError ∧ s.later.head? = some .fail) ∨
    (∃ x, (rtuRecv R cfg L s).1 = .ok x ∧ x <+: s.stream ∧ (0 < L → (x.length : Int) ≤ L)) := by
  have hfuel := stream_le_total s
  rcases rtuRecv_sound cfg L h0 (s.total + 1) [] s ho ht (by omega) (fun h => h) with ⟨s', e1, e2⟩ | ⟨x, s', e1, e2, e3⟩
  · left
    have e1' : rtuRecvLoop cfg L (s.total + 1) [] 0 s = (.error .osError, s') := e1
    refine ⟨?_, e2⟩
    simp only [rtuRecv, PyM.bind_apply, PyM.get_apply, e1']
  · right
    have e1' : rtuRecvLoop cfg L (s.total + 1) [] 0 s = (.ok x, s') := e1
    refine ⟨x, ?_, e2, e3⟩
    simp only [rtuRecv, PyM.bind_apply, PyM.get_apply, e1', PyM.lift_apply, hR _ _]
    rfl

-- chunks of sizes 1, 3 and 5, the last one carrying a byte too many
example : rtuRecv [] {} 8 { future := [.chunk [1], .chunk [], .chunk [3, 4, 0], .chunk [7, 0, 8, 9, 10], .silence] } =
    (.ok [1, 3, 4, 0, 7, 0, 8, 9], { buf := [10], future := [.silence] }) := by decide
example : (rtuRecv [] {} (-1) { future := [.chunk [1], .chunk [3, 4], .silence, .chunk [9]] }).1 = .ok [1, 3, 4] := by decide
-- why the time-out must be positive: with time-out 0 the master asks for the whole length again and reads beyond the response
example : (rtuRecv [] {} 4 { timeout := some 0, future := [.chunk [1, 3, 4], .chunk [0, 7, 8]] }).1 = .ok [1, 3, 4, 0, 7, 8] := by
  decide
-- ... and without time-out it raises TypeError
example : (rtuRecv [] {} 4 { timeout := none, future := [.chunk [1, 3, 4, 0]] }).1 = .error .typeError := by decide

/-! ## The server -/

/-- the response of a server to a request (none: nothing is sent) and the memories afterwards -/
def replyOf (R : Registry) (mac : Mac) (db : Databank) (request : Bytes) (h : Heap) : Option Bytes × Heap :=
  match serverHandle R mac db request h with
  | (.ok (some (b :: bs)), h') => (some (b :: bs), h')
  | (_, h') => (none, h')

/-- the events without the silence at their beginning -/
def dropQuiet : List SerialEvent → List SerialEvent
  | .silence :: ev => dropQuiet ev
  | .chunk [] :: ev => dropQuiet ev
  | ev => ev

/-- the port when the next byte arrives -/
def Port.awake (s : Port) : Port := if s.buf = [] then { s with future := dropQuiet s.future } else s

/-- no failure happens on the line -/
def Port.NoFail (s : Port) : Prop := SerialEvent.fail ∉ s.future

theorem afterChunks_mem {e : SerialEvent} {ev : List SerialEvent} (h : e ∈ afterChunks ev) : e ∈ ev := by
  induction ev with
  | nil => cases h
  | cons e' ev ih =>
    match e' with
    | .chunk bs => exact List.mem_cons_of_mem _ (ih h)
    | .silence => exact h
    | .fail => exact h

theorem dropQuiet_mem {e : SerialEvent} {ev : List SerialEvent} (h : e ∈ dropQuiet ev) : e ∈ ev := by
  induction ev with
  | nil => cases h
  | cons e' ev ih =>
    match e' with
    | .chunk [] => exact List.mem_cons_of_mem _ (ih h)
    | .chunk (_ :: _) => exact h
    | .silence => exact List.mem_cons_of_mem _ (ih h)
    | .fail => exact h

theorem NoFail.later {s : Port} (h : s.NoFail) : s.later.head? ≠ some .fail := by
  intro hh
  match hl : s.later with
  | [] => rw [hl] at hh; cases hh
  | e :: ev =>
    rw [hl] at hh
    simp only [List.head?_cons, Option.some.injEq] at hh
    subst hh
    exact h (afterChunks_mem (ev := s.future) (by unfold Port.later at hl; rw [hl]; simp))

theorem rtuRest_spec : ∀ (fuel : Nat) (request : Bytes) (s : Port), s.isOpen = true → s.timeout ≠ none → s.stream.length < fuel →
    s.later.head? ≠ some .fail →
    rtuRest fuel request s = (.ok (request ++ s.stream), { s with buf := [], future := s.later.tail }) := by
  intro fuel
  induction fuel with
  | zero => intro _ _ _ _ h; omega
  | succ fuel ih =>
    intro request s ho ht hf hl
    by_cases hs : s.stream = []
    · have hbuf : s.buf = [] := (List.append_eq_nil_iff.mp hs).1
      have hr : portRead 128 s = (.ok [], { s with buf := [], future := s.later.tail }) := by
        have hb' : ({ s with buf := [], future := s.later.tail } : Port) = { s with future := s.later.tail } := by
          cases s; simp only at hbuf; subst hbuf; rfl
        rw [hb']
        rcases portRead_nil 128 ho ht hs with ⟨h1, h2⟩ | ⟨ev, h1, h2⟩ | ⟨ev, h1, h2⟩
        · rw [h2, h1]; rfl
        · rw [h2, h1]; rfl
        · rw [h1] at hl; simp at hl
      rw [rtuRest]
      simp only [PyM.bind_apply, PyM.tryExcept_apply, hr, if_true, hs, List.append_nil, PyM.pure_apply]
    · obtain ⟨x, s1, e1, e2, e3, e4⟩ := portRead_cons (n := 128) (by omega) ho hs
      have hst := e4.stream
      have hlen := congrArg List.length hst
      rw [List.length_append] at hlen
      have hxl : 0 < x.length := List.length_pos_iff.mpr e2
      have := ih (request ++ x) s1 (by rw [e4.isOpen]; exact ho) (by rw [e4.timeout]; exact ht) (by omega) (by rw [e4.later]; exact hl)
      rw [rtuRest]
      simp only [PyM.bind_apply, PyM.tryExcept_apply, e1, if_neg e2, this]
      have h1 : ({ s1 with buf := [], future := s1.later.tail } : Port) = { s with buf := [], future := s.later.tail } := by
        rw [e4.later, e4.rest]
      rw [h1, hst, List.append_assoc]

theorem readWait_block (n : Nat) (s : Port) (ev : List SerialEvent) :
    Port.readWait n true s ev = Port.readWait n true s (dropQuiet ev) := by
  induction ev with
  | nil => rfl
  | cons e ev ih =>
    match e with
    | .chunk [] => exact ih
    | .chunk (_ :: _) => rfl
    | .silence => exact ih
    | .fail => rfl

theorem dropQuiet_cases (ev : List SerialEvent) : dropQuiet ev = [] ∨ (∃ b bs ev', dropQuiet ev = .chunk (b :: bs) :: ev') ∨
    ∃ ev', dropQuiet ev = .fail :: ev' := by
  induction ev with
  | nil => exact .inl rfl
  | cons e ev ih =>
    match e with
    | .chunk [] => exact ih
    | .chunk (b :: bs) => exact .inr (.inl ⟨b, bs, ev, rfl⟩)
    | .silence => exact ih
    | .fail => exact .inr (.inr ⟨ev, rfl⟩)

theorem rtuFirst_ok (T : Nat) {s p : Port} {x : Bytes} (h : portRead 1 { s with timeout := none } = (.ok x, p)) :
    rtuFirst T s = (.ok x, { p with timeout := some T }) := by
  unfold rtuFirst portSetTimeout
  simp only [PyM.bind_apply, PyM.tryExcept_apply, PyM.modify_apply, h]
  rfl

theorem rtuFirst_spec (T : Nat) {s : Port} (ho : s.isOpen = true) (hn : s.NoFail) :
    ∃ x s1, rtuFirst T s = (.ok x, s1) ∧ ({ s.awake with timeout := some T } : Port).Got x s1 := by
  match hb : s.buf with
  | b :: bs =>
    have haw : s.awake = s := by unfold Port.awake; rw [if_neg (by rw [hb]; simp)]
    have : portRead 1 { s with timeout := none } = (.ok [b], { s with timeout := none, buf := bs }) := by
      unfold portRead
      rw [if_neg (by simp [ho])]
      simp only [hb]
      rfl
    rw [haw]
    refine ⟨_, _, rtuFirst_ok T this, ?_, rfl, rfl⟩
    simp [Port.stream, hb]
  | [] =>
    have haw : s.awake = { s with future := dropQuiet s.future } := by unfold Port.awake; rw [if_pos hb]
    have hrd : portRead 1 { s with timeout := none } = Port.readWait 1 true { s with timeout := none } (dropQuiet s.future) := by
      unfold portRead
      rw [if_neg (by simp [ho])]
      simp only [hb]
      exact readWait_block _ _ _
    rw [haw]
    rcases dropQuiet_cases s.future with h | ⟨b, bs, ev, h⟩ | ⟨ev, h⟩
    · rw [h] at hrd ⊢
      exact ⟨_, _, rtuFirst_ok T hrd, rfl, rfl, rfl⟩
    · rw [h] at hrd ⊢
      refine ⟨_, _, rtuFirst_ok T hrd, ?_, rfl, rfl⟩
      simp [Port.stream, chunkPrefix, hb]
    · exact absurd (dropQuiet_mem (ev := s.future) (e := .fail) (by rw [h]; simp)) hn

/-- the port after the response was written, unless a new request has begun to arrive in the meantime -/
def Port.wrote (q : Port) : Option Bytes → Port
  | none => q
  | some r =>
    let q' := { Port.arriveN (q.sched.headD 0) q with sched := q.sched.tail }
    if q'.buf = [] then { q' with written := q'.written ++ [r] } else q'

theorem parriveN_isOpen (n : Nat) (s : Port) : (Port.arriveN n s).isOpen = s.isOpen := by
  induction n generalizing s with
  | zero => rfl
  | succ n ih =>
    rw [Port.arriveN, ih]
    unfold Port.arrive
    split <;> rfl

theorem rtuAnswer_spec {R : Registry} (hR : Quiet R) (db : Databank) (request : Bytes) (s : RtuSrv) (ho : s.port.isOpen = true) :
    (rtuAnswer R db request s).2 = { s with heap := (replyOf R rtuMac db request s.heap).2,
                                            port := s.port.wrote (replyOf R rtuMac db request s.heap).1 } := by
  unfold rtuAnswer replyOf
  simp only [PyM.bind_apply, PyM.lift_apply, hR _ _, Option.getD_none, RtuSrv.onHeap]
  cases hx : serverHandle R rtuMac db request s.heap with
  | mk o h' =>
    dsimp only
    match o with
    | .error e => rfl
    | .ok none => simp [Port.wrote]
    | .ok (some []) => simp [Port.wrote]
    | .ok (some (b :: bs)) =>
      simp only [Option.isSome_none, Bool.false_eq_true, if_false, PyM.bind_apply, RtuSrv.onPort, portInWaiting,
        if_neg (show ¬ ¬ s.port.isOpen = true by simp [ho]), Port.wrote]
      by_cases hw : ({ Port.arriveN (s.port.sched.headD 0) s.port with sched := s.port.sched.tail } : Port).buf = []
      · dsimp only at hw
        rw [if_neg (by rw [hw]; simp), if_pos hw]
        simp [portWrite, portCheck, parriveN_isOpen, ho, RtuSrv.onPort]
      · dsimp only at hw
        have hpos : (Port.arriveN (s.port.sched.headD 0) s.port).buf.length > 0 := List.length_pos_iff.mpr hw
        rw [if_pos hpos, if_neg hw]
        simp

/-- the port from which the server reads its next request: when it may wait for the first byte, silence is skipped -/
def RtuSrv.line (s : RtuSrv) : Port := if s.block then s.port.awake else s.port

theorem awake_noFail {s : Port} (h : s.NoFail) : s.awake.NoFail := by
  unfold Port.awake
  split
  · exact fun hm => h (dropQuiet_mem hm)
  · exact h

/-- **C31.** One round of the RTU server: the request is exactly what arrives before the next silence; nothing happens if this
    is nothing; otherwise it is handled, and the response is written unless a new request has begun to arrive. -/
theorem C31_server (R : Registry) (hR : Quiet R) (db : Databank) (s : RtuSrv) (ho : s.port.isOpen = true) (hn : s.port.NoFail)
    (ht : s.block = false → s.port.timeout = some s.timeout) :
    ∃ q, q = { s.line with buf := [], future := s.line.later.tail, timeout := some s.timeout } ∧
    rtuRun R db s = (.ok (),
      if s.line.stream = [] then { s with port := q }
      else { s with heap := (replyOf R rtuMac db s.line.stream s.heap).2,
                    port := q.wrote (replyOf R rtuMac db s.line.stream s.heap).1 }) := by
  refine ⟨_, rfl, ?_⟩
  -- the body returns or raises, the handler does nothing
  suffices hbody : (rtuBody R db s).2 = 
      if s.line.stream = [] then { s with port := { s.line with buf := [], future := s.line.later.tail, timeout := some s.timeout } }
      else { s with heap := (replyOf R rtuMac db s.line.stream s.heap).2,
                    port := Port.wrote { s.line with buf := [], future := s.line.later.tail, timeout := some s.timeout }
                      (replyOf R rtuMac db s.line.stream s.heap).1 } by
    unfold rtuRun
    simp only [PyM.tryExcept_apply, PyM.bind_apply, PyM.lift_apply, hR _ _]
    rw [← hbody]
    cases hb : rtuBody R db s with
    | mk o s' => cases o <;> rfl
  -- reading
  have key : ∀ (x : Bytes) (p : Port), ({ s.line with timeout := some s.timeout } : Port).Got x p →
      (RtuSrv.onPort (rtuRest (p.total + 1) x) { s with port := p }) =
        (.ok s.line.stream, { s with port := { s.line with buf := [], future := s.line.later.tail, timeout := some s.timeout } }) := by
    intro x p hg
    have hopen : s.line.isOpen = true := by unfold RtuSrv.line Port.awake; split <;> [split; skip] <;> exact ho
    have hnf : s.line.NoFail := by unfold RtuSrv.line; split; exact awake_noFail hn; exact hn
    have hfl : p.later.head? ≠ some .fail := by rw [hg.later]; exact NoFail.later (s := { s.line with timeout := some s.timeout }) hnf
    have hr := rtuRest_spec (p.total + 1) x p (by rw [hg.isOpen]; exact hopen) (by rw [hg.timeout]; simp)
      (by have := stream_le_total p; omega) hfl
    unfold RtuSrv.onPort
    simp only [hr]
    have h1 : x ++ p.stream = s.line.stream := hg.stream.symm
    have h2 : ({ p with buf := [], future := p.later.tail } : Port) =
        { s.line with buf := [], future := s.line.later.tail, timeout := some s.timeout } := by
      rw [hg.later]
      have := hg.rest
      rw [this]
      rfl
    rw [h1, h2]
  have read : ∃ x p, rtuStart s = (.ok x, { s with port := p }) ∧
      ({ s.line with timeout := some s.timeout } : Port).Got x p := by
    by_cases hbl : s.block = true
    · obtain ⟨x, p, e1, e2⟩ := rtuFirst_spec s.timeout ho hn
      refine ⟨x, p, by unfold rtuStart; rw [if_pos hbl]; simp only [RtuSrv.onPort, e1], ?_⟩
      have : s.line = s.port.awake := by unfold RtuSrv.line; rw [if_pos hbl]
      rw [this]; exact e2
    · refine ⟨[], s.port, by unfold rtuStart; rw [if_neg hbl], ?_⟩
      have : ({ s.line with timeout := some s.timeout } : Port) = s.port := by
        unfold RtuSrv.line
        rw [if_neg hbl, ← ht (by simpa using hbl)]
      rw [this]
      exact Port.Got.refl _
  obtain ⟨x, p, r1, r2⟩ := read
  have r3 := key x p r2
  have hopen : s.line.isOpen = true := by unfold RtuSrv.line Port.awake; split <;> [split; skip] <;> exact ho
  unfold rtuBody
  simp only [PyM.bind_apply, PyM.get_apply, r1, r3]
  by_cases hst : s.line.stream = []
  · rw [if_pos hst, if_pos hst]; rfl
  · rw [if_neg hst, if_neg hst]
    rw [rtuAnswer_spec hR db _ _ (by exact hopen)]

/-! ### All rounds -/

/-- the requests on the line: what arrives between two silences -/
def burstsFrom : Bytes → List SerialEvent → List Bytes
  | acc, [] => if acc = [] then [] else [acc]
  | acc, .chunk bs :: ev => burstsFrom (acc ++ bs) ev
  | acc, _ :: ev => (if acc = [] then [] else [acc]) ++ burstsFrom [] ev

/-- all bytes on the line -/
def allBytes : List SerialEvent → Bytes
  | [] => []
  | .chunk bs :: ev => bs ++ allBytes ev
  | _ :: ev => allBytes ev

/-- handling requests one after the other: the responses and the memories -/
def serveBursts (R : Registry) (db : Databank) : List Bytes → Heap → List Bytes × Heap
  | [], h => ([], h)
  | q :: qs, h =>
    let r := replyOf R rtuMac db q h
    let (out, h') := serveBursts R db qs r.2
    (r.1.toList ++ out, h')

theorem burstsFrom_eq (acc : Bytes) (ev : List SerialEvent) :
    burstsFrom acc ev = (if acc ++ chunkPrefix ev = [] then [] else [acc ++ chunkPrefix ev]) ++ burstsFrom [] (afterChunks ev).tail := by
  induction ev generalizing acc with
  | nil => simp [burstsFrom, chunkPrefix, afterChunks]
  | cons e ev ih =>
    match e with
    | .chunk bs => rw [burstsFrom, ih, chunkPrefix, afterChunks, List.append_assoc]
    | .silence => simp [burstsFrom, chunkPrefix, afterChunks]
    | .fail => simp [burstsFrom, chunkPrefix, afterChunks]

theorem burstsFrom_dropQuiet (ev : List SerialEvent) (h : SerialEvent.fail ∉ ev) :
    burstsFrom [] (dropQuiet ev) = burstsFrom [] ev := by
  induction ev with
  | nil => rfl
  | cons e ev ih =>
    match e with
    | .chunk [] => exact ih (fun hm => h (List.mem_cons_of_mem _ hm))
    | .chunk (_ :: _) => rfl
    | .silence => rw [dropQuiet, ih (fun hm => h (List.mem_cons_of_mem _ hm))]; rfl
    | .fail => simp at h

theorem allBytes_eq (ev : List SerialEvent) : allBytes ev = chunkPrefix ev ++ allBytes (afterChunks ev).tail := by
  induction ev with
  | nil => rfl
  | cons e ev ih =>
    match e with
    | .chunk bs => rw [allBytes, ih, chunkPrefix, afterChunks, List.append_assoc]
    | .silence => rfl
    | .fail => rfl

theorem allBytes_dropQuiet (ev : List SerialEvent) : allBytes (dropQuiet ev) = allBytes ev := by
  induction ev with
  | nil => rfl
  | cons e ev ih =>
    match e with
    | .chunk [] => exact ih
    | .chunk (_ :: _) => rfl
    | .silence => exact ih
    | .fail => rfl

theorem dropQuiet_length (ev : List SerialEvent) : (dropQuiet ev).length ≤ ev.length := by
  induction ev with
  | nil => simp [dropQuiet]
  | cons e ev ih =>
    match e with
    | .chunk [] => exact Nat.le_succ_of_le ih
    | .chunk (_ :: _) => simp [dropQuiet]
    | .silence => exact Nat.le_succ_of_le ih
    | .fail => simp [dropQuiet]

theorem afterChunks_length (ev : List SerialEvent) : (afterChunks ev).length ≤ ev.length := by
  induction ev with
  | nil => simp [afterChunks]
  | cons e ev ih =>
    match e with
    | .chunk _ => exact Nat.le_succ_of_le ih
    | .silence => simp [afterChunks]
    | .fail => simp [afterChunks]

theorem line_eq (s : RtuSrv) : s.line = { s.port with future := s.line.future } := by
  unfold RtuSrv.line Port.awake
  split
  · split <;> rfl
  · rfl

theorem line_bursts {s : RtuSrv} (hn : s.port.NoFail) : burstsFrom s.line.buf s.line.future = burstsFrom s.port.buf s.port.future := by
  unfold RtuSrv.line Port.awake
  split
  · split
    · rename_i h
      simp only [h]
      exact burstsFrom_dropQuiet _ hn
    · rfl
  · rfl

theorem line_bytes (s : RtuSrv) : s.line.buf ++ allBytes s.line.future = s.port.buf ++ allBytes s.port.future := by
  unfold RtuSrv.line Port.awake
  split
  · split
    · rename_i h
      simp only [h, allBytes_dropQuiet]
    · rfl
  · rfl

theorem line_length (s : RtuSrv) : s.line.future.length ≤ s.port.future.length := by
  unfold RtuSrv.line Port.awake
  split
  · split
    · exact dropQuiet_length _
    · exact Nat.le_refl _
  · exact Nat.le_refl _

theorem line_noFail {s : RtuSrv} (hn : s.port.NoFail) : s.line.NoFail := by
  unfold RtuSrv.line; split; exact awake_noFail hn; exact hn

/-- the state in which the server's loop reads: the port is open and its time-out is set (modbus_rtu.py:202, 283) -/
structure RtuSrv.Listening (s : RtuSrv) : Prop where
  isOpen : s.port.isOpen = true
  noFail : s.port.NoFail
  timeout : s.block = false → s.port.timeout = some s.timeout

theorem arriveN_buf_append (n : Nat) (s : Port) :
    (Port.arriveN n s).buf ++ allBytes (Port.arriveN n s).future = s.buf ++ allBytes s.future := by
  induction n generalizing s with
  | zero => rfl
  | succ n ih =>
    rw [Port.arriveN, ih]
    unfold Port.arrive
    split
    · rename_i bs ev h; rw [h]; simp [allBytes]
    · rename_i ev h; rw [h]; simp [allBytes]
    · rfl

theorem arriveN_noFail {n : Nat} {s : Port} (h : s.NoFail) : (Port.arriveN n s).NoFail := by
  induction n generalizing s with
  | zero => exact h
  | succ n ih =>
    rw [Port.arriveN]
    refine ih ?_
    unfold Port.arrive
    unfold Port.NoFail at *
    split
    · rename_i bs ev h'; intro hm; exact h (by rw [h']; exact List.mem_cons_of_mem _ hm)
    · rename_i ev h'; intro hm; exact h (by rw [h']; exact List.mem_cons_of_mem _ hm)
    · exact h

theorem arriveN_rest (n : Nat) (s : Port) :
    Port.arriveN n s = { s with buf := (Port.arriveN n s).buf, future := (Port.arriveN n s).future } := by
  induction n generalizing s with
  | zero => rfl
  | succ n ih =>
    rw [Port.arriveN, ih]
    unfold Port.arrive
    split <;> rfl

theorem wrote_spec (q : Port) (r : Option Bytes) :
    (q.wrote r).isOpen = q.isOpen ∧ (q.wrote r).timeout = q.timeout ∧ (q.NoFail → (q.wrote r).NoFail) ∧
    (q.wrote r).buf ++ allBytes (q.wrote r).future = q.buf ++ allBytes q.future ∧
    ∃ w, w.Sublist r.toList ∧ (q.wrote r).written = q.written ++ w := by
  match r with
  | none => exact ⟨rfl, rfl, id, rfl, [], List.Sublist.slnil, by simp [Port.wrote]⟩
  | some r =>
    have h1 := arriveN_rest (q.sched.headD 0) q
    have h2 := arriveN_buf_append (q.sched.headD 0) q
    have h3 : q.NoFail → _ := arriveN_noFail (n := q.sched.headD 0) (s := q)
    simp only [Port.wrote]
    generalize Port.arriveN (q.sched.headD 0) q = q' at *
    split
    · refine ⟨by rw [h1], by rw [h1], h3, h2, [r], by simp, ?_⟩
      show q'.written ++ [r] = _
      rw [h1]
    · refine ⟨by rw [h1], by rw [h1], h3, h2, [], by simp, ?_⟩
      show q'.written = _
      rw [h1]; simp

/-- **C31.** Whatever arrives and whenever: no byte is lost or read twice.  The requests handled by the server are consecutive
    non-empty pieces of the bytes on the line; the memories are the result of handling them in this order, and only responses to
    them are written, in this order. -/
theorem C31_server_history (R : Registry) (hR : Quiet R) (db : Databank) (n : Nat) :
    ∀ (s : RtuSrv), s.Listening → ∃ s' log, rtuRuns R db n s = (.ok (), s') ∧ s'.Listening ∧
      s.port.buf ++ allBytes s.port.future = log.flatten ++ (s'.port.buf ++ allBytes s'.port.future) ∧
      (∀ q ∈ log, q ≠ []) ∧
      s'.heap = (serveBursts R db log s.heap).2 ∧
      ∃ w, w.Sublist (serveBursts R db log s.heap).1 ∧ s'.port.written = s.port.written ++ w := by
  induction n with
  | zero => intro s hs; exact ⟨s, [], rfl, hs, by simp, by simp, rfl, [], by simp, by simp⟩
  | succ n ih =>
    intro s hs
    obtain ⟨q, hq, hrun⟩ := C31_server R hR db s hs.isOpen hs.noFail hs.timeout
    have hle := line_eq s
    have hqo : q.isOpen = true := by rw [hq]; show s.line.isOpen = true; rw [hle]; exact hs.isOpen
    have hqn : q.NoFail := by
      rw [hq]
      intro hm
      exact line_noFail hs.noFail (afterChunks_mem (List.mem_of_mem_tail hm))
    have hqb : s.port.buf ++ allBytes s.port.future = s.line.stream ++ (q.buf ++ allBytes q.future) := by
      rw [← line_bytes s, hq, allBytes_eq s.line.future]
      simp [Port.stream, Port.later]
    have hqw : q.written = s.port.written := by rw [hq]; show s.line.written = _; rw [hle]
    have hqt : q.timeout = some s.timeout := by rw [hq]
    by_cases hst : s.line.stream = []
    · rw [if_pos hst] at hrun
      obtain ⟨s', log, e1, e2, e3, e4, e5, w, e6, e7⟩ := ih { s with port := q } ⟨hqo, hqn, fun _ => hqt⟩
      refine ⟨s', log, ?_, e2, ?_, e4, e5, w, e6, by rw [e7]; show q.written ++ w = _; rw [hqw]⟩
      · rw [rtuRuns]; simp only [PyM.bind_apply, hrun]; exact e1
      · rw [hqb, hst, ← e3]; rfl
    · rw [if_neg hst] at hrun
      obtain ⟨w1, w2, w3, w4, w, w5, w6⟩ := wrote_spec q (replyOf R rtuMac db s.line.stream s.heap).1
      obtain ⟨s', log, e1, e2, e3, e4, e5, w', e6, e7⟩ := ih
        { s with heap := (replyOf R rtuMac db s.line.stream s.heap).2,
                 port := q.wrote (replyOf R rtuMac db s.line.stream s.heap).1 }
        ⟨w1.trans hqo, w3 hqn, fun _ => w2.trans hqt⟩
      refine ⟨s', s.line.stream :: log, ?_, e2, ?_, ?_, ?_, w ++ w', ?_, ?_⟩
      · rw [rtuRuns]; simp only [PyM.bind_apply, hrun]; exact e1
      · rw [hqb, List.flatten_cons, List.append_assoc, ← e3, ← w4]
      · intro x hx
        rcases List.mem_cons.mp hx with rfl | hx
        · exact hst
        · exact e4 x hx
      · rw [e5]; rfl
      · exact w5.append e6
      · rw [e7]; show (q.wrote _).written ++ w' = _; rw [w6, hqw, List.append_assoc]

/-- **C31.** When no request begins to arrive while the server is handling another one, the requests are exactly what arrives
    between two silences, and every response is written. -/
theorem C31_server_bursts (R : Registry) (hR : Quiet R) (db : Databank) :
    ∀ (n : Nat) (s : RtuSrv), s.Listening → s.port.sched = [] → s.port.future.length < n →
    ∃ s', rtuRuns R db n s = (.ok (), s') ∧ s'.port.buf = [] ∧ s'.port.future = [] ∧
      s'.heap = (serveBursts R db (burstsFrom s.port.buf s.port.future) s.heap).2 ∧
      s'.port.written = s.port.written ++ (serveBursts R db (burstsFrom s.port.buf s.port.future) s.heap).1 := by
  intro n
  induction n with
  | zero => intro s _ _ h; omega
  | succ n ih =>
    intro s hs hsch hlen
    obtain ⟨q, hq, hrun⟩ := C31_server R hR db s hs.isOpen hs.noFail hs.timeout
    have hle := line_eq s
    have hqo : q.isOpen = true := by rw [hq]; show s.line.isOpen = true; rw [hle]; exact hs.isOpen
    have hqn : q.NoFail := by
      rw [hq]
      intro hm
      exact line_noFail hs.noFail (afterChunks_mem (List.mem_of_mem_tail hm))
    have hqs : q.sched = [] := by rw [hq]; show s.line.sched = []; rw [hle]; exact hsch
    have hqb : burstsFrom s.port.buf s.port.future =
        (if s.line.stream = [] then [] else [s.line.stream]) ++ burstsFrom [] q.future := by
      rw [← line_bursts hs.noFail, burstsFrom_eq, hq]; rfl
    have hqbuf : q.buf = [] := by rw [hq]
    have hqw : q.written = s.port.written := by rw [hq]; show s.line.written = _; rw [hle]
    have hqt : q.timeout = some s.timeout := by rw [hq]
    have hql : q.future.length < n ∨ (n = 0 ∧ q.future = []) := by
      have h1 := line_length s
      have h2 := afterChunks_length s.line.future
      have h3 : q.future.length = (afterChunks s.line.future).length - 1 := by rw [hq]; simp [Port.later]
      rcases Nat.eq_zero_or_pos n with h | h
      · right; exact ⟨h, List.length_eq_zero_iff.mp (by omega)⟩
      · left; omega
    -- the rounds after this one
    have hrest : ∀ s1 : RtuSrv, s1.Listening → s1.port.sched = [] → s1.port.buf = [] → s1.port.future = q.future →
        ∃ s', rtuRuns R db n s1 = (.ok (), s') ∧ s'.port.buf = [] ∧ s'.port.future = [] ∧
          s'.heap = (serveBursts R db (burstsFrom [] q.future) s1.heap).2 ∧
          s'.port.written = s1.port.written ++ (serveBursts R db (burstsFrom [] q.future) s1.heap).1 := by
      intro s1 a1 a2 a3 a4
      rcases hql with h | ⟨h, h'⟩
      · have := ih s1 a1 a2 (by rw [a4]; exact h)
        rw [a3, a4] at this
        exact this
      · subst h
        rw [h'] at a4 ⊢
        exact ⟨s1, rfl, a3, a4, rfl, by simp [burstsFrom, serveBursts]⟩
    rw [hqb]
    by_cases hst : s.line.stream = []
    · rw [if_pos hst] at hrun ⊢
      obtain ⟨s', e1, e2, e3, e4, e5⟩ := hrest { s with port := q } ⟨hqo, hqn, fun _ => hqt⟩ hqs hqbuf rfl
      refine ⟨s', ?_, e2, e3, e4, by rw [e5]; show q.written ++ _ = _; rw [hqw]; rfl⟩
      rw [rtuRuns]; simp only [PyM.bind_apply, hrun]; exact e1
    · rw [if_neg hst] at hrun ⊢
      have hwr : q.wrote (replyOf R rtuMac db s.line.stream s.heap).1 =
          { q with written := q.written ++ (replyOf R rtuMac db s.line.stream s.heap).1.toList } := by
        match (replyOf R rtuMac db s.line.stream s.heap).1 with
        | none => simp [Port.wrote]
        | some r =>
          simp only [Port.wrote, hqs, List.headD_nil, Port.arriveN, List.tail_nil, hqbuf, if_true, Option.toList_some]
      rw [hwr] at hrun
      obtain ⟨s', e1, e2, e3, e4, e5⟩ := hrest
        { s with heap := (replyOf R rtuMac db s.line.stream s.heap).2,
                 port := { q with written := q.written ++ (replyOf R rtuMac db s.line.stream s.heap).1.toList } }
        ⟨hqo, hqn, fun _ => hqt⟩ hqs hqbuf rfl
      refine ⟨s', ?_, e2, e3, by rw [e4]; rfl, by
        rw [e5]; show (q.written ++ _) ++ _ = _; rw [hqw]; simp [serveBursts]⟩
      rw [rtuRuns]; simp only [PyM.bind_apply, hrun]; exact e1

/-- A server with two slaves.  On the line: silence, a write request in three chunks, a request with a wrong CRC, a read
    request. -/
def exRtuSrv : RtuSrv where
  heap := exTwo.st.heap
  port := { future := [.silence, .chunk [1], .chunk [6, 0, 11], .chunk [0, 7, 185, 202], .silence, .silence, .chunk [1, 3, 0, 11, 0, 1, 245, 201], .silence,
    .chunk [1, 3, 0, 11, 0, 1, 245, 200]], timeout := some 3 }
  timeout := 3
  block := true

theorem exRtuSrv_listening : exRtuSrv.Listening := ⟨rfl, by simp [exRtuSrv, Port.NoFail], fun h => by cases h⟩

example : burstsFrom exRtuSrv.port.buf exRtuSrv.port.future = [[1, 6, 0, 11, 0, 7, 185, 202], [1, 3, 0, 11, 0, 1, 245, 201], [1, 3, 0, 11, 0, 1, 245, 200]] := by decide
-- the first and the last request are answered; the one with the wrong CRC is not handled
example : (rtuRuns [] exTwo.st.db 10 exRtuSrv).2.port.written = [[1, 6, 0, 11, 0, 7, 185, 202], [1, 3, 2, 0, 7, 249, 134]] := by decide +kernel
example : [1, 6, 0, 11, 0, 7, 185, 202] = rtuAdu 1 [6, 0, 11, 0, 7] := by decide +kernel
example : [1, 3, 2, 0, 7, 249, 134] = rtuAdu 1 [3, 2, 0, 7] := by decide +kernel
/-- the same server, another line -/
def exRtuOn (sched : List Nat) (ev : List SerialEvent) : RtuSrv :=
  { exRtuSrv with port := { timeout := some 3, sched := sched, future := ev } }

-- the next request begins to arrive while the first is handled: the first is executed, its response is not sent
example : (rtuRuns [] exTwo.st.db 2 (exRtuOn [2]
    [.chunk [1, 6, 0, 11, 0, 7, 185, 202], .silence, .silence, .chunk [1, 3], .chunk [0, 11, 0, 1, 245, 200]])).2.port.written = [[1, 3, 2, 0, 7, 249, 134]] := by
  decide +kernel
-- `C31_server_history` allows less than `C31_server_bursts`: two requests that arrive with a silence between them while another
-- one is being handled are read as one request
example : (rtuRuns [] exTwo.st.db 3 (exRtuOn [5]
    [.chunk [1, 6, 0, 11, 0, 7, 185, 202], .silence, .chunk [1, 3, 0, 11, 0, 1, 245, 200], .silence, .chunk [1, 3, 0, 11, 0, 1, 245, 200]])).2.port.written = [] := by
  decide +kernel

end Modbus
