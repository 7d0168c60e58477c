import Verif.Props.RtuTime
/-
# C77: an `RtuServer` finds the frames by the silence between them
-/
namespace Modbus

open Spec (rtuAdu)

/-! ## Reading until silence -/

/-- by how much a read can outlast its last byte: the time-out, less when there is an inter-byte time-out -/
def readLag (t : Nat) : Option Nat → Nat
  | none => t
  | some g => min g t

theorem readLag_le (t : Nat) (gap : Option Nat) : readLag t gap ≤ t := by cases gap <;> simp [readLag]

theorem readLimit_gap (d g now : Nat) : readLimit (some d) (some g) true now = some (min d (now + g)) := rfl

/-- with an inter-byte time-out a read that took a byte ends soon after the last one -/
theorem collect_gap (d g : Nat) : ∀ (n : Nat) (got : Bool) (now : Nat) (ev taken : List (Nat × UInt8)) (bs : Bytes) (now' : Nat) (ev' : List (Nat × UInt8)),
    collect (some d) (some g) n got now ev = some (bs, now', ev') → ev = taken ++ ev' → (got = true ∨ taken ≠ []) → now' ≤ lastAt now taken + g
  | 0, got, now, ev, taken, bs, now', ev', h, hs, _ => by
    cases ev <;> (simp only [collect, Option.some.injEq, Prod.mk.injEq] at h; obtain ⟨_, rfl, rfl⟩ := h; have := lastAt_le taken now; omega)
  | n+1, got, now, [], taken, bs, now', ev', h, hs, hg => by
    have hg : got = true := by
      rcases hg with hg | hg
      · exact hg
      · cases taken with
        | nil => exact absurd rfl hg
        | cons _ _ => cases hs
    subst hg
    simp only [collect, readLimit_gap, Option.some.injEq, Prod.mk.injEq] at h
    have := lastAt_le taken now
    omega
  | n+1, got, now, (T, b) :: ev, taken, bs, now', ev', h, hs, hg => by
    have hla := lastAt_le taken now
    have hstop : ∀ l, readLimit (some d) (some g) got now = some l → now' = max now l → ev' = (T, b) :: ev → now' ≤ lastAt now taken + g := by
      intro l hl h1 h2
      have ht : taken = [] := by
        subst h2
        have := congrArg List.length hs
        rw [List.length_append] at this
        exact List.length_eq_zero_iff.mp (by omega)
      subst ht
      have hg : got = true := by simpa using hg
      subst hg
      rw [readLimit_gap, Option.some.injEq] at hl
      subst hl
      omega
    have hgo : ((collect (some d) (some g) n true (max now T) ev).map fun r => (b :: r.1, r.2)) = some (bs, now', ev') → now' ≤ lastAt now taken + g := by
      intro h
      cases hc : collect (some d) (some g) n true (max now T) ev with
      | none => rw [hc] at h; cases h
      | some q =>
        obtain ⟨q1, q2, q3⟩ := q
        rw [hc] at h
        simp only [Option.map_some, Option.some.injEq, Prod.mk.injEq] at h
        obtain ⟨_, rfl, rfl⟩ := h
        cases taken with
        | nil =>
          have := (collect_forward _ _ _ _ _ _ _ hc).2.length_le
          dsimp only at this
          rw [List.nil_append] at hs
          subst hs
          rw [List.length_cons] at this
          omega
        | cons y ys =>
          rw [List.cons_append, List.cons.injEq] at hs
          obtain ⟨rfl, hs⟩ := hs
          exact collect_gap d g n true (max now T) ev ys q1 q2 q3 hc hs (.inl rfl)
    simp only [collect] at h
    cases hl : readLimit (some d) (some g) got now with
    | none => rw [hl] at h; exact hgo h
    | some l =>
      rw [hl] at h
      dsimp only at h
      split at h
      · exact hgo h
      · simp only [Option.some.injEq, Prod.mk.injEq] at h
        exact hstop l hl h.2.1.symm h.2.2.symm

/-- a read with a time-out that took something ends within `readLag` after its last byte -/
theorem cPortRead_lag (n : Nat) (s : CPort) (ho : s.isOpen = true) (x : Nat) (hx : s.timeout = some x) :
    ∃ taken now' ev', cPortRead n s = (.ok (arrivedBytes taken), { s with now := now', future := ev' }) ∧
      Took (s.now + x) s.interByte n false s.now s.future taken now' ev' ∧ (taken ≠ [] → now' ≤ lastAt s.now taken + readLag x s.interByte) := by
  obtain ⟨taken, now', ev', h1, h2⟩ := collect_took (s.now + x) s.interByte n false s.now s.future
  refine ⟨taken, now', ev', ?_, h2, fun hne => ?_⟩
  · unfold cPortRead
    rw [if_neg (by simp [ho])]
    simp only [CPort.fetch, hx, Option.map_some, h1]
  · have hb := h2.bound
    have hla := lastAt_le taken s.now
    cases hgap : s.interByte with
    | none => simp only [readLag]; omega
    | some g =>
      rw [hgap] at h1
      have := collect_gap _ _ _ _ _ _ _ _ _ _ h1 h2.split (.inr hne)
      simp only [readLag]
      omega

/-- What reading until silence does: from `now` on the bytes `taken` are read, and the silence is noticed at `h`. -/
structure Heard (t : Nat) (gap : Option Nat) (now : Nat) (ev taken : List (Nat × UInt8)) (h : Nat) (ev' : List (Nat × UInt8)) : Prop where
  split : ev = taken ++ ev'
  silence : lastAt now taken + t ≤ h
  prompt : h ≤ lastAt now taken + t + readLag t gap
  empty : taken = [] → h = now + t
  later : NoneBefore h ev'
  first : ∀ e, taken.head? = some e → e.1 < now + t
  gaps : Gaps (t + readLag t gap) now taken

theorem gaps_mono {x y : Nat} (hxy : x ≤ y) : ∀ {ev : List (Nat × UInt8)} {now : Nat}, Gaps x now ev → Gaps y now ev
  | [], _, _ => trivial
  | (_, _) :: _, _, h => ⟨Nat.lt_of_lt_of_le h.1 (Nat.add_le_add_left hxy _), gaps_mono hxy h.2⟩

/-- all bytes within `x` -/
theorem gaps_within {x : Nat} (h0 : 0 < x) {now0 : Nat} : ∀ {ev : List (Nat × UInt8)} {now : Nat}, now0 ≤ now → (lastAt now ev = now ∨ lastAt now ev < now0 + x) →
    Gaps x now ev
  | [], _, _, _ => trivial
  | (T, _) :: ev, now, h1, h2 => by
    have h3 := lastAt_le ev (max now T)
    simp only [lastAt] at h2
    refine ⟨by omega, gaps_within h0 (now0 := now0) (by omega) ?_⟩
    omega

theorem lastAt_sooner {a b : Nat} (hab : a ≤ b) {ev : List (Nat × UInt8)} (hn : NoneBefore b ev) (hne : ev ≠ []) : lastAt b ev = lastAt a ev := by
  cases ev with
  | nil => exact absurd rfl hne
  | cons e ev =>
    obtain ⟨T, c⟩ := e
    have hb : b ≤ T := hn _ rfl
    simp only [lastAt, show max b T = T by omega, show max a T = T by omega]

theorem crRest_heard (t : Nat) (h0 : 0 < t) : ∀ (fuel : Nat) (request : Bytes) (s : CPort), s.isOpen = true → s.timeout = some t → s.future.length < fuel →
    ∃ taken h ev', crRest fuel request s = (.ok (request ++ arrivedBytes taken), { s with now := h, future := ev' }) ∧
      Heard t s.interByte s.now s.future taken h ev'
  | 0, _, _, _, _, hf => absurd hf (by omega)
  | fuel+1, request, s, ho, hx, hf => by
    obtain ⟨tk, now', ev', e, tk1, lag⟩ := cPortRead_lag 128 s ho t hx
    rw [crRest]
    simp only [PyM.bind_apply, PyM.tryExcept_apply, e, arrivedBytes_nil]
    by_cases htk : tk = []
    · subst htk
      rw [if_pos rfl]
      have hn := tk1.limit (by simp) (.inr ⟨rfl, rfl⟩)
      simp only [lastAt] at hn
      have hn' : now' = s.now + t := by omega
      refine ⟨[], now', ev', by simp [arrivedBytes], ⟨tk1.split, ?_, ?_, fun _ => hn', (tk1.next (by simp)).1, by simp, trivial⟩⟩ <;> (simp only [lastAt]; omega)
    · rw [if_neg htk]
      have hpos := List.length_pos_iff.mpr htk
      have hlen : ev'.length < fuel := by
        have := congrArg List.length tk1.split
        rw [List.length_append] at this
        omega
      obtain ⟨tn, h, ev2, r1, r2⟩ := crRest_heard t h0 fuel (request ++ arrivedBytes tk) { s with now := now', future := ev' } ho hx hlen
      dsimp only at r1 r2
      have hlast := tk1.last
      have hlag := lag htk
      have hgt : Gaps t s.now tk := gaps_within h0 (Nat.le_refl _) tk1.inTime
      have hnx : NoneBefore now' tn ∨ now' = lastAt s.now tk := by
        by_cases hc : tk.length < 128
        · refine .inl fun e he => (tk1.next hc).1 e ?_
          rw [r2.split, List.head?_append, he]; rfl
        · exact .inr (tk1.full (by have := tk1.count; omega))
      have hfirst : ∀ e, (tk ++ tn).head? = some e → e.1 < s.now + t := by
        intro e he
        cases tk with
        | nil => exact absurd rfl htk
        | cons y ys => cases he; exact hgt.1
      refine ⟨tk ++ tn, h, ev2, by rw [r1, arrivedBytes_append, List.append_assoc], ?_⟩
      have hla : tn ≠ [] → lastAt now' tn = lastAt (lastAt s.now tk) tn := by
        intro hne
        rcases hnx with hnx | hnx
        · exact lastAt_sooner hlast hnx hne
        · rw [hnx]
      refine ⟨by rw [List.append_assoc, ← r2.split, ← tk1.split], ?_, ?_, fun hc => absurd (List.append_eq_nil_iff.mp hc).1 htk, r2.later, hfirst, ?_⟩
      · rw [lastAt_append]
        by_cases hne : tn = []
        · subst hne
          have := r2.empty rfl
          simp only [lastAt]
          omega
        · rw [← hla hne]; exact r2.silence
      · rw [lastAt_append]
        by_cases hne : tn = []
        · subst hne
          have := r2.empty rfl
          simp only [lastAt]
          omega
        · rw [← hla hne]; exact r2.prompt
      · rw [gaps_append]
        refine ⟨gaps_mono (Nat.le_add_right _ _) hgt, ?_⟩
        rcases hnx with hnx | hnx
        · cases tn with
          | nil => trivial
          | cons y ys =>
            have hy := r2.first y rfl
            have hb := hnx y rfl
            have e1 : max now' y.1 = y.1 := by omega
            have e2 : max (lastAt s.now tk) y.1 = y.1 := by omega
            have hg := r2.gaps.2
            rw [e1] at hg
            exact ⟨by show y.1 < _; omega, by rw [e2]; exact hg⟩
        · rw [← hnx]; exact r2.gaps

/-! ## One run -/

/-- the moment from which the server listens: with `_block_on_first_byte` it waits for the first byte -/
def CRtuSrv.begins (s : CRtuSrv) : Nat :=
  if s.block then match s.port.future with
    | [] => s.port.now
    | (T, _) :: _ => max s.port.now T
  else s.port.now

/-- the port after a request was read, at `h` -/
def CRtuSrv.heard (s : CRtuSrv) (h : Nat) (ev' : List (Nat × UInt8)) : CRtuSrv :=
  { s with port := { s.port with now := h, future := ev', timeout := some s.timeout } }

/-- a byte is there at `h` -/
def byteThere (h : Nat) : List (Nat × UInt8) → Bool
  | [] => false
  | (T, _) :: _ => T ≤ h

/-- a response sent at the present time; then the server sleeps -/
def CRtuSrv.responds (s : CRtuSrv) (r : Bytes) : CRtuSrv :=
  { s with port := { s.port with written := s.port.written ++ [(s.port.now, r)], now := s.port.now + s.port.charTime * r.length + s.timeout } }

/-- a request handled at the present time -/
def CRtuSrv.handles (R : Registry) (db : Databank) (s : CRtuSrv) (request : Bytes) : CRtuSrv :=
  let r := replyOf R rtuMac db request s.heap
  let s' := { s with heap := r.2, log := s.log ++ [(s.port.now, request)] }
  match r.1 with
  | none => s'
  | some b => if byteThere s.port.now s.port.future then s' else s'.responds b

theorem toCome_waiting (h : Nat) (ev : List (Nat × UInt8)) : ev.length - (toCome h ev).length > 0 ↔ byteThere h ev = true := by
  cases ev with
  | nil => simp [toCome, byteThere]
  | cons e ev =>
    obtain ⟨T, c⟩ := e
    by_cases hT : T ≤ h
    · have : (toCome h ((T, c) :: ev)).length ≤ ev.length := by
        simp only [toCome, List.dropWhile_cons, hT, decide_true, if_true]
        exact (List.dropWhile_suffix _).length_le
      simp only [byteThere, hT, decide_true, List.length_cons, iff_true]
      omega
    · simp [toCome, byteThere, hT]

theorem crAnswer_spec {R : Registry} (hR : Quiet R) (db : Databank) (request : Bytes) (s : CRtuSrv) (ho : s.port.isOpen = true) :
    (crAnswer R db request s).2 = s.handles R db request := by
  unfold crAnswer CRtuSrv.handles replyOf
  simp only [PyM.bind_apply, PyM.lift_apply, hR _ _, Option.getD_none, CRtuSrv.onHeap, PyM.modify_apply]
  cases hx : serverHandle R rtuMac db request s.heap with
  | mk o h' =>
    dsimp only
    match o with
    | .error e => rfl
    | .ok none => simp
    | .ok (some []) => simp
    | .ok (some (b :: bs)) =>
      simp only [Option.isSome_none, Bool.false_eq_true, if_false, PyM.bind_apply, crReply, CRtuSrv.onPort, cPortInWaiting,
        if_neg (show ¬ ¬ s.port.isOpen = true by simp [ho]), toCome_waiting]
      by_cases hw : byteThere s.port.now s.port.future = true
      · simp [hw]
      · simp only [hw, Bool.false_eq_true, if_false, PyM.bind_apply, CRtuSrv.onPort, cPortWrite, if_neg (show ¬ ¬ s.port.isOpen = true by simp [ho]), PyM.modify_apply,
          PyM.lift_apply]
        rfl

theorem crStart_spec (s : CRtuSrv) (ho : s.port.isOpen = true) (ht : s.block = true ∨ s.port.timeout = some s.timeout) :
    ∃ first ev, s.port.future = first ++ ev ∧ crStart s = (.ok (arrivedBytes first), s.heard s.begins ev) ∧ (∀ e ∈ first, e.1 ≤ s.begins) := by
  unfold crStart
  by_cases hb : s.block = true
  · rw [if_pos hb]
    have hin : ∀ ev, s.port.future = ev → crFirst s.timeout s.port = match ev with
        | [] => (.ok [], { s.port with timeout := some s.timeout })
        | (T, b) :: ev' => (.ok [b], { s.port with now := max s.port.now T, future := ev', timeout := some s.timeout }) := by
      intro ev hev
      unfold crFirst
      simp only [ho, if_true, CPort.fetch, hev, Option.map_none]
      cases ev with
      | nil => simp [collect, readLimit]
      | cons e ev => obtain ⟨T, c⟩ := e; cases ev <;> simp [collect, readLimit]
    cases hf : s.port.future with
    | nil =>
      refine ⟨[], [], rfl, ?_, by simp⟩
      simp only [CRtuSrv.onPort, hin _ hf, CRtuSrv.heard, CRtuSrv.begins, hb, if_true, hf, arrivedBytes, List.map_nil]
    | cons e ev =>
      obtain ⟨T, c⟩ := e
      refine ⟨[(T, c)], ev, rfl, ?_, ?_⟩
      · simp only [CRtuSrv.onPort, hin _ hf, CRtuSrv.heard, CRtuSrv.begins, hb, if_true, hf, arrivedBytes, List.map_cons, List.map_nil]
      · intro e he
        rw [List.mem_singleton.mp he]
        simp only [CRtuSrv.begins, hb, if_true, hf]
        omega
  · rw [if_neg hb]
    have ht := ht.resolve_left hb
    refine ⟨[], s.port.future, rfl, ?_, by simp⟩
    have e : s.begins = s.port.now := by simp only [CRtuSrv.begins, if_neg hb]
    rw [e]
    unfold CRtuSrv.heard
    rw [← ht]
    rfl

theorem heard_first {t : Nat} {gap : Option Nat} {now : Nat} (h0 : 0 < t) {ev tk ev' : List (Nat × UInt8)} {h : Nat} : ∀ {first : List (Nat × UInt8)},
    (∀ e ∈ first, e.1 ≤ now) → Heard t gap now ev tk h ev' → Heard t gap now (first ++ ev) (first ++ tk) h ev'
  | [], _, H => H
  | (T, c) :: first, hf, H => by
    have H' := heard_first h0 (fun e he => hf e (List.mem_cons_of_mem _ he)) H
    have hT : T ≤ now := hf (T, c) (by simp)
    have e1 : max now T = now := by omega
    refine ⟨by rw [List.cons_append, H'.split]; rfl, by simpa only [List.cons_append, lastAt, e1] using H'.silence,
      by simpa only [List.cons_append, lastAt, e1] using H'.prompt, by simp, H'.later, ?_, ?_⟩
    · intro e he
      cases he
      show T < _
      omega
    · exact ⟨by omega, by rw [e1]; exact H'.gaps⟩

/-- **C77.** One run of the loop of an `RtuServer` with an open port.  `t`: its time-out.  It reads the bytes `taken`, up to the first silence: every one comes less than
    `t + readLag` after the one before, then nothing comes until `h`, at least `t` after the last byte and at most `t + readLag` after it.  Nothing is done when no byte was read;
    otherwise exactly these bytes are handled as one request, at `h`, and the response goes out at `h` unless the next byte is there, and is followed by a pause of `t`. -/
theorem C77_run (R : Registry) (hR : Quiet R) (db : Databank) (s : CRtuSrv) (ho : s.port.isOpen = true) (ht : s.block = true ∨ s.port.timeout = some s.timeout)
    (h0 : 0 < s.timeout) :
    ∃ taken h ev', Heard s.timeout s.port.interByte s.begins s.port.future taken h ev' ∧
      crRun R db s = (.ok (), if taken = [] then s.heard h ev' else (s.heard h ev').handles R db (arrivedBytes taken)) := by
  obtain ⟨first, ev, f1, f2, f3⟩ := crStart_spec s ho ht
  obtain ⟨tk, h, ev', r1, r2⟩ := crRest_heard s.timeout h0 (ev.length + 1) (arrivedBytes first) (s.heard s.begins ev).port ho rfl (Nat.lt_succ_self _)
  refine ⟨first ++ tk, h, ev', by rw [f1]; exact heard_first h0 f3 r2, ?_⟩
  have hbody : (crBody R db s).2 = if first ++ tk = [] then s.heard h ev' else (s.heard h ev').handles R db (arrivedBytes (first ++ tk)) := by
    unfold crBody
    simp only [PyM.bind_apply, f2, PyM.get_apply]
    have e : CRtuSrv.onPort (crRest ((s.heard s.begins ev).port.future.length + 1) (arrivedBytes first)) (s.heard s.begins ev) =
        (.ok (arrivedBytes (first ++ tk)), s.heard h ev') := by
      have r1' : crRest ((s.heard s.begins ev).port.future.length + 1) (arrivedBytes first) (s.heard s.begins ev).port = _ := r1
      unfold CRtuSrv.onPort
      rw [r1', arrivedBytes_append]
      rfl
    rw [e]
    dsimp only
    simp only [arrivedBytes_nil]
    split
    · rfl
    · exact crAnswer_spec hR db _ _ ho
  unfold crRun
  rw [PyM.tryExcept_apply]
  cases hb : crBody R db s with
  | mk o s' =>
    rw [hb] at hbody
    dsimp only at hbody
    rw [← hbody]
    cases o with
    | ok v => rfl
    | error e => simp only [PyM.bind_apply, PyM.lift_apply, hR _ _]; rfl

/-! ## Frames -/

/-- the bytes heard are determined by the gaps: a frame without a gap of `t`, then nothing for `t + readLag`, is heard whole and alone -/
theorem Heard.frame {t : Nat} {gap : Option Nat} {now : Nat} {ev taken ev' f rest : List (Nat × UInt8)} {h : Nat} (H : Heard t gap now ev taken h ev')
    (hev : ev = f ++ rest) (hg : Gaps t now f) (hr : NoneBefore (lastAt now f + t + readLag t gap) rest) : taken = f ∧ ev' = rest := by
  rcases List.append_eq_append_iff.mp (H.split.symm.trans hev) with ⟨u, e1, e2⟩ | ⟨u, e1, e2⟩
  · cases u with
    | nil => exact ⟨by simpa using e1.symm, by simpa using e2⟩
    | cons y ys =>
      have h1 := ((gaps_append taken (y :: ys)).mp (e1 ▸ hg)).2.1
      have h2 := H.later y (by rw [e2]; rfl)
      have h3 := H.silence
      omega
  · cases u with
    | nil => exact ⟨by simpa using e1, by simpa using e2.symm⟩
    | cons y ys =>
      have h1 := ((gaps_append f (y :: ys)).mp (e1 ▸ H.gaps)).2.1
      have h2 := hr y (by rw [e2]; rfl)
      omega

/-- how long the server is deaf after a request: it transmits the response and sleeps -/
def deafFor (t c : Nat) : Option Bytes → Nat
  | none => 0
  | some r => c * r.length + t

/-- Frames on the line, `rest` after them: no gap of `t` in a frame, and after it nothing until the server has answered.  `lag`: by how much it may notice the silence later than after `t`;
    `c`: the time a byte takes. -/
def InTurn (R : Registry) (db : Databank) (t lag c : Nat) (rest : List (Nat × UInt8)) : Heap → List (List (Nat × UInt8)) → Prop
  | _, [] => True
  | _, [] :: _ => False
  | heap, ((T, b) :: f) :: fs =>
    Gaps t T f ∧
    NoneBefore (lastAt T f + t + lag + deafFor t c (replyOf R rtuMac db (b :: arrivedBytes f) heap).1) (fs.flatten ++ rest) ∧
    InTurn R db t lag c rest (replyOf R rtuMac db (b :: arrivedBytes f) heap).2 fs

/-- each frame has its moment: between `t` and `t + lag` after the last byte -/
def InWindow (t lag : Nat) : List Nat → List (List (Nat × UInt8)) → Prop
  | [], [] => True
  | h :: hs, f :: fs => lastAt 0 f + t ≤ h ∧ h ≤ lastAt 0 f + t + lag ∧ InWindow t lag hs fs
  | _, _ => False

/-- the responses to requests handled at given times, and the data afterwards -/
def serveAt (R : Registry) (db : Databank) : Heap → List (Nat × Bytes) → List (Nat × Bytes) × Heap
  | heap, [] => ([], heap)
  | heap, (h, q) :: qs =>
    let r := replyOf R rtuMac db q heap
    let next := serveAt R db r.2 qs
    (r.1.toList.map (h, ·) ++ next.1, next.2)

theorem lastAt_zero {T : Nat} {b : UInt8} (f : List (Nat × UInt8)) : lastAt 0 ((T, b) :: f) = lastAt T f := by
  simp only [lastAt, Nat.zero_max]

/-- **C77.** Frames without a gap of `t`, each beginning only when the server is ready again - `t + readLag` after the last byte of the one before, and when that one is answered the
    time of transmitting the response and another `t` later - are handled one by one, in order, by as many runs: each is handled as a whole, between `t` and `t + readLag` after its last
    byte, on the data the ones before left, and answered at this moment; nothing else is read. -/
theorem C77_frames (R : Registry) (hR : Quiet R) (db : Databank) : ∀ (frames : List (List (Nat × UInt8))) (rest : List (Nat × UInt8)) (s : CRtuSrv),
    s.port.isOpen = true → s.block = true → 0 < s.timeout → s.port.future = frames.flatten ++ rest → NoneBefore s.port.now frames.flatten →
    InTurn R db s.timeout (readLag s.timeout s.port.interByte) s.port.charTime rest s.heap frames →
    ∃ s' times, crRuns R db frames.length s = (.ok (), s') ∧ times.length = frames.length ∧
      InWindow s.timeout (readLag s.timeout s.port.interByte) times frames ∧
      s'.log = s.log ++ times.zip (frames.map arrivedBytes) ∧
      s'.port.written = s.port.written ++ (serveAt R db s.heap (times.zip (frames.map arrivedBytes))).1 ∧
      s'.heap = (serveAt R db s.heap (times.zip (frames.map arrivedBytes))).2 ∧
      s'.port.future = rest
  | [], rest, s, _, _, _, hf, _, _ => ⟨s, [], rfl, rfl, trivial, by simp, by simp [serveAt], rfl, by simpa using hf⟩
  | [] :: fs, _, _, _, _, _, _, _, hi => absurd hi (by simp [InTurn])
  | ((T, b) :: f) :: fs, rest, s, ho, hb, h0, hf, hn, hi => by
    obtain ⟨hg, hnext, hi⟩ := hi
    obtain ⟨taken, h, ev', H, hrun⟩ := C77_run R hR db s ho (.inl hb) h0
    have hT : s.port.now ≤ T := hn (T, b) rfl
    have hbeg : s.begins = T := by
      simp only [CRtuSrv.begins, hb, if_true, hf, List.flatten_cons, List.cons_append]
      omega
    rw [hbeg] at H
    have hmax : max T T = T := by omega
    obtain ⟨e1, e2⟩ := H.frame (f := (T, b) :: f) (rest := fs.flatten ++ rest) (by rw [hf]; simp) ⟨by omega, by rw [hmax]; exact hg⟩ (by
      intro e he
      have := hnext e he
      simp only [lastAt, hmax]
      omega)
    subst e1 e2
    rw [if_neg (by simp)] at hrun
    have hsil := H.silence
    have hpr := H.prompt
    simp only [lastAt, hmax] at hsil hpr
    -- the state after the run
    have hab : arrivedBytes ((T, b) :: f) = b :: arrivedBytes f := rfl
    rw [hab] at hrun
    have hh : (s.heard h (fs.flatten ++ rest)).handles R db (b :: arrivedBytes f) =
        { s with heap := (replyOf R rtuMac db (b :: arrivedBytes f) s.heap).2, log := s.log ++ [(h, b :: arrivedBytes f)],
                 port := { s.port with now := h + deafFor s.timeout s.port.charTime (replyOf R rtuMac db (b :: arrivedBytes f) s.heap).1, future := fs.flatten ++ rest, timeout := some s.timeout,
                                       written := s.port.written ++ (replyOf R rtuMac db (b :: arrivedBytes f) s.heap).1.toList.map (h, ·) } } := by
      unfold CRtuSrv.handles
      simp only [CRtuSrv.heard]
      cases hr : (replyOf R rtuMac db (b :: arrivedBytes f) s.heap).1 with
      | none => simp [deafFor]
      | some r =>
        have hnb : byteThere h (fs.flatten ++ rest) = false := by
          cases hx : fs.flatten ++ rest with
          | nil => rfl
          | cons y ys =>
            have := hnext y (by rw [hx]; rfl)
            rw [hr] at this
            simp only [deafFor] at this
            simp only [byteThere, decide_eq_false_iff_not]
            omega
        simp only [hnb, Bool.false_eq_true, if_false, CRtuSrv.responds, deafFor, Option.toList_some, List.map_cons, List.map_nil, Nat.add_assoc]
    rw [hh] at hrun
    have hn2 : NoneBefore (h + deafFor s.timeout s.port.charTime (replyOf R rtuMac db (b :: arrivedBytes f) s.heap).1) fs.flatten := by
      intro e he
      have := hnext e (by rw [List.head?_append, he]; rfl)
      omega
    obtain ⟨s', times, r1, r2, r3, r4, r5, r6, r7⟩ := C77_frames R hR db fs rest
      { s with heap := (replyOf R rtuMac db (b :: arrivedBytes f) s.heap).2, log := s.log ++ [(h, b :: arrivedBytes f)],
               port := { s.port with now := h + deafFor s.timeout s.port.charTime (replyOf R rtuMac db (b :: arrivedBytes f) s.heap).1, future := fs.flatten ++ rest, timeout := some s.timeout,
                                     written := s.port.written ++ (replyOf R rtuMac db (b :: arrivedBytes f) s.heap).1.toList.map (h, ·) } }
      ho hb h0 rfl hn2 hi
    dsimp only at r3 r4 r5 r6
    refine ⟨s', h :: times, ?_, by rw [List.length_cons, List.length_cons, r2], ⟨by rw [lastAt_zero]; exact hsil, by rw [lastAt_zero]; exact hpr, r3⟩, ?_, ?_, ?_, r7⟩
    · rw [List.length_cons, crRuns]
      simp only [PyM.bind_apply, hrun]
      exact r1
    · rw [r4, List.map_cons, List.zip_cons_cons, hab, List.append_assoc]; rfl
    · rw [r5, List.map_cons, List.zip_cons_cons, hab]; simp only [serveAt, List.append_assoc]
    · rw [r6, List.map_cons, List.zip_cons_cons, hab]; rfl

/-! ### A concrete server -/

/-- bytes sent without a pause, `c` ticks each, the transmission begins at `m` -/
def onLine (c : Nat) : (m : Nat) → Bytes → List (Nat × UInt8)
  | _, [] => []
  | m, b :: bs => (m + c, b) :: onLine c (m + c) bs

/-- a server with two slaves; two ticks for a byte, time-out 7 (3.5 characters), inter-byte time-out 3 (1.5 characters) -/
def exTimedSrv (ev : List (Nat × UInt8)) : CRtuSrv where
  heap := exTwo.st.heap
  port := { future := ev, timeout := some 7, interByte := some 3, charTime := 2 }
  timeout := 7
  block := true

/-- a write request with a pause of 6 in it, a request with a wrong CRC, a read request -/
def exTimedFrames : List (List (Nat × UInt8)) :=
  [onLine 2 98 [1, 6, 0] ++ onLine 2 108 [11, 0, 7, 185, 202], onLine 2 171 [1, 3, 0, 11, 0, 1, 245, 201], onLine 2 200 [1, 3, 0, 11, 0, 1, 245, 200]]

-- `C77_frames` applies to them
example : let s := exTimedSrv exTimedFrames.flatten
    s.port.future = exTimedFrames.flatten ++ [] ∧ NoneBefore s.port.now exTimedFrames.flatten ∧
    InTurn [] exTwo.st.db s.timeout (readLag s.timeout s.port.interByte) s.port.charTime [] s.heap exTimedFrames := by
  have e1 : (replyOf [] rtuMac exTwo.st.db [1, 6, 0, 11, 0, 7, 185, 202] exTwo.st.heap).1 = some [1, 6, 0, 11, 0, 7, 185, 202] := by decide +kernel
  have e2 : ∀ h, (replyOf [] rtuMac exTwo.st.db [1, 3, 0, 11, 0, 1, 245, 201] h).1 = none := by
    intro h; rfl
  refine ⟨by decide, by simp [NoneBefore, exTimedFrames, onLine, exTimedSrv], ?_⟩
  refine ⟨?_, ?_, ?_, ?_, ?_, ?_, trivial⟩
  · simp [onLine, Gaps, exTimedSrv]
  · show NoneBefore (_ + deafFor _ _ (replyOf [] rtuMac exTwo.st.db [1, 6, 0, 11, 0, 7, 185, 202] exTwo.st.heap).1) _
    rw [e1]
    simp [NoneBefore, onLine, lastAt, deafFor, exTimedSrv, readLag]
  · simp [onLine, Gaps, exTimedSrv]
  · show NoneBefore (_ + deafFor _ _ (replyOf [] rtuMac exTwo.st.db [1, 3, 0, 11, 0, 1, 245, 201] _).1) _
    rw [e2]
    simp [NoneBefore, onLine, lastAt, deafFor, exTimedSrv, readLag]
  · simp [onLine, Gaps, exTimedSrv]
  · simp [NoneBefore]

-- the requests end at 118, 187 and 216; the first and the last are answered, 7 to 10 ticks later
example : let s := (crRuns [] exTwo.st.db 3 (exTimedSrv exTimedFrames.flatten)).2
    s.port.written = [(128, [1, 6, 0, 11, 0, 7, 185, 202]), (226, [1, 3, 2, 0, 7, 249, 134])] ∧
    s.log.map Prod.fst = [128, 197, 226] := by decide +kernel

-- The specification of Modbus over serial line separates frames by 3.5 characters.  A request for another slave, then 3.5 characters later one for this server: they are
-- read as one request and this server does not answer.
example : let s := (crRuns [] exTwo.st.db 3 (exTimedSrv (onLine 2 100 [9, 6, 0, 11, 0, 7, 184, 130] ++ onLine 2 (116 + 7) [1, 3, 0, 11, 0, 1, 245, 200]))).2
    s.port.written = [] ∧ s.log.map Prod.snd = [[9, 6, 0, 11, 0, 7, 184, 130, 1, 3, 0, 11, 0, 1, 245, 200]] := by decide +kernel
example : [9, 6, 0, 11, 0, 7, 184, 130] = rtuAdu 9 [6, 0, 11, 0, 7] := by decide +kernel

end Modbus
