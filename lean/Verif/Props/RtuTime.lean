import Verif.Model.ClockedRtu
import Verif.Props.MasterRead
import Verif.Props.Rtu
/-
# C76: how long a call of an `RtuMaster` takes
-/
namespace Modbus

open Spec (rtuAdu)

/-! ## Reading -/

/-- the bytes of a list of arrivals -/
def arrivedBytes (ev : List (Nat × UInt8)) : Bytes := ev.map Prod.snd

/-- the moment at which all of these bytes are there, for somebody waiting from `now` on -/
def lastAt (now : Nat) : List (Nat × UInt8) → Nat
  | [] => now
  | (T, _) :: ev => lastAt (max now T) ev

/-- every byte arrives less than `x` after the one before (the first one: less than `x` after `now`) -/
def Gaps (x now : Nat) : List (Nat × UInt8) → Prop
  | [] => True
  | (T, _) :: ev => T < now + x ∧ Gaps x (max now T) ev

/-- no byte arrives before `t` -/
def NoneBefore (t : Nat) (ev : List (Nat × UInt8)) : Prop := ∀ e, ev.head? = some e → t ≤ e.1

theorem lastAt_le (ev : List (Nat × UInt8)) : ∀ now, now ≤ lastAt now ev := by
  induction ev with
  | nil => exact fun _ => Nat.le_refl _
  | cons e ev ih => exact fun now => Nat.le_trans (Nat.le_max_left _ _) (ih _)

theorem lastAt_append (a b : List (Nat × UInt8)) : ∀ now, lastAt now (a ++ b) = lastAt (lastAt now a) b := by
  induction a with
  | nil => exact fun _ => rfl
  | cons e a ih => exact fun now => ih _

theorem gaps_append {x : Nat} (a b : List (Nat × UInt8)) : ∀ {now}, Gaps x now (a ++ b) ↔ Gaps x now a ∧ Gaps x (lastAt now a) b := by
  induction a with
  | nil => exact fun {now} => ⟨fun h => ⟨trivial, h⟩, fun h => h.2⟩
  | cons e a ih =>
    intro now
    simp only [List.cons_append, Gaps, ih, and_assoc, lastAt]

/-- what a read with a time-out does: `k` bytes taken, the time afterwards -/
structure Took (d : Nat) (gap : Option Nat) (n : Nat) (got : Bool) (now : Nat) (ev taken : List (Nat × UInt8)) (now' : Nat) (ev' : List (Nat × UInt8)) : Prop where
  split : ev = taken ++ ev'
  count : taken.length ≤ n
  last : lastAt now taken ≤ now'
  bound : now' ≤ max now d
  inTime : lastAt now taken = now ∨ lastAt now taken < d
  full : taken.length = n → now' = lastAt now taken
  next : taken.length < n → NoneBefore now' ev' ∧ NoneBefore (lastAt now taken + 1) ev'
  limit : taken.length < n → gap = none ∨ (got = false ∧ taken = []) → now' = max (lastAt now taken) d

theorem readLimit_le (d : Nat) (gap : Option Nat) (got : Bool) (now : Nat) :
    ∃ l, readLimit (some d) gap got now = some l ∧ l ≤ d ∧ (gap = none ∨ got = false → l = d) := by
  unfold readLimit
  cases got <;> cases gap <;> simp

theorem collect_took (d : Nat) (gap : Option Nat) : ∀ (n : Nat) (got : Bool) (now : Nat) (ev : List (Nat × UInt8)),
    ∃ taken now' ev', collect (some d) gap n got now ev = some (arrivedBytes taken, now', ev') ∧ Took d gap n got now ev taken now' ev'
  | 0, got, now, ev => ⟨[], now, ev, by cases ev <;> rfl, ⟨rfl, Nat.le_refl _, Nat.le_refl _, by omega, .inl rfl, fun _ => rfl, by simp, by simp⟩⟩
  | n+1, got, now, [] => by
    obtain ⟨l, h1, h2, h3⟩ := readLimit_le d gap got now
    refine ⟨[], max now l, [], by simp only [collect, h1]; rfl, ⟨rfl, by simp, by simp [lastAt], by omega, .inl rfl, by simp, ?_, ?_⟩⟩
    · exact fun _ => ⟨by simp [NoneBefore], by simp [NoneBefore]⟩
    · intro _ h
      rw [h3 (by rcases h with h | h; exact .inl h; exact .inr h.1)]; rfl
  | n+1, got, now, (T, b) :: ev => by
    obtain ⟨l, h1, h2, h3⟩ := readLimit_le d gap got now
    by_cases hT : T ≤ now ∨ T < l
    · obtain ⟨taken, now', ev', e1, t⟩ := collect_took d gap n true (max now T) ev
      refine ⟨(T, b) :: taken, now', ev', ?_, ?_⟩
      · simp only [collect, h1, if_pos hT, e1]; rfl
      · have hb := t.bound
        refine ⟨by rw [List.cons_append, ← t.split], by simpa using t.count, t.last, ?_, ?_, ?_, ?_, ?_⟩
        · omega
        · have hl := t.inTime
          show lastAt (max now T) taken = now ∨ lastAt (max now T) taken < d
          omega
        · intro h
          exact t.full (by simpa using h)
        · intro h
          exact t.next (by simpa using h)
        · intro h hg
          rcases hg with hg | hg
          · exact t.limit (by simpa using h) (.inl hg)
          · simp at hg
    · refine ⟨[], max now l, (T, b) :: ev, ?_, ?_⟩
      · simp only [collect, h1, if_neg hT]; rfl
      · refine ⟨rfl, by simp, by simp [lastAt], by omega, .inl rfl, by simp, ?_, ?_⟩
        · refine fun _ => ⟨fun e he => ?_, fun e he => ?_⟩ <;> (simp at he; subst he; simp [lastAt]; omega)
        · intro _ h
          rw [h3 (by rcases h with h | h; exact .inl h; exact .inr h.1)]; rfl

/-- `read(n)` with a time-out -/
theorem cPortRead_took (n : Nat) (s : CPort) (ho : s.isOpen = true) (x : Nat) (hx : s.timeout = some x) :
    ∃ taken now' ev', cPortRead n s = (.ok (arrivedBytes taken), { s with now := now', future := ev' }) ∧
      Took (s.now + x) s.interByte n false s.now s.future taken now' ev' := by
  obtain ⟨taken, now', ev', h1, h2⟩ := collect_took (s.now + x) s.interByte n false s.now s.future
  refine ⟨taken, now', ev', ?_, h2⟩
  unfold cPortRead
  rw [if_neg (by simp [ho])]
  simp only [CPort.fetch, hx, Option.map_some, h1]

theorem arrivedBytes_append (a b : List (Nat × UInt8)) : arrivedBytes (a ++ b) = arrivedBytes a ++ arrivedBytes b := List.map_append
theorem arrivedBytes_length (a : List (Nat × UInt8)) : (arrivedBytes a).length = a.length := List.length_map _
theorem arrivedBytes_nil {a : List (Nat × UInt8)} : arrivedBytes a = [] ↔ a = [] := by simp [arrivedBytes]

/-! ## Receiving: how long it can take -/

theorem crRecvLoop_step (sw : Bool) (start : Nat) (L : Int) (fuel : Nat) (response : Bytes) (readed : Int) (s : CPort) (ho : s.isOpen = true) (x : Nat)
    (hx : s.timeout = some x) :
    ∃ taken now' ev', Took (s.now + x) s.interByte (rtuAsk (some x) L readed) false s.now s.future taken now' ev' ∧
      crRecvLoop sw start L (fuel + 1) response readed s =
        if taken = [] then (.ok response, { s with now := now', future := ev' })
        else if sw = true ∧ x < now' - start then (.ok response, { s with now := now', future := ev' })
        else if L ≥ 0 ∧ ((response ++ arrivedBytes taken).length : Int) ≥ L then (.ok (response ++ arrivedBytes taken), { s with now := now', future := ev' })
        else crRecvLoop sw start L fuel (response ++ arrivedBytes taken) (readed + taken.length) { s with now := now', future := ev' } := by
  obtain ⟨taken, now', ev', h1, h2⟩ := cPortRead_took (rtuAsk s.timeout L readed) s ho x hx
  rw [hx] at h1 h2
  refine ⟨taken, now', ev', h2, ?_⟩
  rw [crRecvLoop]
  simp only [PyM.bind_apply, PyM.get_apply, h1, arrivedBytes_nil, hx]
  by_cases ht : taken = []
  · rw [if_pos ht, if_pos ht]; rfl
  · rw [if_neg ht, if_neg ht, arrivedBytes_length]
    have hiff : ((if sw = true then now' - start else 0) > x) ↔ (sw = true ∧ x < now' - start) := by cases sw <;> simp
    by_cases hd : sw = true ∧ x < now' - start
    · rw [if_pos (hiff.mpr hd), if_pos hd]; rfl
    · rw [if_neg (fun h => hd (hiff.mp h)), if_neg hd]
      by_cases hL : L ≥ 0 ∧ ((response ++ arrivedBytes taken).length : Int) ≥ L
      · rw [if_pos hL, if_pos hL]; rfl
      · rw [if_neg hL, if_neg hL]

/-- the port after receiving -/
structure Received (s s' : CPort) : Prop where
  rest : s' = { s with now := s'.now, future := s'.future }
  forward : s.now ≤ s'.now
  suffix : s'.future <:+ s.future

theorem Took.received {s : CPort} {d n : Nat} {gap : Option Nat} {got : Bool} {taken ev' : List (Nat × UInt8)} {now' : Nat} (h : Took d gap n got s.now s.future taken now' ev') :
    Received s { s with now := now', future := ev' } :=
  ⟨rfl, Nat.le_trans (lastAt_le _ _) h.last, ⟨taken, h.split.symm⟩⟩

theorem Received.trans {a b c : CPort} (h : Received a b) (h' : Received b c) : Received a c :=
  ⟨by rw [h'.rest]; simp only; rw [h.rest], Nat.le_trans h.forward h'.forward, h'.suffix.trans h.suffix⟩

/-- Without the software time-out: at most one time-out for every byte that is missing. -/
theorem crRecvLoop_bound (start : Nat) (L : Int) (x : Nat) : ∀ (fuel : Nat) (response : Bytes) (readed : Int) (s : CPort), s.isOpen = true →
    s.timeout = some x → Received s (crRecvLoop false start L fuel response readed s).2 ∧
    (0 ≤ L → (crRecvLoop false start L fuel response readed s).2.now ≤ s.now + x * max 1 (L - response.length).toNat)
  | 0, response, readed, s, _, _ => ⟨⟨rfl, Nat.le_refl _, List.suffix_refl _⟩, fun _ => Nat.le_add_right _ _⟩
  | fuel+1, response, readed, s, ho, hx => by
    obtain ⟨taken, now', ev', t, e⟩ := crRecvLoop_step false start L fuel response readed s ho x hx
    rw [e]
    have hr := t.received
    have hb := t.bound
    have hone : x ≤ x * max 1 (L - response.length).toNat := Nat.le_mul_of_pos_right _ (by omega)
    split
    · exact ⟨hr, fun _ => by dsimp only; omega⟩
    · rename_i ht
      split
      · exact ⟨hr, fun _ => by dsimp only; omega⟩
      · split
        · exact ⟨hr, fun _ => by dsimp only; omega⟩
        · rename_i hL
          obtain ⟨i1, i2⟩ := crRecvLoop_bound start L x fuel (response ++ arrivedBytes taken) (readed + taken.length) { s with now := now', future := ev' } ho hx
          refine ⟨hr.trans i1, fun h0 => Nat.le_trans (i2 h0) ?_⟩
          have hpos : 0 < taken.length := List.length_pos_iff.mpr ht
          rw [List.length_append, arrivedBytes_length] at hL ⊢
          have hlt : ((response.length + taken.length : Nat) : Int) < L := by omega
          have hle : x * (max 1 (L - ((response.length + taken.length : Nat) : Int)).toNat + 1) ≤ x * max 1 (L - response.length).toNat := Nat.mul_le_mul_left _ (by omega)
          rw [Nat.mul_add] at hle
          dsimp only
          omega

/-- With the software time-out: at most twice the time-out, whatever the expected length. -/
theorem crRecvLoop_bound_sw (start : Nat) (L : Int) (x : Nat) : ∀ (fuel : Nat) (response : Bytes) (readed : Int) (s : CPort), s.isOpen = true →
    s.timeout = some x → Received s (crRecvLoop true start L fuel response readed s).2 ∧
    (s.now ≤ start + x → (crRecvLoop true start L fuel response readed s).2.now ≤ start + 2 * x)
  | 0, response, readed, s, _, _ => ⟨⟨rfl, Nat.le_refl _, List.suffix_refl _⟩, fun h => by show s.now ≤ _; omega⟩
  | fuel+1, response, readed, s, ho, hx => by
    obtain ⟨taken, now', ev', t, e⟩ := crRecvLoop_step true start L fuel response readed s ho x hx
    rw [e]
    have hr := t.received
    have hb := t.bound
    split
    · exact ⟨hr, fun _ => by dsimp only; omega⟩
    · rename_i ht
      split
      · exact ⟨hr, fun _ => by dsimp only; omega⟩
      · rename_i hd
        simp only [true_and] at hd
        split
        · exact ⟨hr, fun _ => by dsimp only; omega⟩
        · obtain ⟨i1, i2⟩ := crRecvLoop_bound_sw start L x fuel (response ++ arrivedBytes taken) (readed + taken.length) { s with now := now', future := ev' } ho hx
          exact ⟨hr.trans i1, fun _ => i2 (by dsimp only; omega)⟩

/-! ## Receiving: what comes when -/

theorem gaps_later {x : Nat} {a b : Nat} : ∀ {ev : List (Nat × UInt8)}, Gaps x a ev → NoneBefore b ev → a ≤ b → Gaps x b ev ∧ (ev ≠ [] → lastAt b ev = lastAt a ev ∧ b ≤ lastAt a ev)
  | [], _, _, _ => ⟨trivial, fun h => absurd rfl h⟩
  | (T, c) :: ev, h, hn, hab => by
    have hb : b ≤ T := hn _ rfl
    obtain ⟨h1, h2⟩ := h
    have e1 : max b T = T := by omega
    have e2 : max a T = T := by omega
    rw [e2] at h2
    refine ⟨⟨by omega, by rw [e1]; exact h2⟩, fun _ => ⟨by simp only [lastAt, e1, e2], ?_⟩⟩
    simp only [lastAt, e2]
    exact Nat.le_trans hb (lastAt_le _ _)

theorem lastAt_mem_le {e : Nat × UInt8} : ∀ (ev : List (Nat × UInt8)) (now : Nat), e ∈ ev → e.1 ≤ lastAt now ev
  | (T, c) :: ev, now, h => by
    rcases List.mem_cons.mp h with rfl | h
    · exact Nat.le_trans (Nat.le_max_right _ _) (lastAt_le _ _)
    · exact lastAt_mem_le ev _ h

theorem rtuAsk_missing {x : Nat} (h0 : 0 < x) {L readed : Int} (h : readed < L) : rtuAsk (some x) L readed = (L - readed).toNat := by
  unfold rtuAsk
  rw [if_pos ⟨by simp, by simp; omega⟩, if_pos (by omega)]

/-- a read that is not satisfied takes the first byte if it comes in time -/
theorem Took.some_taken {d : Nat} {gap : Option Nat} {n now now' : Nat} {ev taken ev' : List (Nat × UInt8)} (t : Took d gap n false now ev taken now' ev')
    (hn : 0 < n) {e : Nat × UInt8} (he : ev.head? = some e) (hd : e.1 ≤ now ∨ e.1 < d) : taken ≠ [] := by
  rintro rfl
  have h1 := t.limit hn (.inr ⟨rfl, rfl⟩)
  have h2 := t.next hn
  have hs := t.split
  rw [List.nil_append] at hs
  subst hs
  have := h2.1 e he
  have := h2.2 e he
  simp only [lastAt] at *
  omega

theorem split_short {a b c d : List (Nat × UInt8)} (h : a ++ b = c ++ d) (hl : c.length ≤ a.length) : ∃ t, a = c ++ t ∧ d = t ++ b := by
  rcases List.append_eq_append_iff.mp h with ⟨t, rfl, rfl⟩ | ⟨t, rfl, rfl⟩
  · have : t = [] := List.length_eq_zero_iff.mp (by simp at hl; omega)
    subst this
    exact ⟨[], by simp, by simp⟩
  · exact ⟨t, rfl, rfl⟩

/-- As many bytes as expected, none more than a time-out after the one before: the reception ends when the last of them is there. -/
theorem crRecvLoop_prompt (sw : Bool) (start x : Nat) (h0 : 0 < x) : ∀ (fuel : Nat) (response : Bytes) (s : CPort) (taken rest : List (Nat × UInt8)),
    s.isOpen = true → s.timeout = some x → s.future = taken ++ rest → taken ≠ [] → Gaps x s.now taken → taken.length ≤ fuel →
    (sw = true → lastAt s.now taken ≤ start + x) →
    crRecvLoop sw start ((response.length + taken.length : Nat) : Int) fuel response response.length s =
      (.ok (response ++ arrivedBytes taken), { s with now := lastAt s.now taken, future := rest })
  | 0, _, _, taken, _, _, _, _, h, _, hf, _ => absurd (List.length_eq_zero_iff.mp (by omega)) h
  | fuel+1, response, s, taken, rest, ho, hx, hfut, hne, hg, hf, hsw => by
    obtain ⟨tk, now', ev', t, e⟩ := crRecvLoop_step sw start ((response.length + taken.length : Nat) : Int) fuel response response.length s ho x hx
    have hpos : 0 < taken.length := List.length_pos_iff.mpr hne
    have hask : rtuAsk (some x) ((response.length + taken.length : Nat) : Int) response.length = taken.length := by
      rw [rtuAsk_missing h0 (by omega)]; omega
    rw [hask] at t
    obtain ⟨tl, e1, e2⟩ := split_short (hfut.symm.trans t.split) t.count
    have hg' := (gaps_append tk tl).mp (e1 ▸ hg)
    have hhead : ∃ e, s.future.head? = some e ∧ e.1 < s.now + x := by
      rw [hfut]
      cases taken with
      | nil => exact absurd rfl hne
      | cons y ys => exact ⟨y, rfl, hg.1⟩
    obtain ⟨y, y1, y2⟩ := hhead
    have htk := t.some_taken hpos y1 (.inr y2)
    have hlast := t.last
    rw [e, if_neg htk]
    cases tl with
    | nil =>
      rw [List.append_nil] at e1
      subst e1
      have hfull := t.full rfl
      subst hfull
      rw [List.nil_append] at e2
      subst e2
      rw [if_neg (fun h => by have := hsw h.1; omega), if_pos ⟨by omega, by simp [arrivedBytes_length]⟩]
    | cons z zs =>
      have hlt : tk.length < taken.length := by rw [e1]; simp
      obtain ⟨n1, n2⟩ := t.next hlt
      have hz : NoneBefore now' (z :: zs) := fun e he => n1 e (by rw [e2]; exact he)
      obtain ⟨g1, g2⟩ := gaps_later hg'.2 hz hlast
      obtain ⟨g3, g4⟩ := g2 (by simp)
      have hall : lastAt s.now taken = lastAt now' (z :: zs) := by rw [e1, lastAt_append, g3]
      have hle : now' ≤ lastAt s.now taken := by rw [hall, g3]; exact g4
      have hlen : ((response.length + taken.length : Nat) : Int) = ((response ++ arrivedBytes tk).length + (z :: zs).length : Nat) := by
        rw [e1]; simp [arrivedBytes_length]; omega
      rw [if_neg (fun h => by have := hsw h.1; omega), if_neg (by rw [hlen]; simp)]
      have := crRecvLoop_prompt sw start x h0 fuel (response ++ arrivedBytes tk) { s with now := now', future := ev' } (z :: zs) rest ho hx e2 (by simp) g1
        (by rw [e1] at hf; have := List.length_pos_iff.mpr htk; simp at hf ⊢; omega)
        (fun h => by show lastAt now' (z :: zs) ≤ _; rw [← hall]; exact hsw h)
      rw [hlen, show ((response.length : Int) + tk.length) = ((response ++ arrivedBytes tk).length : Nat) from by simp [arrivedBytes_length], this, e1, arrivedBytes_append, List.append_assoc,
        hall.symm.trans (congrArg _ e1)]

/-- a read cannot take bytes that come too late -/
theorem Took.before {d : Nat} {gap : Option Nat} {n now now' : Nat} {got : Bool} {ev tk ev' taken rest : List (Nat × UInt8)} (t : Took d gap n got now ev tk now' ev')
    (hfut : ev = taken ++ rest) {l : Nat} (hr : NoneBefore l rest) (hl : now < l) (hd : d ≤ l) : ∃ tl, taken = tk ++ tl ∧ ev' = tl ++ rest := by
  refine split_short (hfut.symm.trans t.split) (Nat.le_of_not_lt fun hlt => ?_)
  rcases List.append_eq_append_iff.mp (hfut.symm.trans t.split) with ⟨u, e1, e2⟩ | ⟨u, e1, e2⟩
  · cases u with
    | nil => simp at e1; subst e1; omega
    | cons y ys =>
      have hy : y.1 ≤ lastAt now tk := lastAt_mem_le _ _ (by rw [e1]; simp)
      have := hr y (by rw [e2]; rfl)
      have := t.inTime
      omega
  · rw [e1] at hlt
    simp at hlt
    omega

/-- nothing comes -/
theorem crRecvLoop_silent (sw : Bool) (start : Nat) (L : Int) (x : Nat) (h0 : 0 < x) (fuel : Nat) (response : Bytes) (readed : Int) (s : CPort) (ho : s.isOpen = true)
    (hx : s.timeout = some x) (hr : NoneBefore (s.now + x) s.future) :
    crRecvLoop sw start L (fuel + 1) response readed s = (.ok response, { s with now := s.now + x }) := by
  obtain ⟨tk, now', ev', t, e⟩ := crRecvLoop_step sw start L fuel response readed s ho x hx
  obtain ⟨tl, e1, e2⟩ := t.before (taken := []) (rest := s.future) rfl hr (by omega) (by omega)
  have htk : tk = [] := by cases tk with | nil => rfl | cons y ys => cases e1
  subst htk
  have htl : tl = [] := by simpa using e1.symm
  subst htl
  have hpos := rtuAsk_pos (some x) L readed
  have hnow := t.limit hpos (.inr ⟨rfl, rfl⟩)
  rw [e, if_pos rfl]
  simp only [lastAt] at hnow
  rw [hnow, e2]
  simp only [List.nil_append]
  rw [show max s.now (s.now + x) = s.now + x from by omega]

/-- Fewer bytes than expected, or an unknown number, none more than a time-out after the one before, then silence for two time-outs: the reception ends between one
    and two time-outs after the last byte, with these bytes. -/
theorem crRecvLoop_short (start x : Nat) (h0 : 0 < x) (L : Int) : ∀ (fuel : Nat) (response : Bytes) (s : CPort) (taken rest : List (Nat × UInt8)),
    s.isOpen = true → s.timeout = some x → s.future = taken ++ rest → taken ≠ [] → Gaps x s.now taken → taken.length < fuel →
    NoneBefore (lastAt s.now taken + 2 * x) rest → (L < 0 ∨ ((response.length + taken.length : Nat) : Int) < L) →
    ∃ now', crRecvLoop false start L fuel response response.length s = (.ok (response ++ arrivedBytes taken), { s with now := now', future := rest }) ∧
      lastAt s.now taken + x ≤ now' ∧ now' ≤ lastAt s.now taken + 2 * x ∧ (L < 0 → now' = lastAt s.now taken + x) ∧
      (0 ≤ L → s.interByte = none → lastAt s.now taken < s.now + x → now' = s.now + 2 * x)
  | 0, _, _, taken, _, _, _, _, _, _, hf, _, _ => absurd hf (by omega)
  | fuel+1, response, s, taken, rest, ho, hx, hfut, hne, hg, hf, hr, hL => by
    obtain ⟨tk, now', ev', t, e⟩ := crRecvLoop_step false start L fuel response response.length s ho x hx
    have hpos : 0 < taken.length := List.length_pos_iff.mpr hne
    have hla := lastAt_le taken s.now
    obtain ⟨tl, e1, e2⟩ := t.before hfut hr (by omega) (by omega)
    have hg' := (gaps_append tk tl).mp (e1 ▸ hg)
    have hhead : ∃ e, s.future.head? = some e ∧ e.1 < s.now + x := by
      rw [hfut]
      cases taken with
      | nil => exact absurd rfl hne
      | cons y ys => exact ⟨y, rfl, hg.1⟩
    obtain ⟨y, y1, y2⟩ := hhead
    have htk := t.some_taken (rtuAsk_pos (some x) L response.length) y1 (.inr y2)
    have htkp := List.length_pos_iff.mpr htk
    have hlast := t.last
    have hbound := t.bound
    have hcont : ¬ (L ≥ 0 ∧ ((response ++ arrivedBytes tk).length : Int) ≥ L) := by
      rw [e1] at hL
      simp only [List.length_append, arrivedBytes_length] at hL ⊢
      omega
    have hlen : (response.length : Int) + tk.length = ((response ++ arrivedBytes tk).length : Nat) := by simp [arrivedBytes_length]
    rw [e, if_neg htk, if_neg (by simp), if_neg hcont, hlen]
    have hask1 : L < 0 → rtuAsk (some x) L response.length = 1 := fun h => by
      unfold rtuAsk; rw [if_pos ⟨by simp, by simp; omega⟩, if_neg (by omega)]; rfl
    have hfull1 : L < 0 → now' = lastAt s.now tk := fun h => t.full (by have := t.count; rw [hask1 h] at this ⊢; omega)
    cases tl with
    | nil =>
      rw [List.append_nil] at e1
      subst e1
      rw [List.nil_append] at e2
      subst e2
      obtain ⟨f, rfl⟩ : ∃ f, fuel = f + 1 := ⟨fuel - 1, by omega⟩
      have hsil : NoneBefore (now' + x) ev' := fun e he => by have := hr e he; omega
      rw [crRecvLoop_silent false start L x h0 f _ _ { s with now := now', future := ev' } ho hx hsil]
      refine ⟨now' + x, rfl, by omega, by omega, fun h => by rw [hfull1 h], fun hL0 hgap hw => ?_⟩
      have hlim := t.limit (by rw [rtuAsk_missing h0 (by omega)]; omega) (.inl hgap)
      omega
    | cons z zs =>
      have hz : Gaps x now' (z :: zs) ∧ lastAt now' (z :: zs) = lastAt s.now taken := by
        by_cases hc : tk.length < rtuAsk (some x) L response.length
        · obtain ⟨g1, g2⟩ := gaps_later hg'.2 (fun e he => (t.next hc).1 e (by rw [e2]; exact he)) hlast
          exact ⟨g1, by rw [e1, lastAt_append]; exact (g2 (by simp)).1⟩
        · have hfu := t.full (by have := t.count; omega)
          rw [hfu, e1, lastAt_append]
          exact ⟨hg'.2, rfl⟩
      obtain ⟨n2, r1, r2, r3, r4, r5⟩ := crRecvLoop_short start x h0 L fuel (response ++ arrivedBytes tk) { s with now := now', future := ev' } (z :: zs) rest ho hx e2 (by simp) hz.1
        (by rw [e1] at hf; simp at hf ⊢; omega) (by show NoneBefore (lastAt now' _ + _) _; rw [hz.2]; exact hr)
        (by rw [e1] at hL; simp [arrivedBytes_length] at hL ⊢; omega)
      dsimp only at r1 r2 r3 r4 r5
      rw [hz.2] at r2 r3 r4 r5
      refine ⟨n2, by rw [r1, e1, arrivedBytes_append, List.append_assoc], r2, r3, r4, fun hL0 hgap hw => ?_⟩
      exfalso
      have hc : tk.length < rtuAsk (some x) L response.length := by
        rw [rtuAsk_missing h0 (by omega)]
        rw [e1] at hL
        simp at hL
        omega
      have hlim := t.limit hc (.inl hgap)
      have h1 := (t.next hc).1 z (by rw [e2]; rfl)
      have h2 : z.1 ≤ lastAt s.now taken := lastAt_mem_le _ _ (by rw [e1]; simp)
      omega

/-! ## The master: time spent -/

/-- the number of bytes written -/
def sentBytes (w : List (Nat × Bytes)) : Nat := (w.map fun e => e.2.length).sum

theorem sentBytes_append (a b : List (Nat × Bytes)) : sentBytes (a ++ b) = sentBytes a + sentBytes b := by simp [sentBytes]

/-- from `s` to `s'` at most `n` time-outs passed, besides the time of transmission; the settings stay -/
structure RtuSpends (n : Nat) (s s' : CRtu) : Prop where
  timeout : s'.timeout = s.timeout
  sw : s'.useSwTimeout = s.useSwTimeout
  echo : s'.handleLocalEcho = s.handleLocalEcho
  ptimeout : s'.port.timeout = s.port.timeout
  interByte : s'.port.interByte = s.port.interByte
  charTime : s'.port.charTime = s.port.charTime
  forward : s.port.now ≤ s'.port.now
  written : ∃ new, s'.port.written = s.port.written ++ new ∧
    ∀ x, s.port.timeout = some x → s'.port.now ≤ s.port.now + x * n + s.port.charTime * sentBytes new

theorem RtuSpends.refl (s : CRtu) : RtuSpends 0 s s := ⟨rfl, rfl, rfl, rfl, rfl, rfl, Nat.le_refl _, [], by simp, fun _ _ => by omega⟩

theorem RtuSpends.trans {m n : Nat} {a b c : CRtu} (h : RtuSpends m a b) (h' : RtuSpends n b c) : RtuSpends (m + n) a c := by
  obtain ⟨w1, p1, q1⟩ := h.written
  obtain ⟨w2, p2, q2⟩ := h'.written
  refine ⟨h'.timeout.trans h.timeout, h'.sw.trans h.sw, h'.echo.trans h.echo, h'.ptimeout.trans h.ptimeout, h'.interByte.trans h.interByte,
    h'.charTime.trans h.charTime, Nat.le_trans h.forward h'.forward, w1 ++ w2, by rw [p2, p1, List.append_assoc], fun x hx => ?_⟩
  have r1 := q1 x hx
  have r2 := q2 x (h.ptimeout.trans hx)
  rw [h.charTime] at r2
  rw [sentBytes_append, Nat.mul_add, Nat.mul_add]
  omega

theorem RtuSpends.mono {m n : Nat} {a b : CRtu} (h : RtuSpends m a b) (hmn : m ≤ n) : RtuSpends n a b := by
  obtain ⟨w, p, q⟩ := h.written
  refine ⟨h.timeout, h.sw, h.echo, h.ptimeout, h.interByte, h.charTime, h.forward, w, p, fun x hx => Nat.le_trans (q x hx) ?_⟩
  have := Nat.mul_le_mul_left x hmn
  omega

theorem lift_rtuSpends {α : Type} (x : Except PyErr α) (s : CRtu) : RtuSpends 0 s (PyM.lift x s).2 := .refl s

theorem bind_rtuSpends {α β : Type} {m n : Nat} {f : PyM CRtu α} {g : α → PyM CRtu β} {s : CRtu} (hf : RtuSpends m s (f s).2)
    (hg : ∀ a s', RtuSpends m s s' → RtuSpends n s' (g a s').2) : RtuSpends (m + n) s ((f >>= g) s).2 := by
  rw [PyM.bind_apply]
  cases h : f s with
  | mk r s' =>
    rw [h] at hf
    cases r with
    | ok a => exact hf.trans (hg a s' hf)
    | error e => exact hf.mono (by omega)

theorem collect_forward (dead gap : Option Nat) : ∀ (n : Nat) (got : Bool) (now : Nat) (ev : List (Nat × UInt8)) (r : Bytes × Nat × List (Nat × UInt8)),
    collect dead gap n got now ev = some r → now ≤ r.2.1 ∧ r.2.2 <:+ ev
  | 0, got, now, ev, r, h => by cases ev <;> (simp only [collect, Option.some.injEq] at h; subst h; exact ⟨Nat.le_refl _, List.suffix_refl _⟩)
  | n+1, got, now, [], r, h => by
    simp only [collect] at h
    cases hl : readLimit dead gap got now with
    | none => rw [hl] at h; cases h
    | some l => rw [hl] at h; simp only [Option.some.injEq] at h; subst h; exact ⟨by dsimp only; omega, List.suffix_refl _⟩
  | n+1, got, now, (T, b) :: ev, r, h => by
    have hrec : ∀ {r}, ((collect dead gap n true (max now T) ev).map fun r => (b :: r.1, r.2)) = some r → now ≤ r.2.1 ∧ r.2.2 <:+ (T, b) :: ev := by
      intro r h
      cases hc : collect dead gap n true (max now T) ev with
      | none => rw [hc] at h; cases h
      | some q =>
        rw [hc] at h
        simp only [Option.map_some, Option.some.injEq] at h
        subst h
        obtain ⟨i1, i2⟩ := collect_forward dead gap n true (max now T) ev q hc
        exact ⟨by dsimp only; omega, i2.trans (List.suffix_cons _ _)⟩
    simp only [collect] at h
    cases hl : readLimit dead gap got now with
    | none => rw [hl] at h; exact hrec h
    | some l =>
      rw [hl] at h
      dsimp only at h
      split at h
      · exact hrec h
      · simp only [Option.some.injEq] at h; subst h; exact ⟨by dsimp only; omega, List.suffix_refl _⟩

theorem cPortRead_received (n : Nat) (s : CPort) : Received s (cPortRead n s).2 := by
  unfold cPortRead
  split
  · exact ⟨rfl, Nat.le_refl _, List.suffix_refl _⟩
  · cases hf : s.fetch n with
    | none => exact ⟨rfl, Nat.le_refl _, List.suffix_refl _⟩
    | some r =>
      unfold CPort.fetch at hf
      cases hc : collect (s.timeout.map (s.now + ·)) s.interByte n false s.now s.future with
      | none => rw [hc] at hf; cases hf
      | some q =>
        rw [hc] at hf
        simp only [Option.map_some, Option.some.injEq] at hf
        subst hf
        obtain ⟨i1, i2⟩ := collect_forward _ _ _ _ _ _ _ hc
        exact ⟨rfl, i1, i2⟩

theorem cPortRead_bound (n : Nat) (s : CPort) (x : Nat) (hx : s.timeout = some x) : (cPortRead n s).2.now ≤ s.now + x := by
  by_cases ho : s.isOpen = true
  · obtain ⟨taken, now', ev', h1, h2⟩ := cPortRead_took n s ho x hx
    have := h2.bound
    rw [h1]
    dsimp only
    omega
  · unfold cPortRead
    rw [if_pos ho]
    dsimp only
    omega

theorem crRecvLoop_received (sw : Bool) (start : Nat) (L : Int) : ∀ (fuel : Nat) (response : Bytes) (readed : Int) (s : CPort),
    Received s (crRecvLoop sw start L fuel response readed s).2
  | 0, _, _, s => ⟨rfl, Nat.le_refl _, List.suffix_refl _⟩
  | fuel+1, response, readed, s => by
    have h := cPortRead_received (rtuAsk s.timeout L readed) s
    rw [crRecvLoop]
    simp only [PyM.bind_apply, PyM.get_apply]
    cases hc : cPortRead (rtuAsk s.timeout L readed) s with
    | mk r s' =>
      rw [hc] at h
      cases r with
      | error e => exact h
      | ok x =>
        dsimp only
        by_cases h1 : x = []
        · rw [if_pos h1]; exact h
        · rw [if_neg h1]
          cases hx : s.timeout with
          | none => exact h
          | some t =>
            dsimp only
            by_cases hd : (if sw = true then s'.now - start else 0) > t
            · rw [if_pos hd]; exact h
            · rw [if_neg hd]
              by_cases hL : L ≥ 0 ∧ ((response ++ x).length : Int) ≥ L
              · rw [if_pos hL]; exact h
              · rw [if_neg hL]; exact h.trans (crRecvLoop_received sw start L fuel _ _ s')

/-- how often a reception of `L` bytes may time out -/
def rtuRounds (sw : Bool) (L : Int) : Option Nat := if sw then some 2 else if 0 ≤ L then some (max 1 L.toNat) else none

theorem crRecvLoop_rounds (sw : Bool) (L : Int) (s : CPort) (x N fuel : Nat) (hx : s.timeout = some x) (hN : rtuRounds sw L = some N) :
    (crRecvLoop sw s.now L fuel [] 0 s).2.now ≤ s.now + x * N := by
  by_cases ho : s.isOpen = true
  · cases sw with
    | true =>
      obtain rfl : 2 = N := by simpa [rtuRounds] using hN
      have := (crRecvLoop_bound_sw s.now L x fuel [] 0 s ho hx).2 (by omega)
      omega
    | false =>
      simp only [rtuRounds] at hN
      by_cases h0 : 0 ≤ L
      · rw [if_neg (by simp), if_pos h0, Option.some.injEq] at hN
        have := (crRecvLoop_bound s.now L x fuel [] 0 s ho hx).2 h0
        rw [← hN]
        simpa using this
      · rw [if_neg (by simp), if_neg h0] at hN; cases hN
  · cases fuel with
    | zero => exact Nat.le_add_right _ _
    | succ fuel =>
      rw [crRecvLoop]
      simp only [PyM.bind_apply, PyM.get_apply, cPortRead, if_pos ho]
      omega

theorem onPort_rtuSpends {α : Type} {n : Nat} {f : PyM CPort α} {s : CRtu} (h : Received s.port (f s.port).2)
    (hb : ∀ x, s.port.timeout = some x → (f s.port).2.now ≤ s.port.now + x * n) : RtuSpends n s (CRtu.onPort f s).2 := by
  have e := h.rest
  refine ⟨rfl, rfl, rfl, ?_, ?_, ?_, h.forward, [], ?_, fun x hx => ?_⟩
  · show (f s.port).2.timeout = _; rw [e]
  · show (f s.port).2.interByte = _; rw [e]
  · show (f s.port).2.charTime = _; rw [e]
  · show (f s.port).2.written = _; rw [e]; simp
  · have := hb x hx
    show (f s.port).2.now ≤ _
    omega

theorem crRecv_spends (R : Registry) (L : Int) (s : CRtu) (N : Nat) (hN : rtuRounds s.useSwTimeout L = some N) : RtuSpends N s (crRecv R L s).2 := by
  have h : RtuSpends (N + 0) s ((do
      let response ← CRtu.onPort (crRecvLoop s.useSwTimeout s.port.now L (s.port.future.length + 1) [] 0)
      let retval ← PyM.lift (callHooks R "modbus_rtu.RtuMaster.after_recv" (.msg response))
      return (retval.getD response)) s).2 :=
    bind_rtuSpends (onPort_rtuSpends (crRecvLoop_received _ _ _ _ _ _ _) fun x hx => crRecvLoop_rounds _ _ _ _ _ _ hx hN) fun a s' _ =>
      bind_rtuSpends (m := 0) (n := 0) (lift_rtuSpends _ _) fun _ s2 _ => .refl _
  exact h

/-- without any bound on the time -/
structure RtuSame (s s' : CRtu) : Prop where
  timeout : s'.timeout = s.timeout
  sw : s'.useSwTimeout = s.useSwTimeout
  echo : s'.handleLocalEcho = s.handleLocalEcho
  ptimeout : s'.port.timeout = s.port.timeout
  interByte : s'.port.interByte = s.port.interByte

theorem RtuSpends.same {n : Nat} {s s' : CRtu} (h : RtuSpends n s s') : RtuSame s s' := ⟨h.timeout, h.sw, h.echo, h.ptimeout, h.interByte⟩
theorem RtuSame.trans {a b c : CRtu} (h : RtuSame a b) (h' : RtuSame b c) : RtuSame a c :=
  ⟨h'.timeout.trans h.timeout, h'.sw.trans h.sw, h'.echo.trans h.echo, h'.ptimeout.trans h.ptimeout, h'.interByte.trans h.interByte⟩

theorem bind_rtuSame {α β : Type} {f : PyM CRtu α} {g : α → PyM CRtu β} {s : CRtu} (hf : RtuSame s (f s).2) (hg : ∀ a s', RtuSame s' (g a s').2) :
    RtuSame s ((f >>= g) s).2 := by
  rw [PyM.bind_apply]
  cases h : f s with
  | mk r s' =>
    rw [h] at hf
    cases r with
    | ok a => exact hf.trans (hg a s')
    | error e => exact hf

theorem crRecv_same (R : Registry) (L : Int) (s : CRtu) : RtuSame s (crRecv R L s).2 := by
  have e := (crRecvLoop_received s.useSwTimeout s.port.now L (s.port.future.length + 1) [] 0 s.port).rest
  have hs : RtuSame s (CRtu.onPort (crRecvLoop s.useSwTimeout s.port.now L (s.port.future.length + 1) [] 0) s).2 :=
    ⟨rfl, rfl, rfl, by unfold CRtu.onPort; dsimp only; rw [e], by unfold CRtu.onPort; dsimp only; rw [e]⟩
  have h : RtuSame s ((do
      let response ← CRtu.onPort (crRecvLoop s.useSwTimeout s.port.now L (s.port.future.length + 1) [] 0)
      let retval ← PyM.lift (callHooks R "modbus_rtu.RtuMaster.after_recv" (.msg response))
      return (retval.getD response)) s).2 :=
    bind_rtuSame hs fun a s' => bind_rtuSame (lift_rtuSpends _ _).same fun _ s2 => (RtuSpends.refl _).same
  exact h

theorem crEcho_spends (n : Nat) (s : CRtu) : RtuSpends (if s.handleLocalEcho then 1 else 0) s (crEcho n s).2 := by
  unfold crEcho
  cases h : s.handleLocalEcho with
  | false => exact .refl _
  | true =>
    simp only [if_true]
    exact bind_rtuSpends (m := 1) (n := 0) (onPort_rtuSpends (cPortRead_received _ _) fun x hx => by rw [Nat.mul_one]; exact cPortRead_bound _ _ _ hx) fun _ _ _ => .refl _

theorem reset_rtuSpends (s : CRtu) : RtuSpends 0 s (CRtu.onPort cPortReset s).2 := by
  unfold CRtu.onPort cPortReset
  split <;> exact ⟨rfl, rfl, rfl, rfl, rfl, rfl, Nat.le_refl _, [], by simp, fun _ _ => by dsimp only; omega⟩

theorem check_rtuSpends (s : CRtu) : RtuSpends 0 s (CRtu.onPort cPortCheck s).2 := by
  unfold CRtu.onPort cPortCheck
  split <;> exact .refl _

theorem write_rtuSpends (d : Bytes) (s : CRtu) : RtuSpends 0 s (CRtu.onPort (cPortWrite d) s).2 := by
  unfold CRtu.onPort cPortWrite
  split
  · exact .refl _
  · exact ⟨rfl, rfl, rfl, rfl, rfl, rfl, Nat.le_add_right _ _, [(s.port.now, d)], rfl, fun _ _ => by simp [sentBytes]⟩

theorem crSend_spends (R : Registry) (b : Bytes) (s : CRtu) : RtuSpends (if s.handleLocalEcho then 1 else 0) s (crSend R b s).2 := by
  have key : ∀ s', RtuSame s s' → ∀ n, RtuSpends (if s.handleLocalEcho then 1 else 0) s' (crEcho n s').2 := fun s' h n => by
    rw [← h.echo]; exact crEcho_spends n s'
  unfold crSend
  refine (bind_rtuSpends (m := 0) (n := 0 + (0 + (0 + if s.handleLocalEcho then 1 else 0))) (lift_rtuSpends _ _) fun v s1 h1 => ?_).mono (by omega)
  refine bind_rtuSpends (m := 0) (reset_rtuSpends _) fun _ s2 h2 => ?_
  refine bind_rtuSpends (m := 0) (check_rtuSpends _) fun _ s3 h3 => ?_
  refine bind_rtuSpends (m := 0) (write_rtuSpends _ _) fun _ s4 h4 => ?_
  exact key s4 (((h1.same.trans h2.same).trans h3.same).trans h4.same) _

theorem crDoOpen_spends (R : Registry) (s : CRtu) : RtuSpends 0 s (crDoOpen R s).2 := by
  unfold crDoOpen
  split
  · exact .refl _
  · refine bind_rtuSpends (m := 0) (n := 0) (lift_rtuSpends _ _) fun _ s' _ => ?_
    unfold CRtu.onPort cPortOpen
    split
    · exact .refl _
    · split <;> exact ⟨rfl, rfl, rfl, rfl, rfl, rfl, Nat.le_refl _, [], by simp, fun _ _ => by dsimp only; omega⟩

theorem crDoClose_spends (R : Registry) (s : CRtu) : RtuSpends 0 s (crDoClose R s).2 := by
  unfold crDoClose
  split
  · refine bind_rtuSpends (m := 0) (n := 0) ?_ fun _ s' _ => bind_rtuSpends (m := 0) (n := 0) (lift_rtuSpends _ _) fun _ s' _ => .refl _
    exact ⟨rfl, rfl, rfl, rfl, rfl, rfl, Nat.le_refl _, [], by simp [CRtu.onPort, cPortClose], fun _ _ => by simp [CRtu.onPort, cPortClose]⟩
  · exact .refl _

theorem masterOpen_rtuSpends (R : Registry) (s : MasterSt CRtu) : RtuSpends 0 s.link (masterOpen (clockedRtu R) s).2.link := by
  have h : RtuSpends 0 s.link ((clockedRtu R).doOpen s.link).2 := crDoOpen_spends R s.link
  unfold masterOpen
  split
  · exact .refl _
  · cases hc : (clockedRtu R).doOpen s.link with
    | mk r l => rw [hc] at h; cases r <;> exact h

theorem masterClose_rtuSpends (R : Registry) (s : MasterSt CRtu) : RtuSpends 0 s.link (masterClose (clockedRtu R) s).2.link := by
  have h : RtuSpends 0 s.link ((clockedRtu R).doClose s.link).2 := crDoClose_spends R s.link
  unfold masterClose
  split
  · cases hc : (clockedRtu R).doClose s.link with
    | mk r l => rw [hc] at h; cases r <;> exact h
  · exact .refl _

theorem bind_rtuSpendsM {α β : Type} {m n : Nat} {f : PyM (MasterSt CRtu) α} {g : α → PyM (MasterSt CRtu) β} {s : MasterSt CRtu}
    (hf : RtuSpends m s.link (f s).2.link) (hg : ∀ a s', (f s).1 = .ok a → RtuSpends m s.link s'.link → RtuSpends n s'.link (g a s').2.link) :
    RtuSpends (m + n) s.link ((f >>= g) s).2.link := by
  rw [PyM.bind_apply]
  cases h : f s with
  | mk r s' =>
    rw [h] at hf hg
    cases r with
    | ok a => exact hf.trans (hg a s' rfl hf)
    | error e => exact hf.mono (by omega)

theorem execute_rtuSpends (R : Registry) (a : ExecArgs) (s : MasterSt CRtu) (N : Nat)
    (hN : ∀ p, prepare a = .ok p → rtuRounds s.link.useSwTimeout p.expectedLength = some N) :
    RtuSpends ((if s.link.handleLocalEcho then 1 else 0) + N) s.link (execute R rtuMac (clockedRtu R) a s).2.link := by
  generalize he : (if s.link.handleLocalEcho = true then 1 else 0) = e
  unfold execute
  refine (bind_rtuSpendsM (m := 0) (n := e + N) (masterOpen_rtuSpends R s) (fun _ s1 _ h1 => ?_)).mono (by omega)
  refine (bind_rtuSpendsM (m := 0) (n := e + N) (.refl _) (fun p s2 hp h2 => ?_)).mono (by omega)
  cases a.slave with
  | none => exact (RtuSpends.refl _).mono (by omega)
  | some slave =>
    refine (bind_rtuSpendsM (m := 0) (n := e + N) ?_ (fun x s3 _ h3 => ?_)).mono (by omega)
    · unfold buildRequest
      split <;> exact .refl _
    refine (bind_rtuSpendsM (m := 0) (n := e + N) (.refl _) (fun _ s4 _ h4 => ?_)).mono (by omega)
    have hs4 := ((h1.same.trans h2.same).trans h3.same).trans h4.same
    refine bind_rtuSpendsM (m := e) (n := N) ?_ (fun _ s5 _ h5 => ?_)
    · rw [← he, ← hs4.echo]; exact crSend_spends R _ s4.link
    refine (bind_rtuSpendsM (m := 0) (n := N) (.refl _) (fun _ s6 _ h6 => ?_)).mono (by omega)
    have hs6 := (hs4.trans h5.same).trans h6.same
    refine bind_rtuSpendsM (m := N) (n := 0) ?_ (fun _ s7 _ _ => ?_)
    · exact crRecv_spends R _ s6.link N (by rw [hs6.sw]; exact hN p hp)
    refine (bind_rtuSpendsM (m := 0) (n := 0) (.refl _) (fun _ s8 _ _ => ?_))
    exact (bind_rtuSpendsM (m := 0) (n := 0) (.refl _) (fun _ s9 _ _ => .refl _))

/-- **C76.** How long a call of `execute` can take: `x` the time-out of the port.  At most one time-out for every byte of the expected response (at least one; with
    `use_sw_timeout` two, whatever the length), one more for the local echo, and the time for transmitting what is written. -/
theorem C76_call (R : Registry) (a : ExecArgs) (s : MasterSt CRtu) (x : Nat) (hx : s.link.port.timeout = some x) (N : Nat)
    (hN : (s.link.useSwTimeout = true ∧ N = 2) ∨ (s.link.useSwTimeout = false ∧ ∀ p, prepare a = .ok p → 0 ≤ p.expectedLength ∧ (N : Int) = max 1 p.expectedLength)) :
    ∃ new, (execute R rtuMac (clockedRtu R) a s).2.link.port.written = s.link.port.written ++ new ∧
      (execute R rtuMac (clockedRtu R) a s).2.link.port.now ≤
        s.link.port.now + s.link.port.charTime * (new.map fun w => w.2.length).sum + x * N + (if s.link.handleLocalEcho then x else 0) := by
  have h := execute_rtuSpends R a s N (fun p hp => by
    unfold rtuRounds
    rcases hN with ⟨h1, h2⟩ | ⟨h1, h2⟩
    · rw [if_pos h1, h2]
    · obtain ⟨h3, h4⟩ := h2 p hp
      rw [if_neg (by simp [h1]), if_pos h3, Option.some.injEq]
      omega)
  obtain ⟨new, h1, h2⟩ := h.written
  refine ⟨new, h1, Nat.le_trans (h2 x hx) ?_⟩
  rw [Nat.mul_add]
  show _ ≤ _ + s.link.port.charTime * sentBytes new + _ + _
  split <;> omega

/-! ## The time-out in force -/

theorem execute_rtuSame (R : Registry) (a : ExecArgs) (s : MasterSt CRtu) : RtuSame s.link (execute R rtuMac (clockedRtu R) a s).2.link := by
  have bindM : ∀ {α β : Type} {f : PyM (MasterSt CRtu) α} {g : α → PyM (MasterSt CRtu) β} {s : MasterSt CRtu}, RtuSame s.link (f s).2.link →
      (∀ a s', RtuSame s'.link (g a s').2.link) → RtuSame s.link ((f >>= g) s).2.link := by
    intro α β f g s hf hg
    rw [PyM.bind_apply]
    cases h : f s with
    | mk r s' =>
      rw [h] at hf
      cases r with
      | ok a => exact hf.trans (hg a s')
      | error e => exact hf
  have refl : ∀ l : CRtu, RtuSame l l := fun l => ⟨rfl, rfl, rfl, rfl, rfl⟩
  unfold execute
  refine bindM (masterOpen_rtuSpends R s).same fun _ s1 => ?_
  refine bindM (refl _) fun p s2 => ?_
  cases a.slave with
  | none => exact refl _
  | some slave =>
    refine bindM ?_ fun x s3 => ?_
    · unfold buildRequest
      split <;> exact refl _
    refine bindM (refl _) fun _ s4 => ?_
    refine bindM (crSend_spends R _ s4.link).same fun _ s5 => ?_
    refine bindM (refl _) fun _ s6 => ?_
    refine bindM (crRecv_same R _ s6.link) fun _ s7 => ?_
    refine bindM (refl _) fun _ s8 => ?_
    exact bindM (refl _) fun _ s9 => refl _

/-- the settings after a history: the value of `get_timeout()`, the time-out of the port, `use_sw_timeout` -/
structure RtuSettings where
  value : Option Int
  port : Option Nat
  sw : Bool
  deriving DecidableEq, Repr

/-- the settings a history leaves -/
def lastSettings : List RtuOp → RtuSettings → RtuSettings
  | [], c => c
  | .setTimeout none sw :: ops, _ => lastSettings ops ⟨none, none, sw⟩
  | .setTimeout (some v) sw :: ops, c => lastSettings ops (if v < 0 then { c with value := some v } else ⟨some v, some v.toNat, sw⟩)
  | _ :: ops, c => lastSettings ops c

/-- **C76.** After any history, `get_timeout()` is the last value given to `set_timeout` (at first the one computed by the constructor: the time-out of the serial
    object given by the user is replaced), and the time-out of the port and `use_sw_timeout` are those of the last call of `set_timeout` with a value that is not
    negative; a negative value raises ValueError and is stored in the master all the same. -/
theorem C76_settings (R : Registry) (ops : List RtuOp) (port : CPort) (interChar interFrame : Nat) (opened : Bool) (tid : Int) :
    (runRtuOps R ops ⟨opened, crNew port interChar interFrame, tid⟩).link.timeout = (lastSettings ops ⟨some interFrame, some interFrame, false⟩).value ∧
    (runRtuOps R ops ⟨opened, crNew port interChar interFrame, tid⟩).link.port.timeout = (lastSettings ops ⟨some interFrame, some interFrame, false⟩).port ∧
    (runRtuOps R ops ⟨opened, crNew port interChar interFrame, tid⟩).link.useSwTimeout = (lastSettings ops ⟨some interFrame, some interFrame, false⟩).sw ∧
    (runRtuOps R ops ⟨opened, crNew port interChar interFrame, tid⟩).link.port.interByte = some interChar := by
  have gen : ∀ (ops : List RtuOp) (s : MasterSt CRtu) (c : RtuSettings), s.link.timeout = c.value → s.link.port.timeout = c.port → s.link.useSwTimeout = c.sw →
      (runRtuOps R ops s).link.timeout = (lastSettings ops c).value ∧ (runRtuOps R ops s).link.port.timeout = (lastSettings ops c).port ∧
      (runRtuOps R ops s).link.useSwTimeout = (lastSettings ops c).sw ∧ (runRtuOps R ops s).link.port.interByte = s.link.port.interByte := by
    intro ops
    induction ops with
    | nil => exact fun s c h1 h2 h3 => ⟨h1, h2, h3, rfl⟩
    | cons op ops ih =>
      intro s c h1 h2 h3
      have same : ∀ s' : MasterSt CRtu, RtuSame s.link s'.link →
          (runRtuOps R ops s').link.timeout = (lastSettings ops c).value ∧ (runRtuOps R ops s').link.port.timeout = (lastSettings ops c).port ∧
          (runRtuOps R ops s').link.useSwTimeout = (lastSettings ops c).sw ∧ (runRtuOps R ops s').link.port.interByte = s.link.port.interByte := by
        intro s' h
        obtain ⟨i1, i2, i3, i4⟩ := ih s' c (h.timeout.trans h1) (h.ptimeout.trans h2) (h.sw.trans h3)
        exact ⟨i1, i2, i3, i4.trans h.interByte⟩
      cases op with
      | «open» => exact same _ (masterOpen_rtuSpends R s).same
      | close => exact same _ (masterClose_rtuSpends R s).same
      | exec a => exact same _ (execute_rtuSame R a s)
      | localEcho v => exact ih { s with link := { s.link with handleLocalEcho := v } } c h1 h2 h3
      | wait d => exact ih { s with link := { s.link with port := { s.link.port with now := s.link.port.now + d } } } c h1 h2 h3
      | setTimeout v sw =>
        cases v with
        | none => exact ih { s with link := (crSetTimeout none sw s.link).2 } ⟨none, none, sw⟩ rfl rfl rfl
        | some v =>
          by_cases hv : v < 0
          · have e : (crSetTimeout (some v) sw s.link).2 = { s.link with timeout := some v } := by simp only [crSetTimeout, if_pos hv]
            simp only [runRtuOps, lastSettings, if_pos hv, e]
            exact ih { s with link := { s.link with timeout := some v } } { c with value := some v } rfl h2 h3
          · have e : (crSetTimeout (some v) sw s.link).2 =
                { s.link with timeout := some v, port := { s.link.port with timeout := some v.toNat }, useSwTimeout := sw } := by simp only [crSetTimeout, if_neg hv]
            simp only [runRtuOps, lastSettings, if_neg hv, e]
            exact ih { s with link := { s.link with timeout := some v, port := { s.link.port with timeout := some v.toNat }, useSwTimeout := sw } } _ rfl rfl rfl
  have hnew : ¬ ((interFrame : Int) < 0) := by omega
  exact gen ops ⟨opened, crNew port interChar interFrame, tid⟩ ⟨some interFrame, some interFrame, false⟩
    (by simp [crNew, crSetTimeout, hnew]) (by simp [crNew, crSetTimeout, hnew]) (by simp [crNew, crSetTimeout, hnew]) |> fun h =>
      ⟨h.1, h.2.1, h.2.2.1, h.2.2.2.trans (by simp [crNew, crSetTimeout, hnew])⟩

example : lastSettings [.setTimeout (some 100) true, .setTimeout (some (-1)) false] ⟨some 4, some 4, false⟩ = ⟨some (-1), some 100, true⟩ := rfl

/-! ## When a call ends -/

/-- the port when the request is transmitted -/
def requested (s : CPort) (request : Bytes) : CPort :=
  { s with future := toCome s.now s.future, written := s.written ++ [(s.now, request)], now := s.now + s.charTime * request.length }

theorem crSend_quiet {R : Registry} (hR : Quiet R) (b : Bytes) (s : CRtu) (ho : s.port.isOpen = true) (he : s.handleLocalEcho = false) :
    crSend R b s = (.ok (), { s with port := requested s.port b }) := by
  unfold crSend
  simp only [PyM.bind_apply, PyM.lift_apply, hR _ _, CRtu.onPort, cPortReset, cPortCheck, cPortWrite, ho, not_true_eq_false, if_false, Option.getD_none, crEcho, he,
    requested]
  rfl

theorem crRecv_quiet {R : Registry} (hR : Quiet R) (L : Int) (s : CRtu) {x : Bytes} {p : CPort}
    (h : crRecvLoop s.useSwTimeout s.port.now L (s.port.future.length + 1) [] 0 s.port = (.ok x, p)) : crRecv R L s = (.ok x, { s with port := p }) := by
  unfold crRecv
  simp only [PyM.bind_apply, PyM.get_apply, CRtu.onPort, h, PyM.lift_apply, hR _ _, Option.getD_none]
  rfl

/-- what a call makes of the received bytes: a frame of the slave is analysed, everything else is an invalid response -/
def Concludes (a : ExecArgs) (p : Prepared) (slave : Int) (response : Bytes) (result : Except PyErr ExecResult) : Prop :=
  (∀ pdu, response = rtuAdu (UInt8.ofNat slave.toNat) pdu → result = analyse a p pdu) ∧
  ((∀ pdu, response ≠ rtuAdu (UInt8.ofNat slave.toNat) pdu) → result = .error .invalidResponse)

theorem call_concludes {R : Registry} (hR : Quiet R) {a : ExecArgs} {p : Prepared} (hp : prepare a = .ok p) {slave : Int} (hs : a.slave = some slave) (h0 : 0 ≤ slave)
    (h1 : slave ≤ 255) (s : MasterSt CRtu) (hopen : s.isOpened = true) (ho : s.link.port.isOpen = true) (he : s.link.handleLocalEcho = false)
    {request : Bytes} (hreq : request = rtuAdu (UInt8.ofNat slave.toNat) p.pdu) {resp : Bytes} {q : CPort}
    (hrecv : crRecvLoop s.link.useSwTimeout (requested s.link.port request).now p.expectedLength ((requested s.link.port request).future.length + 1) [] 0
      (requested s.link.port request) = (.ok resp, q)) :
    Concludes a p slave resp (execute R rtuMac (clockedRtu R) a s).1 ∧ (execute R rtuMac (clockedRtu R) a s).2 = { s with link := { s.link with port := q } } := by
  have hopen' : masterOpen (clockedRtu R) s = (.ok (), s) := by unfold masterOpen; rw [if_pos hopen]
  obtain ⟨Q, hb, hq⟩ := buildRequest_rtu (pdu := p.pdu) h0 h1 (s := s)
  rw [execute_main hR hopen' hp hs hb]
  rw [show (clockedRtu R).send (rtuAdu (UInt8.ofNat slave.toNat) p.pdu) s.link = _ from crSend_quiet hR _ s.link ho he, ← hreq]
  dsimp only
  rw [show (clockedRtu R).recv p.expectedLength { s.link with port := requested s.link.port request } = (.ok resp, { s.link with port := q }) from
    crRecv_quiet hR _ { s.link with port := requested s.link.port request } hrecv]
  dsimp only
  have hc := C25_response resp Q
  by_cases hf : ∃ pdu, resp = rtuAdu (UInt8.ofNat slave.toNat) pdu
  · obtain ⟨pdu, hf⟩ := hf
    rw [(hc.1 pdu).mpr ⟨_, hf, hq⟩]
    refine ⟨⟨fun pdu' hf' => ?_, fun hn => absurd hf (hn pdu)⟩, rfl⟩
    have := (hc.1 pdu).mpr ⟨_, hf, hq⟩
    rw [(hc.1 pdu').mpr ⟨_, hf', hq⟩] at this
    cases this
    rfl
  · rw [hc.2 (fun pdu u hu heq => hf ⟨pdu, by
      rw [hu]
      congr 1
      apply UInt8.toNat_inj.mp
      rw [hq] at heq
      exact (Int.ofNat_inj.mp heq).symm⟩)]
    exact ⟨⟨fun pdu h => absurd ⟨pdu, h⟩ hf, fun _ => rfl⟩, rfl⟩

/-- a call with valid arguments on an open master without local echo; `x`: the time-out -/
structure RtuCalls (a : ExecArgs) (p : Prepared) (slave : Int) (s : MasterSt CRtu) (x : Nat) : Prop where
  prepared : prepare a = .ok p
  addressed : a.slave = some slave
  low : 0 ≤ slave
  high : slave ≤ 255
  opened : s.isOpened = true
  portOpen : s.link.port.isOpen = true
  noEcho : s.link.handleLocalEcho = false
  timeout : s.link.port.timeout = some x
  positive : 0 < x

/-- when the request is transmitted, and the bytes that are not there yet when the call begins -/
def sentAt (slave : Int) (p : Prepared) (s : CPort) : Nat := s.now + s.charTime * (rtuAdu (UInt8.ofNat slave.toNat) p.pdu).length

/-- **C76.** If bytes arrive, as many as expected, each less than a time-out after the one before (the first one after the transmission of the request), then the call
    is over when the last of them is there; what came before the call is not looked at, what comes later is left. -/
theorem C76_prompt (R : Registry) (hR : Quiet R) (a : ExecArgs) (p : Prepared) (slave : Int) (s : MasterSt CRtu) (x : Nat) (h : RtuCalls a p slave s x)
    (taken rest : List (Nat × UInt8)) (hin : toCome s.link.port.now s.link.port.future = taken ++ rest) (hne : taken ≠ [])
    (hlen : p.expectedLength = taken.length) (hg : Gaps x (sentAt slave p s.link.port) taken)
    (hsw : s.link.useSwTimeout = true → lastAt (sentAt slave p s.link.port) taken ≤ sentAt slave p s.link.port + x) :
    Concludes a p slave (arrivedBytes taken) (execute R rtuMac (clockedRtu R) a s).1 ∧
    (execute R rtuMac (clockedRtu R) a s).2.link.port.now = lastAt (sentAt slave p s.link.port) taken ∧
    (execute R rtuMac (clockedRtu R) a s).2.link.port.future = rest := by
  have e := crRecvLoop_prompt s.link.useSwTimeout (sentAt slave p s.link.port) x h.positive
    ((requested s.link.port (rtuAdu (UInt8.ofNat slave.toNat) p.pdu)).future.length + 1) [] (requested s.link.port (rtuAdu (UInt8.ofNat slave.toNat) p.pdu)) taken rest
    h.portOpen h.timeout hin hne hg (by show taken.length ≤ (toCome _ _).length + 1; rw [hin]; simp; omega) hsw
  rw [List.length_nil, Nat.zero_add, ← hlen] at e
  have hc := call_concludes hR h.prepared h.addressed h.low h.high s h.opened h.portOpen h.noEcho rfl e
  refine ⟨by simpa using hc.1, ?_, ?_⟩ <;> rw [hc.2] <;> rfl

/-- **C76.** If fewer bytes than expected arrive (an exception response is shorter than a normal one), or if the length is not known, and then silence: the call ends with
    these bytes, between one and two time-outs after the last byte.  With a known length, no inter-byte time-out and all bytes within the time-out: exactly two time-outs
    after the transmission, however soon the bytes came. -/
theorem C76_short (R : Registry) (hR : Quiet R) (a : ExecArgs) (p : Prepared) (slave : Int) (s : MasterSt CRtu) (x : Nat) (h : RtuCalls a p slave s x)
    (hsw : s.link.useSwTimeout = false)
    (taken rest : List (Nat × UInt8)) (hin : toCome s.link.port.now s.link.port.future = taken ++ rest) (hne : taken ≠ [])
    (hlen : p.expectedLength < 0 ∨ (taken.length : Int) < p.expectedLength) (hg : Gaps x (sentAt slave p s.link.port) taken)
    (hrest : NoneBefore (lastAt (sentAt slave p s.link.port) taken + 2 * x) rest) :
    Concludes a p slave (arrivedBytes taken) (execute R rtuMac (clockedRtu R) a s).1 ∧
    lastAt (sentAt slave p s.link.port) taken + x ≤ (execute R rtuMac (clockedRtu R) a s).2.link.port.now ∧
    (execute R rtuMac (clockedRtu R) a s).2.link.port.now ≤ lastAt (sentAt slave p s.link.port) taken + 2 * x ∧
    (p.expectedLength < 0 → (execute R rtuMac (clockedRtu R) a s).2.link.port.now = lastAt (sentAt slave p s.link.port) taken + x) ∧
    (0 ≤ p.expectedLength → s.link.port.interByte = none → lastAt (sentAt slave p s.link.port) taken < sentAt slave p s.link.port + x →
      (execute R rtuMac (clockedRtu R) a s).2.link.port.now = sentAt slave p s.link.port + 2 * x) := by
  obtain ⟨now', e, r1, r2, r3, r4⟩ := crRecvLoop_short (sentAt slave p s.link.port) x h.positive p.expectedLength
    ((requested s.link.port (rtuAdu (UInt8.ofNat slave.toNat) p.pdu)).future.length + 1) [] (requested s.link.port (rtuAdu (UInt8.ofNat slave.toNat) p.pdu)) taken rest
    h.portOpen h.timeout hin hne hg (by show taken.length < (toCome _ _).length + 1; rw [hin]; simp; omega) hrest (by simpa using hlen)
  have hc := call_concludes hR h.prepared h.addressed h.low h.high s h.opened h.portOpen h.noEcho rfl (by rw [hsw]; exact e)
  refine ⟨by simpa using hc.1, ?_⟩
  rw [hc.2]
  exact ⟨r1, r2, r3, r4⟩

/-- **C76.** If nothing arrives for a time-out after the transmission, then the call ends at this moment with ModbusInvalidResponseError; what arrives later is left. -/
theorem C76_silent (R : Registry) (hR : Quiet R) (a : ExecArgs) (p : Prepared) (slave : Int) (s : MasterSt CRtu) (x : Nat) (h : RtuCalls a p slave s x)
    (hrest : NoneBefore (sentAt slave p s.link.port + x) (toCome s.link.port.now s.link.port.future)) :
    (execute R rtuMac (clockedRtu R) a s).1 = .error .invalidResponse ∧
    (execute R rtuMac (clockedRtu R) a s).2.link.port.now = sentAt slave p s.link.port + x ∧
    (execute R rtuMac (clockedRtu R) a s).2.link.port.future = toCome s.link.port.now s.link.port.future := by
  have hc := call_concludes hR h.prepared h.addressed h.low h.high s h.opened h.portOpen h.noEcho rfl
    (crRecvLoop_silent s.link.useSwTimeout _ p.expectedLength x h.positive _ [] 0 (requested s.link.port (rtuAdu (UInt8.ofNat slave.toNat) p.pdu))
      h.portOpen h.timeout hrest)
  refine ⟨hc.1.2 fun pdu => by simp [rtuAdu], ?_, ?_⟩ <;> rw [hc.2] <;> rfl

/-- a device that sends a byte at every tick -/
def babble (now : Nat) : Nat → List (Nat × UInt8)
  | 0 => []
  | n+1 => (now + 1, 0) :: babble (now + 1) n

theorem babble_spec (x : Nat) (hx : 2 ≤ x) : ∀ (n now : Nat), Gaps x now (babble now n) ∧ lastAt now (babble now n) = now + n
  | 0, _ => ⟨trivial, rfl⟩
  | n+1, now => by
    obtain ⟨h1, h2⟩ := babble_spec x hx n (now + 1)
    have e : max now (now + 1) = now + 1 := by omega
    refine ⟨⟨by omega, by rw [e]; exact h1⟩, ?_⟩
    simp only [babble, lastAt, e, h2]
    omega

/-- **C76.** Without `use_sw_timeout` a call of which the expected length is not known (RAW, DEVICE_INFO, DIAGNOSTIC without data; the default is -1) has no limit in time: a
    device that babbles for `D` ticks holds it for `D` ticks. -/
theorem C76_unbounded (R : Registry) (hR : Quiet R) (a : ExecArgs) (p : Prepared) (slave : Int) (s : MasterSt CRtu) (x : Nat) (h : RtuCalls a p slave s x) (hx : 2 ≤ x)
    (hsw : s.link.useSwTimeout = false) (hlen : p.expectedLength < 0) (D : Nat) (hD : 0 < D)
    (hbab : s.link.port.future = babble (sentAt slave p s.link.port) D) :
    (execute R rtuMac (clockedRtu R) a s).2.link.port.now = sentAt slave p s.link.port + D + x := by
  obtain ⟨h1, h2⟩ := babble_spec x hx D (sentAt slave p s.link.port)
  have hin : toCome s.link.port.now s.link.port.future = babble (sentAt slave p s.link.port) D ++ [] := by
    rw [hbab, List.append_nil]
    cases D with
    | zero => rfl
    | succ D =>
      have : ¬ (sentAt slave p s.link.port + 1 ≤ s.link.port.now) := by unfold sentAt; omega
      simp only [toCome, babble, List.dropWhile_cons, this, decide_false]
      rfl
  have := (C76_short R hR a p slave s x h hsw _ [] hin (by cases D with | zero => omega | succ D => simp [babble]) (.inl hlen) h1 (by simp [NoneBefore])).2.2.2.1 hlen
  rw [this, h2]

/-! ### `set_timeout(None)` -/

/-- with an inter-byte time-out, reading ends once a byte is there -/
theorem collect_gap_ends (g : Nat) : ∀ (n now : Nat) (ev : List (Nat × UInt8)), ∃ r, collect none (some g) n true now ev = some r
  | 0, now, ev => ⟨_, rfl⟩
  | n+1, now, [] => ⟨_, rfl⟩
  | n+1, now, (T, b) :: ev => by
    obtain ⟨r, hr⟩ := collect_gap_ends g n (max now T) ev
    simp only [collect, readLimit, if_true, Option.map_some]
    split
    · exact ⟨_, by rw [hr]; rfl⟩
    · exact ⟨_, rfl⟩

/-- **C76.** After `set_timeout(None)` no call succeeds (Python 3 does not compare a number with None): while no byte comes it waits for ever, when bytes come it raises TypeError
    - with the inter-byte time-out the constructor sets, even if the response is short. -/
theorem C76_none (R : Registry) (hR : Quiet R) (a : ExecArgs) (p : Prepared) (slave : Int) (s : MasterSt CRtu) (hp : prepare a = .ok p) (hs : a.slave = some slave)
    (h0 : 0 ≤ slave) (h1 : slave ≤ 255) (hopen : s.isOpened = true) (ho : s.link.port.isOpen = true) (he : s.link.handleLocalEcho = false) (ht : s.link.port.timeout = none) :
    ((execute R rtuMac (clockedRtu R) a s).1 = .error .nonTermination ∨ (execute R rtuMac (clockedRtu R) a s).1 = .error .typeError) ∧
    (toCome s.link.port.now s.link.port.future = [] → (execute R rtuMac (clockedRtu R) a s).1 = .error .nonTermination) ∧
    (toCome s.link.port.now s.link.port.future ≠ [] → s.link.port.interByte ≠ none → (execute R rtuMac (clockedRtu R) a s).1 = .error .typeError) := by
  have hopen' : masterOpen (clockedRtu R) s = (.ok (), s) := by unfold masterOpen; rw [if_pos hopen]
  obtain ⟨Q, hb, hq⟩ := buildRequest_rtu (pdu := p.pdu) h0 h1 (s := s)
  generalize hreq : rtuAdu (UInt8.ofNat slave.toNat) p.pdu = request at hb
  have hloop : ∀ fuel,
      ((crRecvLoop s.link.useSwTimeout (requested s.link.port request).now p.expectedLength (fuel + 1) [] 0 (requested s.link.port request)).1 = .error .nonTermination ∨
        (crRecvLoop s.link.useSwTimeout (requested s.link.port request).now p.expectedLength (fuel + 1) [] 0 (requested s.link.port request)).1 = .error .typeError) ∧
      (toCome s.link.port.now s.link.port.future = [] →
        (crRecvLoop s.link.useSwTimeout (requested s.link.port request).now p.expectedLength (fuel + 1) [] 0 (requested s.link.port request)).1 = .error .nonTermination) ∧
      (toCome s.link.port.now s.link.port.future ≠ [] → s.link.port.interByte ≠ none →
        (crRecvLoop s.link.useSwTimeout (requested s.link.port request).now p.expectedLength (fuel + 1) [] 0 (requested s.link.port request)).1 = .error .typeError) := by
    intro fuel
    have hk1 : (requested s.link.port request).isOpen = true := ho
    have hk2 : (requested s.link.port request).timeout = none := ht
    have hk3 : (requested s.link.port request).future = toCome s.link.port.now s.link.port.future := rfl
    have hk4 : (requested s.link.port request).interByte = s.link.port.interByte := rfl
    generalize requested s.link.port request = k at hk1 hk2 hk3 hk4
    obtain ⟨m, hm⟩ : ∃ m, rtuAsk none p.expectedLength 0 = m + 1 := by
      have : 0 < rtuAsk none p.expectedLength 0 := by
        unfold rtuAsk; simp only [ne_eq, not_true_eq_false, false_and, if_false]; split <;> omega
      exact ⟨_, (Nat.succ_pred_eq_of_pos this).symm⟩
    rw [crRecvLoop]
    simp only [PyM.bind_apply, PyM.get_apply, hk2, hm, cPortRead, hk1, not_true_eq_false, if_false, CPort.fetch, Option.map_none]
    cases hf : k.future with
    | nil =>
      simp only [collect, readLimit, Option.map_none, Bool.false_eq_true, if_false]
      refine ⟨.inl trivial, fun _ => trivial, fun hne => absurd (hk3.symm.trans hf) hne⟩
    | cons e ev =>
      simp only [collect, readLimit, Bool.false_eq_true, if_false]
      cases hc : collect none k.interByte m true (max k.now e.1) ev with
      | none =>
        simp only [Option.map_none]
        refine ⟨.inl trivial, fun h => absurd (hf.symm.trans (hk3.trans h)) (by simp), fun _ hi => ?_⟩
        cases hg : k.interByte with
        | none => exact absurd (hk4.symm.trans hg) hi
        | some g =>
          obtain ⟨r, hr⟩ := collect_gap_ends g m (max k.now e.1) ev
          rw [hg, hr] at hc
          cases hc
      | some r =>
        simp only [Option.map_some]
        exact ⟨.inr rfl, fun h => absurd (hf.symm.trans (hk3.trans h)) (by simp), fun _ _ => rfl⟩
  have hx : ∀ e, (crRecvLoop s.link.useSwTimeout (requested s.link.port request).now p.expectedLength ((requested s.link.port request).future.length + 1) [] 0
      (requested s.link.port request)).1 = .error e → (execute R rtuMac (clockedRtu R) a s).1 = .error e := by
    intro e h
    rw [execute_main hR hopen' hp hs hb]
    rw [show (clockedRtu R).send request s.link = _ from crSend_quiet hR _ s.link ho he]
    dsimp only
    have : ((clockedRtu R).recv p.expectedLength { s.link with port := requested s.link.port request }).1 = .error e := by
      show (crRecv R _ _).1 = _
      unfold crRecv
      simp only [PyM.bind_apply, PyM.get_apply, CRtu.onPort]
      cases hq : crRecvLoop s.link.useSwTimeout (requested s.link.port request).now p.expectedLength ((requested s.link.port request).future.length + 1) [] 0
        (requested s.link.port request) with
      | mk r q => rw [hq] at h; dsimp only at h; rw [h]
    cases hq : (clockedRtu R).recv p.expectedLength { s.link with port := requested s.link.port request } with
    | mk r l => rw [hq] at this; dsimp only at this; rw [this]
  obtain ⟨l1, l2, l3⟩ := hloop (requested s.link.port request).future.length
  exact ⟨l1.imp (hx _) (hx _), fun h => hx _ (l2 h), fun h hi => hx _ (l3 h hi)⟩

/-! ### The local echo -/

theorem collect_here (dead gap : Option Nat) (E : List (Nat × UInt8)) (now : Nat) : ∀ (echo : List (Nat × UInt8)) (got : Bool), (∀ e ∈ echo, e.1 ≤ now) →
    collect dead gap echo.length got now (echo ++ E) = some (arrivedBytes echo, now, E)
  | [], got, _ => by cases E <;> rfl
  | (T, b) :: echo, got, h => by
    have hT : T ≤ now := h _ List.mem_cons_self
    have ih := collect_here dead gap E now echo true fun e he => h e (List.mem_cons_of_mem _ he)
    simp only [List.cons_append, List.length_cons, collect]
    cases readLimit dead gap got now with
    | none => dsimp only; rw [show max now T = now from Nat.max_eq_left hT, ih]; rfl
    | some l => dsimp only; rw [if_pos (.inl hT), show max now T = now from Nat.max_eq_left hT, ih]; rfl

/-- the same master without local echo, on a line on which only `E` arrives -/
def CRtu.unechoed (l : CRtu) (E : List (Nat × UInt8)) : CRtu := { l with handleLocalEcho := false, port := { l.port with future := E } }

theorem crSend_echo {R : Registry} (hR : Quiet R) (b : Bytes) (l : CRtu) (ho : l.port.isOpen = true) (he : l.handleLocalEcho = true) (echo E : List (Nat × UInt8))
    (hfut : toCome l.port.now l.port.future = echo ++ E) (hE : toCome l.port.now E = E) (hlen : echo.length = b.length)
    (hin : ∀ e ∈ echo, e.1 ≤ l.port.now + l.port.charTime * b.length) :
    crSend R b l = (.ok (), { l with port := requested { l.port with future := E } b }) := by
  have hc := collect_here (l.port.timeout.map (l.port.now + l.port.charTime * b.length + ·)) l.port.interByte E _ echo false hin
  unfold crSend
  simp only [PyM.bind_apply, PyM.lift_apply, hR _ _, CRtu.onPort, cPortReset, cPortCheck, cPortWrite, ho, not_true_eq_false, if_false, Option.getD_none, crEcho, he, if_true,
    cPortRead, CPort.fetch, hfut, ← hlen] at hc ⊢
  rw [hc]
  simp only [Option.map_some, requested, hE, ← hlen]
  rfl

/-- **C76.** When the echo of the request - any bytes, as many as were sent - is there at the end of the transmission, a call of a master with `handle_local_echo` goes like the call
    of one without on a line without echo: same result, same moment, same bytes left. -/
theorem C76_echo (R : Registry) (hR : Quiet R) (a : ExecArgs) (p : Prepared) (slave : Int) (s : MasterSt CRtu) (hp : prepare a = .ok p) (hs : a.slave = some slave)
    (h0 : 0 ≤ slave) (h1 : slave ≤ 255) (hopen : s.isOpened = true) (ho : s.link.port.isOpen = true) (he : s.link.handleLocalEcho = true)
    (echo E : List (Nat × UInt8)) (hfut : toCome s.link.port.now s.link.port.future = echo ++ E) (hE : toCome s.link.port.now E = E)
    (hlen : echo.length = (rtuAdu (UInt8.ofNat slave.toNat) p.pdu).length) (hin : ∀ e ∈ echo, e.1 ≤ sentAt slave p s.link.port) :
    (execute R rtuMac (clockedRtu R) a s).1 = (execute R rtuMac (clockedRtu R) a { s with link := s.link.unechoed E }).1 ∧
    (execute R rtuMac (clockedRtu R) a s).2.link.port = (execute R rtuMac (clockedRtu R) a { s with link := s.link.unechoed E }).2.link.port := by
  have hopen' : ∀ s : MasterSt CRtu, s.isOpened = true → masterOpen (clockedRtu R) s = (.ok (), s) := by intro s h; unfold masterOpen; rw [if_pos h]
  obtain ⟨Q, hb, hq⟩ := buildRequest_rtu (pdu := p.pdu) h0 h1 (s := s)
  have hb' : buildRequest rtuMac p.pdu slave { s with link := s.link.unechoed E } = (.ok (rtuAdu (UInt8.ofNat slave.toNat) p.pdu, Q), { s with link := s.link.unechoed E }) := by
    obtain ⟨Q', hb', _⟩ := buildRequest_rtu (pdu := p.pdu) h0 h1 (s := { s with link := s.link.unechoed E })
    rw [hb']
    have e1 : (buildRequest rtuMac p.pdu slave s).1 = (buildRequest rtuMac p.pdu slave { s with link := s.link.unechoed E }).1 := by
      unfold buildRequest; dsimp only; split <;> rfl
    rw [hb, hb'] at e1
    simp only [Except.ok.injEq] at e1
    rw [e1]
  have hk1 := crSend_echo hR (rtuAdu (UInt8.ofNat slave.toNat) p.pdu) s.link ho he echo E hfut hE hlen hin
  have hk2 := crSend_quiet hR (rtuAdu (UInt8.ofNat slave.toNat) p.pdu) (s.link.unechoed E) ho rfl
  rw [execute_main hR (hopen' s hopen) hp hs hb, execute_main hR (hopen' { s with link := s.link.unechoed E } hopen) hp hs hb',
    show (clockedRtu R).send (rtuAdu (UInt8.ofNat slave.toNat) p.pdu) s.link = _ from hk1,
    show (clockedRtu R).send (rtuAdu (UInt8.ofNat slave.toNat) p.pdu) (s.link.unechoed E) = _ from hk2]
  dsimp only
  generalize rtuAdu (UInt8.ofNat slave.toNat) p.pdu = request
  have hport : ∀ (l l' : CRtu), l.port = l'.port → l.useSwTimeout = l'.useSwTimeout →
      ((clockedRtu R).recv p.expectedLength l).1 = ((clockedRtu R).recv p.expectedLength l').1 ∧
      ((clockedRtu R).recv p.expectedLength l).2.port = ((clockedRtu R).recv p.expectedLength l').2.port := by
    intro l l' e1 e2
    show (crRecv R _ l).1 = (crRecv R _ l').1 ∧ (crRecv R _ l).2.port = (crRecv R _ l').2.port
    unfold crRecv
    simp only [PyM.bind_apply, PyM.get_apply, CRtu.onPort, e1, e2]
    cases crRecvLoop l'.useSwTimeout l'.port.now p.expectedLength (l'.port.future.length + 1) [] 0 l'.port with
    | mk r q =>
      cases r with
      | error e => exact ⟨rfl, rfl⟩
      | ok x =>
        simp only [PyM.lift_apply, hR _ _]
        exact ⟨rfl, rfl⟩
  obtain ⟨h1, h2⟩ := hport { s.link with port := requested { s.link.port with future := E } request }
    { s.link.unechoed E with port := requested (s.link.unechoed E).port request } rfl rfl
  generalize (clockedRtu R).recv p.expectedLength { s.link with port := requested { s.link.port with future := E } request } = r1 at h1 h2
  generalize (clockedRtu R).recv p.expectedLength { s.link.unechoed E with port := requested (s.link.unechoed E).port request } = r2 at h1 h2
  obtain ⟨r1, l1⟩ := r1
  obtain ⟨r2, l2⟩ := r2
  dsimp only at h1 h2
  subst h1
  cases r1 with
  | error e => exact ⟨rfl, h2⟩
  | ok x =>
    dsimp only
    cases (rtuMac.parseResponse x Q).1 with
    | error e => exact ⟨rfl, h2⟩
    | ok pdu => exact ⟨rfl, h2⟩

/-! ### A concrete master -/

/-- reading a register of slave 1 -/
def exRtuRead : ExecArgs := { slave := some 1, functionCode := 3, startingAddress := .int 11, quantity := .int 1 }

/-- an open master, time-out 100, two ticks for a byte; a stray byte is in the buffer; `ev` will arrive -/
def exRtuMaster (ev : List (Nat × UInt8)) : MasterSt CRtu :=
  ⟨true, { timeout := some 100, port := { now := 10, future := (3, 77) :: ev, timeout := some 100, charTime := 2 } }, 0⟩

/-- `[1, 3, 2, 0, 7, 249, 134]` in three pieces -/
def exRtuAnswer : List (Nat × UInt8) := [(60, 1), (60, 3), (60, 2), (140, 0), (140, 7), (200, 249), (202, 134)]

theorem exRtuRead_prepared : ∃ p, prepare exRtuRead = .ok p ∧ p.expectedLength = 7 ∧ p.pdu = [3, 0, 11, 0, 1] := by
  exact ⟨_, by rfl, by decide, by decide⟩

theorem exRtuCalls (ev : List (Nat × UInt8)) (p : Prepared) (hp : prepare exRtuRead = .ok p) : RtuCalls exRtuRead p 1 (exRtuMaster ev) 100 :=
  ⟨hp, rfl, by omega, by omega, rfl, rfl, rfl, rfl, by omega⟩

/-- the request takes 16 ticks, the answer is there at 202 -/
example : ∃ p, prepare exRtuRead = .ok p ∧ sentAt 1 p (exRtuMaster exRtuAnswer).link.port = 26 ∧
    (execute [] rtuMac (clockedRtu []) exRtuRead (exRtuMaster exRtuAnswer)).2.link.port.now = 202 := by
  obtain ⟨p, hp, h1, h2⟩ := exRtuRead_prepared
  have hsent : sentAt 1 p (exRtuMaster exRtuAnswer).link.port = 26 := by
    unfold sentAt; rw [h2]; decide +kernel
  refine ⟨p, hp, hsent, ?_⟩
  have := (C76_prompt [] quiet_nil exRtuRead p 1 (exRtuMaster exRtuAnswer) 100 (exRtuCalls _ p hp) exRtuAnswer [] (by decide) (by decide) h1
    (by rw [hsent]; simp [exRtuAnswer, Gaps]) (by simp [exRtuMaster])).2.1
  rw [this, hsent]
  decide

/-- what the call returns -/
example : (execute [] rtuMac (clockedRtu []) exRtuRead (exRtuMaster exRtuAnswer)).1 = .ok (.values [7]) := by decide +kernel

/-- an exception response (illegal data address), complete at 40, is reported at 226 -/
example : let r := execute [] rtuMac (clockedRtu []) exRtuRead (exRtuMaster [(32, 1), (34, 0x83), (36, 2), (38, 0xC0), (40, 0xF1)])
    r.1 = .error (.modbusError 2) ∧ r.2.link.port.now = 226 := by decide +kernel

/-- 26 + 7 * 100 is the limit of `C76_call`; it is reached nearly: every byte comes just before the time-out -/
example : (execute [] rtuMac (clockedRtu []) exRtuRead (exRtuMaster [(125, 1), (225, 3), (325, 2), (425, 0), (525, 7), (625, 249), (725, 134)])).2.link.port.now = 725 := by
  decide +kernel

/-- the same with `use_sw_timeout`: over at 226, the response is cut -/
example : let m := exRtuMaster [(125, 1), (225, 3), (325, 2), (425, 0), (525, 7), (625, 249), (725, 134)]
    let r := execute [] rtuMac (clockedRtu []) exRtuRead { m with link := { m.link with useSwTimeout := true } }
    r.1 = .error .invalidResponse ∧ r.2.link.port.now = 226 := by decide +kernel

/-- after `set_timeout(None)` a correct response is a TypeError; and so is the first byte of a response, after the inter-byte time-out -/
example : let m := exRtuMaster exRtuAnswer
    let l := (crSetTimeout none false { m.link with port := { m.link.port with interByte := some 5 } }).2
    (execute [] rtuMac (clockedRtu []) exRtuRead { m with link := l }).1 = .error .typeError ∧
    (execute [] rtuMac (clockedRtu []) exRtuRead { m with link := { l with port := { l.port with future := [(60, 1)] } } }).1 = .error .typeError ∧
    (execute [] rtuMac (clockedRtu []) exRtuRead { m with link := { l with port := { l.port with future := [(60, 1)] } } }).2.link.port.now = 65 := by decide +kernel

/-- an echo (two ticks for each of the eight bytes of the request, sent from 10 on) comes before the answer -/
example : let m := exRtuMaster ([(12, 1), (14, 3), (16, 0), (18, 11), (20, 0), (22, 1), (24, 244), (26, 8)] ++ exRtuAnswer)
    let r := execute [] rtuMac (clockedRtu []) exRtuRead { m with link := { m.link with handleLocalEcho := true } }
    r.1 = .ok (.values [7]) ∧ r.2.link.port.now = 202 := by decide +kernel

end Modbus
