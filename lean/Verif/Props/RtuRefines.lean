import Verif.Props.RtuExchange
/-
# C79: on a serial line timing matters only through the pieces in which bytes are read

Every run of `RtuServer` and `RtuMaster` with a clock (`Model/ClockedRtu.lean`) is a run of the model without one (`Model/Rtu.lean`) on a line that delivers the same bytes in
suitable pieces, with silences between them.  Hooks are arbitrary.
-/
namespace Modbus

/-! ## A port without a clock for a port with one -/

/-- what a port without a clock needs to be told: events, how many of them happen before the next operations that do not wait, measured durations -/
structure Hole where
  ev : List SerialEvent := []
  sch : List Nat := []
  clk : List Nat := []

def Hole.app (h H : Hole) : Hole := ⟨h.ev ++ H.ev, h.sch ++ H.sch, h.clk ++ H.clk⟩

theorem Hole.app_assoc (a b c : Hole) : (a.app b).app c = a.app (b.app c) := by simp [Hole.app]

/-- the port without a clock -/
def CPort.held (c : CPort) (H : Hole) : Port where
  isOpen := c.isOpen
  buf := []
  future := H.ev
  sched := H.sch
  opens := c.opens
  timeout := c.timeout
  written := c.written.map Prod.snd
  clock := H.clk

/-- the same; `fl`: the bytes read next have arrived already -/
def CPort.absn (fl : Bool) (c : CPort) (H : Hole) : Port := if fl then (c.held H).arrive else c.held H

/-- a byte is in the input buffer -/
def CPort.Waiting (c : CPort) : Prop := ∃ T b ev, c.future = (T, b) :: ev ∧ T ≤ c.now

/-- how the events to come look: bytes that are there come first; none, if nothing comes any more -/
structure Comes (fl : Bool) (c : CPort) (H : Hole) : Prop where
  there : fl = true → ∃ b bs F, H.ev = .chunk (b :: bs) :: F
  over : c.future = [] → H.ev = []

theorem allBytes_append (a b : List SerialEvent) : allBytes (a ++ b) = allBytes a ++ allBytes b := by
  induction a with
  | nil => rfl
  | cons e a ih => cases e <;> simp [allBytes, ih]

/-! ## Following a computation -/

/-- how states with a clock correspond to states without -/
structure Absn (σ τ : Type) where
  abs : Bool → σ → Hole → τ
  port : σ → CPort

/-- The computation `f` with a clock, begun in `s`, is the computation `g` without one, if the environment of `g` begins with the events, ... of some hole `h`; `P` holds
    afterwards. -/
def PortFollows {σ τ α : Type} (A : Absn σ τ) (f : PyM σ α) (g : PyM τ α) (s : σ) (fl : Bool) (P : Bool → σ → Prop) : Prop :=
  ∃ (h : Hole) (fl' : Bool), P fl' (f s).2 ∧ .fail ∉ h.ev ∧
    arrivedBytes (A.port s).future = allBytes h.ev ++ arrivedBytes (A.port (f s).2).future ∧
    ∀ H, Comes fl' (A.port (f s).2) H → Comes fl (A.port s) (h.app H) ∧ g (A.abs fl s (h.app H)) = ((f s).1, A.abs fl' (f s).2 H)

section
variable {σ τ α β : Type} {A : Absn σ τ}

theorem PortFollows.mono {f : PyM σ α} {g : PyM τ α} {s : σ} {fl : Bool} {P Q : Bool → σ → Prop} (h : PortFollows A f g s fl P) (hq : ∀ fl s, P fl s → Q fl s) :
    PortFollows A f g s fl Q := by
  obtain ⟨h, fl', h1, h2⟩ := h
  exact ⟨h, fl', hq _ _ h1, h2⟩

theorem PortFollows.bind {f : PyM σ α} {g : PyM τ α} {k : α → PyM σ β} {k' : α → PyM τ β} {s : σ} {fl : Bool} {P Q : Bool → σ → Prop}
    (h : PortFollows A f g s fl P) (herr : ∀ fl s, P fl s → Q fl s)
    (hk : ∀ a s1 fl1, f s = (.ok a, s1) → P fl1 s1 → PortFollows A (k a) (k' a) s1 fl1 Q) : PortFollows A (f >>= k) (g >>= k') s fl Q := by
  obtain ⟨h1, fl1, p1, n1, b1, r1⟩ := h
  cases hf : f s with
  | mk r s1 =>
    rw [hf] at p1 b1 r1
    dsimp only at p1 b1 r1
    cases r with
    | error e =>
      refine ⟨h1, fl1, ?_, n1, ?_, fun H hH => ?_⟩
      · simp only [PyM.bind_apply, hf]; exact herr _ _ p1
      · simp only [PyM.bind_apply, hf]; exact b1
      · simp only [PyM.bind_apply, hf] at hH ⊢
        obtain ⟨c, e⟩ := r1 H hH
        rw [e]
        exact ⟨c, rfl⟩
    | ok a =>
      obtain ⟨h2, fl2, p2, n2, b2, r2⟩ := hk a s1 fl1 hf p1
      refine ⟨h1.app h2, fl2, ?_, ?_, ?_, fun H hH => ?_⟩
      · simp only [PyM.bind_apply, hf]; exact p2
      · simp only [Hole.app, List.mem_append, not_or]; exact ⟨n1, n2⟩
      · simp only [PyM.bind_apply, hf, Hole.app, allBytes_append, List.append_assoc]
        rw [b1, b2]
      · simp only [PyM.bind_apply, hf] at hH ⊢
        obtain ⟨c2, e2⟩ := r2 H hH
        obtain ⟨c1, e1⟩ := r1 _ c2
        rw [Hole.app_assoc, e1]
        exact ⟨c1, e2⟩

/-- something that does not touch the ports -/
theorem PortFollows.still {f : PyM σ α} {g : PyM τ α} {s : σ} {fl : Bool} {P : Bool → σ → Prop} (hp : P fl (f s).2) (hport : A.port (f s).2 = A.port s)
    (hg : ∀ H, g (A.abs fl s H) = ((f s).1, A.abs fl (f s).2 H)) : PortFollows A f g s fl P := by
  refine ⟨{}, fl, hp, by simp, by rw [hport]; rfl, fun H hH => ?_⟩
  rw [hport] at hH
  exact ⟨hH, hg H⟩

theorem PortFollows.lift {x : Except PyErr α} {s : σ} {fl : Bool} {P : Bool → σ → Prop} (hp : P fl s) : PortFollows A (PyM.lift x) (PyM.lift x) s fl P :=
  .still hp rfl fun _ => rfl

theorem PortFollows.pure {x : α} {s : σ} {fl : Bool} {P : Bool → σ → Prop} (hp : P fl s) : PortFollows A (Pure.pure x) (Pure.pure x) s fl P :=
  .still hp rfl fun _ => rfl

theorem PortFollows.tryExcept {f : PyM σ α} {g : PyM τ α} {k : PyErr → PyM σ α} {k' : PyErr → PyM τ α} {s : σ} {fl : Bool} {P Q : Bool → σ → Prop}
    (h : PortFollows A f g s fl P) (hok : ∀ fl s, P fl s → Q fl s)
    (hk : ∀ e s1 fl1, f s = (.error e, s1) → P fl1 s1 → PortFollows A (k e) (k' e) s1 fl1 Q) : PortFollows A (PyM.tryExcept f k) (PyM.tryExcept g k') s fl Q := by
  obtain ⟨h1, fl1, p1, n1, b1, r1⟩ := h
  cases hf : f s with
  | mk r s1 =>
    rw [hf] at p1 b1 r1
    dsimp only at p1 b1 r1
    cases r with
    | ok a =>
      refine ⟨h1, fl1, ?_, n1, ?_, fun H hH => ?_⟩
      · simp only [PyM.tryExcept_apply, hf]; exact hok _ _ p1
      · simp only [PyM.tryExcept_apply, hf]; exact b1
      · simp only [PyM.tryExcept_apply, hf] at hH ⊢
        obtain ⟨c, e⟩ := r1 H hH
        rw [e]
        exact ⟨c, rfl⟩
    | error e =>
      obtain ⟨h2, fl2, p2, n2, b2, r2⟩ := hk e s1 fl1 hf p1
      refine ⟨h1.app h2, fl2, ?_, ?_, ?_, fun H hH => ?_⟩
      · simp only [PyM.tryExcept_apply, hf]; exact p2
      · simp only [Hole.app, List.mem_append, not_or]; exact ⟨n1, n2⟩
      · simp only [PyM.tryExcept_apply, hf, Hole.app, allBytes_append, List.append_assoc]
        rw [b1, b2]
      · simp only [PyM.tryExcept_apply, hf] at hH ⊢
        obtain ⟨c2, e2⟩ := r2 H hH
        obtain ⟨c1, e1⟩ := r1 _ c2
        rw [Hole.app_assoc, e1]
        exact ⟨c1, e2⟩
end

/-! ## The operations of a port -/

def portAbsn : Absn CPort Port := ⟨CPort.absn, id⟩

/-- nothing has been looked at -/
def Unseen (x : Option Nat) (fl : Bool) (c : CPort) : Prop := c.isOpen = true ∧ fl = false ∧ c.timeout = x
/-- what has been looked at is there -/
def Seen (x : Option Nat) (fl : Bool) (c : CPort) : Prop := c.isOpen = true ∧ (fl = true → c.Waiting) ∧ c.timeout = x

theorem Unseen.seen {x : Option Nat} {fl : Bool} {c : CPort} (h : Unseen x fl c) : Seen x fl c := ⟨h.1, (fun h' => by rw [h.2.1] at h'; cases h'), h.2.2⟩

/-- a read that gives the bytes `taken`: they are the next piece, or there is a silence -/
theorem read_abs (n : Nat) (fl : Bool) (c c' : CPort) (taken : Bytes) (ho : c.isOpen = true) (hn : taken.length ≤ n)
    (hbl : c.timeout = none → taken = [] → c.future = [])
    (hb : arrivedBytes c.future = taken ++ arrivedBytes c'.future) (hfl : fl = true → taken ≠ [])
    (hc : c' = { c with now := c'.now, future := c'.future }) :
    ∃ h : Hole, .fail ∉ h.ev ∧ arrivedBytes c.future = allBytes h.ev ++ arrivedBytes c'.future ∧
      (∀ H, Comes false c' H → Comes fl c (h.app H) ∧ portRead n (c.absn fl (h.app H)) = (.ok taken, c'.absn false H)) ∧ (taken ≠ [] → h.ev = [.chunk taken]) := by
  have hheld : ∀ H, c'.absn false H = { c.held H with future := H.ev } := by intro H; rw [hc]; rfl
  cases htk : taken with
  | nil =>
    subst htk
    have hff : fl = false := by cases fl with | false => rfl | true => exact absurd rfl (hfl rfl)
    subst hff
    by_cases hf : c.future = []
    · refine ⟨{}, by simp, hb, fun H hH => ?_, fun h => absurd rfl h⟩
      have hc'f : c'.future = [] := by
        rw [hf] at hb
        simp only [List.nil_append] at hb
        exact arrivedBytes_nil.mp hb.symm
      have hev : H.ev = [] := hH.over hc'f
      refine ⟨⟨by simp, fun _ => by simpa [Hole.app] using hev⟩, ?_⟩
      rw [hheld]
      simp only [portRead, CPort.absn, CPort.held, ho, not_true_eq_false, if_false, Bool.false_eq_true, Hole.app, List.nil_append, hev, Port.readWait]
    · have ht : c.timeout ≠ none := fun h => hf (hbl h rfl)
      refine ⟨⟨[.silence], [], []⟩, by simp, by simpa [allBytes] using hb, fun H hH => ⟨⟨by simp, fun h => absurd h hf⟩, ?_⟩, fun h => absurd rfl h⟩
      rw [hheld]
      cases hx : c.timeout with
      | none => exact absurd hx ht
      | some x =>
        simp only [portRead, CPort.absn, CPort.held, ho, not_true_eq_false, if_false, Bool.false_eq_true, Hole.app, List.nil_append, List.cons_append, Port.readWait, hx,
          Option.isNone_some]
  | cons b bs =>
    have hf : c.future ≠ [] := fun h => by rw [h, htk] at hb; simp [arrivedBytes] at hb
    refine ⟨⟨[.chunk (b :: bs)], [], []⟩, by simp, by rw [← htk]; simpa [allBytes] using hb, fun H hH => ?_, fun _ => rfl⟩
    rw [htk] at hn
    have e1 : (b :: bs).take n = b :: bs := List.take_of_length_le hn
    have e2 : (b :: bs).drop n = [] := List.drop_of_length_le hn
    refine ⟨⟨fun _ => ⟨b, bs, H.ev, rfl⟩, fun h => absurd h hf⟩, ?_⟩
    rw [hheld]
    cases fl with
    | false =>
      simp only [portRead, CPort.absn, CPort.held, ho, not_true_eq_false, if_false, Bool.false_eq_true, Hole.app, List.nil_append, List.cons_append, Port.readWait, e1, e2]
    | true =>
      simp only [portRead, CPort.absn, CPort.held, ho, not_true_eq_false, if_false, if_true, Hole.app, List.nil_append, List.cons_append, Port.arrive, e1, e2]

theorem Took.waiting {c : CPort} {x n : Nat} {taken ev' : List (Nat × UInt8)} {now' : Nat} (h : Took (c.now + x) c.interByte n false c.now c.future taken now' ev')
    (hw : c.Waiting) (hn : 0 < n) : taken ≠ [] := by
  rintro rfl
  obtain ⟨T, b, ev, h1, h2⟩ := hw
  obtain ⟨_, h3⟩ := h.next (by simpa using hn)
  have h4 := h.split
  simp only [List.nil_append] at h4
  have := h3 (T, b) (by rw [← h4, h1]; rfl)
  simp only [lastAt] at this
  omega

/-- `read` with a time-out -/
theorem read_follows (n : Nat) (c : CPort) (fl : Bool) (hn : fl = true → 0 < n) (x : Nat) (hs : Seen (some x) fl c) :
    PortFollows portAbsn (cPortRead n) (portRead n) c fl (Unseen (some x)) := by
  have hx := hs.2.2
  obtain ⟨taken, now', ev', e, t⟩ := cPortRead_took n c hs.1 x hx
  obtain ⟨h, h1, h2, h3, _⟩ := read_abs n fl c { c with now := now', future := ev' } (arrivedBytes taken) hs.1 (by rw [arrivedBytes_length]; exact t.count)
    (by rw [hx]; simp) (by rw [← arrivedBytes_append, ← t.split]) (fun hf => by simpa [arrivedBytes_nil] using t.waiting (hs.2.1 hf) (hn hf)) rfl
  refine ⟨h, false, by rw [e]; exact ⟨hs.1, rfl, hx⟩, h1, by rw [e]; exact h2, fun H hH => ?_⟩
  rw [e] at hH ⊢
  exact h3 H hH

/-- the blocking `read(1)` of a server -/
theorem first_follows (t : Nat) (c : CPort) (fl : Bool) {x : Option Nat} (hs : Seen x fl c) : PortFollows portAbsn (crFirst t) (rtuFirst t) c fl (Unseen (some t)) := by
  have key : ∀ (r : Bytes) (c1 : CPort), (({ c with timeout := none } : CPort).fetch 1).getD ([], { c with timeout := none }) = (r, c1) →
      r.length ≤ 1 ∧ (r = [] → c.future = []) ∧ arrivedBytes c.future = r ++ arrivedBytes c1.future ∧ c1 = { c with timeout := none, now := c1.now, future := c1.future } := by
    intro r c1 h
    cases hf : c.future with
    | nil =>
      simp only [CPort.fetch, Option.map_none, hf, collect, readLimit, Bool.false_eq_true, if_false, Option.getD_none, Prod.mk.injEq] at h
      obtain ⟨rfl, rfl⟩ := h
      exact ⟨by simp, fun _ => rfl, by simp [arrivedBytes], rfl⟩
    | cons e ev =>
      obtain ⟨T, b⟩ := e
      simp only [CPort.fetch, Option.map_none, hf, collect, readLimit, Bool.false_eq_true, if_false, Option.map_some, Option.getD_some, Prod.mk.injEq] at h
      obtain ⟨rfl, rfl⟩ := h
      exact ⟨by simp, by simp, by simp [arrivedBytes], rfl⟩
  cases hq : (({ c with timeout := none } : CPort).fetch 1).getD ([], { c with timeout := none }) with
  | mk r c1 =>
    obtain ⟨k1, k2, k3, k4⟩ := key r c1 hq
    have ho := hs.1
    have e : crFirst t c = (.ok r, { c1 with timeout := some t }) := by
      unfold crFirst
      dsimp only
      rw [if_pos ho, hq]
    obtain ⟨h, h1, h2, h3, _⟩ := read_abs 1 fl { c with timeout := none } c1 r ho k1 (fun _ => k2) k3 (fun hf hr => by
      obtain ⟨T, b, ev, hw, _⟩ := hs.2.1 hf
      rw [k2 hr] at hw
      cases hw) k4
    refine ⟨h, false, ?_, h1, ?_, fun H hH => ?_⟩
    · rw [e]; exact ⟨by rw [k4]; exact ho, rfl, rfl⟩
    · rw [e]; exact h2
    · rw [e] at hH ⊢
      obtain ⟨i1, i2⟩ := h3 H ⟨hH.there, hH.over⟩
      refine ⟨⟨i1.there, i1.over⟩, ?_⟩
      have e1 : portSetTimeout none (portAbsn.abs fl c (h.app H)) = (.ok (), ({ c with timeout := none } : CPort).absn fl (h.app H)) := by
        cases fl with
        | false => rfl
        | true =>
          obtain ⟨b, bs, F, hF⟩ := i1.there rfl
          simp only [portSetTimeout, PyM.modify, portAbsn, CPort.absn, if_true, CPort.held, Port.arrive, hF]
      unfold rtuFirst
      simp only [PyM.bind_apply, e1, PyM.tryExcept_apply, i2]
      rfl

/-- the rest of a request -/
theorem rest_follows (x : Nat) : ∀ (fuel : Nat) (request : Bytes) (c : CPort) (fl : Bool), Seen (some x) fl c → c.future.length < fuel →
    ∃ (h : Hole), .fail ∉ h.ev ∧ Unseen (some x) false (crRest fuel request c).2 ∧
      arrivedBytes c.future = allBytes h.ev ++ arrivedBytes (crRest fuel request c).2.future ∧
      ∀ H, Comes false (crRest fuel request c).2 H → Comes fl c (h.app H) ∧
        ∀ fuel', (allBytes h.ev).length < fuel' → rtuRest fuel' request (c.absn fl (h.app H)) = ((crRest fuel request c).1, (crRest fuel request c).2.absn false H)
  | 0, _, c, _, _, h => absurd h (Nat.not_lt_zero _)
  | fuel+1, request, c, fl, hs, hf => by
    have hx := hs.2.2
    obtain ⟨taken, now', ev', e, t⟩ := cPortRead_took 128 c hs.1 x hx
    obtain ⟨h1, n1, b1, r1, s1⟩ := read_abs 128 fl c { c with now := now', future := ev' } (arrivedBytes taken) hs.1 (by rw [arrivedBytes_length]; exact t.count)
      (by rw [hx]; simp) (by rw [← arrivedBytes_append, ← t.split]) (fun hf => by simpa [arrivedBytes_nil] using t.waiting (hs.2.1 hf) (by omega)) rfl
    rw [crRest]
    simp only [PyM.bind_apply, PyM.tryExcept_apply, e, arrivedBytes_nil]
    by_cases ht : taken = []
    · simp only [ht, if_true]
      refine ⟨h1, n1, ⟨hs.1, rfl, hx⟩, b1, fun H hH => ⟨(r1 H hH).1, fun fuel' hf' => ?_⟩⟩
      cases fuel' with
      | zero => omega
      | succ fuel' =>
        rw [rtuRest]
        simp only [PyM.bind_apply, PyM.tryExcept_apply, (r1 H hH).2, ht]
        rfl
    · simp only [ht, if_false]
      have hpos : 0 < taken.length := List.length_pos_iff.mpr ht
      have hlen : ev'.length + taken.length = c.future.length := by rw [t.split, List.length_append]; omega
      obtain ⟨h2, n2, u2, b2, r2⟩ := rest_follows x fuel (request ++ arrivedBytes taken) { c with now := now', future := ev' } false ⟨hs.1, by simp, hx⟩
        (by show ev'.length < fuel; omega)
      refine ⟨h1.app h2, by simp only [Hole.app, List.mem_append, not_or]; exact ⟨n1, n2⟩, u2, ?_, fun H hH => ?_⟩
      · simp only [Hole.app, allBytes_append, List.append_assoc]
        rw [b1, ← b2]
      · obtain ⟨c2, e2⟩ := r2 H hH
        obtain ⟨c1, e1⟩ := r1 _ c2
        rw [Hole.app_assoc]
        refine ⟨c1, fun fuel' hf' => ?_⟩
        have s1' := s1 (by simpa [arrivedBytes_nil] using ht)
        have hl : (allBytes (h1.app h2).ev).length = taken.length + (allBytes h2.ev).length := by
          simp only [Hole.app, s1', allBytes_append, List.length_append, allBytes, List.append_nil, arrivedBytes_length]
        cases fuel' with
        | zero => omega
        | succ fuel' =>
          rw [rtuRest]
          simp only [PyM.bind_apply, PyM.tryExcept_apply, e1, arrivedBytes_nil, ht, if_false]
          exact e2 fuel' (by omega)

/-! ## The server -/

/-- a server without a clock for a server with one -/
def srvAbsn : Absn CRtuSrv RtuSrv := ⟨fun fl s H => ⟨s.heap, s.port.absn fl H, s.timeout, s.block⟩, CRtuSrv.port⟩

theorem PortFollows.onPort {α : Type} {f : PyM CPort α} {g : PyM Port α} {s : CRtuSrv} {fl : Bool} {P : Bool → CPort → Prop} (h : PortFollows portAbsn f g s.port fl P) :
    PortFollows srvAbsn (CRtuSrv.onPort f) (RtuSrv.onPort g) s fl (fun fl s' => P fl s'.port ∧ s'.block = s.block ∧ s'.timeout = s.timeout) := by
  obtain ⟨h, fl', h1, h2, h3, h4⟩ := h
  refine ⟨h, fl', ⟨h1, rfl, rfl⟩, h2, h3, fun H hH => ⟨(h4 H hH).1, ?_⟩⟩
  have e : g (s.port.absn fl (h.app H)) = _ := (h4 H hH).2
  simp only [srvAbsn, RtuSrv.onPort, CRtuSrv.onPort, e]
  rfl

theorem PortFollows.onHeap {α : Type} {f : PyM Heap α} {s : CRtuSrv} {fl : Bool} {P : Bool → CRtuSrv → Prop} (hp : P fl (CRtuSrv.onHeap f s).2) :
    PortFollows srvAbsn (CRtuSrv.onHeap f) (RtuSrv.onHeap f) s fl P := .still hp rfl fun _ => rfl

/-- something of which the server without a clock knows nothing -/
theorem PortFollows.skip {σ τ α : Type} {A : Absn σ τ} {f : PyM σ α} {g : PyM τ α} {s : σ} {fl : Bool} {P : Bool → σ → Prop} (m : σ → σ) (h : PortFollows A f g (m s) fl P)
    (hf : (A.port (m s)).future = (A.port s).future) (ha : ∀ H, A.abs fl (m s) H = A.abs fl s H) : PortFollows A (PyM.modify m >>= fun _ => f) g s fl P := by
  obtain ⟨h, fl', h1, h2, h3, h4⟩ := h
  refine ⟨h, fl', h1, h2, by rw [← hf]; exact h3, fun H hH => ?_⟩
  obtain ⟨c, e⟩ := h4 H hH
  exact ⟨⟨c.there, fun h => c.over (hf.trans h)⟩, by rw [← ha]; exact e⟩

/-- writing the response -/
def rtuReply (r : Bytes) : PyM RtuSrv Unit := do
  let waiting ← RtuSrv.onPort portInWaiting
  if waiting > 0 then pure ()
  else do
    RtuSrv.onPort (portWrite r)
    RtuSrv.onPort portCheck

theorem rtuReply_then (r : Bytes) (k : PyM RtuSrv Unit) :
    (do let waiting ← RtuSrv.onPort portInWaiting
        if waiting > 0 then k else do
          RtuSrv.onPort (portWrite r)
          RtuSrv.onPort portCheck
          k) = (rtuReply r >>= fun _ => k) := by
  funext s
  unfold rtuReply
  simp only [PyM.bind_apply]
  cases RtuSrv.onPort portInWaiting s with
  | mk q s1 =>
    cases q with
    | error e => rfl
    | ok w =>
      dsimp only
      split
      · rfl
      · simp only [PyM.bind_apply]
        cases RtuSrv.onPort (portWrite r) s1 with
        | mk q s2 => cases q <;> rfl

theorem toCome_nil {now : Nat} : ∀ {ev : List (Nat × UInt8)}, (toCome now ev).length < ev.length → ∃ T b ev', ev = (T, b) :: ev' ∧ T ≤ now
  | [], h => by simp at h
  | (T, b) :: ev', h => by
    by_cases hT : T ≤ now
    · exact ⟨T, b, ev', rfl, hT⟩
    · simp [toCome, hT] at h

theorem toCome_le (now : Nat) (ev : List (Nat × UInt8)) : (toCome now ev).length ≤ ev.length := (List.dropWhile_sublist _).length_le

/-- a server, its port and its settings -/
def SrvUnseen (x : Option Nat) (b : Bool) (t : Nat) (fl : Bool) (s : CRtuSrv) : Prop := Unseen x fl s.port ∧ s.block = b ∧ s.timeout = t
def SrvSeen (x : Option Nat) (b : Bool) (t : Nat) (fl : Bool) (s : CRtuSrv) : Prop := Seen x fl s.port ∧ s.block = b ∧ s.timeout = t

theorem SrvUnseen.seen {x : Option Nat} {b : Bool} {t : Nat} {fl : Bool} {s : CRtuSrv} (h : SrvUnseen x b t fl s) : SrvSeen x b t fl s := ⟨h.1.seen, h.2⟩

theorem reply_follows (r : Bytes) (s : CRtuSrv) {x : Option Nat} {b : Bool} {t : Nat} (hs' : SrvUnseen x b t false s) :
    PortFollows srvAbsn (crReply r) (rtuReply r) s false (SrvSeen x b t) := by
  have hs := hs'.1.1
  have hwait : CRtuSrv.onPort cPortInWaiting s = (.ok (s.port.future.length - (toCome s.port.now s.port.future).length), s) := by
    simp only [CRtuSrv.onPort, cPortInWaiting, hs, not_true_eq_false, if_false]
  by_cases hw : s.port.future.length - (toCome s.port.now s.port.future).length > 0
  · have e : crReply r s = (.ok (), s) := by
      unfold crReply
      simp only [PyM.bind_apply, hwait]
      rw [if_pos hw]
      rfl
    obtain ⟨T, b, ev', h1, h2⟩ := toCome_nil (now := s.port.now) (ev := s.port.future) (by omega)
    refine ⟨⟨[], [1], []⟩, true, ?_, by simp, by rw [e]; rfl, fun H hH => ?_⟩
    · rw [e]; exact ⟨⟨hs, fun _ => ⟨T, b, ev', h1, h2⟩, hs'.1.2.2⟩, hs'.2⟩
    · rw [e] at hH ⊢
      obtain ⟨b', bs, F, hF⟩ := hH.there rfl
      refine ⟨⟨by simp, hH.over⟩, ?_⟩
      simp only [rtuReply, PyM.bind_apply, RtuSrv.onPort, srvAbsn, CPort.absn, Bool.false_eq_true, if_false, if_true, portInWaiting, CPort.held, Hole.app, hs,
        not_true_eq_false, List.nil_append, List.cons_append, List.headD_cons, List.tail_cons, Port.arriveN, Port.arrive, hF, List.length_cons, Nat.zero_lt_succ]
      rfl
  · have e : crReply r s = (.ok (), { s with port := { s.port with written := s.port.written ++ [(s.port.now, r)], now := s.port.now + s.port.charTime * r.length + s.timeout } }) := by
      unfold crReply
      simp only [PyM.bind_apply, hwait]
      rw [if_neg hw]
      simp only [PyM.bind_apply, CRtuSrv.onPort, cPortWrite, hs, not_true_eq_false, if_false]
      rfl
    refine ⟨⟨[], [0], []⟩, false, ?_, by simp, by rw [e]; rfl, fun H hH => ?_⟩
    · rw [e]; exact ⟨⟨hs, by simp, hs'.1.2.2⟩, hs'.2⟩
    · rw [e] at hH ⊢
      refine ⟨⟨by simp, hH.over⟩, ?_⟩
      simp only [rtuReply, PyM.bind_apply, RtuSrv.onPort, srvAbsn, CPort.absn, Bool.false_eq_true, if_false, portInWaiting, CPort.held, Hole.app, hs,
        not_true_eq_false, List.nil_append, List.cons_append, List.headD_cons, List.tail_cons, Port.arriveN, List.length_nil, gt_iff_lt, Nat.lt_irrefl, portWrite, portCheck]
      simp

/-- handling a request -/
theorem answer_follows (R : Registry) (db : Databank) (request : Bytes) (s : CRtuSrv) {x : Option Nat} {b : Bool} {t : Nat} {fl : Bool} (hs : SrvUnseen x b t fl s) :
    PortFollows srvAbsn (crAnswer R db request) (rtuAnswer R db request) s fl (SrvSeen x b t) := by
  unfold crAnswer rtuAnswer
  refine PortFollows.bind (P := SrvUnseen x b t) (.lift hs) (fun _ _ h => h.seen) fun v s1 fl1 _ h1 => ?_
  refine PortFollows.skip _ ?_ rfl (fun H => rfl)
  refine PortFollows.bind (P := SrvUnseen x b t) (.onHeap h1) (fun _ _ h => h.seen) fun resp s2 fl2 _ h2 => ?_
  refine PortFollows.bind (P := SrvUnseen x b t) (.lift h2) (fun _ _ h => h.seen) fun v2 s3 fl3 _ h3 => ?_
  obtain rfl := h3.1.2.1
  have last : ∀ (y : Option Bytes) (s : CRtuSrv) fl, SrvSeen x b t fl s →
      PortFollows srvAbsn (do let _ ← PyM.lift (callHooks R "modbus_rtu.RtuServer.after_write" (msgArg y)); return ())
        (do let _ ← PyM.lift (callHooks R "modbus_rtu.RtuServer.after_write" (msgArg y)); return ()) s fl (SrvSeen x b t) := fun y s fl h =>
    PortFollows.bind (P := SrvSeen x b t) (.lift h) (fun _ _ h => h) fun _ _ _ _ h => .pure h
  dsimp only
  generalize (if v2.isSome = true then v2 else resp) = y
  cases y with
  | none => exact last none s3 false h3.seen
  | some r =>
    cases r with
    | nil => exact last (some []) s3 false h3.seen
    | cons c cs =>
      dsimp only
      rw [rtuReply_then]
      exact PortFollows.bind (reply_follows (c :: cs) s3 h3) (fun _ _ h => h) fun _ s4 fl4 _ h4 => last (some (c :: cs)) s4 fl4 h4

/-- the beginning of a request -/
theorem start_follows (s : CRtuSrv) (fl : Bool) {x : Option Nat} {b : Bool} {t : Nat} (hs : SrvSeen x b t fl s) (hx : b = false → x = some t) :
    PortFollows srvAbsn crStart rtuStart s fl (SrvSeen (some t) b t) := by
  obtain ⟨h1, rfl, rfl⟩ := hs
  cases hb : s.block with
  | false =>
    have e : crStart s = (.ok [], s) := by unfold crStart; simp [hb]
    refine .still ?_ (by rw [e]) fun H => ?_
    · rw [e]; rw [hx hb] at h1; exact ⟨h1, hb, rfl⟩
    · rw [e]
      unfold rtuStart
      simp [srvAbsn, hb]
  | true =>
    have e : crStart s = CRtuSrv.onPort (crFirst s.timeout) s := by unfold crStart; rw [if_pos hb]
    have := (PortFollows.onPort (first_follows s.timeout s.port fl h1)).mono (Q := SrvSeen (some s.timeout) true s.timeout)
      fun fl s' h => ⟨h.1.seen, h.2.1.trans hb, h.2.2⟩
    obtain ⟨h, fl', a1, a2, a3, a4⟩ := this
    refine ⟨h, fl', by rw [e]; exact a1, a2, by rw [e]; exact a3, fun H hH => ?_⟩
    rw [e] at hH ⊢
    refine ⟨(a4 H hH).1, ?_⟩
    rw [← (a4 H hH).2]
    unfold rtuStart
    rw [if_pos (by exact hb)]
    rfl

theorem total_bytes (s : Port) : s.total = s.buf.length + (allBytes s.future).length := by
  have : ∀ ev : List SerialEvent, (ev.map fun | .chunk bs => bs.length | _ => 0).sum = (allBytes ev).length := by
    intro ev
    induction ev with
    | nil => rfl
    | cons e ev ih => cases e <;> simp [allBytes, ih]
  exact congrArg (s.buf.length + ·) (this s.future)

theorem absn_total (fl : Bool) (c : CPort) (H : Hole) : (c.absn fl H).total = (allBytes H.ev).length := by
  rw [total_bytes]
  cases fl with
  | false => simp [CPort.absn, CPort.held]
  | true =>
    simp only [CPort.absn, if_true, CPort.held, Port.arrive]
    cases hH : H.ev with
    | nil => simp [allBytes]
    | cons e ev => cases e <;> simp [allBytes]

/-- the rest of a request -/
theorem rest_srv (s : CRtuSrv) (fl : Bool) (request : Bytes) {y : Nat} {b : Bool} {t : Nat} (hs : SrvSeen (some y) b t fl s) :
    PortFollows srvAbsn (PyM.get >>= fun s => CRtuSrv.onPort (crRest (s.port.future.length + 1) request))
      (PyM.get >>= fun s => RtuSrv.onPort (rtuRest (s.port.total + 1) request)) s fl (SrvUnseen (some y) b t) := by
  obtain ⟨h, h1, h2, h3, h4⟩ := rest_follows y (s.port.future.length + 1) request s.port fl hs.1 (by omega)
  refine ⟨h, false, ⟨h2, hs.2⟩, h1, h3, fun H hH => ⟨(h4 H hH).1, ?_⟩⟩
  have e := (h4 H hH).2 ((s.port.absn fl (h.app H)).total + 1) (by
    rw [absn_total]
    simp only [Hole.app, allBytes_append, List.length_append]
    omega)
  simp only [PyM.bind_apply, PyM.get_apply, RtuSrv.onPort, CRtuSrv.onPort, srvAbsn] at e ⊢
  rw [e]

/-- `_do_run` -/
theorem crRun_follows (R : Registry) (db : Databank) (s : CRtuSrv) (fl : Bool) {x : Option Nat} {b : Bool} {t : Nat} (hs : SrvSeen x b t fl s) (hx : b = false → x = some t) :
    PortFollows srvAbsn (crRun R db) (rtuRun R db) s fl (SrvSeen (some t) b t) := by
  have body : PortFollows srvAbsn (crBody R db) (rtuBody R db) s fl (SrvSeen (some t) b t) := by
    have := PortFollows.bind (start_follows s fl hs hx) (fun _ _ h => h) (fun request s1 fl1 _ h1 =>
      PortFollows.bind (Q := SrvSeen (some t) b t) (rest_srv s1 fl1 request h1) (fun _ _ h => h.seen) (k := fun request => if request = [] then pure () else crAnswer R db request)
        (k' := fun request => if request = [] then pure () else rtuAnswer R db request) fun request s2 fl2 _ h2 => by
          by_cases hr : request = []
          · simp only [hr, if_true]; exact .pure h2.seen
          · simp only [hr, if_false]; exact answer_follows R db request s2 h2)
    exact this
  exact PortFollows.tryExcept body (fun _ _ h => h) fun e s1 fl1 _ h1 => PortFollows.bind (P := SrvSeen (some t) b t) (.lift h1) (fun _ _ h => h) fun _ _ _ _ h => .pure h

theorem runs_follow (R : Registry) (db : Databank) {b : Bool} {t : Nat} : ∀ (n : Nat) (s : CRtuSrv) (fl : Bool) {x : Option Nat}, SrvSeen x b t fl s → (b = false → x = some t) →
    PortFollows srvAbsn (crRuns R db n) (rtuRuns R db n) s fl (fun fl s => ∃ x, SrvSeen x b t fl s)
  | 0, _, _, _, hs, _ => .pure ⟨_, hs⟩
  | _+1, s, fl, _, hs, hx => PortFollows.bind (crRun_follows R db s fl hs hx) (fun _ _ h => ⟨_, h⟩) fun _ s1 fl1 _ h1 => runs_follow R db _ s1 fl1 h1 fun _ => rfl

/-! ## The master -/

/-- a master's port without a clock -/
def rtuAbsn : Absn CRtu Port := ⟨fun fl l H => l.port.absn fl H, CRtu.port⟩

/-- a master of which nothing has been looked at; its settings -/
def Mast (x : Nat) (sw echo : Bool) (fl : Bool) (l : CRtu) : Prop := fl = false ∧ l.port.timeout = some x ∧ l.useSwTimeout = sw ∧ l.handleLocalEcho = echo

/-- an operation that leaves the bytes to come -/
theorem PortFollows.keep {α : Type} {f : PyM CPort α} {g : PyM Port α} {l : CRtu} {x : Nat} {sw echo fl : Bool} (hl : Mast x sw echo fl l)
    (hfut : (f l.port).2.future = l.port.future) (hto : (f l.port).2.timeout = l.port.timeout) (hg : ∀ H, g (l.port.held H) = ((f l.port).1, (f l.port).2.held H)) :
    PortFollows rtuAbsn (CRtu.onPort f) g l fl (Mast x sw echo) := by
  obtain ⟨rfl, h1, h2, h3⟩ := hl
  refine ⟨{}, false, ⟨rfl, hto.trans h1, h2, h3⟩, by simp, ?_, fun H hH => ⟨⟨by simp, fun h => hH.over (hfut.trans h)⟩, hg H⟩⟩
  show arrivedBytes l.port.future = arrivedBytes (f l.port).2.future
  rw [hfut]

theorem arrived_toCome (now : Nat) (ev : List (Nat × UInt8)) :
    ∃ D, arrivedBytes ev = D ++ arrivedBytes (toCome now ev) ∧ (D = [] → toCome now ev = ev) := by
  refine ⟨arrivedBytes (ev.takeWhile fun e => e.1 ≤ now), ?_, fun h => ?_⟩
  · rw [← arrivedBytes_append]; unfold toCome; rw [List.takeWhile_append_dropWhile]
  · have := arrivedBytes_nil.mp h
    have h2 := List.takeWhile_append_dropWhile (p := fun e : Nat × UInt8 => decide (e.1 ≤ now)) (l := ev)
    rw [this] at h2
    exact h2

theorem reset_follows {l : CRtu} {x : Nat} {sw echo fl : Bool} (hl : Mast x sw echo fl l) : PortFollows rtuAbsn (CRtu.onPort cPortReset) portResetInput l fl (Mast x sw echo) := by
  cases ho : l.port.isOpen with
  | false =>
    refine .keep hl ?_ ?_ fun H => ?_ <;> simp [cPortReset, ho, portResetInput, CPort.held]
  | true =>
    obtain ⟨rfl, h1, h2, h3⟩ := hl
    obtain ⟨D, d1, d2⟩ := arrived_toCome l.port.now l.port.future
    have e : cPortReset l.port = (.ok (), { l.port with future := toCome l.port.now l.port.future }) := by simp [cPortReset, ho]
    by_cases hD : D = []
    · rw [d2 hD] at e
      refine ⟨⟨[], [0], []⟩, false, ?_, by simp, ?_, fun H hH => ?_⟩
      · simp only [CRtu.onPort, e]; exact ⟨rfl, h1, h2, h3⟩
      · simp only [CRtu.onPort, e]; rfl
      · simp only [CRtu.onPort, e] at hH ⊢
        refine ⟨⟨by simp, hH.over⟩, ?_⟩
        simp [rtuAbsn, portResetInput, CPort.absn, CPort.held, ho, Hole.app, Port.arriveN]
    · refine ⟨⟨[.chunk D], [1], []⟩, false, ?_, by simp, ?_, fun H hH => ?_⟩
      · simp only [CRtu.onPort, e]; exact ⟨rfl, h1, h2, h3⟩
      · simp only [CRtu.onPort, e]; rw [show allBytes [SerialEvent.chunk D] = D from List.append_nil _]; exact d1
      · simp only [CRtu.onPort, e] at hH ⊢
        refine ⟨⟨by simp, fun h => ?_⟩, ?_⟩
        · have h' : l.port.future = [] := h
          rw [h'] at d1
          simp [arrivedBytes] at d1
          exact absurd d1.1 hD
        · simp [rtuAbsn, portResetInput, CPort.absn, CPort.held, ho, Hole.app, Port.arriveN, Port.arrive]

theorem masterRead_follows (n : Nat) {l : CRtu} {x : Nat} {sw echo fl : Bool} (hl : Mast x sw echo fl l) :
    PortFollows rtuAbsn (CRtu.onPort (cPortRead n)) (portRead n) l fl (Mast x sw echo) := by
  cases ho : l.port.isOpen with
  | false => refine .keep hl ?_ ?_ fun H => ?_ <;> simp [cPortRead, ho, portRead, CPort.held]
  | true =>
    obtain ⟨rfl, h1, h2, h3⟩ := hl
    obtain ⟨h, fl', a1, a2, a3, a4⟩ := read_follows n l.port false (by simp) x ⟨ho, by simp, h1⟩
    exact ⟨h, fl', ⟨a1.2.1, a1.2.2, h2, h3⟩, a2, a3, a4⟩

/-- `_send` -/
theorem send_follows (R : Registry) (request : Bytes) {l : CRtu} {x : Nat} {sw echo fl : Bool} (hl : Mast x sw echo fl l) :
    PortFollows rtuAbsn (crSend R request) (rtuSend R ⟨sw, echo⟩ request) l fl (Mast x sw echo) := by
  unfold crSend rtuSend
  refine PortFollows.bind (P := Mast x sw echo) (.lift hl) (fun _ _ h => h) fun v l1 fl1 _ h1 => ?_
  refine PortFollows.bind (reset_follows h1) (fun _ _ h => h) fun _ l2 fl2 _ h2 => ?_
  refine PortFollows.bind (P := Mast x sw echo) (.keep h2 ?_ ?_ fun H => ?_) (fun _ _ h => h) fun _ l3 fl3 _ h3 => ?_
  · unfold cPortCheck; split <;> rfl
  · unfold cPortCheck; split <;> rfl
  · cases ho : l2.port.isOpen <;> simp [cPortCheck, portCheck, ho, CPort.held]
  have hw : ∀ (k : PyM Port Unit) l4 fl4, Mast x sw echo fl4 l4 →
      (∀ l5 fl5, Mast x sw echo fl5 l5 → PortFollows rtuAbsn (crEcho (v.getD request).length) k l5 fl5 (Mast x sw echo)) →
      PortFollows rtuAbsn (CRtu.onPort (cPortWrite (v.getD request)) >>= fun _ => crEcho (v.getD request).length)
        (do portWrite (v.getD request); portCheck; k) l4 fl4 (Mast x sw echo) := by
    intro k l4 fl4 h4 hk
    have := PortFollows.bind (Q := Mast x sw echo) (f := CRtu.onPort (cPortWrite (v.getD request))) (g := portWrite (v.getD request) >>= fun _ => portCheck)
      (k := fun _ => crEcho (v.getD request).length) (k' := fun _ => k) (.keep h4 ?_ ?_ fun H => ?_) (fun _ _ h => h) fun _ l5 fl5 _ h5 => hk l5 fl5 h5
    · obtain ⟨h, fl', a1, a2, a3, a4⟩ := this
      refine ⟨h, fl', a1, a2, a3, fun H hH => ⟨(a4 H hH).1, ?_⟩⟩
      rw [← (a4 H hH).2]
      simp only [PyM.bind_apply]
      cases portWrite (v.getD request) (rtuAbsn.abs fl4 l4 (h.app H)) with
      | mk q s2 => cases q <;> rfl
    · unfold cPortWrite; split <;> rfl
    · unfold cPortWrite; split <;> rfl
    · cases ho : l4.port.isOpen <;> simp [cPortWrite, portWrite, portCheck, ho, CPort.held]
  refine hw _ l3 fl3 h3 fun l5 fl5 h5 => ?_
  obtain ⟨e1, e2, e3, e4⟩ := h5
  cases echo with
  | false =>
    have e : crEcho (v.getD request).length l5 = (.ok (), l5) := by simp [crEcho, e4]
    refine .still (by rw [e]; exact ⟨e1, e2, e3, e4⟩) (by rw [e]) fun H => by rw [e]; rfl
  | true =>
    have e : crEcho (v.getD request).length l5 = (CRtu.onPort (cPortRead (v.getD request).length) >>= fun _ => Pure.pure ()) l5 := by simp only [crEcho, e4]; rfl
    have := PortFollows.bind (masterRead_follows (v.getD request).length ⟨e1, e2, e3, e4⟩) (Q := Mast x sw true) (k := fun _ => Pure.pure ()) (k' := fun _ => Pure.pure ())
      (fun _ _ h => h) fun _ _ _ _ h => PortFollows.pure (x := ()) h
    obtain ⟨h, fl', a1, a2, a3, a4⟩ := this
    exact ⟨h, fl', by rw [e]; exact a1, a2, by rw [e]; exact a3, fun H hH => by rw [e] at hH ⊢; exact a4 H hH⟩

/-- the loop of `_recv` -/
theorem recvLoop_follows (sw echo : Bool) (start : Nat) (L : Int) (x : Nat) : ∀ (fuel : Nat) (response : Bytes) (readed : Int) (c : CPort), c.isOpen = true → c.timeout = some x →
    c.future.length < fuel →
    ∃ (h : Hole), .fail ∉ h.ev ∧ (crRecvLoop sw start L fuel response readed c).2.isOpen = true ∧ (crRecvLoop sw start L fuel response readed c).2.timeout = some x ∧
      arrivedBytes c.future = allBytes h.ev ++ arrivedBytes (crRecvLoop sw start L fuel response readed c).2.future ∧
      ∀ H, Comes false (crRecvLoop sw start L fuel response readed c).2 H → Comes false c (h.app H) ∧
        ∀ fuel', (allBytes h.ev).length < fuel' → rtuRecvLoop ⟨sw, echo⟩ L fuel' response readed (c.held (h.app H)) =
          ((crRecvLoop sw start L fuel response readed c).1, (crRecvLoop sw start L fuel response readed c).2.held H)
  | 0, _, _, c, _, _, h => absurd h (Nat.not_lt_zero _)
  | fuel+1, response, readed, c, ho, hx, hf => by
    obtain ⟨taken, now', ev', e, t⟩ := cPortRead_took (rtuAsk c.timeout L readed) c ho x hx
    obtain ⟨h1, n1, b1, r1, s1⟩ := read_abs (rtuAsk c.timeout L readed) false c { c with now := now', future := ev' } (arrivedBytes taken) ho
      (by rw [arrivedBytes_length]; exact t.count) (by rw [hx]; simp) (by rw [← arrivedBytes_append, ← t.split]) (by simp) rfl
    -- the duration measured
    obtain ⟨hd, hd1, hd2⟩ : ∃ hd : Hole, hd.ev = [] ∧ ∀ (c : CPort) (H : Hole), rtuDuration ⟨sw, echo⟩ (c.held (hd.app H)) = (.ok (if sw then now' - start else 0), c.held H) := by
      cases sw with
      | false => exact ⟨{}, rfl, fun _ _ => rfl⟩
      | true => exact ⟨⟨[], [], [now' - start]⟩, rfl, fun _ _ => rfl⟩
    have hcomes : ∀ {c' : CPort} {H : Hole}, Comes false c' H → Comes false c' (hd.app H) := fun hH => ⟨by simp, fun h => by simp [Hole.app, hd1, hH.over h]⟩
    have hr : ∀ H, Comes false { c with now := now', future := ev' } H → Comes false c ((h1.app hd).app H) ∧
        portRead (rtuAsk c.timeout L readed) (c.held ((h1.app hd).app H)) = (.ok (arrivedBytes taken), ({ c with now := now', future := ev' } : CPort).held (hd.app H)) := by
      intro H hH
      rw [Hole.app_assoc]
      exact r1 _ (hcomes hH)
    have nn : .fail ∉ (h1.app hd).ev := by simp only [Hole.app, hd1, List.append_nil]; exact n1
    have bb : arrivedBytes c.future = allBytes (h1.app hd).ev ++ arrivedBytes ev' := by simp only [Hole.app, hd1, List.append_nil]; exact b1
    have ss : taken ≠ [] → (allBytes (h1.app hd).ev).length = taken.length := fun ht => by
      simp only [Hole.app, hd1, List.append_nil, s1 (by simpa [arrivedBytes_nil] using ht), allBytes, arrivedBytes_length]
    -- one round without a clock
    have ustep : ∀ H, Comes false { c with now := now', future := ev' } H → ∀ fuel', rtuRecvLoop ⟨sw, echo⟩ L (fuel' + 1) response readed (c.held ((h1.app hd).app H)) =
        if taken = [] then (.ok response, ({ c with now := now', future := ev' } : CPort).held H)
        else if (if sw then now' - start else 0) > x then (.ok response, ({ c with now := now', future := ev' } : CPort).held H)
        else if L ≥ 0 ∧ ((response ++ arrivedBytes taken).length : Int) ≥ L then (.ok (response ++ arrivedBytes taken), ({ c with now := now', future := ev' } : CPort).held H)
        else rtuRecvLoop ⟨sw, echo⟩ L fuel' (response ++ arrivedBytes taken) (readed + taken.length) (({ c with now := now', future := ev' } : CPort).held H) := by
      intro H hH fuel'
      have hto : (c.held ((h1.app hd).app H)).timeout = c.timeout := rfl
      rw [rtuRecvLoop]
      simp only [PyM.bind_apply, PyM.get_apply, hto, (hr H hH).2, hd2, arrivedBytes_nil, arrivedBytes_length]
      simp only [hx]
      generalize (if sw = true then now' - start else 0) = dur
      split
      · rfl
      · split
        · rfl
        · split <;> rfl
    have cstep : crRecvLoop sw start L (fuel + 1) response readed c =
        if taken = [] then (.ok response, { c with now := now', future := ev' })
        else if (if sw then now' - start else 0) > x then (.ok response, { c with now := now', future := ev' })
        else if L ≥ 0 ∧ ((response ++ arrivedBytes taken).length : Int) ≥ L then (.ok (response ++ arrivedBytes taken), { c with now := now', future := ev' })
        else crRecvLoop sw start L fuel (response ++ arrivedBytes taken) (readed + taken.length) { c with now := now', future := ev' } := by
      rw [crRecvLoop]
      simp only [PyM.bind_apply, PyM.get_apply, e, arrivedBytes_nil, arrivedBytes_length]
      simp only [hx]
      generalize (if sw = true then now' - start else 0) = dur
      split
      · rfl
      · split
        · rfl
        · split <;> rfl
    have hfuel : ∀ fuel', (allBytes (h1.app hd).ev).length < fuel' → ∃ m, fuel' = m + 1 := fun f h => ⟨f - 1, by omega⟩
    rw [cstep]
    by_cases ht : taken = []
    · rw [if_pos ht]
      refine ⟨h1.app hd, nn, ho, hx, bb, fun H hH => ⟨(hr H hH).1, fun fuel' hf' => ?_⟩⟩
      obtain ⟨m, rfl⟩ := hfuel _ hf'
      rw [ustep H hH, if_pos ht]
    · rw [if_neg ht]
      by_cases hd' : (if sw then now' - start else 0) > x
      · rw [if_pos hd']
        refine ⟨h1.app hd, nn, ho, hx, bb, fun H hH => ⟨(hr H hH).1, fun fuel' hf' => ?_⟩⟩
        obtain ⟨m, rfl⟩ := hfuel _ hf'
        rw [ustep H hH, if_neg ht, if_pos hd']
      · rw [if_neg hd']
        by_cases hL : L ≥ 0 ∧ ((response ++ arrivedBytes taken).length : Int) ≥ L
        · rw [if_pos hL]
          refine ⟨h1.app hd, nn, ho, hx, bb, fun H hH => ⟨(hr H hH).1, fun fuel' hf' => ?_⟩⟩
          obtain ⟨m, rfl⟩ := hfuel _ hf'
          rw [ustep H hH, if_neg ht, if_neg hd', if_pos hL]
        · rw [if_neg hL]
          have hpos : 0 < taken.length := List.length_pos_iff.mpr ht
          have hlen : ev'.length + taken.length = c.future.length := by rw [t.split, List.length_append]; omega
          obtain ⟨h2, n2, o2, x2, b2, r2⟩ := recvLoop_follows sw echo start L x fuel (response ++ arrivedBytes taken) (readed + taken.length) { c with now := now', future := ev' } ho hx
            (by show ev'.length < fuel; omega)
          refine ⟨(h1.app hd).app h2, by rw [Hole.app, List.mem_append, not_or]; exact ⟨nn, n2⟩, o2, x2, ?_, fun H hH => ?_⟩
          · rw [Hole.app, allBytes_append, List.append_assoc, ← b2]
            exact bb
          · obtain ⟨c2, e2⟩ := r2 H hH
            rw [Hole.app_assoc]
            refine ⟨(hr _ c2).1, fun fuel' hf' => ?_⟩
            have hl : (allBytes ((h1.app hd).app h2).ev).length = taken.length + (allBytes h2.ev).length := by
              rw [Hole.app, allBytes_append, List.length_append, ss ht]
            obtain ⟨m, rfl⟩ : ∃ m, fuel' = m + 1 := ⟨fuel' - 1, by omega⟩
            rw [ustep _ c2, if_neg ht, if_neg hd', if_neg hL]
            exact e2 m (by omega)

/-- `_recv` -/
theorem recv_follows (R : Registry) (L : Int) {l : CRtu} {x : Nat} {sw echo fl : Bool} (hl : Mast x sw echo fl l) :
    PortFollows rtuAbsn (crRecv R L) (rtuRecv R ⟨sw, echo⟩ L) l fl (Mast x sw echo) := by
  have loop : PortFollows rtuAbsn (PyM.get >>= fun s => CRtu.onPort (crRecvLoop s.useSwTimeout s.port.now L (s.port.future.length + 1) [] 0))
      (PyM.get >>= fun s => rtuRecvLoop ⟨sw, echo⟩ L (s.total + 1) [] 0) l fl (Mast x sw echo) := by
    obtain ⟨rfl, h1, rfl, h3⟩ := hl
    cases ho : l.port.isOpen with
    | false =>
      have e1 : crRecvLoop l.useSwTimeout l.port.now L (l.port.future.length + 1) [] 0 l.port = (.error .osError, l.port) := by
        rw [crRecvLoop]; simp [cPortRead, ho]
      have e2 : ∀ H, rtuRecvLoop ⟨l.useSwTimeout, echo⟩ L ((l.port.held H).total + 1) [] 0 (l.port.held H) = (.error .osError, l.port.held H) := by
        intro H; rw [rtuRecvLoop]; simp [portRead, ho, CPort.held]
      refine .still ?_ ?_ fun H => ?_
      · simp only [PyM.bind_apply, PyM.get_apply, CRtu.onPort, e1]; exact ⟨rfl, h1, rfl, h3⟩
      · simp only [PyM.bind_apply, PyM.get_apply, CRtu.onPort, e1]
      · simp only [PyM.bind_apply, PyM.get_apply, CRtu.onPort, e1]; exact e2 H
    | true =>
      obtain ⟨h, a1, a2, a3, a4, a5⟩ := recvLoop_follows l.useSwTimeout echo l.port.now L x (l.port.future.length + 1) [] 0 l.port ho h1 (by omega)
      refine ⟨h, false, ⟨rfl, a3, rfl, h3⟩, a1, a4, fun H hH => ⟨(a5 H hH).1, ?_⟩⟩
      exact (a5 H hH).2 ((l.port.held (h.app H)).total + 1) (by
        rw [show (l.port.held (h.app H)).total = _ from absn_total false l.port (h.app H)]
        simp only [Hole.app, allBytes_append, List.length_append]
        omega)
  exact PortFollows.bind loop (fun _ _ h => h) fun response l1 fl1 _ h1 =>
    PortFollows.bind (P := Mast x sw echo) (.lift h1) (fun _ _ h => h) fun v l2 fl2 _ h2 => .pure h2

/-- `_do_open` -/
theorem doOpen_follows (R : Registry) {l : CRtu} {x : Nat} {sw echo fl : Bool} (hl : Mast x sw echo fl l) :
    PortFollows rtuAbsn (crDoOpen R) (rtuDoOpen R) l fl (Mast x sw echo) := by
  obtain ⟨rfl, h1, h2, h3⟩ := hl
  cases ho : l.port.isOpen with
  | true =>
    have e : crDoOpen R l = (.ok (), l) := by simp [crDoOpen, ho]
    exact .still (by rw [e]; exact ⟨rfl, h1, h2, h3⟩) (by rw [e]) fun H => by rw [e]; simp [rtuDoOpen, rtuAbsn, CPort.absn, CPort.held, ho]
  | false =>
    have e : crDoOpen R l = (PyM.lift (callHooks R "modbus_rtu.RtuMaster.before_open" .obj) >>= fun _ => CRtu.onPort cPortOpen) l := by simp [crDoOpen, ho]
    have this : PortFollows rtuAbsn (PyM.lift (callHooks R "modbus_rtu.RtuMaster.before_open" .obj) >>= fun _ => CRtu.onPort cPortOpen)
        (PyM.lift (callHooks R "modbus_rtu.RtuMaster.before_open" .obj) >>= fun _ => portOpen) l false (Mast x sw echo) := by
      refine PortFollows.bind (P := fun fl l' => Mast x sw echo fl l' ∧ l'.port.isOpen = false) (.lift ⟨⟨rfl, h1, h2, h3⟩, ho⟩) (fun _ _ h => h.1) fun v l1 fl1 _ h => ?_
      obtain ⟨hm, ho'⟩ := h
      refine .keep hm ?_ ?_ fun H => ?_
      · unfold cPortOpen; rw [ho']; simp only [Bool.false_eq_true, if_false]; split <;> rfl
      · unfold cPortOpen; rw [ho']; simp only [Bool.false_eq_true, if_false]; split <;> rfl
      · unfold cPortOpen portOpen
        simp only [ho', CPort.held, Bool.false_eq_true, if_false]
        generalize l1.port.opens = op
        cases op with
        | nil => rfl
        | cons b r => cases b <;> rfl
    obtain ⟨h, fl', a1, a2, a3, a4⟩ := this
    refine ⟨h, fl', by rw [e]; exact a1, a2, by rw [e]; exact a3, fun H hH => ?_⟩
    rw [e] at hH ⊢
    refine ⟨(a4 H hH).1, ?_⟩
    rw [← (a4 H hH).2]
    simp [rtuDoOpen, rtuAbsn, CPort.absn, CPort.held, ho]

/-- `_do_close` -/
theorem doClose_follows (R : Registry) {l : CRtu} {x : Nat} {sw echo fl : Bool} (hl : Mast x sw echo fl l) :
    PortFollows rtuAbsn (crDoClose R) (rtuDoClose R) l fl (Mast x sw echo) := by
  obtain ⟨rfl, h1, h2, h3⟩ := hl
  cases ho : l.port.isOpen with
  | false =>
    have e : crDoClose R l = (.ok false, l) := by simp [crDoClose, ho]
    exact .still (by rw [e]; exact ⟨rfl, h1, h2, h3⟩) (by rw [e]) fun H => by rw [e]; simp [rtuDoClose, rtuAbsn, CPort.absn, CPort.held, ho]
  | true =>
    let f : PyM CRtu Bool := CRtu.onPort cPortClose >>= fun _ => PyM.lift (callHooks R "modbus_rtu.RtuMaster.after_close" .obj) >>= fun _ => Pure.pure true
    let g : PyM Port Bool := portClose >>= fun _ => PyM.lift (callHooks R "modbus_rtu.RtuMaster.after_close" .obj) >>= fun _ => Pure.pure true
    have e : crDoClose R l = f l := by unfold crDoClose; rw [if_pos ho]
    have this : PortFollows rtuAbsn f g l false (Mast x sw echo) :=
      PortFollows.bind (P := Mast x sw echo) (.keep ⟨rfl, h1, h2, h3⟩ rfl rfl fun H => rfl) (fun _ _ h => h) fun _ l1 fl1 _ h1 =>
        PortFollows.bind (P := Mast x sw echo) (.lift h1) (fun _ _ h => h) fun v l2 fl2 _ h2 => .pure h2
    obtain ⟨h, fl', a1, a2, a3, a4⟩ := this
    refine ⟨h, fl', by rw [e]; exact a1, a2, by rw [e]; exact a3, fun H hH => ?_⟩
    rw [e] at hH ⊢
    refine ⟨(a4 H hH).1, ?_⟩
    rw [← (a4 H hH).2]
    show rtuDoClose R _ = g _
    unfold rtuDoClose
    rw [if_pos (by exact ho)]

/-- a master without a clock for a master with one -/
def mstAbsn : Absn (MasterSt CRtu) (MasterSt Port) := ⟨fun fl s H => ⟨s.isOpened, s.link.port.absn fl H, s.lastTid⟩, fun s => s.link.port⟩

theorem PortFollows.onLink {α : Type} {f : PyM CRtu α} {g : PyM Port α} {s : MasterSt CRtu} {fl : Bool} {P : Bool → CRtu → Prop} (h : PortFollows rtuAbsn f g s.link fl P) :
    PortFollows mstAbsn (onLink f) (onLink g) s fl (fun fl s => P fl s.link) := by
  obtain ⟨h, fl', h1, h2, h3, h4⟩ := h
  refine ⟨h, fl', h1, h2, h3, fun H hH => ⟨(h4 H hH).1, ?_⟩⟩
  have e : g (s.link.port.absn fl (h.app H)) = _ := (h4 H hH).2
  simp only [mstAbsn, Modbus.onLink, e]
  rfl

theorem open_follows (R : Registry) {s : MasterSt CRtu} {x : Nat} {sw echo fl : Bool} (hl : Mast x sw echo fl s.link) :
    PortFollows mstAbsn (masterOpen (clockedRtu R)) (masterOpen (rtuChan R ⟨sw, echo⟩)) s fl (fun fl s => Mast x sw echo fl s.link) := by
  cases ho : s.isOpened with
  | true =>
    have e : masterOpen (clockedRtu R) s = (.ok (), s) := by simp [masterOpen, ho]
    exact .still (by rw [e]; exact hl) (by rw [e]) fun H => by rw [e]; simp [masterOpen, mstAbsn, ho]
  | false =>
    obtain ⟨h, fl', h1, h2, h3, h4⟩ := doOpen_follows R hl
    cases hq : crDoOpen R s.link with
    | mk r l =>
      rw [hq] at h1 h3 h4
      have e : masterOpen (clockedRtu R) s = (match r with | .ok _ => (.ok (), { s with link := l, isOpened := true }) | .error e => (.error e, { s with link := l })) := by
        simp only [masterOpen, ho, Bool.false_eq_true, if_false, show (clockedRtu R).doOpen s.link = (r, l) from hq]
        cases r <;> rfl
      refine ⟨h, fl', ?_, h2, ?_, fun H hH => ?_⟩
      · rw [e]; cases r <;> exact h1
      · rw [e]; cases r <;> exact h3
      · rw [e] at hH ⊢
        have hH' : Comes fl' l.port H := by cases r <;> exact hH
        obtain ⟨c, e'⟩ := h4 H hH'
        refine ⟨c, ?_⟩
        have e'' : (rtuChan R ⟨sw, echo⟩).doOpen (s.link.port.absn fl (h.app H)) = (r, l.port.absn fl' H) := e'
        simp only [masterOpen, mstAbsn, ho, Bool.false_eq_true, if_false, e'']
        cases r <;> rfl

theorem close_follows (R : Registry) {s : MasterSt CRtu} {x : Nat} {sw echo fl : Bool} (hl : Mast x sw echo fl s.link) :
    PortFollows mstAbsn (masterClose (clockedRtu R)) (masterClose (rtuChan R ⟨sw, echo⟩)) s fl (fun fl s => Mast x sw echo fl s.link) := by
  cases ho : s.isOpened with
  | false =>
    have e : masterClose (clockedRtu R) s = (.ok (), s) := by simp [masterClose, ho]
    exact .still (by rw [e]; exact hl) (by rw [e]) fun H => by rw [e]; simp [masterClose, mstAbsn, ho]
  | true =>
    obtain ⟨h, fl', h1, h2, h3, h4⟩ := doClose_follows R hl
    cases hq : crDoClose R s.link with
    | mk r l =>
      rw [hq] at h1 h3 h4
      have e : masterClose (clockedRtu R) s = (match r with | .ok b => (.ok (), { s with link := l, isOpened := !b }) | .error e => (.error e, { s with link := l })) := by
        simp only [masterClose, ho, if_true, show (clockedRtu R).doClose s.link = (r, l) from hq]
        cases r <;> rfl
      refine ⟨h, fl', ?_, h2, ?_, fun H hH => ?_⟩
      · rw [e]; cases r <;> exact h1
      · rw [e]; cases r <;> exact h3
      · rw [e] at hH ⊢
        have hH' : Comes fl' l.port H := by cases r <;> exact hH
        obtain ⟨c, e'⟩ := h4 H hH'
        refine ⟨c, ?_⟩
        have e'' : (rtuChan R ⟨sw, echo⟩).doClose (s.link.port.absn fl (h.app H)) = (r, l.port.absn fl' H) := e'
        simp only [masterClose, mstAbsn, ho, if_true, e'']
        cases r <;> rfl

/-- `execute` -/
theorem execute_follows (R : Registry) (mac : Mac) (a : ExecArgs) {s : MasterSt CRtu} {x : Nat} {sw echo fl : Bool} (hl : Mast x sw echo fl s.link) :
    PortFollows mstAbsn (execute R mac (clockedRtu R) a) (execute R mac (rtuChan R ⟨sw, echo⟩) a) s fl (fun fl s => Mast x sw echo fl s.link) := by
  unfold execute
  refine PortFollows.bind (open_follows R hl) (fun _ _ h => h) fun _ s1 fl1 _ h1 => ?_
  refine PortFollows.bind (P := fun fl s => Mast x sw echo fl s.link) (.lift h1) (fun _ _ h => h) fun p s2 fl2 _ h2 => ?_
  cases a.slave with
  | none => exact .still h2 rfl fun H => rfl
  | some slave =>
    dsimp only
    refine PortFollows.bind (P := fun fl s => Mast x sw echo fl s.link) (.still (f := buildRequest mac p.pdu slave) ?_ ?_ fun H => ?_) (fun _ _ h => h) fun rq s3 fl3 _ h3 => ?_
    · unfold buildRequest; split <;> exact h2
    · unfold buildRequest; split <;> rfl
    · unfold buildRequest
      simp only [mstAbsn]
      split <;> rfl
    obtain ⟨request, q⟩ := rq
    dsimp only
    refine PortFollows.bind (P := fun fl s => Mast x sw echo fl s.link) (.lift h3) (fun _ _ h => h) fun v s4 fl4 _ h4 => ?_
    refine PortFollows.bind (.onLink (send_follows R (v.getD request) h4)) (fun _ _ h => h) fun _ s5 fl5 _ h5 => ?_
    refine PortFollows.bind (P := fun fl s => Mast x sw echo fl s.link) (.lift h5) (fun _ _ h => h) fun _ s6 fl6 _ h6 => ?_
    refine PortFollows.bind (.onLink (recv_follows R p.expectedLength h6)) (fun _ _ h => h) fun response s7 fl7 _ h7 => ?_
    refine PortFollows.bind (P := fun fl s => Mast x sw echo fl s.link) (.lift h7) (fun _ _ h => h) fun v2 s8 fl8 _ h8 => ?_
    refine PortFollows.bind (P := fun fl s => Mast x sw echo fl s.link) (.lift h8) (fun _ _ h => h) fun pdu s9 fl9 _ h9 => ?_
    exact .lift h9

/-! ## C79 -/

/-- the rest of the line, as one piece -/
def wholeRest (c : CPort) : Hole := ⟨if c.future = [] then [] else [.chunk (arrivedBytes c.future)], [], []⟩

theorem wholeRest_bytes (c : CPort) : allBytes (wholeRest c).ev = arrivedBytes c.future := by
  unfold wholeRest
  by_cases h : c.future = [] <;> simp [h, allBytes, arrivedBytes]

theorem wholeRest_comes {fl : Bool} {c : CPort} (h : fl = true → c.Waiting) : Comes fl c (wholeRest c) := by
  refine ⟨fun hf => ?_, fun hf => by simp [wholeRest, hf]⟩
  obtain ⟨T, b, ev, h1, _⟩ := h hf
  exact ⟨b, arrivedBytes ev, [], by simp [wholeRest, h1, arrivedBytes]⟩

theorem absn_unread (fl : Bool) (c : CPort) (H : Hole) : (c.absn fl H).buf ++ allBytes (c.absn fl H).future = allBytes H.ev := by
  cases fl with
  | false => simp [CPort.absn, CPort.held]
  | true =>
    simp only [CPort.absn, if_true, CPort.held, Port.arrive]
    cases hH : H.ev with
    | nil => simp [allBytes]
    | cons e ev => cases e <;> simp [allBytes]

theorem absn_written (fl : Bool) (c : CPort) (H : Hole) : (c.absn fl H).written = c.written.map Prod.snd := by
  cases fl with
  | false => rfl
  | true =>
    simp only [CPort.absn, if_true, CPort.held, Port.arrive]
    cases hH : H.ev with
    | nil => rfl
    | cons e ev => cases e <;> rfl

/-- the same server without a clock; `H`: what happens on the line, in pieces -/
def CRtuSrv.unclocked (s : CRtuSrv) (H : Hole) : RtuSrv := { heap := s.heap, port := s.port.held H, timeout := s.timeout, block := s.block }

/-- **C79.** Whatever the hooks are and whenever the bytes arrive: `n` calls of `_do_run` of an `RtuServer` do what they do without a clock on a line that delivers the same
    bytes in some pieces: same memories, same messages written, same exception, same bytes left. -/
theorem C79_server (R : Registry) (db : Databank) (n : Nat) (s : CRtuSrv) (ho : s.port.isOpen = true) (ht : s.block = false → s.port.timeout = some s.timeout) :
    ∃ H : Hole, .fail ∉ H.ev ∧ allBytes H.ev = arrivedBytes s.port.future ∧
      (rtuRuns R db n (s.unclocked H)).1 = (crRuns R db n s).1 ∧
      (rtuRuns R db n (s.unclocked H)).2.heap = (crRuns R db n s).2.heap ∧
      (rtuRuns R db n (s.unclocked H)).2.port.written = (crRuns R db n s).2.port.written.map Prod.snd ∧
      (rtuRuns R db n (s.unclocked H)).2.port.buf ++ allBytes (rtuRuns R db n (s.unclocked H)).2.port.future = arrivedBytes (crRuns R db n s).2.port.future := by
  obtain ⟨h, fl, ⟨x, p⟩, h1, h2, h3⟩ := runs_follow R db n s false (x := s.port.timeout) (b := s.block) (t := s.timeout) ⟨⟨ho, by simp, rfl⟩, rfl, rfl⟩ ht
  have e : rtuRuns R db n (s.unclocked (h.app (wholeRest (crRuns R db n s).2.port))) = _ := (h3 _ (wholeRest_comes p.1.2.1)).2
  refine ⟨h.app (wholeRest (crRuns R db n s).2.port), ?_, ?_, ?_⟩
  · simp only [Hole.app, List.mem_append, not_or]
    refine ⟨h1, ?_⟩
    unfold wholeRest
    dsimp only
    split <;> simp
  · simp only [Hole.app, allBytes_append]
    rw [wholeRest_bytes]
    exact h2.symm
  · rw [e]
    refine ⟨rfl, rfl, absn_written _ _ _, ?_⟩
    rw [← wholeRest_bytes]
    exact absn_unread _ _ _

/-- the user catches exceptions -/
def caught {σ α : Type} (f : PyM σ α) : PyM σ (Except PyErr α) := fun s => (.ok (f s).1, (f s).2)

theorem PortFollows.caught {σ τ α : Type} {A : Absn σ τ} {f : PyM σ α} {g : PyM τ α} {s : σ} {fl : Bool} {P : Bool → σ → Prop} (h : PortFollows A f g s fl P) :
    PortFollows A (Modbus.caught f) (Modbus.caught g) s fl P := by
  obtain ⟨h, fl', h1, h2, h3, h4⟩ := h
  refine ⟨h, fl', h1, h2, h3, fun H hH => ⟨(h4 H hH).1, ?_⟩⟩
  simp only [Modbus.caught, (h4 H hH).2]

/-- one operation of the user; what `execute` returns -/
def timedOp (R : Registry) : RtuOp → PyM (MasterSt CRtu) (Option ExecResult)
  | .open => do masterOpen (clockedRtu R); return none
  | .close => do masterClose (clockedRtu R); return none
  | .exec a => do let v ← execute R rtuMac (clockedRtu R) a; return some v
  | .setTimeout v sw => do onLink (crSetTimeout v sw); return none
  | .localEcho v => do PyM.modify fun s => { s with link := { s.link with handleLocalEcho := v } }; return none
  | .wait d => do PyM.modify fun s => { s with link := { s.link with port := { s.link.port with now := s.link.port.now + d } } }; return none

/-- what the user sees of a history of a master with a clock: what `execute` returns or raises, what the other methods raise -/
def timedSession (R : Registry) : List RtuOp → PyM (MasterSt CRtu) (List (Except PyErr (Option ExecResult)))
  | [] => return []
  | op :: ops => do
    let r ← caught (timedOp R op)
    let rs ← timedSession R ops
    return r :: rs

/-- the settings after an operation; a negative time-out is refused -/
def cfgAfter (o : RtuCfg) : RtuOp → RtuCfg
  | .setTimeout v sw => if v.any (· < 0) then o else { o with useSwTimeout := sw }
  | .localEcho v => { o with handleLocalEcho := v }
  | _ => o

/-- one operation, without a clock -/
def untimedOp (R : Registry) (o : RtuCfg) : RtuOp → PyM (MasterSt Port) (Option ExecResult)
  | .open => do masterOpen (rtuChan R o); return none
  | .close => do masterClose (rtuChan R o); return none
  | .exec a => do let v ← execute R rtuMac (rtuChan R o) a; return some v
  | .setTimeout v _ =>
    if v.any (· < 0) then PyM.raise .valueError
    else do PyM.modify fun s => { s with link := { s.link with timeout := v.map Int.toNat } }; return none
  | .localEcho _ => return none
  | .wait _ => return none

/-- the same history without a clock -/
def untimedSession (R : Registry) : RtuCfg → List RtuOp → PyM (MasterSt Port) (List (Except PyErr (Option ExecResult)))
  | _, [] => return []
  | o, op :: ops => do
    let r ← caught (untimedOp R o op)
    let rs ← untimedSession R (cfgAfter o op) ops
    return r :: rs

/-- an operation that is not `set_timeout(None)` -/
def RtuOp.Timed : RtuOp → Prop
  | .setTimeout none _ => False
  | _ => True

theorem op_follows (R : Registry) (op : RtuOp) (hop : op.Timed) {s : MasterSt CRtu} {x : Nat} {o : RtuCfg} {fl : Bool} (hl : Mast x o.useSwTimeout o.handleLocalEcho fl s.link) :
    ∃ y, PortFollows mstAbsn (timedOp R op) (untimedOp R o op) s fl (fun fl s => Mast y (cfgAfter o op).useSwTimeout (cfgAfter o op).handleLocalEcho fl s.link) := by
  cases op with
  | «open» => exact ⟨x, PortFollows.bind (open_follows R hl) (fun _ _ h => h) fun _ _ _ _ h => .pure h⟩
  | close => exact ⟨x, PortFollows.bind (close_follows R hl) (fun _ _ h => h) fun _ _ _ _ h => .pure h⟩
  | exec a => exact ⟨x, PortFollows.bind (execute_follows R rtuMac a hl) (fun _ _ h => h) fun _ _ _ _ h => .pure h⟩
  | wait d =>
    obtain ⟨rfl, h2⟩ := hl
    exact ⟨x, .skip _ (.pure ⟨rfl, h2⟩) rfl fun _ => rfl⟩
  | localEcho v =>
    obtain ⟨rfl, h1, h2, h3⟩ := hl
    exact ⟨x, .skip _ (.pure ⟨rfl, h1, h2, rfl⟩) rfl fun _ => rfl⟩
  | setTimeout v sw =>
    obtain ⟨rfl, h1, h2, h3⟩ := hl
    cases v with
    | none => exact hop.elim
    | some v =>
      by_cases hv : v < 0
      · have e : timedOp R (.setTimeout (some v) sw) s = (.error .valueError, { s with link := { s.link with timeout := some v } }) := by
          simp [timedOp, onLink, crSetTimeout, PyM.bind_apply, hv]
        refine ⟨x, .still ?_ (by rw [e]; rfl) fun H => ?_⟩
        · rw [e]
          exact ⟨rfl, h1, by simpa [cfgAfter, hv] using h2, by simpa [cfgAfter, hv] using h3⟩
        · rw [e]
          simp [untimedOp, hv, PyM.raise, mstAbsn]
      · have e : timedOp R (.setTimeout (some v) sw) s = (.ok none, { s with link := { s.link with timeout := some v, port := { s.link.port with timeout := some v.toNat }, useSwTimeout := sw } }) := by
          simp [timedOp, onLink, crSetTimeout, PyM.bind_apply, hv]
        refine ⟨v.toNat, {}, false, ?_, by simp, by rw [e]; rfl, fun H hH => ⟨?_, ?_⟩⟩
        · rw [e]
          exact ⟨rfl, rfl, by simp [cfgAfter, hv], by simpa [cfgAfter, hv] using h3⟩
        · rw [e] at hH
          exact ⟨hH.there, hH.over⟩
        · rw [e]
          simp only [untimedOp, Option.any_some, decide_eq_true_eq, hv, if_false, PyM.bind_apply, mstAbsn]
          rfl

theorem session_follows (R : Registry) : ∀ (ops : List RtuOp), (∀ op ∈ ops, op.Timed) → ∀ {s : MasterSt CRtu} {x : Nat} {o : RtuCfg} {fl : Bool},
    Mast x o.useSwTimeout o.handleLocalEcho fl s.link → PortFollows mstAbsn (timedSession R ops) (untimedSession R o ops) s fl (fun fl _ => fl = false)
  | [], _, _, _, _, _, hl => .pure hl.1
  | op :: ops, h, s, x, o, fl, hl => by
    obtain ⟨y, hf⟩ := op_follows R op (h op (by simp)) hl
    refine PortFollows.bind hf.caught (fun _ _ h => h.1) fun r s1 fl1 _ h1 => ?_
    refine PortFollows.bind (session_follows R ops (fun op ho => h op (by simp [ho])) h1) (fun _ _ h => h) fun rs s2 fl2 _ h2 => ?_
    exact .pure h2

/-- the same master without a clock; `H`: what happens on the line, in pieces -/
def unclockedMaster (s : MasterSt CRtu) (H : Hole) : MasterSt Port := ⟨s.isOpened, s.link.port.held H, s.lastTid⟩

/-- **C79.** Whatever the hooks are and whenever the bytes arrive: in a history of an `RtuMaster` (`open`, `close`, `execute`, `set_timeout` with a number, `set` of
    `handle_local_echo`, pauses) every call returns or raises what it does without a clock, on a line that delivers the same bytes in some pieces (and when some durations are
    measured); the same requests are written, the same bytes are left. -/
theorem C79_master (R : Registry) (ops : List RtuOp) (hops : ∀ op ∈ ops, op.Timed) (s : MasterSt CRtu) (x : Nat) (hx : s.link.port.timeout = some x) :
    ∃ H : Hole, .fail ∉ H.ev ∧ allBytes H.ev = arrivedBytes s.link.port.future ∧
      (untimedSession R ⟨s.link.useSwTimeout, s.link.handleLocalEcho⟩ ops (unclockedMaster s H)).1 = (timedSession R ops s).1 ∧
      (untimedSession R ⟨s.link.useSwTimeout, s.link.handleLocalEcho⟩ ops (unclockedMaster s H)).2.isOpened = (timedSession R ops s).2.isOpened ∧
      (untimedSession R ⟨s.link.useSwTimeout, s.link.handleLocalEcho⟩ ops (unclockedMaster s H)).2.link.written =
        (timedSession R ops s).2.link.port.written.map Prod.snd ∧
      (untimedSession R ⟨s.link.useSwTimeout, s.link.handleLocalEcho⟩ ops (unclockedMaster s H)).2.link.buf ++
        allBytes (untimedSession R ⟨s.link.useSwTimeout, s.link.handleLocalEcho⟩ ops (unclockedMaster s H)).2.link.future =
        arrivedBytes (timedSession R ops s).2.link.port.future := by
  obtain ⟨h, fl, rfl, h1, h2, h3⟩ := session_follows R ops hops (s := s) (o := ⟨s.link.useSwTimeout, s.link.handleLocalEcho⟩) (fl := false) ⟨rfl, hx, rfl, rfl⟩
  have e : untimedSession R ⟨s.link.useSwTimeout, s.link.handleLocalEcho⟩ ops (unclockedMaster s (h.app (wholeRest (timedSession R ops s).2.link.port))) = _ :=
    (h3 _ (wholeRest_comes (by simp))).2
  refine ⟨h.app (wholeRest (timedSession R ops s).2.link.port), ?_, ?_, ?_⟩
  · simp only [Hole.app, List.mem_append, not_or]
    refine ⟨h1, ?_⟩
    unfold wholeRest
    dsimp only
    split <;> simp
  · simp only [Hole.app, allBytes_append]
    rw [wholeRest_bytes]
    exact h2.symm
  · rw [e]
    refine ⟨rfl, rfl, absn_written _ _ _, ?_⟩
    rw [← wholeRest_bytes]
    exact absn_unread _ _ _

/-- the hypothesis of `C79_master` holds of a master that reads a register, waits, calls `set_timeout(50)`, reads again (no answer comes), `close()`s, and reads again ... -/
example : let ops : List RtuOp := [.exec exRtuRead, .wait 5, .setTimeout (some 50) true, .exec exRtuRead, .setTimeout (some (-1)) true, .close, .exec exRtuRead]
    (∀ op ∈ ops, op.Timed) ∧ (exRtuMaster exRtuAnswer).link.port.timeout = some 100 := by
  refine ⟨?_, rfl⟩
  intro op h
  simp only [List.mem_cons, List.not_mem_nil, or_false] at h
  rcases h with rfl | rfl | rfl | rfl | rfl | rfl | rfl <;> trivial

/-- ... with these results -/
example : let ops : List RtuOp := [.exec exRtuRead, .wait 5, .setTimeout (some 50) true, .exec exRtuRead, .setTimeout (some (-1)) true, .close, .exec exRtuRead]
    let r := timedSession [] ops (exRtuMaster (exRtuAnswer ++ [(400, 1), (402, 3)]))
    (match r.1 with
      | .ok [.ok (some (.values [7])), .ok none, .ok none, .error .invalidResponse, .error .valueError, .ok none, .error .invalidResponse] => true
      | _ => false) = true ∧ r.2.link.port.written.length = 3 ∧ r.2.link.port.future = [(400, 1), (402, 3)] := by
  decide +kernel

/-- the hypotheses of `C79_server`, and what the server does, for a request in three pieces -/
example : let s := exTimedSrv exTimedFrames.flatten
    s.port.isOpen = true ∧ (s.block = false → s.port.timeout = some s.timeout) ∧ (crRuns [] exTwo.st.db 3 s).2.port.written.length = 2 := by
  decide +kernel

end Modbus
