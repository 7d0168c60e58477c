import Verif.Props.ServerTime
import Verif.Props.FullStack
/-
# C84: a `TcpMaster` and a `TcpServer` on a network that takes time

Messages arrive in segments, after delays.  The master has its time-out, the server waits at most a second for the next byte.
-/
namespace Modbus
open Spec (tcpAdu Call)

/-! ## The network -/

/-- how the network carries a message: from the time it is handed over and its bytes to the segments with their times of arrival -/
abbrev Route := Nat → Bytes → List (Nat × CEvent)

/-- segments arriving after time `t`, with gaps shorter than `gap`, carry the bytes `bs`; the last one arrives at `last` -/
inductive Carried (gap : Nat) : Nat → List (Nat × CEvent) → Bytes → Nat → Prop
  | done (t : Nat) : Carried gap t [] [] t
  | more {t T : Nat} {b : UInt8} {bs : Bytes} {ev : List (Nat × CEvent)} {rest : Bytes} {last : Nat} :
      t ≤ T → T < t + gap → Carried gap T ev rest last → Carried gap t ((T, .data b bs) :: ev) (b :: bs ++ rest) last

/-- A route: every message arrives, its first segment after some time - between `soonest` and `first`, at least a tick -, gaps shorter than `gap`, complete at most `whole` later. -/
def Route.Carries (r : Route) (gap soonest first whole : Nat) : Prop :=
  ∀ t msg, msg ≠ [] → ∃ T b bs ev rest last, r t msg = (T, .data b bs) :: ev ∧ msg = b :: bs ++ rest ∧ t < T ∧ t + soonest ≤ T ∧ T ≤ t + first ∧
    Carried gap T ev rest last ∧ last ≤ t + whole

/-- a server and a master -/
structure TcpWorld where
  srv : CSrv
  mst : MasterSt CLink

def CSock.deliver (k : CSock) (ev : List (Nat × CEvent)) : CSock := { k with future := k.future ++ ev }
def CSrv.deliver (s : CSrv) (i : Nat) (ev : List (Nat × CEvent)) : CSrv := s.put i ((s.socks i).deliver ev)
def linkDeliver (l : CLink) (ev : List (Nat × CEvent)) : CLink := { l with sock := l.sock.map fun k => k.deliver ev }
def tcpMasterDeliver (m : MasterSt CLink) (ev : List (Nat × CEvent)) : MasterSt CLink := { m with link := linkDeliver m.link ev }

/-- what a master has sent on its connection -/
def sentBy (m : MasterSt CLink) : List Bytes := (m.link.sock.map CSock.sent).getD []

/-- what a call sends on the connection; it does not depend on what arrives during the call (`C84_call`) -/
def sends (R : Registry) (a : ExecArgs) (m : MasterSt CLink) : List Bytes :=
  (sentBy (execute R tcpMac (clockedTcp R) a m).2).drop (sentBy m).length

/-- the server runs its loop until it has sent something (at most `n` rounds) -/
def serveUntil (sec : Nat) (R : Registry) (db : Databank) (len : Nat) : Nat → CSrv → CSrv
  | 0, s => s
  | n+1, s => if len < s.log.length then s else serveUntil sec R db len n (cSrvRun sec R db s).2

/-- an upper bound for the rounds until something arrives on the connection `i` and is served -/
def CSrv.patience (s : CSrv) (i : Nat) : Nat :=
  match (s.socks i).future with
  | [] => 0
  | (T, _) :: _ => T + 1

/-- A call over the network: the server (connection `i`) receives what the master sends, runs its loop, and the master receives what the server sends on this connection. -/
def tcpCall (sec : Nat) (R : Registry) (db : Databank) (i : Nat) (out back : Route) (a : ExecArgs) (w : TcpWorld) : Except PyErr ExecResult × TcpWorld :=
  let srv0 := w.srv.deliver i ((sends R a w.mst).flatMap (out w.mst.link.now))
  let srv := serveUntil sec R db srv0.log.length (srv0.patience i) srv0
  let responses := (srv.log.drop w.srv.log.length).filter fun e => e.2.1 = i
  let r := execute R tcpMac (clockedTcp R) a (tcpMasterDeliver w.mst (responses.flatMap fun e => back e.1 e.2.2))
  (r.1, ⟨srv, r.2⟩)

/-! ## Connections on which only data arrive -/

/-- nothing but data arrives -/
def CSock.OnlyData (s : CSock) : Prop := s.ended = none ∧ ∀ e ∈ s.future, ∃ b bs, e.2 = .data b bs

theorem arrived_onlyData (now : Nat) : ∀ (ev : List (Nat × CEvent)) (s : CSock), s.ended = none → (∀ e ∈ ev, ∃ b bs, e.2 = .data b bs) →
    (CSock.arrived now ev s).OnlyData
  | [], s, h, _ => ⟨h, by simp [CSock.arrived]⟩
  | (T, e) :: ev, s, h, hev => by
    unfold CSock.arrived
    split
    · obtain ⟨b, bs, hb⟩ := hev (T, e) (by simp)
      dsimp only at hb
      subst hb
      exact arrived_onlyData now ev _ h (fun e he => hev e (by simp [he]))
    · exact ⟨h, hev⟩

theorem at_onlyData (now : Nat) {s : CSock} (h : s.OnlyData) : (s.at now).OnlyData := arrived_onlyData now s.future s h.1 h.2

theorem CSock.OnlyData.toCome {s : CSock} (h : s.OnlyData) : s.toCome = s.future := by unfold CSock.toCome; rw [if_pos h.1]

theorem at_unread (now : Nat) (s : CSock) : (s.at now).unread = s.unread := (at_complete 1 now 0 (by omega) s).2

theorem comingBytes_append : ∀ (ev : List (Nat × CEvent)) (buf d : Bytes), comingBytes (d ++ buf) ev = d ++ comingBytes buf ev
  | ev, buf, [] => rfl
  | ev, buf, c :: d => by rw [List.cons_append, comingBytes_cons, comingBytes_append ev buf d]; rfl

theorem ready_onlyData {n : Nat} {s : CSock} {r : Except PyErr Bytes × CSock} (h : s.ready n = some r) (hs : s.OnlyData) :
    r.2.OnlyData ∧ ∀ d, r.1 = .ok d → s.unread = d ++ r.2.unread := by
  cases hb : s.buf with
  | nil =>
    unfold CSock.ready at h
    rw [hb, hs.1] at h
    cases h
  | cons b bs =>
    unfold CSock.ready at h
    rw [hb] at h
    cases h
    refine ⟨hs, fun d hd => ?_⟩
    cases hd
    show comingBytes s.buf s.toCome = _ ++ comingBytes ((b :: bs).drop n) s.toCome
    rw [← comingBytes_append, List.take_append_drop, hb]

theorem cRecv_onlyData (n now : Nat) (s : CSock) (h : s.OnlyData) :
    (cRecv n (now, s)).2.2.OnlyData ∧ ∀ d, (cRecv n (now, s)).1 = .ok d → s.unread = d ++ (cRecv n (now, s)).2.2.unread := by
  unfold cRecv
  dsimp only
  have ha := at_onlyData now h
  have hu := at_unread now s
  split
  · exact ⟨h, fun d hd => by cases hd⟩
  · cases hr : (s.at now).ready n with
    | some r =>
      have := ready_onlyData hr ha
      rw [hu] at this
      exact this
    | none =>
      have two : ∀ T, match ((s.at now).at T).ready n with
          | some r => r.2.OnlyData ∧ ∀ d, r.1 = .ok d → s.unread = d ++ r.2.unread
          | none => True := by
        intro T
        cases hr2 : ((s.at now).at T).ready n with
        | none => trivial
        | some r =>
          have := ready_onlyData hr2 (at_onlyData T ha)
          rw [at_unread, hu] at this
          exact this
      dsimp only
      split
      · exact ⟨ha, fun d hd => by cases hd⟩
      · split
        · rename_i T _ _ _ _ _
          have := two T
          split
          · rename_i r hr3; rw [hr3] at this; exact this
          · exact ⟨ha, fun d hd => by cases hd⟩
        · exact ⟨ha, fun d hd => by cases hd⟩
      · exact ⟨ha, fun d hd => by cases hd⟩
      · rename_i T _ _ _ _
        have := two T
        split
        · rename_i r hr3; rw [hr3] at this; exact this
        · exact ⟨ha, fun d hd => by cases hd⟩
      · exact ⟨ha, fun d hd => by cases hd⟩

theorem cRecvLoop_onlyData : ∀ (fuel : Nat) (response : Bytes) (length : Int) (p : Nat × CSock), p.2.OnlyData →
    (cRecvLoop fuel response length p).2.2.OnlyData ∧
    ∀ r, (cRecvLoop fuel response length p).1 = .ok r → ∃ d, r = response ++ d ∧ p.2.unread = d ++ (cRecvLoop fuel response length p).2.2.unread
  | 0, response, length, p, h => ⟨h, fun r hr => by cases hr⟩
  | fuel+1, response, length, p, h => by
    rw [cRecvLoop]
    by_cases hlt : (response.length : Int) < length
    · rw [if_pos hlt]
      simp only [PyM.bind_apply]
      have hs := cRecv_onlyData 1 p.1 p.2 h
      rw [show (p.1, p.2) = p from rfl] at hs
      cases hr : cRecv 1 p with
      | mk r p1 =>
        rw [hr] at hs
        cases r with
        | error e => exact ⟨hs.1, fun r hr => by cases hr⟩
        | ok x =>
          dsimp only
          have hx := hs.2 x rfl
          have next : ∀ L : Int, (cRecvLoop fuel (response ++ x) L p1).2.2.OnlyData ∧
              ∀ r, (cRecvLoop fuel (response ++ x) L p1).1 = .ok r → ∃ d, r = response ++ d ∧ p.2.unread = d ++ (cRecvLoop fuel (response ++ x) L p1).2.2.unread := by
            intro L
            have ih := cRecvLoop_onlyData fuel (response ++ x) L p1 hs.1
            refine ⟨ih.1, fun r hr => ?_⟩
            obtain ⟨d, e1, e2⟩ := ih.2 r hr
            exact ⟨x ++ d, by rw [e1, List.append_assoc], by rw [hx]; dsimp only; rw [e2, List.append_assoc]⟩
          by_cases hx0 : x = []
          · rw [if_neg (by simp [hx0])]
            refine ⟨hs.1, fun r hr => ?_⟩
            cases hr
            exact ⟨[], by simp, by rw [hx, hx0]; rfl⟩
          · rw [if_pos hx0]
            by_cases h6 : (response ++ x).length = 6
            · rw [if_pos h6]
              obtain ⟨vs, e1, e2⟩ := unpack_HHH h6
              simp only [PyM.bind_apply, PyM.lift_apply, e1]
              exact next _
            · rw [if_neg h6]
              exact next _
    · rw [if_neg hlt]
      exact ⟨h, fun r hr => by cases hr; exact ⟨[], by simp, rfl⟩⟩

theorem cReadLoop_onlyData (target : Int) : ∀ (fuel : Nat) (request : Bytes) (p : Nat × CSock), p.2.OnlyData → (cReadLoop target fuel request p).2.2.OnlyData
  | 0, _, _, h => h
  | fuel+1, request, p, h => by
    rw [cReadLoop]
    split
    · refine snd_bind_inv (P := fun p : Nat × CSock => p.2.OnlyData) (cRecv_onlyData 1 p.1 p.2 h).1 ?_
      intro x p1 h1
      split
      · exact h1
      · exact cReadLoop_onlyData target fuel _ p1 h1
    · exact h

theorem cPeek_onlyData (p : Nat × CSock) (h : p.2.OnlyData) : (cPeek p).2.2.OnlyData := by
  have := (cRecv_onlyData 1 p.1 p.2 h).1
  unfold cPeek
  cases hr : cRecv 1 p with
  | mk r q =>
    obtain ⟨now, k⟩ := q
    rw [show (p.1, p.2) = p from rfl, hr] at this
    cases r with
    | ok x => exact this
    | error e => exact this

theorem cSend_onlyData (b : Bytes) (p : Nat × CSock) (h : p.2.OnlyData) : (cSend b p).2.2.OnlyData := by
  unfold cSend
  dsimp only
  split <;> exact h

theorem onSock_onlyData {α : Type} {f : PyM (Nat × CSock) α} {c : CConn} (h : (f (c.now, c.sock)).2.2.OnlyData) : (CConn.onSock f c).2.sock.OnlyData := h

theorem snd_try_inv {σ α : Type} {P : σ → Prop} {f : PyM σ α} {g : PyErr → PyM σ α} {s : σ} (hf : P (f s).2) (hg : ∀ e s', P s' → P (g e s').2) :
    P (PyM.tryExcept f g s).2 := by
  rw [PyM.tryExcept_apply]
  cases h : f s with
  | mk r s' =>
    rw [h] at hf
    cases r with
    | ok a => exact hf
    | error e => exact hg e s' hf

theorem cSrvClient_onlyData (sec : Nat) (R : Registry) (db : Databank) (c : CConn) (h : c.sock.OnlyData) : (cSrvClient sec R db c).2.sock.OnlyData := by
  unfold cSrvClient
  refine snd_bind_inv (P := fun c : CConn => c.sock.OnlyData) (onSock_onlyData (cPeek_onlyData _ h)) ?_
  intro x c1 h1
  split
  · refine snd_bind_inv (P := fun c : CConn => c.sock.OnlyData) (lift_inv (P := fun c : CConn => c.sock.OnlyData) _ h1) ?_
    intro _ c2 h2
    exact h2
  · refine snd_bind_inv (P := fun c : CConn => c.sock.OnlyData) h1 ?_
    intro _ c2 h2
    refine snd_bind_inv (P := fun c : CConn => c.sock.OnlyData) (onSock_onlyData (cReadLoop_onlyData _ _ _ _ h2)) ?_
    intro y c3 h3
    refine snd_bind_inv (P := fun c : CConn => c.sock.OnlyData) (lift_inv (P := fun c : CConn => c.sock.OnlyData) _ h3) ?_
    intro v c4 h4
    split
    · refine snd_bind_inv (P := fun c : CConn => c.sock.OnlyData) (lift_inv (P := fun c : CConn => c.sock.OnlyData) _ h4) ?_
      intro len c5 h5
      refine snd_bind_inv (P := fun c : CConn => c.sock.OnlyData) (onSock_onlyData (cReadLoop_onlyData _ _ _ _ h5)) ?_
      intro z c6 h6
      obtain ⟨rq, ok⟩ := z
      dsimp only
      split
      · refine snd_bind_inv (P := fun c : CConn => c.sock.OnlyData) ?_ (fun _ c7 h7 => h7)
        unfold cSrvAnswer
        refine snd_bind_inv (P := fun c : CConn => c.sock.OnlyData) ?_ ?_
        · exact snd_try_inv (P := fun c : CConn => c.sock.OnlyData) h6 (fun _ _ h => h)
        · intro o c7 h7
          split
          · exact h7
          · exact h7
          · unfold cSrvSend
            refine snd_try_inv (P := fun c : CConn => c.sock.OnlyData) ?_ (fun _ _ h => h)
            refine snd_bind_inv (P := fun c : CConn => c.sock.OnlyData) (lift_inv (P := fun c : CConn => c.sock.OnlyData) _ h7) ?_
            intro v c8 h8
            refine snd_bind_inv (P := fun c : CConn => c.sock.OnlyData) (onSock_onlyData (cSend_onlyData _ _ h8)) ?_
            intro _ c9 h9
            refine snd_bind_inv (P := fun c : CConn => c.sock.OnlyData) h9 ?_
            intro _ c10 h10
            refine snd_bind_inv (P := fun c : CConn => c.sock.OnlyData) (lift_inv (P := fun c : CConn => c.sock.OnlyData) _ h10) (fun _ c7 h7 => (show c7.sock.OnlyData from h7))
      · exact h6
    · exact h4

/-! ## What a route carries -/

theorem Carried.complete {gap t : Nat} {ev : List (Nat × CEvent)} {bs : Bytes} {last : Nat} (h : Carried gap t ev bs last) :
    ∀ have_, completeAt gap t have_ ev (have_ + bs.length) = some last := by
  induction h with
  | done t => intro h; exact completeAt_enough (by simp)
  | @more t T b bs ev rest last h1 h2 h3 ih =>
    intro h
    unfold completeAt
    rw [if_neg (by simp)]
    dsimp only
    rw [if_pos h2, Nat.max_eq_right h1]
    have := ih (h + (bs.length + 1))
    rw [← this]
    congr 1
    simp only [List.length_append, List.length_cons]
    omega

theorem Carried.bytes {gap t : Nat} {ev : List (Nat × CEvent)} {bs : Bytes} {last : Nat} (h : Carried gap t ev bs last) :
    ∀ buf, comingBytes buf ev = buf ++ bs := by
  induction h with
  | done t => intro buf; simp [comingBytes]
  | more h1 h2 h3 ih => intro buf; rw [comingBytes, ih]; simp

theorem Carried.data {gap t : Nat} {ev : List (Nat × CEvent)} {bs : Bytes} {last : Nat} (h : Carried gap t ev bs last) :
    t ≤ last ∧ ∀ e ∈ ev, t ≤ e.1 ∧ e.1 ≤ last ∧ ∃ b r, e.2 = .data b r := by
  induction h with
  | done t => exact ⟨Nat.le_refl _, by simp⟩
  | @more t T b bs ev rest last h1 h2 h3 ih =>
    refine ⟨Nat.le_trans h1 ih.1, fun e he => ?_⟩
    rcases List.mem_cons.mp he with rfl | he
    · exact ⟨h1, ih.1, _, _, rfl⟩
    · have := ih.2 e he
      exact ⟨Nat.le_trans h1 this.1, this.2⟩

/-! ## The server -/

/-- nothing is on its way to the server, except (perhaps) to connection `i` -/
structure CSrv.Silent (s : CSrv) (i : Nat) : Prop where
  coming : s.coming = []
  future : ∀ j ∈ s.sockets, j ≠ i → (s.socks j).future = []
  others : ∀ j ∈ s.sockets, j ≠ i → s.sock ≠ some j → (s.socks j).buf = [] ∧ (s.socks j).ended = none

theorem foldl_wake (now T : Nat) (hT : now < T) : ∀ (l : List Nat) (a : Nat), (∀ y ∈ l, y = T) →
    l.foldl (fun a T => if now < T then min a T else a) a = if l = [] then a else min a T
  | [], a, _ => rfl
  | y :: l, a, h => by
    have := h y (by simp)
    subst this
    rw [List.foldl_cons, if_pos hT, foldl_wake now y hT l _ (fun z hz => h z (by simp [hz]))]
    simp only [reduceCtorEq, if_false]
    split
    · rfl
    · omega

theorem readable_other {s : CSrv} {i : Nat} (hs : s.Silent i) {j : Nat} (hj : j ∈ s.sockets) (hij : j ≠ i) (now : Nat) : s.readableAt now j = false := by
  unfold CSrv.readableAt
  by_cases hl : s.sock = some j
  · rw [if_pos hl, hs.coming]
  · rw [if_neg hl]
    have hf := hs.future j hj hij
    obtain ⟨hb, he⟩ := hs.others j hj hij hl
    rw [at_quiet (by simp [hf])]
    simp [CSock.ready, hb, he]

/-- `select` returns when the first segment arrives, or after a second -/
theorem wake_silent {sec : Nat} {s : CSrv} {i : Nat} (hs : s.Silent i) (hi : i ∈ s.sockets) (hl : s.sock ≠ some i)
    (hb : (s.socks i).buf = []) (he : (s.socks i).ended = none) {T : Nat} {e : CEvent} {ev : List (Nat × CEvent)} (hf : (s.socks i).future = (T, e) :: ev)
    (hT : s.now < T) : s.wake sec = min (s.now + sec) T := by
  unfold CSrv.wake
  rw [if_neg (by
    simp only [List.any_eq_true, not_exists, not_and, Bool.not_eq_true]
    intro j hj
    by_cases hij : j = i
    · subst hij
      unfold CSrv.readableAt
      rw [if_neg hl]
      have : (s.socks j).at s.now = s.socks j := by
        unfold CSock.at
        rw [hf]
        unfold CSock.arrived
        rw [if_neg (by omega)]
        have := hf
        cases hk : s.socks j
        simp_all
      rw [this]
      simp [CSock.ready, hb, he]
    · exact readable_other hs hj hij _)]
  have hev : ∀ y ∈ s.events, y = T := by
    intro y hy
    unfold CSrv.events at hy
    rw [hs.coming] at hy
    simp only [List.map_nil, List.take_nil, List.nil_append, List.mem_flatMap] at hy
    obtain ⟨j, hj, hy⟩ := hy
    by_cases hij : j = i
    · subst hij; rw [hf] at hy; simpa using hy
    · rw [hs.future j hj hij] at hy; simp at hy
  have hne : s.events ≠ [] := by
    have : T ∈ s.events := by
      unfold CSrv.events
      refine List.mem_append_right _ (List.mem_flatMap.mpr ⟨i, hi, ?_⟩)
      rw [hf]; simp
    intro h; rw [h] at this; simp at this
  rw [foldl_wake s.now T hT _ _ hev, if_neg hne]

theorem eq_singleton {i : Nat} : ∀ {l : List Nat}, l.Nodup → i ∈ l → (∀ j ∈ l, j = i) → l = [i]
  | [], _, h, _ => by simp at h
  | [a], _, _, h => by rw [h a (by simp)]
  | a :: b :: l, hn, _, h => by
    have h1 := h a (by simp)
    have h2 := h b (by simp)
    rw [h1, h2] at hn
    simp at hn

/-- A server to whose connection `i` the request `f` is on its way: it will be answered when its last byte arrives; after that nothing is on its way. -/
theorem serve_request {R : Registry} (hR : Quiet R) {db : Databank} {sec : Nat} (hx : 0 < sec) {i : Nat} {b : UInt8} {bs : Bytes} {ev : List (Nat × CEvent)}
    {rest : Bytes} {T last : Nat} (hc : Carried sec T ev rest last) (hfr : ServerFrame (b :: bs ++ rest)) {resp : Bytes} {heap' : Heap} :
    ∀ (n : Nat) (s : CSrv), CSrvInv sec s → s.Silent i → i ∈ s.sockets → s.sock ≠ some i → (s.socks i).connected = true → (s.socks i).buf = [] →
      (s.socks i).ended = none → (s.socks i).future = (T, .data b bs) :: ev → s.now < T → T < n + s.now + 1 →
      answerTo R db (b :: bs ++ rest) s.heap = (some resp, heap') →
    ∃ s', serveUntil sec R db s.log.length n s = s' ∧ s'.heap = heap' ∧ s'.log = s.log ++ [(last, i, resp)] ∧ s'.now = last ∧ CSrvInv sec s' ∧ s'.Silent i ∧
      i ∈ s'.sockets ∧ s'.sock ≠ some i ∧ (s'.socks i).connected = true ∧ (s'.socks i).buf = [] ∧ (s'.socks i).ended = none ∧ (s'.socks i).future = []
  | 0, s, _, _, _, _, _, _, _, _, h1, h2, _ => by omega
  | n+1, s, hinv, hs, hi, hl, hcon, hb, he, hf, h1, h2, hans => by
    rw [serveUntil, if_neg (Nat.lt_irrefl _)]
    have hw := wake_silent (sec := sec) hs hi hl hb he hf h1
    have hrun : cSrvRun sec R db s = cSrvLoop sec R db (s.sockets.filter (({ s with now := s.wake sec } : CSrv).readableAt (s.wake sec))) { s with now := s.wake sec } := by
      unfold cSrvRun
      rw [if_neg (by
        simp only [List.any_eq_true, not_exists, not_and]
        intro j hj
        rw [hinv.opened j hj]; simp)]
    rw [hrun]
    have hs2 : ({ s with now := s.wake sec } : CSrv).Silent i := ⟨hs.coming, hs.future, hs.others⟩
    have hinv2 : CSrvInv sec { s with now := s.wake sec } := ⟨hinv.nodup, hinv.opened, hinv.timed, hinv.fresh, hinv.listens⟩
    by_cases hT : T ≤ s.now + sec
    · have hwT : s.wake sec = T := by omega
      rw [hwT] at hs2 hinv2 ⊢
      have hdata := hc.data
      have hri : ({ s with now := T } : CSrv).readableAt T i = true := by
        unfold CSrv.readableAt
        rw [if_neg hl]
        exact ready_arrived 1 (s.socks i) hf he
      have hfil : s.sockets.filter (({ s with now := T } : CSrv).readableAt T) = [i] := by
        refine eq_singleton (hinv.nodup.filter _) (List.mem_filter.mpr ⟨hi, hri⟩) (fun j hj => ?_)
        obtain ⟨hj1, hj2⟩ := List.mem_filter.mp hj
        by_cases hij : j = i
        · exact hij
        · rw [readable_other hs2 hj1 hij] at hj2; cases hj2
      rw [hfil, cSrvLoop_cons]
      have honly : (s.socks i).OnlyData := by
        refine ⟨he, fun e hmem => ?_⟩
        rw [hf] at hmem
        rcases List.mem_cons.mp hmem with rfl | hmem
        · exact ⟨_, _, rfl⟩
        · exact (hdata.2 e hmem).2.2
      have hbuf : ((s.socks i).at T).buf ≠ [] := by
        have : (((s.socks i).at T).ready 1).isSome = true := ready_arrived 1 (s.socks i) hf he
        have := (ready_isSome 1 _).mp this
        rcases this with h | h
        · exact h
        · exact absurd (at_onlyData T honly).1 h
      have hcoming : comingBytes (s.socks i).buf (s.socks i).toCome = b :: bs ++ rest := by
        rw [honly.toCome, hf, hb, comingBytes, hc.bytes]; simp
      obtain ⟨k, e1, e2, e3⟩ := cSrvClient_frame hR db hx ⟨s.heap, i, T, s.socks i, s.log⟩ (hinv.opened i hi) hcon
        ⟨by dsimp only; rw [he]; simp, fun e hmem => by
          obtain ⟨b', r', h⟩ := honly.2 e hmem
          rw [h]; simp⟩ hbuf (b :: bs ++ rest) hfr (by rw [hcoming]) last (by
          dsimp only
          rw [honly.toCome, hf, hb]
          unfold completeAt
          rw [if_neg (by simp)]
          dsimp only
          rw [if_pos (by omega), Nat.max_self]
          have := hc.complete (0 + (bs.length + 1))
          rw [← this]
          congr 1
          simp only [List.length_append, List.length_cons, List.length_nil]
          omega)
      have hko := cSrvClient_onlyData sec R db ⟨s.heap, i, T, s.socks i, s.log⟩ honly
      rw [e1] at hko
      dsimp only at hko e1 e2
      rw [hcoming] at e2
      have hk0 : comingBytes k.buf k.toCome = [] := by
        have := congrArg List.length e2
        simp only [List.length_append] at this
        exact List.eq_nil_of_length_eq_zero (by omega)
      have hkbuf : k.buf = [] := by
        have := (comingBytes_prefix k.toCome k.buf)
        rw [hk0] at this
        exact List.prefix_nil.mp this
      have hkfut : k.future = [] := by
        cases hkf : k.future with
        | nil => rfl
        | cons y ys =>
          obtain ⟨t0, e0⟩ := y
          obtain ⟨b', r', hd⟩ := hko.2 (t0, e0) (by rw [hkf]; simp)
          dsimp only at hd
          subst hd
          rw [hko.toCome, hkf, comingBytes] at hk0
          have := comingBytes_prefix ys (k.buf ++ b' :: r')
          rw [hk0] at this
          have := List.prefix_nil.mp this
          simp at this
      rw [hans] at e1
      have hstep : cSrvStep sec R db i { s with now := T } = (.ok false, ({ s with now := T } : CSrv).served i ⟨heap', i, last, k, s.log ++ [(last, i, resp)]⟩) := by
        unfold cSrvStep cSrvOne
        rw [if_neg hl]
        dsimp only
        rw [e1]
        rfl
      rw [hstep]
      dsimp only
      rw [cSrvLoop]
      dsimp only
      have hadv := cSrvStep_adv sec R db _ hinv2 i hi
      obtain ⟨r', s', g1, g2⟩ := hadv
      rw [hstep] at g1
      cases g1
      have hsame : serveUntil sec R db s.log.length n (({ s with now := T } : CSrv).served i ⟨heap', i, last, k, s.log ++ [(last, i, resp)]⟩) =
          ({ s with now := T } : CSrv).served i ⟨heap', i, last, k, s.log ++ [(last, i, resp)]⟩ := by
        cases n with
        | zero => rfl
        | succ n => rw [serveUntil, if_pos (by simp [CSrv.served])]
      refine ⟨_, rfl, ?_⟩
      rw [hsame]
      have hsi : (({ s with now := T } : CSrv).served i ⟨heap', i, last, k, s.log ++ [(last, i, resp)]⟩).socks i = k := by simp [CSrv.served, CSrv.put]
      have hso : ∀ j, j ≠ i → (({ s with now := T } : CSrv).served i ⟨heap', i, last, k, s.log ++ [(last, i, resp)]⟩).socks j = s.socks j := by
        intro j hj; simp [CSrv.served, CSrv.put, hj]
      refine ⟨rfl, rfl, rfl, g2.inv ⟨_, rfl⟩, ⟨hs.coming, fun j hj hij => by rw [hso j hij]; exact hs.future j hj hij, fun j hj hij hl' => by rw [hso j hij]; exact hs.others j hj hij hl'⟩,
        hi, hl, by rw [hsi]; exact e3.connected, by rw [hsi]; exact hkbuf, by rw [hsi]; exact hko.1, by rw [hsi]; exact hkfut⟩
    · have hwT : s.wake sec = s.now + sec := by omega
      rw [hwT] at hs2 hinv2 ⊢
      have hfil : s.sockets.filter (({ s with now := s.now + sec } : CSrv).readableAt (s.now + sec)) = [] := by
        rw [List.filter_eq_nil_iff]
        intro j hj
        by_cases hij : j = i
        · subst hij
          unfold CSrv.readableAt
          rw [if_neg hl]
          have : (s.socks j).at (s.now + sec) = s.socks j := by
            unfold CSock.at
            rw [hf]
            unfold CSock.arrived
            rw [if_neg (by omega)]
            have := hf
            cases hk : s.socks j
            simp_all
          dsimp only
          rw [this]
          simp [CSock.ready, hb, he]
        · rw [readable_other hs2 hj hij]; simp
      rw [hfil, cSrvLoop]
      dsimp only
      exact serve_request hR hx hc hfr n { s with now := s.now + sec } hinv2 hs2 hi hl hcon hb he hf (by dsimp only; omega) (by dsimp only; omega) hans

/-! ## The master -/

theorem take_future (s : CSock) (e : CEvent) (g : List (Nat × CEvent)) : ({ s with future := g } : CSock).take e = { s.take e with future := g } := by cases e <;> rfl

theorem arrived_deliver (now : Nat) (ev : List (Nat × CEvent)) (hev : ∀ e ∈ ev, now < e.1) : ∀ (fs : List (Nat × CEvent)) (s : CSock) (g : List (Nat × CEvent)),
    (CSock.arrived now fs s).future = [] → (CSock.arrived now fs s).ended = none →
    CSock.arrived now (fs ++ ev) { s with future := g } = { CSock.arrived now fs s with future := ev }
  | [], s, g, _, he => by
    cases ev with
    | nil => rfl
    | cons y ev =>
      obtain ⟨T, e⟩ := y
      have := hev (T, e) (by simp)
      simp only [List.nil_append, CSock.arrived]
      rw [if_neg (by dsimp only at this; omega)]
  | (T, e) :: fs, s, g, hf, he => by
    simp only [List.cons_append, CSock.arrived] at hf he ⊢
    by_cases h : T ≤ now ∧ s.ended = none
    · rw [if_pos h] at hf he
      rw [if_pos h, if_pos h, take_future]
      exact arrived_deliver now ev hev fs _ g hf he
    · rw [if_neg h] at hf
      simp at hf

theorem at_deliver {now : Nat} {k : CSock} {ev : List (Nat × CEvent)} (hev : ∀ e ∈ ev, now < e.1) (hf : (k.at now).future = []) (he : (k.at now).ended = none) :
    (k.deliver ev).at now = { k.at now with future := ev } := arrived_deliver now ev hev k.future k _ hf he

theorem arrived_sentSame (now : Nat) : ∀ (ev : List (Nat × CEvent)) (s : CSock), (CSock.arrived now ev s).sent = s.sent
  | [], _ => rfl
  | (T, e) :: ev, s => by
    unfold CSock.arrived
    split
    · rw [arrived_sentSame]; cases e <;> rfl
    · rfl

theorem at_before {now : Nat} {k : CSock} {ev : List (Nat × CEvent)} (hf : k.future = ev) (hev : ∀ e ∈ ev, now < e.1) : k.at now = k :=
  at_quiet (fun T e h => hev (T, e) (by rw [← hf]; exact h))

/-- old bytes are thrown away -/
theorem cFlush_stale {now : Nat} {k : CSock} (hc : k.closed = false) (hcon : k.connected = true) (he : (k.at now).ended = none) (hl : (k.at now).buf.length ≤ 2048) :
    cFlush 3 4 0 (now, k) = (.ok (), (now, { k.at now with buf := [] })) := by
  have hkeep := at_keeps now k
  have hpoll : ∀ q : CSock, q.closed = false → q.connected = true → cPoll (now, q) = (.ok (((q.at now).ready 1).isSome), (now, q.at now)) := by
    intro q h1 h2
    unfold cPoll
    dsimp only
    rw [if_neg (by simp [h1, h2])]
  have stop : ∀ (q : CSock) (fuel cnt : Nat), q.closed = false → q.connected = true → (q.at now).buf = [] → (q.at now).ended = none →
      cFlush 3 (fuel+1) cnt (now, q) = (.ok (), (now, q.at now)) := by
    intro q fuel cnt h1 h2 h3 h4
    rw [cFlush]
    simp only [PyM.bind_apply, hpoll q h1 h2]
    rw [show ((q.at now).ready 1) = none from by simp [CSock.ready, h3, h4]]
    rfl
  have go : ∀ (q : CSock) (fuel cnt : Nat), q.closed = false → q.connected = true → (q.at now).buf ≠ [] → cnt + 1 < 3 →
      cFlush 3 (fuel+1) cnt (now, q) = cFlush 3 fuel (cnt+1) (now, { q.at now with buf := (q.at now).buf.drop 1024 }) := by
    intro q fuel cnt h1 h2 h3 h4
    rw [cFlush]
    simp only [PyM.bind_apply, hpoll q h1 h2]
    cases hb : (q.at now).buf with
    | nil => exact absurd hb h3
    | cons b bs =>
      rw [show ((q.at now).ready 1).isSome = true from by simp [CSock.ready, hb]]
      have hq := at_keeps now q
      have hrecv : cRecv 1024 (now, q.at now) = (.ok ((b :: bs).take 1024), (now, { q.at now with buf := (b :: bs).drop 1024 })) := by
        unfold cRecv
        dsimp only
        rw [if_neg (by simp [hq.2.1, hq.2.2, h1, h2]), at_at]
        simp only [CSock.ready, hb]
      simp only [if_true, PyM.bind_apply, hrecv]
      rw [if_pos (by omega), if_neg (by omega)]
  have hat : ∀ (bf : Bytes), ({ k.at now with buf := bf } : CSock).at now = { k.at now with buf := bf } := by
    intro bf
    have h := at_at now k
    unfold CSock.at at h ⊢
    generalize CSock.arrived now k.future k = q at *
    dsimp only
    cases hf : q.future with
    | nil => unfold CSock.arrived; cases q; simp_all
    | cons y ev =>
      obtain ⟨T, e⟩ := y
      rw [hf] at h
      unfold CSock.arrived at h ⊢
      by_cases hT : T ≤ now ∧ q.ended = none
      · exfalso
        rw [if_pos hT] at h
        have hlen : ∀ (ev : List (Nat × CEvent)) (s : CSock), (CSock.arrived now ev s).future.length ≤ ev.length := by
          intro ev
          induction ev with
          | nil => intro s; simp [CSock.arrived]
          | cons y ev ih =>
            intro s
            obtain ⟨T', e'⟩ := y
            unfold CSock.arrived
            split
            · have := ih (s.take e'); simp only [List.length_cons]; omega
            · simp
        have := hlen ev (q.take e)
        rw [h, hf] at this
        simp only [List.length_cons] at this
        omega
      · dsimp only
        rw [if_neg hT]
  by_cases h1 : (k.at now).buf = []
  · refine (stop k 3 0 hc hcon h1 he).trans ?_
    rw [show ({ k.at now with buf := [] } : CSock) = k.at now from by rw [← h1]]
  · refine (go k 3 0 hc hcon h1 (by omega)).trans ?_
    by_cases h2 : (k.at now).buf.drop 1024 = []
    · refine (stop { k.at now with buf := (k.at now).buf.drop 1024 } 2 (0+1) (hkeep.2.1.trans hc) (hkeep.2.2.trans hcon) (by rw [hat]; exact h2) (by rw [hat]; exact he)).trans ?_
      rw [hat, h2]
    · refine (go { k.at now with buf := (k.at now).buf.drop 1024 } 2 (0+1) (hkeep.2.1.trans hc) (hkeep.2.2.trans hcon) (by rw [hat]; exact h2) (by omega)).trans ?_
      have h3 : ((k.at now).buf.drop 1024).drop 1024 = [] := by
        rw [List.drop_drop]
        exact List.drop_eq_nil_of_le (by omega)
      rw [hat]
      dsimp only
      rw [h3]
      refine (stop { k.at now with buf := [] } 1 _ (hkeep.2.1.trans hc) (hkeep.2.2.trans hcon) (by rw [hat]) (by rw [hat]; exact he)).trans ?_
      rw [hat]

/-- a master with a connection; old bytes may be waiting on it, at most 2048, nothing is on its way -/
structure MasterReady (x : Nat) (m : MasterSt CLink) (k : CSock) : Prop where
  opened : m.isOpened = true
  sock : m.link.sock = some k
  closed : k.closed = false
  connected : k.connected = true
  timeout : k.timeout = some x
  stale : (k.at m.link.now).buf.length ≤ 2048
  quiet : (k.at m.link.now).future = []
  alive : (k.at m.link.now).ended = none
  tid : 0 ≤ m.lastTid ∧ m.lastTid ≤ 65535

/-- the connection after the request was sent, `ev` will arrive -/
def asked (k : CSock) (now : Nat) (ev : List (Nat × CEvent)) (req : Bytes) : CSock := { k.at now with buf := [], future := ev, sent := k.sent ++ [req] }

theorem send_ready {R : Registry} (hR : Quiet R) {x : Nat} {m : MasterSt CLink} {k : CSock} (h : MasterReady x m k) {ev : List (Nat × CEvent)}
    (hev : ∀ e ∈ ev, m.link.now < e.1) (req : Bytes) :
    cTcpSend R req (linkDeliver m.link ev) = (.ok (), { m.link with sock := some (asked k m.link.now ev req) }) := by
  have had := at_deliver hev h.quiet h.alive
  have hkeep := at_keeps m.link.now k
  have hfl := cFlush_stale (now := m.link.now) (k := k.deliver ev) h.closed h.connected (by rw [had]; exact h.alive) (by rw [had]; exact h.stale)
  rw [had] at hfl
  have hfl' : onCSock (cFlush 3 4 0) (linkDeliver m.link ev) = (.ok (), { m.link with sock := some { k.at m.link.now with future := ev, buf := [] } }) := by
    rw [onCSock_of (l := linkDeliver m.link ev) (k := k.deliver ev) (by simp [linkDeliver, h.sock]) hfl]
    rfl
  have hq : ({ k.at m.link.now with future := ev, buf := [] } : CSock).at m.link.now = { k.at m.link.now with future := ev, buf := [] } := at_before rfl hev
  unfold cTcpSend
  simp only [PyM.bind_apply, PyM.lift_apply, PyM.tryExcept_apply, hR _ _, hfl', Option.getD_none]
  have hs : cSend req (m.link.now, { k.at m.link.now with future := ev, buf := [] }) = (.ok (), (m.link.now, asked k m.link.now ev req)) := by
    unfold cSend
    dsimp only
    rw [hq, if_neg (by simp [hkeep.2.1, hkeep.2.2, h.closed, h.connected, h.alive])]
    unfold asked CSock.at
    rw [← arrived_sentSame m.link.now k.future k]
  rw [onCSock_of (l := { m.link with sock := some { k.at m.link.now with future := ev, buf := [] } }) rfl hs]

/-- no response in time: the call fails when the time-out is over -/
theorem call_silent {R : Registry} (hR : Quiet R) {db : Databank} {x : Nat} (hx : 0 < x) {m : MasterSt CLink} {k : CSock} (h : MasterReady x m k) {j : Job} (hj : j.Legal db)
    (htid : j.tid = m.lastTid) {ev : List (Nat × CEvent)} (hev : ∀ e ∈ ev, m.link.now + x ≤ e.1) :
    execute R tcpMac (clockedTcp R) (j.call.args j.id) (tcpMasterDeliver m ev) =
      (.error .timeout, { m with lastTid := (m.lastTid + 1) % 65536, link := { m.link with now := m.link.now + x, sock := some (asked k m.link.now ev j.request) } }) := by
  have hop : masterOpen (clockedTcp R) (tcpMasterDeliver m ev) = (.ok (), tcpMasterDeliver m ev) := by unfold masterOpen; rw [if_pos (show (tcpMasterDeliver m ev).isOpened = true from h.opened)]
  have hl' : j.call.prepared.pdu.length ≤ 65534 := by rw [prepared_pdu]; exact hj.len
  obtain ⟨q, hbr, q1, q2, q3⟩ := buildRequest_tcp (pdu := j.call.prepared.pdu) hl' (by have := hj.id; omega : 0 ≤ j.id) hj.id.2 (s := tcpMasterDeliver m ev) h.tid
  rw [execute_main hR hop (prepare_call j.id hj.fits) (args_slave j.call j.id) hbr]
  have hjreq : tcpAdu (UInt16.ofNat (((tcpMasterDeliver m ev).lastTid + 1) % 65536).toNat) 0 (UInt8.ofNat j.id.toNat) j.call.prepared.pdu = j.request := by
    rw [prepared_pdu]
    unfold Job.request
    rw [htid]
    rfl
  rw [hjreq]
  have hsend : (clockedTcp R).send j.request (tcpMasterDeliver m ev).link = _ := send_ready hR h (ev := ev) (fun e he => by have := hev e he; omega) j.request
  dsimp only
  rw [hsend]
  dsimp only
  have hat : (asked k m.link.now ev j.request).at m.link.now = asked k m.link.now ev j.request :=
    at_before rfl (fun e he => by have := hev e he; omega)
  have hkeep := at_keeps m.link.now k
  have hrecv : cRecv 1 (m.link.now, asked k m.link.now ev j.request) = (.error .timeout, (m.link.now + x, asked k m.link.now ev j.request)) := by
    unfold cRecv
    dsimp only
    rw [if_neg (by simp [asked, hkeep.2.1, hkeep.2.2, h.closed, h.connected]), hat]
    rw [show (asked k m.link.now ev j.request).ready 1 = none from by simp [asked, CSock.ready, h.alive]]
    have ht : (asked k m.link.now ev j.request).timeout = some x := hkeep.1.trans h.timeout
    have hfu : (asked k m.link.now ev j.request).future = ev := rfl
    obtain ⟨x', rfl⟩ : ∃ x', x = x' + 1 := ⟨x - 1, by omega⟩
    cases ev with
    | nil => dsimp only; rw [ht, hfu]
    | cons y ev =>
      obtain ⟨T, e⟩ := y
      have := hev (T, e) (by simp)
      dsimp only at this ⊢
      rw [ht, hfu]
      dsimp only
      rw [if_neg (by omega)]
  have hloop : cRecvLoop 65542 [] 255 (m.link.now, asked k m.link.now ev j.request) = (.error .timeout, (m.link.now + x, asked k m.link.now ev j.request)) := by
    rw [show (65542 : Nat) = 65541 + 1 from rfl, cRecvLoop, if_pos (by simp)]
    simp only [PyM.bind_apply, hrecv]
  have hr : (clockedTcp R).recv j.call.prepared.expectedLength { m.link with sock := some (asked k m.link.now ev j.request) } =
      (.error .timeout, { m.link with now := m.link.now + x, sock := some (asked k m.link.now ev j.request) }) := by
    show cTcpRecv R j.call.prepared.expectedLength _ = _
    unfold cTcpRecv
    rw [PyM.bind_apply, onCSock_of (l := { m.link with sock := some (asked k m.link.now ev j.request) }) rfl hloop]
  rw [hr]
  rfl


/-! ### A response in time -/

/-- reading does not touch what was sent, nor the state of the connection -/
theorem ready_keeps2 {n : Nat} {s : CSock} {r : Except PyErr Bytes × CSock} (h : s.ready n = some r) : r.2.connected = s.connected ∧ r.2.sent = s.sent := by
  unfold CSock.ready at h
  split at h <;> (try split at h) <;> cases h <;> exact ⟨rfl, rfl⟩

theorem at_keeps2 (now : Nat) (s : CSock) : (s.at now).connected = s.connected ∧ (s.at now).sent = s.sent := ⟨(at_keeps now s).2.2, arrived_sentSame now _ _⟩

theorem cRecv_keeps (n : Nat) (p : Nat × CSock) : (cRecv n p).2.2.connected = p.2.connected ∧ (cRecv n p).2.2.sent = p.2.sent := by
  obtain ⟨now, s⟩ := p
  unfold cRecv
  dsimp only
  have ha := at_keeps2 now s
  split
  · exact ⟨rfl, rfl⟩
  · cases hr : (s.at now).ready n with
    | some r => have := ready_keeps2 hr; exact ⟨this.1.trans ha.1, this.2.trans ha.2⟩
    | none =>
      have two : ∀ T, match ((s.at now).at T).ready n with
          | some r => r.2.connected = s.connected ∧ r.2.sent = s.sent
          | none => True := by
        intro T
        cases hr2 : ((s.at now).at T).ready n with
        | none => trivial
        | some r =>
          have := ready_keeps2 hr2
          have hb := at_keeps2 T (s.at now)
          exact ⟨this.1.trans (hb.1.trans ha.1), this.2.trans (hb.2.trans ha.2)⟩
      dsimp only
      split
      · exact ha
      · split
        · rename_i T _ _ _ _ _
          have := two T
          split
          · rename_i r hr3; rw [hr3] at this; exact this
          · exact ha
        · exact ha
      · exact ha
      · rename_i T _ _ _ _
        have := two T
        split
        · rename_i r hr3; rw [hr3] at this; exact this
        · exact ha
      · exact ha

theorem cRecvLoop_keeps : ∀ (fuel : Nat) (response : Bytes) (length : Int) (p : Nat × CSock),
    (cRecvLoop fuel response length p).2.2.connected = p.2.connected ∧ (cRecvLoop fuel response length p).2.2.sent = p.2.sent
  | 0, response, length, p => ⟨rfl, rfl⟩
  | fuel+1, response, length, p => by
    rw [cRecvLoop]
    split
    · refine snd_bind_inv (P := fun q : Nat × CSock => q.2.connected = p.2.connected ∧ q.2.sent = p.2.sent) (cRecv_keeps 1 p) (fun d q hq => ?_)
      split
      · split
        · refine snd_bind_inv (P := fun q : Nat × CSock => q.2.connected = p.2.connected ∧ q.2.sent = p.2.sent) (lift_inv (P := fun q : Nat × CSock => q.2.connected = p.2.connected ∧ q.2.sent = p.2.sent) _ hq) (fun vs q hq => ?_)
          have := cRecvLoop_keeps fuel (response ++ d) (vs.getD 2 0 + 6) q
          exact ⟨this.1.trans hq.1, this.2.trans hq.2⟩
        · have := cRecvLoop_keeps fuel (response ++ d) length q
          exact ⟨this.1.trans hq.1, this.2.trans hq.2⟩
      · exact hq
    · exact ⟨rfl, rfl⟩

/-- everything was read, nothing is to come -/
theorem all_read {k : CSock} (ho : k.OnlyData) (hu : k.unread = []) : k.buf = [] ∧ k.future = [] := by
  have h0 : comingBytes k.buf k.toCome = [] := hu
  refine ⟨?_, ?_⟩
  · have := comingBytes_prefix k.toCome k.buf
    rw [h0] at this
    exact List.prefix_nil.mp this
  · cases hkf : k.future with
    | nil => rfl
    | cons y ys =>
      obtain ⟨t0, e0⟩ := y
      obtain ⟨b', r', hd⟩ := ho.2 (t0, e0) (by rw [hkf]; simp)
      dsimp only at hd
      subst hd
      rw [ho.toCome, hkf, comingBytes] at h0
      have := comingBytes_prefix ys (k.buf ++ b' :: r')
      rw [h0] at this
      have := List.prefix_nil.mp this
      simp at this

/-- a complete response in time: the call returns what the specification says, when the last byte has arrived -/
theorem call_answered {R : Registry} (hR : Quiet R) {db : Databank} {x : Nat} (hx : 0 < x) {m : MasterSt CLink} {k : CSock} (h : MasterReady x m k) {j : Job} (hj : j.Legal db)
    (htid : j.tid = m.lastTid) (u : Bool) (mem : Spec.Mem) {T last : Nat} {b : UInt8} {bs rest : Bytes} {ev : List (Nat × CEvent)}
    (hT : m.link.now < T) (hT2 : T < m.link.now + x) (hc : Carried x T ev rest last)
    (hrep : b :: bs ++ rest = tcpAdu (UInt16.ofNat ((j.tid + 1) % 65536).toNat) 0 (UInt8.ofNat j.id.toNat) ((Spec.exec u mem j.call.toReq).1.encode j.call.toReq.fc)) :
    ∃ k', execute R tcpMac (clockedTcp R) (j.call.args j.id) (tcpMasterDeliver m ((T, .data b bs) :: ev)) =
      (outcome (j.call.answer u mem), { m with lastTid := (m.lastTid + 1) % 65536, link := { m.link with now := last, sock := some k' } }) ∧
      k'.closed = false ∧ k'.connected = true ∧ k'.timeout = some x ∧ k'.buf = [] ∧ k'.future = [] ∧ k'.ended = none ∧ k'.sent = k.sent ++ [j.request] := by
  have hdata := hc.data
  have hev : ∀ e ∈ (T, CEvent.data b bs) :: ev, m.link.now < e.1 := by
    intro e he
    rcases List.mem_cons.mp he with rfl | he
    · exact hT
    · have := hdata.2 e he; omega
  have hop : masterOpen (clockedTcp R) (tcpMasterDeliver m ((T, .data b bs) :: ev)) = (.ok (), tcpMasterDeliver m ((T, .data b bs) :: ev)) := by
    unfold masterOpen; rw [if_pos (show (tcpMasterDeliver m ((T, .data b bs) :: ev)).isOpened = true from h.opened)]
  have hl' : j.call.prepared.pdu.length ≤ 65534 := by rw [prepared_pdu]; exact hj.len
  obtain ⟨q, hbr, q1, q2, q3⟩ := buildRequest_tcp (pdu := j.call.prepared.pdu) hl' (by have := hj.id; omega : 0 ≤ j.id) hj.id.2
    (s := tcpMasterDeliver m ((T, .data b bs) :: ev)) h.tid
  rw [execute_main hR hop (prepare_call j.id hj.fits) (args_slave j.call j.id) hbr]
  have hlt : (tcpMasterDeliver m ((T, .data b bs) :: ev)).lastTid = j.tid := htid.symm
  rw [hlt] at q1 ⊢
  have hjreq : tcpAdu (UInt16.ofNat ((j.tid + 1) % 65536).toNat) 0 (UInt8.ofNat j.id.toNat) j.call.prepared.pdu = j.request := by
    rw [prepared_pdu]; rfl
  rw [hjreq]
  have hsend : (clockedTcp R).send j.request (tcpMasterDeliver m ((T, .data b bs) :: ev)).link = _ := send_ready hR h hev j.request
  dsimp only
  rw [hsend]
  dsimp only
  have hrl := reply_length u mem j.call.toReq
  generalize hr : (Spec.exec u mem j.call.toReq).1.encode j.call.toReq.fc = rep at hrep hrl
  generalize UInt16.ofNat ((j.tid + 1) % 65536).toNat = tid at *
  generalize UInt8.ofNat j.id.toNat = unit at *
  have hkeep := at_keeps m.link.now k
  generalize hk0 : asked k m.link.now ((T, .data b bs) :: ev) j.request = k0
  have hk0c : k0.closed = false := by rw [← hk0]; exact hkeep.2.1.trans h.closed
  have hk0n : k0.connected = true := by rw [← hk0]; exact hkeep.2.2.trans h.connected
  have hk0t : k0.timeout = some x := by rw [← hk0]; exact hkeep.1.trans h.timeout
  have hk0b : k0.buf = [] := by rw [← hk0]; rfl
  have hk0e : k0.ended = none := by rw [← hk0]; exact h.alive
  have hk0f : k0.future = (T, .data b bs) :: ev := by rw [← hk0]; rfl
  have hk0s : k0.sent = k.sent ++ [j.request] := by rw [← hk0]; rfl
  have honly : k0.OnlyData := by
    refine ⟨hk0e, fun e hmem => ?_⟩
    rw [hk0f] at hmem
    rcases List.mem_cons.mp hmem with rfl | hmem
    · exact ⟨_, _, rfl⟩
    · exact (hdata.2 e hmem).2.2
  have hcoming : comingBytes k0.buf k0.toCome = tcpAdu tid 0 unit rep := by
    rw [honly.toCome, hk0f, hk0b, comingBytes, hc.bytes, ← hrep]; simp
  have hcomp := tcpAdu_complete tid 0 unit (pdu := rep) (by omega)
  obtain ⟨k', hloop⟩ := cRecvLoop_prompt hx last (tcpAdu tid 0 unit rep) 65542 [] 255 m.link.now k0 (.inl ⟨by simp, rfl⟩)
    (by rw [List.nil_append, tcpAdu_length]; omega) (by rw [List.nil_append, tcpAdu_length, tcpAdu_announced tid 0 unit (by omega)]) hk0c hk0n hk0t (by rw [hcoming])
    (by rw [tcpAdu_length]; omega) (by
    rw [honly.toCome, hk0f, hk0b]
    unfold completeAt
    rw [if_neg (by rw [← hrep]; simp)]
    dsimp only
    rw [if_pos hT2, Nat.max_eq_right (by omega)]
    have := hc.complete (0 + (bs.length + 1))
    rw [← this, ← hrep]
    congr 1
    simp only [List.length_append, List.length_cons, List.length_nil]
    omega)
  have hk1 := cRecvLoop_onlyData 65542 [] 255 (m.link.now, k0) honly
  have hk2 := cRecvLoop_keeps 65542 [] 255 (m.link.now, k0)
  have hk3 := (cRecvLoop_spec 65542 [] 255 (by omega) (by simp) (m.link.now, k0)).1
  rw [hloop] at hk1 hk2 hk3
  dsimp only at hk1 hk2 hk3
  obtain ⟨d, hd1, hd2⟩ := hk1.2 _ rfl
  rw [List.nil_append, List.nil_append] at hd1
  rw [List.nil_append] at hloop
  have hk'u : k'.unread = [] := by
    rw [show k0.unread = tcpAdu tid 0 unit rep from hcoming, ← hd1] at hd2
    have := congrArg List.length hd2
    simp only [List.length_append] at this
    exact List.eq_nil_of_length_eq_zero (by omega)
  have hall := all_read hk1.1 hk'u
  have hrecv : (clockedTcp R).recv j.call.prepared.expectedLength { m.link with sock := some k0 } = (.ok (tcpAdu tid 0 unit rep), { m.link with now := last, sock := some k' }) := by
    show cTcpRecv R j.call.prepared.expectedLength _ = _
    unfold cTcpRecv
    rw [PyM.bind_apply, onCSock_of (l := { m.link with sock := some k0 }) rfl hloop]
    simp only [PyM.bind_apply, PyM.lift_apply, hR _ _]
    rfl
  rw [hrecv]
  dsimp only
  have hparse := (C24_accepts (tcpAdu tid 0 unit rep) q rep).mpr ⟨_, _, _, rfl, by omega, q1, q2, q3⟩
  rw [show (tcpMac.parseResponse (tcpAdu tid 0 unit rep) q).1 = _ from hparse]
  dsimp only
  rw [← hr, analyse_reply u mem j.call hj.fits]
  refine ⟨k', ?_, hk3.closed.trans hk0c, hk2.1.trans hk0n, hk3.mode.trans hk0t, hall.1, hall.2, hk1.1.1, hk2.2.trans hk0s⟩
  rw [htid]
  rfl


/-! ## Both -/

theorem arrived_later {now now' : Nat} (h : now ≤ now') : ∀ (ev : List (Nat × CEvent)) (s : CSock), (CSock.arrived now ev s).future = [] →
    CSock.arrived now' ev s = CSock.arrived now ev s
  | [], s, _ => rfl
  | (T, e) :: ev, s, hf => by
    unfold CSock.arrived at hf ⊢
    by_cases hT : T ≤ now ∧ s.ended = none
    · rw [if_pos hT] at hf ⊢
      rw [if_pos ⟨Nat.le_trans hT.1 h, hT.2⟩]
      exact arrived_later h ev _ hf
    · rw [if_neg hT] at hf
      simp at hf

theorem arrived_all {now : Nat} : ∀ (ev : List (Nat × CEvent)) (s : CSock), s.ended = none → (∀ e ∈ ev, e.1 ≤ now ∧ ∃ b bs, e.2 = .data b bs) →
    CSock.arrived now ev s = { s with buf := comingBytes s.buf ev, future := [] }
  | [], s, _, _ => rfl
  | (T, e) :: ev, s, he, hev => by
    obtain ⟨hT, b, bs, hd⟩ := hev (T, e) (by simp)
    dsimp only at hT hd
    subst hd
    unfold CSock.arrived
    rw [if_pos ⟨hT, he⟩, arrived_all ev _ (show (s.take (.data b bs)).ended = none from he) (fun e h => hev e (by simp [h]))]
    rfl

theorem MasterReady.wait {x : Nat} {m : MasterSt CLink} {k : CSock} (h : MasterReady x m k) (d : Nat) :
    MasterReady x { m with link := { m.link with now := m.link.now + d } } k := by
  have hat : k.at (m.link.now + d) = k.at m.link.now := arrived_later (by omega) _ _ h.quiet
  exact ⟨h.opened, h.sock, h.closed, h.connected, h.timeout, by dsimp only; rw [hat]; exact h.stale, by dsimp only; rw [hat]; exact h.quiet,
    by dsimp only; rw [hat]; exact h.alive, h.tid⟩

/-- the user does something else for some time -/
def TcpWorld.wait (w : TcpWorld) (d : Nat) : TcpWorld := { w with mst := { w.mst with link := { w.mst.link with now := w.mst.link.now + d } } }

/-- Server and master are connected - connection `i` of the server - and nothing is on its way; the time-out of the master is `x`.
    The server's clock is the time of its last activity. -/
structure TcpReady (db : Databank) (sec i x : Nat) (w : TcpWorld) : Prop where
  good : DbGood db w.srv.heap
  inv : CSrvInv sec w.srv
  silent : w.srv.Silent i
  member : i ∈ w.srv.sockets
  client : w.srv.sock ≠ some i
  connected : (w.srv.socks i).connected = true
  buf : (w.srv.socks i).buf = []
  ended : (w.srv.socks i).ended = none
  future : (w.srv.socks i).future = []
  clock : w.srv.now ≤ w.mst.link.now
  master : ∃ k, MasterReady x w.mst k

theorem TcpReady.wait {db : Databank} {sec i x : Nat} {w : TcpWorld} (h : TcpReady db sec i x w) (d : Nat) : TcpReady db sec i x (w.wait d) := by
  obtain ⟨k, hk⟩ := h.master
  exact ⟨h.good, h.inv, h.silent, h.member, h.client, h.connected, h.buf, h.ended, h.future, Nat.le_trans h.clock (Nat.le_add_right _ _), k, hk.wait d⟩

/-- the job of a call: the next transaction id of the master -/
def TcpWorld.job (w : TcpWorld) (id : Int) (c : Call) : Job := ⟨w.mst.lastTid, id, c⟩

/-- the response the specification prescribes -/
def Job.response (db : Databank) (h : Heap) (j : Job) : Bytes :=
  tcpAdu (UInt16.ofNat ((j.tid + 1) % 65536).toNat) 0 (UInt8.ofNat j.id.toNat) ((Spec.exec (unsignedOf db j.id) (memOf db h j.id) j.call.toReq).1.encode j.call.toReq.fc)

theorem call_sends {R : Registry} (hR : Quiet R) {db : Databank} {x : Nat} (hx : 0 < x) {m : MasterSt CLink} {k : CSock} (h : MasterReady x m k) {j : Job} (hj : j.Legal db)
    (htid : j.tid = m.lastTid) : sends R (j.call.args j.id) m = [j.request] := by
  have hs := call_silent hR hx h hj htid (ev := []) (by simp)
  have hm : tcpMasterDeliver m [] = m := by
    unfold tcpMasterDeliver linkDeliver
    obtain ⟨o, l, t⟩ := m
    obtain ⟨s0⟩ := l
    have := h.sock
    dsimp only at this
    subst this
    simp [CSock.deliver]
  rw [hm] at hs
  unfold sends sentBy
  rw [hs, h.sock]
  simp [asked]

/-- The server's part of a call. -/
theorem tcp_server {R : Registry} (hR : Quiet R) {db : Databank} {sec i x : Nat} (hsec : 0 < sec) (hx : 0 < x) {w : TcpWorld} (hw : TcpReady db sec i x w)
    {id : Int} {c : Call} (hj : (w.job id c).Legal db) {out back : Route} {s1 f1 w1 : Nat} (hout : out.Carries sec s1 f1 w1) :
    ∃ h srv, tcpCall sec R db i out back (c.args id) w =
        ((execute R tcpMac (clockedTcp R) (c.args id) (tcpMasterDeliver w.mst (back h ((w.job id c).response db w.srv.heap)))).1,
          ⟨srv, (execute R tcpMac (clockedTcp R) (c.args id) (tcpMasterDeliver w.mst (back h ((w.job id c).response db w.srv.heap)))).2⟩) ∧
      w.mst.link.now < h ∧ w.mst.link.now + s1 ≤ h ∧ h ≤ w.mst.link.now + w1 ∧
      srv.now = h ∧ srv.log = w.srv.log ++ [(h, i, (w.job id c).response db w.srv.heap)] ∧ DbGood db srv.heap ∧
      (∀ n, memOf db srv.heap n = if n = id then c.after (unsignedOf db n) (memOf db w.srv.heap n) else memOf db w.srv.heap n) ∧
      CSrvInv sec srv ∧ srv.Silent i ∧ i ∈ srv.sockets ∧ srv.sock ≠ some i ∧ (srv.socks i).connected = true ∧ (srv.socks i).buf = [] ∧
      (srv.socks i).ended = none ∧ (srv.socks i).future = [] := by
  obtain ⟨k, hk⟩ := hw.master
  have hsends : sends R (c.args id) w.mst = [(w.job id c).request] := call_sends (j := w.job id c) hR hx hk hj rfl
  have hfr : ServerFrame (w.job id c).request := by unfold Job.request; exact serverFrame_adu _ _ _ hj.len
  have hne : (w.job id c).request ≠ [] := by simp [Job.request, tcpAdu]
  obtain ⟨T, b, bs, ev, rest, last, o1, o2, o3, o4, o5, o6, o7⟩ := hout w.mst.link.now _ hne
  obtain ⟨h', a1, a2, a3⟩ := serve_job hR hw.good hj
  have hsrv0 : w.srv.deliver i ((sends R (c.args id) w.mst).flatMap (out w.mst.link.now)) = w.srv.put i { w.srv.socks i with future := (T, .data b bs) :: ev } := by
    rw [hsends]
    unfold CSrv.deliver CSock.deliver
    rw [hw.future]
    simp [o1]
  generalize hs0 : w.srv.put i { w.srv.socks i with future := (T, .data b bs) :: ev } = s0 at hsrv0
  have hsi : s0.socks i = { w.srv.socks i with future := (T, .data b bs) :: ev } := by rw [← hs0]; simp [CSrv.put]
  have hso : ∀ n, n ≠ i → s0.socks n = w.srv.socks n := by intro n hn; rw [← hs0]; simp [CSrv.put, hn]
  have hso1 : s0.sockets = w.srv.sockets := by rw [← hs0]; rfl
  have hso2 : s0.sock = w.srv.sock := by rw [← hs0]; rfl
  have hso3 : s0.log = w.srv.log := by rw [← hs0]; rfl
  have hso4 : s0.now = w.srv.now := by rw [← hs0]; rfl
  have hso5 : s0.heap = w.srv.heap := by rw [← hs0]; rfl
  have hso6 : s0.coming = w.srv.coming := by rw [← hs0]; rfl
  have hso7 : s0.next = w.srv.next := by rw [← hs0]; rfl
  have hinv : CSrvInv sec s0 := by
    refine ⟨by rw [hso1]; exact hw.inv.nodup, ?_, ?_, ?_, ?_⟩
    · intro n hn
      rw [hso1] at hn
      by_cases hni : n = i
      · subst hni; rw [hsi]; exact hw.inv.opened n hn
      · rw [hso n hni]; exact hw.inv.opened n hn
    · intro n hn hl
      rw [hso1] at hn
      rw [hso2] at hl
      by_cases hni : n = i
      · subst hni; rw [hsi]; exact hw.inv.timed n hn hl
      · rw [hso n hni]; exact hw.inv.timed n hn hl
    · intro n hn; rw [hso1] at hn; rw [hso7]; exact hw.inv.fresh n hn
    · intro l hl; rw [hso2] at hl; rw [hso7]; exact hw.inv.listens l hl
  have hsil : s0.Silent i := by
    refine ⟨by rw [hso6]; exact hw.silent.coming, ?_, ?_⟩
    · intro n hn hni; rw [hso1] at hn; rw [hso n hni]; exact hw.silent.future n hn hni
    · intro n hn hni hl; rw [hso1] at hn; rw [hso2] at hl; rw [hso n hni]; exact hw.silent.others n hn hni hl
  have hclock := hw.clock
  obtain ⟨srv, e1, e2, e3, e4, e5, e6, e7, e8, e9, e10, e11, e12⟩ := serve_request hR (db := db) hsec o6 (by rw [← o2]; exact hfr) (s0.patience i) s0 hinv hsil
    (by rw [hso1]; exact hw.member) (by rw [hso2]; exact hw.client) (by rw [hsi]; exact hw.connected) (by rw [hsi]; exact hw.buf) (by rw [hsi]; exact hw.ended)
    (by rw [hsi]) (by omega) (by unfold CSrv.patience; rw [hsi]; dsimp only; omega) (resp := (w.job id c).response db w.srv.heap) (heap' := h')
    (by rw [← o2, hso5]; exact a1)
  have hTl := o6.data.1
  refine ⟨last, srv, ?_, by omega, by omega, by omega, e4, by rw [e3, hso3], by rw [e2]; exact a2, by intro n; rw [e2]; exact a3 n, e5, e6, e7, e8, e9, e10, e11, e12⟩
  unfold tcpCall
  dsimp only
  rw [hsrv0, e1, e3, hso3]
  simp

/-- what a call leaves behind, at the master and at the server -/
structure TcpCallHappens (db : Databank) (i : Nat) (id : Int) (c : Call) (w w' : TcpWorld) (h : Nat) : Prop where
  /-- the master sends one message, the request -/
  sent : sentBy w'.mst = sentBy w.mst ++ [(w.job id c).request]
  /-- the server sends one message, the response, at `h` -/
  log : w'.srv.log = w.srv.log ++ [(h, i, (w.job id c).response db w.srv.heap)]
  /-- the memories are as the specification says -/
  mem : ∀ n, memOf db w'.srv.heap n = if n = id then c.after (unsignedOf db n) (memOf db w.srv.heap n) else memOf db w.srv.heap n

/-- **C84.** A call on a connection on which nothing is on its way - old bytes may be waiting, at most 2048.  The request arrives in any segments, with gaps shorter than a second;
    it is served at `h`, when its last byte has arrived.  The response arrives in any segments, the first one at `T`, with gaps shorter than the master's time-out `x`; the last at `last`.
    If `T` is within the time-out, the call returns what the specification prescribes, at `last`.  If not, it fails with a time-out, at `now + x`, although the server has carried it out. -/
theorem C84_call (R : Registry) (hR : Quiet R) (db : Databank) (sec i x : Nat) (hsec : 0 < sec) (hx : 0 < x) (w : TcpWorld) (hw : TcpReady db sec i x w)
    (id : Int) (c : Call) (hj : (w.job id c).Legal db) (out back : Route) (s1 f1 w1 s2 f2 w2 : Nat) (hout : out.Carries sec s1 f1 w1) (hback : back.Carries x s2 f2 w2) :
    ∃ w' h T last, (tcpCall sec R db i out back (c.args id) w).2 = w' ∧ TcpCallHappens db i id c w w' h ∧
      w.mst.link.now + s1 ≤ h ∧ h ≤ w.mst.link.now + w1 ∧ h + s2 ≤ T ∧ T ≤ h + f2 ∧ T ≤ last ∧ last ≤ h + w2 ∧
      (T < w.mst.link.now + x → (tcpCall sec R db i out back (c.args id) w).1 = outcome (c.answer (unsignedOf db id) (memOf db w.srv.heap id)) ∧
        w'.mst.link.now = last ∧ TcpReady db sec i x w') ∧
      (w.mst.link.now + x ≤ T → (tcpCall sec R db i out back (c.args id) w).1 = .error .timeout ∧
        w'.mst.link.now = w.mst.link.now + x ∧ ∀ d, last ≤ w.mst.link.now + x + d → TcpReady db sec i x (w'.wait d)) := by
  obtain ⟨k, hk⟩ := hw.master
  obtain ⟨h, srv, e0, t1, t2, t3, e1, e2, e3, e4, e5, e6, e7, e8, e9, e10, e11, e12⟩ := tcp_server hR hsec hx hw hj (back := back) hout
  have hrl := reply_length (unsignedOf db id) (memOf db w.srv.heap id) c.toReq
  have hrlen : ((w.job id c).response db w.srv.heap).length ≤ 2048 := by
    show (tcpAdu _ _ _ ((Spec.exec (unsignedOf db id) (memOf db w.srv.heap id) c.toReq).1.encode c.toReq.fc)).length ≤ 2048
    rw [tcpAdu_length]; omega
  have hne : (w.job id c).response db w.srv.heap ≠ [] := by simp [Job.response, tcpAdu]
  obtain ⟨T, b, bs, ev, rest, last, o1, o2, o3, o4, o5, o6, o7⟩ := hback h _ hne
  have hdata := o6.data
  rw [o1] at e0
  rw [e0]
  dsimp only
  have htid' : 0 ≤ (w.mst.lastTid + 1) % 65536 ∧ (w.mst.lastTid + 1) % 65536 ≤ 65535 := by omega
  by_cases hT : T < w.mst.link.now + x
  · obtain ⟨k', g1, g2, g3, g4, g5, g6, g7, g8⟩ := call_answered hR hx hk hj rfl (unsignedOf db id) (memOf db w.srv.heap id) (by omega) hT o6 o2.symm
    have g1' : execute R tcpMac (clockedTcp R) (c.args id) (tcpMasterDeliver w.mst ((T, .data b bs) :: ev)) = _ := g1
    rw [g1']
    refine ⟨_, h, T, last, rfl, ⟨?_, e2, e4⟩, t2, t3, o4, o5, hdata.1, o7, fun _ => ⟨rfl, rfl, ?_⟩, fun h => by omega⟩
    · simp only [sentBy, hk.sock, Option.map_some, Option.getD_some, g8]
    · have hat : ∀ now, k'.at now = k' := fun now => at_quiet (by rw [g6]; simp)
      exact ⟨e3, e5, e6, e7, e8, e9, e10, e11, e12, by dsimp only; rw [e1]; omega, k', hk.opened, rfl, g2, g3, g4, by rw [hat, g5]; simp, by rw [hat]; exact g6, by rw [hat]; exact g7, htid'⟩
  · have g1 := call_silent hR hx hk hj rfl (ev := (T, .data b bs) :: ev) (by
      intro e he
      rcases List.mem_cons.mp he with rfl | he
      · dsimp only; omega
      · have := hdata.2 e he; omega)
    have g1' : execute R tcpMac (clockedTcp R) (c.args id) (tcpMasterDeliver w.mst ((T, .data b bs) :: ev)) = _ := g1
    rw [g1']
    refine ⟨_, h, T, last, rfl, ⟨?_, e2, e4⟩, t2, t3, o4, o5, hdata.1, o7, fun h => absurd h hT, fun _ => ⟨rfl, rfl, ?_⟩⟩
    · simp only [sentBy, hk.sock, Option.map_some, Option.getD_some, asked]
    · intro d hd
      have hkeep := at_keeps w.mst.link.now k
      have hat : (asked k w.mst.link.now ((T, .data b bs) :: ev) (w.job id c).request).at (w.mst.link.now + x + d) =
          { asked k w.mst.link.now ((T, .data b bs) :: ev) (w.job id c).request with buf := (w.job id c).response db w.srv.heap, future := [] } := by
        unfold CSock.at
        rw [arrived_all (now := w.mst.link.now + x + d) (asked k w.mst.link.now ((T, .data b bs) :: ev) (w.job id c).request).future (asked k w.mst.link.now ((T, .data b bs) :: ev) (w.job id c).request) hk.alive (by
          intro e he
          rcases List.mem_cons.mp he with rfl | he
          · exact ⟨by dsimp only; omega, _, _, rfl⟩
          · have := hdata.2 e he; exact ⟨by omega, this.2.2⟩)]
        congr 1
        show comingBytes [] ((T, .data b bs) :: ev) = _
        rw [comingBytes, o6.bytes, o2]
        simp
      refine ⟨e3, e5, e6, e7, e8, e9, e10, e11, e12, ?_, _, hk.opened, rfl, hkeep.2.1.trans hk.closed, hkeep.2.2.trans hk.connected, hkeep.1.trans hk.timeout, ?_, ?_, ?_, htid'⟩
      · show srv.now ≤ w.mst.link.now + x + d
        rw [e1]; omega
      · show (CSock.at (w.mst.link.now + x + d) _).buf.length ≤ 2048
        rw [hat]; exact hrlen
      · show (CSock.at (w.mst.link.now + x + d) _).future = []
        rw [hat]
      · show (CSock.at (w.mst.link.now + x + d) _).ended = none
        rw [hat]; exact hk.alive


/-- **C84.** How such a connection comes about: a server that was just started accepts the connection that a master asks for; they are ready. -/
theorem C84_connect (R : Registry) (hR : Quiet R) (db : Databank) (heap : Heap) (hg : DbGood db heap) (sec x t d : Nat) (hd : d < x) (lastTid : Int)
    (ht : 0 ≤ lastTid ∧ lastTid ≤ 65535) (rest : List CPeer) :
    ∃ srv m, cSrvRun sec R db (CSrv.started heap [(t, some [])] t) = (.ok (), srv) ∧
      masterOpen (clockedTcp R) ⟨false, { timeout := some x, peers := .accept d [] :: rest, now := t }, lastTid⟩ = (.ok (), m) ∧
      m.lastTid = lastTid ∧ srv.heap = heap ∧ TcpReady db sec 1 x ⟨srv, m⟩ := by
  have hrun : cSrvRun sec R db (CSrv.started heap [(t, some [])] t) = (.ok (), ⟨heap, some 0, [0, 1], fun j => if j = 1 then { connected := true, timeout := some 0, future := [] } else { connected := true }, 2, [], t, []⟩) := by
    unfold cSrvRun
    rw [if_neg (by simp [CSrv.started])]
    have hw : (CSrv.started heap [(t, some [])] t).wake sec = t := by
      unfold CSrv.wake; rw [if_pos (by simp [CSrv.started, CSrv.readableAt])]; rfl
    rw [hw]
    have hf : (CSrv.started heap [(t, some [])] t).sockets.filter (({ CSrv.started heap [(t, some [])] t with now := t } : CSrv).readableAt t) = [0] := by
      simp [CSrv.started, CSrv.readableAt]
    dsimp only
    rw [hf, cSrvLoop]
    simp only [cSrvOne, if_pos (show (CSrv.started heap [(t, some [])] t).sock = some 0 from rfl), cSrvAccept, CSrv.started, hR _ _, Nat.lt_irrefl, if_false]
    rfl
  have hinv := cSrvRounds_inv sec R db 1 _ _ (started_inv sec heap [(t, some [])] t) (by rw [cSrvRounds]; dsimp only; rw [hrun]; rfl)
  obtain ⟨x', rfl⟩ : ∃ x', x = x' + 1 := ⟨x - 1, by omega⟩
  have hop : masterOpen (clockedTcp R) ⟨false, { timeout := some ((x' + 1 : Nat) : Int), peers := .accept d [] :: rest, now := t }, lastTid⟩ =
      (.ok (), ⟨true, { timeout := some ((x' + 1 : Nat) : Int), sock := some { connected := true, timeout := some (x' + 1) }, peers := rest, now := t + d }, lastTid⟩) := by
    unfold masterOpen
    rw [if_neg (by simp)]
    have : (clockedTcp R).doOpen { timeout := some ((x' + 1 : Nat) : Int), peers := .accept d [] :: rest, now := t } =
        (.ok (), { timeout := some ((x' + 1 : Nat) : Int), sock := some { connected := true, timeout := some (x' + 1) }, peers := rest, now := t + d }) := by
      show cDoOpen R _ = _
      unfold cDoOpen
      have hset : cSetTimeout (some ((x' + 1 : Nat) : Int)) { timeout := some ((x' + 1 : Nat) : Int), sock := some {}, peers := .accept d [] :: rest, now := t } =
          (.ok (), { timeout := some ((x' + 1 : Nat) : Int), sock := some { timeout := some (x' + 1) }, peers := .accept d [] :: rest, now := t }) := by
        unfold cSetTimeout
        dsimp only
        rw [if_neg (by simp), if_pos (by omega), if_neg (by omega)]
        rfl
      simp only [PyM.bind_apply, PyM.modify_apply, PyM.get_apply, PyM.lift_apply, cGetTimeout, hset, hR _ _]
      simp only [cConnect, if_pos hd]
      rfl
    dsimp only
    rw [this]
  refine ⟨_, _, hrun, hop, rfl, rfl, ?_⟩
  refine ⟨hg, hinv, ⟨rfl, ?_, ?_⟩, by simp, by simp, rfl, rfl, rfl, rfl, by simp, _, rfl, rfl, rfl, rfl, rfl, by simp [CSock.at, CSock.arrived], by simp [CSock.at, CSock.arrived],
    by simp [CSock.at, CSock.arrived], ht⟩
  · intro j hj hj1
    dsimp only
    rw [if_neg hj1]
  · intro j hj hj1 _
    dsimp only
    rw [if_neg hj1]
    exact ⟨rfl, rfl⟩

/-! ## Histories -/

/-- something the user of the master does: wait, make a call while the network behaves in some way, wait again; `late`: the response does not come in time -/
structure TcpErrand where
  before : Nat
  id : Int
  call : Call
  out : Route
  back : Route
  late : Bool
  after : Nat

/-- the network: the response comes within the time-out; or it comes later, but before the next errand -/
def TcpErrand.Net (sec x : Nat) (e : TcpErrand) : Prop :=
  ∃ s1 f1 w1 s2 f2 w2, e.out.Carries sec s1 f1 w1 ∧ e.back.Carries x s2 f2 w2 ∧ if e.late then x ≤ s1 + s2 ∧ w1 + w2 ≤ x + e.after else w1 + f2 < x

/-- one errand after the other -/
def runErrands (sec : Nat) (R : Registry) (db : Databank) (i : Nat) : List TcpErrand → TcpWorld → List (Except PyErr ExecResult) × TcpWorld
  | [], w => ([], w)
  | e :: es, w =>
    let r := tcpCall sec R db i e.out e.back (e.call.args e.id) (w.wait e.before)
    let next := runErrands sec R db i es (r.2.wait e.after)
    (r.1 :: next.1, next.2)

/-- what the specification says: every call is carried out, late ones too; a late one fails with a time-out -/
def specErrands (u : Int → Bool) : List TcpErrand → (Int → Spec.Mem) → List (Except PyErr ExecResult) × (Int → Spec.Mem)
  | [], m => ([], m)
  | e :: es, m =>
    let next := specErrands u es fun n => if n = e.id then e.call.after (u n) (m n) else m n
    ((if e.late then .error .timeout else outcome (e.call.answer (u e.id) (m e.id))) :: next.1, next.2)

theorem Job.Legal.anyTid {db : Databank} {t : Int} {id : Int} {c : Call} (h : Job.Legal db ⟨t, id, c⟩) {t' : Int} (ht : 0 ≤ t' ∧ t' ≤ 65535) : Job.Legal db ⟨t', id, c⟩ :=
  ⟨ht, h.id, h.fits, h.len, h.known⟩

/-- **C84.** A history of calls, some of them answered too late: every call that is answered in time gets the answer the specification gives for the memory at that point - never an older
    response, never one for another call -, every call that is answered too late fails with a time-out, and is carried out exactly once all the same. -/
theorem C84_history (R : Registry) (hR : Quiet R) (db : Databank) (sec i x : Nat) (hsec : 0 < sec) (hx : 0 < x) : ∀ (es : List TcpErrand) (w : TcpWorld), TcpReady db sec i x w →
    (∀ e ∈ es, Job.Legal db ⟨0, e.id, e.call⟩ ∧ e.Net sec x) →
    (runErrands sec R db i es w).1 = (specErrands (unsignedOf db) es (memOf db w.srv.heap)).1 ∧
    memOf db (runErrands sec R db i es w).2.srv.heap = (specErrands (unsignedOf db) es (memOf db w.srv.heap)).2 ∧
    (runErrands sec R db i es w).2.srv.log.length = w.srv.log.length + es.length ∧
    TcpReady db sec i x (runErrands sec R db i es w).2
  | [], w, hw, _ => ⟨rfl, rfl, rfl, hw⟩
  | e :: es, w, hw, hes => by
    obtain ⟨hl, s1, f1, w1, s2, f2, w2, ho, hb, hn⟩ := hes e (by simp)
    have hw1 := hw.wait e.before
    obtain ⟨k, hk⟩ := hw1.master
    obtain ⟨w', h, T, last, r1, r2, b1, b2, b3, b4, b5, b6, r3, r4⟩ := C84_call R hR db sec i x hsec hx _ hw1 e.id e.call (hl.anyTid hk.tid) e.out e.back s1 f1 w1 s2 f2 w2 ho hb
    have hmem : memOf db w'.srv.heap = fun n => if n = e.id then e.call.after (unsignedOf db n) (memOf db w.srv.heap n) else memOf db w.srv.heap n := funext r2.mem
    have hlog := congrArg List.length r2.log
    rw [List.length_append, List.length_singleton] at hlog
    have hres : (tcpCall sec R db i e.out e.back (e.call.args e.id) (w.wait e.before)).1 =
        (if e.late then .error .timeout else outcome (e.call.answer (unsignedOf db e.id) (memOf db w.srv.heap e.id))) ∧ TcpReady db sec i x (w'.wait e.after) := by
      cases hlate : e.late with
      | true =>
        rw [hlate, if_pos rfl] at hn
        obtain ⟨q1, _, q3⟩ := r4 (by omega)
        exact ⟨q1, q3 _ (by omega)⟩
      | false =>
        rw [hlate, if_neg (by simp)] at hn
        obtain ⟨q1, _, q3⟩ := r3 (by omega)
        exact ⟨q1, q3.wait _⟩
    obtain ⟨i1, i2, i3, i4⟩ := C84_history R hR db sec i x hsec hx es _ hres.2 (fun p hp => hes p (List.mem_cons_of_mem _ hp))
    have hm2 : memOf db (w'.wait e.after).srv.heap = _ := hmem
    rw [hm2] at i1 i2
    have hlog' : (w'.wait e.after).srv.log.length = w.srv.log.length + 1 := hlog
    simp only [runErrands, specErrands, r1]
    refine ⟨by rw [hres.1, i1], i2, by rw [i3, hlog', List.length_cons]; omega, i4⟩


/-! ## A case -/

/-- the first byte arrives after `d`, the rest `g` later -/
def inTwo (d g : Nat) : Route := fun t msg =>
  match msg with
  | [] => []
  | [b] => [(t + d, .data b [])]
  | b :: c :: bs => [(t + d, .data b []), (t + d + g, .data c bs)]

theorem inTwo_carries {d g gap : Nat} (hd : 0 < d) (hg : g < gap) : (inTwo d g).Carries gap d d (d + g) := by
  intro t msg hm
  match msg, hm with
  | [b], _ => exact ⟨t + d, b, [], [], [], t + d, rfl, rfl, by omega, by omega, by omega, .done _, by omega⟩
  | b :: c :: bs, _ =>
    refine ⟨t + d, b, [], [(t + d + g, .data c bs)], c :: bs, t + d + g, rfl, rfl, by omega, by omega, by omega, ?_, by omega⟩
    have := Carried.more (gap := gap) (t := t + d) (T := t + d + g) (b := c) (bs := bs) (by omega) (by omega) (.done _)
    rwa [List.append_nil] at this

/-- a server with two slaves and a master, connected -/
def exTcpPair : TcpWorld :=
  ⟨(cSrvRun 100 [] exTwo.st.db (CSrv.started exTwo.st.heap [(5, some [])] 5)).2,
   (masterOpen (clockedTcp []) ⟨false, { timeout := some 500, peers := [.accept 3 []], now := 5 }, 0⟩).2⟩

theorem exTcpPair_ready : TcpReady exTwo.st.db 100 1 500 exTcpPair := by
  obtain ⟨srv, m, h1, h2, h3, h4, h5⟩ := C84_connect [] quiet_nil exTwo.st.db exTwo.st.heap exStack_good 100 500 5 3 (by decide) 0 (by decide) []
  have : exTcpPair = ⟨srv, m⟩ := by unfold exTcpPair; rw [h1]; rw [show ((500 : Int)) = ((500 : Nat) : Int) from rfl, h2]
  rw [this]; exact h5

/-- a write, a write whose response comes too late, a read, a read of a register that slave 2 does not have -/
def exErrands : List TcpErrand :=
  [⟨10, 1, .writeRegister 11 7, inTwo 20 99, inTwo 30 400, false, 0⟩,
   ⟨0, 1, .writeRegister 12 9, inTwo 20 50, inTwo 600 5, true, 300⟩,
   ⟨0, 1, .readHolding 11 2, inTwo 1 0, inTwo 1 0, false, 0⟩,
   ⟨0, 2, .readHolding 11 2, inTwo 1 0, inTwo 1 0, false, 0⟩]

theorem exErrands_ok : ∀ e ∈ exErrands, Job.Legal exTwo.st.db ⟨0, e.id, e.call⟩ ∧ e.Net 100 500 := by
  intro e he
  simp only [exErrands, List.mem_cons, List.not_mem_nil, or_false] at he
  rcases he with rfl | rfl | rfl | rfl
  all_goals refine ⟨⟨by decide, by decide, by decide, by decide, _, rfl, .inl rfl⟩, _, _, _, _, _, _, inTwo_carries (by decide) (by decide), inTwo_carries (by decide) (by decide), by decide⟩

/-- the late write fails with a time-out and is carried out; the next call reads what it wrote, and not the late response -/
example : (runErrands 100 [] exTwo.st.db 1 exErrands exTcpPair).1 = [.ok (.values [11, 7]), .error .timeout, .ok (.values [7, 9]), .error (.modbusError 2)] := by decide +kernel

example : (specErrands (unsignedOf exTwo.st.db) exErrands (memOf exTwo.st.db exTcpPair.srv.heap)).1 =
    [.ok (.values [11, 7]), .error .timeout, .ok (.values [7, 9]), .error (.modbusError 2)] := by
  rw [← (C84_history [] quiet_nil exTwo.st.db 100 1 500 (by decide) (by decide) exErrands exTcpPair exTcpPair_ready exErrands_ok).1]
  decide +kernel

end Modbus
