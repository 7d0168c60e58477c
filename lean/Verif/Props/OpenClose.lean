import Verif.Props.TcpMaster
import Verif.Props.Rtu
/-
# Property C50: opening and closing a master
-/
namespace Modbus

variable {σ : Type}

/-! ## Specification -/

/-- What is expected of a transport; `Live` says that the link is open. -/
structure LinkLaws (ch : Chan σ) (Live : σ → Prop) : Prop where
  /-- opening succeeds only with an open link -/
  opens : ∀ l l', ch.doOpen l = (.ok (), l') → Live l'
  /-- closing an open link succeeds and closes it -/
  closes : ∀ l, Live l → ∃ l', ch.doClose l = (.ok true, l') ∧ ¬ Live l'
  /-- sending and receiving, successful or not, do not close the link -/
  sends : ∀ b l, Live l → Live (ch.send b l).2
  recvs : ∀ n l, Live l → Live (ch.recv n l).2

/-- something done with a master -/
inductive MasterOp where
  | open
  | close
  | exec (a : ExecArgs)

/-- a history; exceptions are caught by the caller, who goes on -/
def runMaster (R : Registry) (mac : Mac) (ch : Chan σ) : List MasterOp → MasterSt σ → MasterSt σ
  | [], s => s
  | .open :: ops, s => runMaster R mac ch ops (masterOpen ch s).2
  | .close :: ops, s => runMaster R mac ch ops (masterClose ch s).2
  | .exec a :: ops, s => runMaster R mac ch ops (execute R mac ch a s).2

/-- the master believes the link to be open only if it is -/
def OpenInv (Live : σ → Prop) (s : MasterSt σ) : Prop := s.isOpened = true → Live s.link

/-! ## The transports satisfy it -/

theorem onSock_live {α} (f : PyM Sock α) (l : TcpLink) (h : l.sock ≠ none) : (onSock f l).2.sock ≠ none := by
  match hk : l.sock with
  | none => exact absurd hk h
  | some k => unfold onSock; simp only [hk]; simp

theorem tcpDoOpen_live (R : Registry) (l : TcpLink) : (tcpDoOpen R l).2.sock ≠ none := by
  unfold tcpDoOpen
  simp only
  split
  · simp
  · split
    · split <;> simp
    · simp
    · simp

theorem snd_bind_inv {σ α β : Type} {P : σ → Prop} {f : PyM σ α} {g : α → PyM σ β} {s : σ} (hf : P (f s).2)
    (hg : ∀ a s', P s' → P (g a s').2) : P ((f >>= g) s).2 := by
  rw [PyM.bind_apply]
  cases h : f s with
  | mk r s' =>
    rw [h] at hf
    cases r with
    | ok a => exact hg a s' hf
    | error e => exact hf

theorem lift_inv {σ α : Type} {P : σ → Prop} (x : Except PyErr α) {s : σ} (h : P s) : P (PyM.lift x s).2 := by
  cases x <;> exact h

/-- what opening, sending and receiving preserve, `execute` preserves -/
theorem execute_preserves {P : MasterSt σ → Prop} {ch : Chan σ} (R : Registry) (mac : Mac) (a : ExecArgs) {s : MasterSt σ}
    (hopen : P (masterOpen ch s).2) (htid : ∀ (t : MasterSt σ) (x : Int), P t → P { t with lastTid := x })
    (hsend : ∀ (b : Bytes) (t : MasterSt σ), P t → P (onLink (ch.send b) t).2)
    (hrecv : ∀ (n : Int) (t : MasterSt σ), P t → P (onLink (ch.recv n) t).2) : P (execute R mac ch a s).2 := by
  unfold execute
  refine snd_bind_inv hopen (fun _ s1 h1 => ?_)
  refine snd_bind_inv (lift_inv _ h1) (fun p s2 h2 => ?_)
  cases a.slave with
  | none => exact h2
  | some slave =>
    refine snd_bind_inv ?_ (fun x s3 h3 => ?_)
    · unfold buildRequest
      split <;> exact htid _ _ h2
    · refine snd_bind_inv (lift_inv _ h3) (fun _ s4 h4 => ?_)
      refine snd_bind_inv (hsend _ _ h4) (fun _ s5 h5 => ?_)
      refine snd_bind_inv (lift_inv _ h5) (fun _ s6 h6 => ?_)
      refine snd_bind_inv (hrecv _ _ h6) (fun _ s7 h7 => ?_)
      refine snd_bind_inv (lift_inv _ h7) (fun _ s8 h8 => ?_)
      refine snd_bind_inv (lift_inv _ h8) (fun _ s9 h9 => ?_)
      exact lift_inv _ h9

theorem tcpSend_live (R : Registry) (b : Bytes) (l : TcpLink) (h : l.sock ≠ none) : (tcpSend R b l).2.sock ≠ none := by
  unfold tcpSend
  refine snd_bind_inv (P := fun l : TcpLink => l.sock ≠ none) h ?_
  intro _ l1 h1
  refine snd_bind_inv (P := fun l : TcpLink => l.sock ≠ none) ?_ (fun _ l2 h2 => onSock_live _ l2 h2)
  rw [PyM.tryExcept_apply]
  have hl := onSock_live (flushSocket 3 4 0) l1 h1
  cases hf : onSock (flushSocket 3 4 0) l1 with
  | mk r l2 =>
    rw [hf] at hl
    cases r with
    | ok a => exact hl
    | error e => exact tcpDoOpen_live R l2

theorem tcpDoClose_live {R : Registry} (hR : Quiet R) (l : TcpLink) (h : l.sock ≠ none) :
    ∃ l', tcpDoClose R l = (.ok true, l') ∧ ¬ l'.sock ≠ none := by
  match hk : l.sock with
  | none => exact absurd hk h
  | some k =>
    unfold tcpDoClose
    simp only [hk, hR _ _]
    exact ⟨_, rfl, by simp⟩

/-- a `TcpMaster`: the link is open when the master has a socket -/
theorem tcp_laws {R : Registry} (hR : Quiet R) : LinkLaws (tcpChan R) (fun l => l.sock ≠ none) where
  opens l l' h := by have := tcpDoOpen_live R l; rw [show tcpDoOpen R l = _ from h] at this; exact this
  closes l h := tcpDoClose_live hR l h
  sends b l h := tcpSend_live R b l h
  recvs n l h := snd_bind_inv (P := fun l : TcpLink => l.sock ≠ none) (onSock_live _ l h)
    (fun _ l' h' => snd_bind_inv (P := fun l : TcpLink => l.sock ≠ none) (lift_inv (P := fun l : TcpLink => l.sock ≠ none) _ h') (fun _ _ h => h))

theorem rtuOverTcp_laws {R : Registry} (hR : Quiet R) : LinkLaws (rtuOverTcpChan R) (fun l => l.sock ≠ none) where
  opens l l' h := by have := tcpDoOpen_live R l; rw [show tcpDoOpen R l = _ from h] at this; exact this
  closes l h := tcpDoClose_live hR l h
  sends b l h := tcpSend_live R b l h
  recvs n l h := snd_bind_inv (P := fun l : TcpLink => l.sock ≠ none) (onSock_live _ l h)
    (fun _ l' h' => snd_bind_inv (P := fun l : TcpLink => l.sock ≠ none) (lift_inv (P := fun l : TcpLink => l.sock ≠ none) _ h') (fun _ _ h => h))

theorem portRead_open (n : Nat) (s : Port) (h : s.isOpen = true) : (portRead n s).2.isOpen = true := by
  have hw : ∀ (bl : Bool) (ev : List SerialEvent), (Port.readWait n bl s ev).2.isOpen = true := by
    intro bl ev
    induction ev with
    | nil => exact h
    | cons e ev ih =>
      match e with
      | .chunk [] => exact ih
      | .chunk (_ :: _) => exact h
      | .silence => rw [Port.readWait]; split; exact ih; exact h
      | .fail => exact h
  unfold portRead
  rw [if_neg (by simp [h])]
  split
  · exact h
  · exact hw _ _

theorem rtuRecvLoop_open (cfg : RtuCfg) (L : Int) (fuel : Nat) (response : Bytes) (readed : Int) (s : Port) (h : s.isOpen = true) :
    (rtuRecvLoop cfg L fuel response readed s).2.isOpen = true := by
  induction fuel generalizing response readed s with
  | zero => exact h
  | succ fuel ih =>
    rw [rtuRecvLoop]
    refine snd_bind_inv (P := fun s : Port => s.isOpen = true) h ?_
    intro s0 s1 h1
    refine snd_bind_inv (P := fun s : Port => s.isOpen = true) (portRead_open _ _ h1) ?_
    intro x s2 h2
    refine snd_bind_inv (P := fun s : Port => s.isOpen = true) ?_ ?_
    · unfold rtuDuration; split; exact h2; exact h2
    · intro d s3 h3
      by_cases hx : x = []
      · rw [if_pos hx]; exact h3
      · rw [if_neg hx]
        cases s0.timeout with
        | none => exact h3
        | some t =>
          dsimp only
          by_cases hd : d > t
          · rw [if_pos hd]; exact h3
          · rw [if_neg hd]
            by_cases hL : L ≥ 0 ∧ ((response ++ x).length : Int) ≥ L
            · rw [if_pos hL]; exact h3
            · rw [if_neg hL]; exact ih _ _ _ h3

theorem rtuSend_open (R : Registry) (cfg : RtuCfg) (b : Bytes) (l : Port) (h : l.isOpen = true) : (rtuSend R cfg b l).2.isOpen = true := by
  unfold rtuSend
  refine snd_bind_inv (P := fun s : Port => s.isOpen = true) h ?_
  intro _ s1 h1
  have hre : (portResetInput s1).2.isOpen = true := by
    unfold portResetInput
    rw [if_neg (by simp [h1])]
    show (Port.arriveN _ _).isOpen = true
    rw [parriveN_isOpen]; exact h1
  have hck : ∀ s : Port, s.isOpen = true → (portCheck s).2.isOpen = true := by
    intro s hs; unfold portCheck; split <;> exact hs
  have hwr : ∀ (x : Bytes) (s : Port), s.isOpen = true → (portWrite x s).2.isOpen = true := by
    intro x s hs; unfold portWrite; split <;> exact hs
  refine snd_bind_inv (P := fun s : Port => s.isOpen = true) hre (fun _ s2 h2 => ?_)
  refine snd_bind_inv (P := fun s : Port => s.isOpen = true) (hck _ h2) (fun _ s3 h3 => ?_)
  refine snd_bind_inv (P := fun s : Port => s.isOpen = true) (hwr _ _ h3) (fun _ s4 h4 => ?_)
  refine snd_bind_inv (P := fun s : Port => s.isOpen = true) (hck _ h4) (fun _ s5 h5 => ?_)
  split
  · exact snd_bind_inv (P := fun s : Port => s.isOpen = true) (portRead_open _ _ h5) (fun _ _ h6 => h6)
  · exact h5

theorem rtuRecv_open (R : Registry) (cfg : RtuCfg) (n : Int) (l : Port) (h : l.isOpen = true) : (rtuRecv R cfg n l).2.isOpen = true := by
  unfold rtuRecv
  refine snd_bind_inv (P := fun s : Port => s.isOpen = true) h (fun s0 s1 h1 => ?_)
  refine snd_bind_inv (P := fun s : Port => s.isOpen = true) (rtuRecvLoop_open _ _ _ _ _ _ h1) (fun _ s2 h2 => ?_)
  exact snd_bind_inv (P := fun s : Port => s.isOpen = true) (lift_inv (P := fun s : Port => s.isOpen = true) _ h2) (fun _ _ h => h)

theorem rtuDoOpen_open (R : Registry) (l l' : Port) (h : rtuDoOpen R l = (.ok (), l')) : l'.isOpen = true := by
  unfold rtuDoOpen at h
  split at h
  · rename_i ho
    cases h; exact ho
  · cases hc : callHooks R "modbus_rtu.RtuMaster.before_open" .obj with
    | error e => simp only [PyM.bind_apply, PyM.lift_apply, hc] at h; cases h
    | ok v =>
      simp only [PyM.bind_apply, PyM.lift_apply, hc] at h
      unfold portOpen at h
      split at h
      · cases h
      · split at h
        · cases h
        · cases h; rfl

/-- an `RtuMaster`: the link is open when the serial port is -/
theorem rtu_laws {R : Registry} (hR : Quiet R) (cfg : RtuCfg) : LinkLaws (rtuChan R cfg) (fun l => l.isOpen = true) where
  opens l l' h := rtuDoOpen_open R l l' h
  closes l h := by
    refine ⟨{ l with isOpen := false }, ?_, by simp⟩
    show rtuDoClose R l = _
    unfold rtuDoClose
    rw [if_pos h]
    simp only [PyM.bind_apply, PyM.lift_apply, hR _ _, portClose]
    rfl
  sends b l h := rtuSend_open R cfg b l h
  recvs n l h := rtuRecv_open R cfg n l h

/-! ## The master -/

theorem masterOpen_inv {ch : Chan σ} {Live : σ → Prop} (H : LinkLaws ch Live) {s : MasterSt σ} (hi : OpenInv Live s) :
    OpenInv Live (masterOpen ch s).2 := by
  unfold masterOpen
  split
  · exact hi
  · rename_i hno
    split
    · rename_i l h; exact fun _ => H.opens _ _ h
    · rename_i e l h; intro ho; exact absurd ho hno

theorem onLink_inv {α} {Live : σ → Prop} {f : PyM σ α} (hf : ∀ l, Live l → Live (f l).2) {s : MasterSt σ} (hi : OpenInv Live s) :
    OpenInv Live (onLink f s).2 := fun h => hf _ (hi h)

theorem execute_inv {ch : Chan σ} {Live : σ → Prop} (H : LinkLaws ch Live) (R : Registry) (mac : Mac) (a : ExecArgs)
    {s : MasterSt σ} (hi : OpenInv Live s) : OpenInv Live (execute R mac ch a s).2 :=
  execute_preserves R mac a (masterOpen_inv H hi) (fun _ _ h => h) (fun _ _ h => onLink_inv (H.sends _) h)
    (fun _ _ h => onLink_inv (H.recvs _) h)

theorem masterClose_spec {ch : Chan σ} {Live : σ → Prop} (H : LinkLaws ch Live) {s : MasterSt σ} (hi : OpenInv Live s) :
    ∃ s', masterClose ch s = (.ok (), s') ∧ s'.isOpened = false ∧ (s.isOpened = true → ¬ Live s'.link) ∧
      (s.isOpened = false → s' = s) := by
  unfold masterClose
  by_cases ho : s.isOpened = true
  · obtain ⟨l', h1, h2⟩ := H.closes _ (hi ho)
    rw [if_pos ho, h1]
    exact ⟨_, rfl, rfl, fun _ => h2, fun h => by rw [h] at ho; cases ho⟩
  · rw [if_neg ho]
    exact ⟨s, rfl, by simpa using ho, fun h => absurd h ho, fun _ => rfl⟩

theorem runMaster_inv {ch : Chan σ} {Live : σ → Prop} (H : LinkLaws ch Live) (R : Registry) (mac : Mac) (ops : List MasterOp)
    {s : MasterSt σ} (hi : OpenInv Live s) : OpenInv Live (runMaster R mac ch ops s) := by
  induction ops generalizing s with
  | nil => exact hi
  | cons op ops ih =>
    match op with
    | .open => exact ih (masterOpen_inv H hi)
    | .close =>
      refine ih ?_
      obtain ⟨s', h1, h2, _⟩ := masterClose_spec H hi
      rw [h1]; intro h; rw [h2] at h; cases h
    | .exec a => exact ih (execute_inv H R mac a hi)

/-- **C50 (part).** A master over a transport that nobody else opens or closes, after any history: `open` succeeds only
    with an open link, and doing it again changes nothing; `close` succeeds and leaves no open link behind. -/
theorem C50_open_close_partial (R : Registry) (mac : Mac) (ch : Chan σ) (Live : σ → Prop) (H : LinkLaws ch Live) (link : σ) (tid : Int)
    (ops : List MasterOp) (s : MasterSt σ) (hs : s = runMaster R mac ch ops ⟨false, link, tid⟩) :
    (∀ s', masterOpen ch s = (.ok (), s') → s'.isOpened = true ∧ Live s'.link ∧ masterOpen ch s' = (.ok (), s')) ∧
    (∃ s', masterClose ch s = (.ok (), s') ∧ s'.isOpened = false ∧ (s.isOpened = true → ¬ Live s'.link) ∧
      masterClose ch s' = (.ok (), s')) := by
  have hi : OpenInv Live s := by rw [hs]; exact runMaster_inv H R mac ops (fun h => by cases h)
  constructor
  · intro s' h
    have hi' := masterOpen_inv H hi
    rw [h] at hi'
    have ho : s'.isOpened = true := by
      unfold masterOpen at h
      split at h
      · rename_i h'; cases h; exact h'
      · split at h <;> cases h; rfl
    exact ⟨ho, hi' ho, by unfold masterOpen; rw [if_pos ho]⟩
  · obtain ⟨s', h1, h2, h3, _⟩ := masterClose_spec H hi
    exact ⟨s', h1, h2, h3, by unfold masterClose; rw [h2]; rfl⟩

/-- **C50 (part).** `execute` on a master that is not open opens the link first: it raises what opening raises, and
    otherwise does what it would do on an open master; the master then stays open, whether the exchange succeeds or not. -/
theorem C50_execute_opens_partial (R : Registry) (mac : Mac) (ch : Chan σ) (a : ExecArgs) (s : MasterSt σ) (ho : s.isOpened = false) :
    match ch.doOpen s.link with
    | (.error e, l) => execute R mac ch a s = (.error e, { s with link := l })
    | (.ok (), l) => execute R mac ch a s = execute R mac ch a ⟨true, l, s.lastTid⟩ ∧ (execute R mac ch a s).2.isOpened = true := by
  have hopen : ∀ t : MasterSt σ, t.isOpened = true → (execute R mac ch a t).2.isOpened = true := by
    intro t ht
    have hm : masterOpen ch t = (.ok (), t) := by unfold masterOpen; rw [if_pos ht]
    exact execute_preserves (P := fun t : MasterSt σ => t.isOpened = true) R mac a (by rw [hm]; exact ht) (fun _ _ h => h)
      (fun _ _ h => h) (fun _ _ h => h)
  have h1 : masterOpen ch s = match ch.doOpen s.link with
    | (.ok _, l) => (.ok (), { s with link := l, isOpened := true })
    | (.error e, l) => (.error e, { s with link := l }) := by
    unfold masterOpen; rw [if_neg (by simp [ho])]; rfl
  split
  · rename_i e l h
    rw [h] at h1
    unfold execute
    simp only [PyM.bind_apply, h1]
  · rename_i l h
    rw [h] at h1
    have h2 : masterOpen ch ⟨true, l, s.lastTid⟩ = (.ok (), ⟨true, l, s.lastTid⟩) := by unfold masterOpen; rfl
    have heq : execute R mac ch a s = execute R mac ch a ⟨true, l, s.lastTid⟩ := by
      simp only [execute, PyM.bind_apply, h1, h2]
    exact ⟨heq, by rw [heq]; exact hopen _ rfl⟩

/-- **C50 (part).** After any history and `close`, the next `execute` opens the link again. -/
theorem C50_reopens_partial (R : Registry) (mac : Mac) (ch : Chan σ) (Live : σ → Prop) (H : LinkLaws ch Live) (link : σ) (tid : Int)
    (ops : List MasterOp) (a : ExecArgs) :
    ∃ s, runMaster R mac ch (ops ++ [.close]) ⟨false, link, tid⟩ = s ∧
      match ch.doOpen s.link with
      | (.error e, l) => execute R mac ch a s = (.error e, { s with link := l })
      | (.ok (), l) => execute R mac ch a s = execute R mac ch a ⟨true, l, s.lastTid⟩ ∧ Live (execute R mac ch a s).2.link := by
  refine ⟨_, rfl, ?_⟩
  have happ : ∀ (ops : List MasterOp) (s : MasterSt σ), runMaster R mac ch (ops ++ [.close]) s =
      (masterClose ch (runMaster R mac ch ops s)).2 := by
    intro ops
    induction ops with
    | nil => intro s; rfl
    | cons op ops ih => intro s; cases op <;> exact ih _
  have hi : OpenInv Live (runMaster R mac ch ops ⟨false, link, tid⟩) := runMaster_inv H R mac ops (fun h => by cases h)
  obtain ⟨s', h1, h2, _⟩ := masterClose_spec H hi
  rw [happ, h1]
  have := C50_execute_opens_partial R mac ch a s' h2
  split
  · rename_i e l h
    rw [h] at this
    exact this
  · rename_i l h
    rw [h] at this
    refine ⟨this.1, ?_⟩
    exact execute_inv H R mac a (fun ho => by rw [h2] at ho; cases ho) this.2

/-! ## TCP: no connection is forgotten -/

/-- connections not yet made, the current one and those closed -/
def TcpLink.accounted (l : TcpLink) : Nat := l.peers.length + l.sock.toList.length + l.closedSocks.length

/-- nothing was lost and everything that is not in use is closed -/
def TcpLink.NoLeak (l0 l : TcpLink) : Prop := l0.accounted ≤ l.accounted ∧ ∀ k ∈ l.closedSocks, k.closed = true

theorem tcpDoOpen_noLeak (R : Registry) {l0 l : TcpLink} (h : l0.NoLeak l) : l0.NoLeak (tcpDoOpen R l).2 := by
  obtain ⟨h1, h2⟩ := h
  have hc : ∀ k ∈ l.closedSocks ++ l.sock.toList.map Sock.close, k.closed = true := by
    intro k hk
    rcases List.mem_append.mp hk with hk | hk
    · exact h2 k hk
    · obtain ⟨k', _, rfl⟩ := List.mem_map.mp hk; rfl
  unfold TcpLink.accounted at h1
  unfold tcpDoOpen
  simp only
  split
  · exact ⟨by simp only [TcpLink.accounted, List.length_append, List.length_map, Option.toList_some, List.length_cons, List.length_nil]; omega, hc⟩
  · split
    · rename_i k rest hp
      have hl := congrArg List.length hp
      simp only [List.length_cons] at hl
      split <;>
        exact ⟨by simp only [TcpLink.accounted, List.length_append, List.length_map, Option.toList_some, List.length_cons, List.length_nil]; omega, hc⟩
    · rename_i rest hp
      have hl := congrArg List.length hp
      simp only [List.length_cons] at hl
      exact ⟨by simp only [TcpLink.accounted, List.length_append, List.length_map, Option.toList_some, List.length_cons, List.length_nil]; omega, hc⟩
    · exact ⟨by simp only [TcpLink.accounted, List.length_append, List.length_map, Option.toList_some, List.length_cons, List.length_nil]; omega, hc⟩

theorem onSock_noLeak {α} (f : PyM Sock α) {l0 l : TcpLink} (h : l0.NoLeak l) : l0.NoLeak (onSock f l).2 := by
  unfold onSock
  split
  · exact h
  · rename_i k hk
    obtain ⟨h1, h2⟩ := h
    refine ⟨?_, h2⟩
    unfold TcpLink.accounted at *
    rw [hk] at h1
    exact h1

theorem tcpChan_noLeak {R : Registry} (hR : Quiet R) (l0 l : TcpLink) (h : l0.NoLeak l) :
    l0.NoLeak (tcpDoOpen R l).2 ∧ l0.NoLeak (tcpDoClose R l).2 ∧ (∀ b, l0.NoLeak (tcpSend R b l).2) ∧
    (∀ n, l0.NoLeak (tcpRecv R n l).2) := by
  refine ⟨tcpDoOpen_noLeak R h, ?_, ?_, ?_⟩
  · unfold tcpDoClose
    split
    · exact h
    · rename_i k hk
      simp only [hR _ _]
      obtain ⟨h1, h2⟩ := h
      refine ⟨?_, ?_⟩
      · unfold TcpLink.accounted at *
        rw [hk] at h1
        simp only [Option.toList_some, List.length_cons, List.length_nil, Option.toList_none, List.length_append] at *
        omega
      · intro k' hk'
        rcases List.mem_append.mp hk' with hk' | hk'
        · exact h2 k' hk'
        · rw [List.mem_singleton.mp hk']; rfl
  · intro b
    unfold tcpSend
    refine snd_bind_inv (P := l0.NoLeak) h (fun _ l1 h1 => ?_)
    refine snd_bind_inv (P := l0.NoLeak) ?_ (fun _ l2 h2 => onSock_noLeak _ h2)
    rw [PyM.tryExcept_apply]
    have hl := onSock_noLeak (flushSocket 3 4 0) h1
    cases hf : onSock (flushSocket 3 4 0) l1 with
    | mk r l2 =>
      rw [hf] at hl
      cases r with
      | ok a => exact hl
      | error e => exact tcpDoOpen_noLeak R hl
  · intro n
    exact snd_bind_inv (P := l0.NoLeak) (onSock_noLeak _ h)
      (fun _ l' h' => snd_bind_inv (P := l0.NoLeak) (lift_inv (P := l0.NoLeak) _ h') (fun _ _ h => h))

/-- **C50 (part).** A `TcpMaster` forgets no connection: after any history, everything it has connected, except the current
    socket, is closed; after a final `close` everything is. -/
theorem C50_tcp_no_leak_partial (R : Registry) (hR : Quiet R) (mac : Mac) (ops : List MasterOp) (peers : List (Option Sock)) (tid : Int)
    (l : TcpLink) (hl : l = (runMaster R mac (tcpChan R) ops ⟨false, { peers := peers }, tid⟩).link) :
    peers.length ≤ l.peers.length + l.sock.toList.length + l.closedSocks.length ∧ (∀ k ∈ l.closedSocks, k.closed = true) := by
  have key : ∀ (ops : List MasterOp) (s : MasterSt TcpLink), TcpLink.NoLeak { peers := peers } s.link →
      TcpLink.NoLeak { peers := peers } (runMaster R mac (tcpChan R) ops s).link := by
    intro ops
    induction ops with
    | nil => intro s h; exact h
    | cons op ops ih =>
      intro s h
      have hlaw := fun l => tcpChan_noLeak hR { peers := peers } l
      have hop : TcpLink.NoLeak { peers := peers } (masterOpen (tcpChan R) s).2.link := by
        have := (hlaw _ h).1
        unfold masterOpen
        split
        · exact h
        · split
          · rename_i l' h'; rw [show tcpDoOpen R s.link = _ from h'] at this; exact this
          · rename_i e l' h'; rw [show tcpDoOpen R s.link = _ from h'] at this; exact this
      match op with
      | .open => exact ih _ hop
      | .close =>
        refine ih _ ?_
        have := (hlaw _ h).2.1
        unfold masterClose
        split
        · split
          · rename_i b l' h'; rw [show tcpDoClose R s.link = _ from h'] at this; exact this
          · rename_i e l' h'; rw [show tcpDoClose R s.link = _ from h'] at this; exact this
        · exact h
      | .exec a =>
        refine ih _ ?_
        have hP : ∀ {α} (f : PyM TcpLink α), (∀ l, TcpLink.NoLeak { peers := peers } l → TcpLink.NoLeak { peers := peers } (f l).2) →
            ∀ t : MasterSt TcpLink, TcpLink.NoLeak { peers := peers } t.link → TcpLink.NoLeak { peers := peers } (onLink f t).2.link :=
          fun f hf t ht => hf _ ht
        show TcpLink.NoLeak { peers := peers } (execute R mac (tcpChan R) a s).2.link
        exact execute_preserves (P := fun t : MasterSt TcpLink => TcpLink.NoLeak { peers := peers } t.link) R mac a hop
          (fun _ _ h => h) (fun b t h => hP _ (fun l hl => (hlaw l hl).2.2.1 b) t h) (fun n t h => hP _ (fun l hl => (hlaw l hl).2.2.2 n) t h)
  have := key ops ⟨false, { peers := peers }, tid⟩ ⟨by simp, by simp⟩
  rw [← hl] at this
  obtain ⟨h1, h2⟩ := this
  simp only [TcpLink.accounted, Option.toList_none, List.length_nil] at h1
  exact ⟨by omega, h2⟩

/-! ## What is false -/

/-- **C50 fails** when the serial port of an `RtuMaster` has been closed by someone else: `close` then has no effect, the
    master believes to be open for ever, and no `execute` opens the port again, even if it could be opened. -/
theorem C50_false_rtu (cfg : RtuCfg) :
    masterClose (rtuChan [] cfg) ⟨true, { isOpen := false }, 0⟩ = (.ok (), ⟨true, { isOpen := false }, 0⟩) ∧
    ∀ (a : ExecArgs) (s : MasterSt Port), s.isOpened = true → s.link.isOpen = false →
      (∀ r, (execute [] rtuMac (rtuChan [] cfg) a s).1 ≠ .ok r) ∧ (execute [] rtuMac (rtuChan [] cfg) a s).2.link = s.link ∧
      (execute [] rtuMac (rtuChan [] cfg) a s).2.isOpened = true := by
  refine ⟨rfl, ?_⟩
  intro a s ho hp
  have hm : masterOpen (rtuChan [] cfg) s = (.ok (), s) := by unfold masterOpen; rw [if_pos ho]
  have hsend : ∀ b, rtuSend [] cfg b s.link = (.error .osError, s.link) := by
    intro b
    unfold rtuSend
    have h1 : portResetInput s.link = (.error .osError, s.link) := by unfold portResetInput; rw [if_pos (by simp [hp])]
    simp only [PyM.bind_apply, PyM.lift_apply, show callHooks [] "modbus_rtu.RtuMaster.before_send" (HookArg.msg b) = .ok none from rfl,
      Option.getD_none, h1]
  cases hpr : prepare a with
  | error e =>
    have : execute [] rtuMac (rtuChan [] cfg) a s = (.error e, s) := by
      simp only [execute, PyM.bind_apply, hm, PyM.lift_apply, hpr]
    rw [this]; exact ⟨nofun, rfl, ho⟩
  | ok p =>
    cases hs : a.slave with
    | none =>
      have : execute [] rtuMac (rtuChan [] cfg) a s = (.error .typeError, s) := by
        simp only [execute, PyM.bind_apply, hm, PyM.lift_apply, hpr, hs]; rfl
      rw [this]; exact ⟨nofun, rfl, ho⟩
    | some slave =>
      cases hb : buildRequest rtuMac p.pdu slave s with
      | mk r s2 =>
        have hs2 : s2.link = s.link ∧ s2.isOpened = s.isOpened := by
          unfold buildRequest at hb
          split at hb <;> (cases hb; exact ⟨rfl, rfl⟩)
        cases r with
        | error e =>
          have : execute [] rtuMac (rtuChan [] cfg) a s = (.error e, s2) := by
            simp only [execute, PyM.bind_apply, hm, PyM.lift_apply, hpr, hs, hb]
          rw [this]; exact ⟨nofun, hs2.1, hs2.2.trans ho⟩
        | ok rq =>
          obtain ⟨request, q⟩ := rq
          have he := execute_main (R := []) (mac := rtuMac) (ch := rtuChan [] cfg) (a := a) quiet_nil hm hpr hs hb
          have hsend' : (rtuChan [] cfg).send request s2.link = (.error .osError, s.link) := by rw [hs2.1]; exact hsend request
          rw [hsend'] at he
          rw [he]
          refine ⟨nofun, rfl, hs2.2.trans ho⟩

-- Non-vacuity: a history on TCP: execute opens, close, execute opens the second connection
example : (runMaster [] tcpMac (tcpChan [])
    [.exec { slave := some 1, functionCode := 3, startingAddress := .int 0, quantity := .int 1 }, .close, .open]
    ⟨false, { peers := [some { future := [.data [0, 1, 0, 0, 0, 5, 1, 3, 2, 0, 7]] }, some {}, none] }, 0⟩).link.peers = [none] := by
  decide +kernel
example : (execute [] tcpMac (tcpChan []) { slave := some 1, functionCode := 3, startingAddress := .int 0, quantity := .int 1 }
    ⟨false, { peers := [some { future := [.data [0, 1, 0, 0, 0, 5, 1, 3, 2, 0, 7]] }] }, 0⟩).1 = .ok (.values [7]) := by decide +kernel
example : LinkLaws (tcpChan []) (fun l => l.sock ≠ none) := tcp_laws quiet_nil
example : LinkLaws (rtuChan [] {}) (fun l => l.isOpen = true) := rtu_laws quiet_nil {}

end Modbus
