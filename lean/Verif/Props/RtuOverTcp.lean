import Verif.Props.TcpMaster
import Verif.Lemmas.TcpServer
/-
# Property C32: RTU over TCP
-/
namespace Modbus
open Spec (word wordAt rtuAdu Call)

/-- the number of bytes after which `RtuOverTcpMaster` stops reading -/
def rtuTarget (n : Int) : Nat := if 0 ≤ n ∧ n ≤ 255 then n.toNat else 255

theorem rtuLoop_step {n : Int} {fuel : Nat} {response : Bytes} (hl : response.length < 255) {s : Sock} (hc : s.closed = false)
    {b : UInt8} {t : Bytes} (hs : s.stream = b :: t) :
    ∃ s', s'.stream = t ∧ s.Read [b] s' ∧ rtuOverTcpRecvLoop n (fuel+1) response s =
      if n ≥ 0 ∧ ((response ++ [b]).length : Int) ≥ n then (.ok (response ++ [b]), s')
      else rtuOverTcpRecvLoop n fuel (response ++ [b]) s' := by
  obtain ⟨s', e1, e2, e3⟩ := recv1_cons hc hs
  refine ⟨s', e2, e3, ?_⟩
  rw [rtuOverTcpRecvLoop, if_pos hl]
  simp only [PyM.bind_apply, e1]
  split <;> rfl

theorem rtuLoop_full {n : Int} {fuel : Nat} {response : Bytes} (hl : ¬ response.length < 255) (s : Sock) :
    rtuOverTcpRecvLoop n (fuel+1) response s = (.ok response, s) := by
  rw [rtuOverTcpRecvLoop, if_neg hl]; rfl

/-- reading up to the target -/
theorem rtuLoop_reads {n : Int} (x t : Bytes) : ∀ (fuel : Nat) (response : Bytes) (s : Sock), s.closed = false → x ≠ [] →
    (response ++ x).length = rtuTarget n → s.stream = x ++ t → x.length < fuel →
    ∃ s', rtuOverTcpRecvLoop n fuel response s = (.ok (response ++ x), s') ∧ s.Read x s' ∧ s'.stream = t := by
  induction x with
  | nil => intro _ _ _ _ h; exact absurd rfl h
  | cons b x ih =>
    intro fuel response s hc _ hlen hs hf
    match fuel with
    | 0 => simp at hf
    | fuel+1 =>
      have ht : rtuTarget n ≤ 255 := by unfold rtuTarget; split <;> omega
      have hl : response.length < 255 := by simp only [List.length_append, List.length_cons] at hlen; omega
      obtain ⟨s1, e2, e3, e4⟩ := rtuLoop_step (n := n) (fuel := fuel) hl hc (b := b) (t := x ++ t) (by simpa using hs)
      have ea : response ++ [b] ++ x = response ++ b :: x := by simp
      match x, ih with
      | [], _ =>
        rw [e4]
        by_cases hn : n ≥ 0 ∧ ((response ++ [b]).length : Int) ≥ n
        · rw [if_pos hn]
          exact ⟨s1, rfl, e3, by simpa using e2⟩
        · rw [if_neg hn]
          have : (response ++ [b]).length = 255 := by
            rw [hlen]
            unfold rtuTarget at hlen ⊢
            split at hlen
            · rename_i h; exact absurd ⟨h.1, by rw [hlen]; omega⟩ hn
            · rename_i h; rw [if_neg h]
          match fuel with
          | 0 => simp at hf
          | fuel+1 =>
            rw [rtuLoop_full (by omega)]
            exact ⟨s1, rfl, e3, by simpa using e2⟩
      | c :: x, ih =>
        rw [e4]
        have hn : ¬ (n ≥ 0 ∧ ((response ++ [b]).length : Int) ≥ n) := by
          rintro ⟨h1, h2⟩
          simp only [List.length_append, List.length_cons, List.length_nil] at hlen h2
          unfold rtuTarget at hlen
          split at hlen <;> omega
        rw [if_neg hn]
        obtain ⟨s', f1, f2, f3⟩ := ih fuel (response ++ [b]) s1 (by rw [e3.closed]; exact hc) (by simp) (by rw [ea]; exact hlen) e2
          (by simpa using hf)
        exact ⟨s', by rw [f1, ea], e3.trans f2, f3⟩

/-- reading a stream that is too short: everything is consumed, then the end of the stream decides -/
theorem rtuLoop_short {n : Int} (x : Bytes) : ∀ (fuel : Nat) (response : Bytes) (s : Sock), s.closed = false →
    (response ++ x).length < rtuTarget n → s.stream = x →
    ∃ s', s'.stream = [] ∧ s'.later = s.later ∧ s'.closed = false ∧
      rtuOverTcpRecvLoop n (x.length + fuel) response s = rtuOverTcpRecvLoop n fuel (response ++ x) s' := by
  induction x with
  | nil => intro fuel response s hc _ hs; exact ⟨s, hs, rfl, hc, by simp⟩
  | cons b x ih =>
    intro fuel response s hc hlen hs
    have ht : rtuTarget n ≤ 255 := by unfold rtuTarget; split <;> omega
    have hl : response.length < 255 := by simp only [List.length_append, List.length_cons] at hlen; omega
    obtain ⟨s1, e2, e3, e4⟩ := rtuLoop_step (n := n) (fuel := x.length + fuel) hl hc (b := b) (t := x) hs
    have ea : response ++ [b] ++ x = response ++ b :: x := by simp
    have hn : ¬ (n ≥ 0 ∧ ((response ++ [b]).length : Int) ≥ n) := by
      rintro ⟨h1, h2⟩
      simp only [List.length_append, List.length_cons, List.length_nil] at hlen h2
      unfold rtuTarget at hlen
      split at hlen <;> omega
    rw [if_neg hn] at e4
    obtain ⟨s', f1, f2, f3, f4⟩ := ih fuel (response ++ [b]) s1 (by rw [e3.closed]; exact hc) (by rw [ea]; exact hlen) e2
    refine ⟨s', f1, f2.trans e3.later, f3, ?_⟩
    rw [ea] at f4
    rw [← f4, ← e4]
    congr 1
    rw [List.length_cons]; omega

/-- once the peer has closed, the loop turns for ever -/
theorem rtuLoop_ended {n : Int} (fuel : Nat) (response : Bytes) (s : Sock) (hc : s.closed = false) (hs : s.stream = [])
    (he : s.later.head? = some .eof) (hlen : response.length < rtuTarget n) :
    (rtuOverTcpRecvLoop n fuel response s).1 = .error .nonTermination := by
  induction fuel generalizing s with
  | zero => rfl
  | succ fuel ih =>
    have ht : rtuTarget n ≤ 255 := by unfold rtuTarget; split <;> omega
    rcases recv1_nil hc hs with ⟨s', e1, e2, e3, e4, e5, e6⟩ | ⟨s', e, e1, e2⟩
    · rw [rtuOverTcpRecvLoop, if_pos (by omega)]
      simp only [PyM.bind_apply, e1, List.append_nil]
      have hn : ¬ (n ≥ 0 ∧ (response.length : Int) ≥ n) := by
        rintro ⟨h1, h2⟩
        unfold rtuTarget at hlen
        split at hlen <;> omega
      rw [if_neg hn]
      exact ih s' e5 e4 (by simp [Sock.later, e3])
    · exact absurd he e2

/-- **C32 is false (1).** If the peer closes the connection before the expected number of bytes has arrived, receiving does
    not end: no number of rounds of the loop is enough. -/
theorem C32_false_close (n : Int) (k : Sock) (ho : k.closed = false) (hlen : k.stream.length < rtuTarget n)
    (he : k.later.head? = some .eof) (fuel : Nat) : (rtuOverTcpRecvLoop n fuel [] k).1 = .error .nonTermination := by
  -- run at least to the end of the stream
  have mono : ∀ (a : Nat) (r : Bytes) (s : Sock), (rtuOverTcpRecvLoop n (a+1) r s).1 = .error .nonTermination →
      (rtuOverTcpRecvLoop n a r s).1 = .error .nonTermination := by
    intro a
    induction a with
    | zero => intro r s _; rfl
    | succ a ih =>
      intro r s h
      rw [rtuOverTcpRecvLoop] at h ⊢
      by_cases hr : r.length < 255
      · rw [if_pos hr] at h ⊢
        simp only [PyM.bind_apply] at h ⊢
        cases hrec : sockRecv 1 s with
        | mk o s1 =>
          rw [hrec] at h
          cases o with
          | error e => exact h
          | ok b =>
            dsimp only at h ⊢
            by_cases hn : n ≥ 0 ∧ ((r ++ b).length : Int) ≥ n
            · rw [if_pos hn] at h ⊢; exact h
            · rw [if_neg hn] at h ⊢; exact ih _ _ h
      · rw [if_neg hr] at h ⊢; exact h
  have down : ∀ (a b : Nat) (r : Bytes) (s : Sock), (rtuOverTcpRecvLoop n (a+b) r s).1 = .error .nonTermination →
      (rtuOverTcpRecvLoop n a r s).1 = .error .nonTermination := by
    intro a b
    induction b with
    | zero => intro r s h; exact h
    | succ b ih => intro r s h; exact ih r s (mono (a+b) r s h)
  have big : (rtuOverTcpRecvLoop n (k.stream.length + fuel) [] k).1 = .error .nonTermination := by
    obtain ⟨s', f1, f2, f3, f4⟩ := rtuLoop_short (n := n) k.stream fuel [] k ho (by simpa using hlen) rfl
    rw [f4]
    exact rtuLoop_ended fuel _ s' f3 f1 (by rw [f2]; exact he) (by simpa using hlen)
  rw [Nat.add_comm] at big
  exact down fuel _ [] k big

-- a connection closed after two bytes
example : ({ future := [.data [9, 3], .eof] } : Sock).stream.length < rtuTarget 9 ∧
    ({ future := [.data [9, 3], .eof] } : Sock).later.head? = some .eof := by decide

/-- **C32 is false (2).** A slave exception (five bytes) in answer to a request whose normal response is longer: if the
    connection stays open and silent, `execute` raises a time-out, not ModbusError. -/
theorem C32_false_exception (R : Registry) (l : TcpLink) (k : Sock) (hk : l.sock = some k) (ho : k.closed = false)
    (n : Int) (slave fc code : UInt8) (hs : k.stream = rtuAdu slave [fc, code]) (hn : 5 < n)
    (hlater : k.later = [] ∨ k.later.head? = some .pause) :
    ∃ l', rtuOverTcpRecv R n l = (.error .timeout, l') := by
  have hlen : (rtuAdu slave [fc, code]).length = 5 := rfl
  have htg : 5 < rtuTarget n := by unfold rtuTarget; split <;> omega
  obtain ⟨k', f1, f2, f3, f4⟩ := rtuLoop_short (n := n) k.stream 251 [] k ho (by rw [hs, List.nil_append, hlen]; exact htg) rfl
  rw [hs] at f4
  rw [show (rtuAdu slave [fc, code]).length + 251 = 256 from rfl] at f4
  have hloop : ∃ k'', rtuOverTcpRecvLoop n 251 ([] ++ rtuAdu slave [fc, code]) k' = (.error .timeout, k'') := by
    rw [rtuOverTcpRecvLoop, if_pos (by simp [hlen])]
    simp only [PyM.bind_apply]
    have : ∃ k'', sockRecv 1 k' = (.error .timeout, k'') := by
      have hb : k'.buf = [] := by unfold Sock.stream at f1; exact (List.append_eq_nil_iff.mp f1).1
      rw [← f2] at hlater
      unfold sockRecv
      rw [if_neg (by simp [f3]), hb]
      dsimp only
      match he : k'.ended with
      | some .eof => simp [Sock.later, he] at hlater
      | some .reset => simp [Sock.later, he] at hlater
      | none =>
        have hp : dataPrefix k'.future = [] := by
          unfold Sock.stream at f1
          rw [he] at f1
          simpa using (List.append_eq_nil_iff.mp f1).2
        simp only [Sock.later, he] at hlater
        rcases recvWait_nodata 1 k' k'.future hp with ⟨e1, e2⟩ | ⟨ev, e1, e2⟩ | ⟨ev, e1, e2⟩ | ⟨ev, e1, e2⟩
        · exact ⟨_, e2⟩
        · exact ⟨_, e2⟩
        · rw [e1] at hlater; simp at hlater
        · rw [e1] at hlater; simp at hlater
    obtain ⟨k'', h⟩ := this
    exact ⟨k'', by rw [h]⟩
  obtain ⟨k'', h⟩ := hloop
  refine ⟨{ l with sock := some k'' }, ?_⟩
  simp only [rtuOverTcpRecv, PyM.bind_apply, onSock, hk, f4, h]

example : (execute [] rtuMac (rtuOverTcpChan []) (Call.args 1 (.readHolding 0 2))
    ⟨true, { sock := some { future := [.data [1, 0x83], .data [2, 0xc0, 0xf1]] } }, 0⟩).1 = .error .timeout := by decide +kernel

/-- **C32 (partial).** When the expected number of bytes does arrive - in whatever segments - they are received, exactly
    they, and the rest is left unread. -/
theorem C32_receives_partial (R : Registry) (hR : Quiet R) (l : TcpLink) (k : Sock) (hk : l.sock = some k) (ho : k.closed = false)
    (n : Int) (hn : 1 ≤ n ∧ n ≤ 255) (frame rest : Bytes) (hf : (frame.length : Int) = n) (hs : k.stream = frame ++ rest) :
    ∃ k', rtuOverTcpRecv R n l = (.ok frame, { l with sock := some k' }) ∧ k'.stream = rest ∧ k'.later = k.later := by
  obtain ⟨k', e1, e2, e3⟩ := rtuLoop_reads (n := n) frame rest 256 [] k ho (by intro h; subst h; simp at hf; omega)
    (by unfold rtuTarget; rw [if_pos (by omega)]; simp; omega) hs (by omega)
  refine ⟨k', ?_, e3, e2.later⟩
  simp only [rtuOverTcpRecv, PyM.bind_apply, onSock, hk, e1, PyM.lift_apply, hR _ _, List.nil_append]
  rfl

theorem rtuLoop_ends (n : Int) : ∀ (fuel : Nat) (response : Bytes) (k : Sock), k.closed = false →
    k.later.head? ≠ some .eof → response.length ≤ 255 → 255 < fuel + response.length →
    (rtuOverTcpRecvLoop n fuel response k).1 ≠ .error .nonTermination := by
  intro fuel
  induction fuel with
  | zero => intro response k _ _ h1 h2; omega
  | succ fuel ih =>
    intro response k hc he h1 h2
    by_cases hl : response.length < 255
    · match hs : k.stream with
      | b :: t =>
        obtain ⟨s1, e2, e3, e4⟩ := rtuLoop_step (n := n) (fuel := fuel) hl hc hs
        rw [e4]
        split
        · intro h; cases h
        · refine ih _ _ (by rw [e3.closed]; exact hc) (by rw [e3.later]; exact he) ?_ ?_
          · simp only [List.length_append, List.length_cons, List.length_nil]; omega
          · simp only [List.length_append, List.length_cons, List.length_nil]; omega
      | [] =>
        rcases recv1_nil hc hs with ⟨s', e1, e2, _⟩ | ⟨s', e, e1, e2⟩
        · exact absurd e2 he
        · rw [rtuOverTcpRecvLoop, if_pos hl]
          simp only [PyM.bind_apply, e1]
          intro h
          injection h with h
          have := sockRecv_error 1 k e (by rw [e1])
          rw [h] at this
          rcases this with h | h <;> cases h
    · rw [rtuLoop_full hl]
      intro h; cases h

/-- **C32 (partial).** Receiving ends whenever the peer does not close the connection. -/
theorem C32_ends_partial (R : Registry) (hR : Quiet R) (l : TcpLink) (k : Sock) (hk : l.sock = some k) (ho : k.closed = false)
    (he : k.later.head? ≠ some .eof) (n : Int) : (rtuOverTcpRecv R n l).1 ≠ .error .nonTermination := by
  have := rtuLoop_ends n 256 [] k ho he (by simp) (by simp)
  simp only [rtuOverTcpRecv, PyM.bind_apply, onSock, hk]
  cases h : rtuOverTcpRecvLoop n 256 [] k with
  | mk o s1 =>
    rw [h] at this
    cases o with
    | error e => exact this
    | ok x =>
      simp only [PyM.lift_apply, hR _ _]
      intro h; cases h

example : ({ future := [.data [9, 3], .pause, .eof] } : Sock).later.head? ≠ some .eof := by decide

end Modbus
