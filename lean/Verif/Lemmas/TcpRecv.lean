import Verif.Lemmas.Socket
/- The loop of TcpMaster._recv. -/
namespace Modbus
open Spec (word wordAt)

/-- the number of bytes a TCP frame announces after its first six bytes -/
def announced (frame : Bytes) : Nat := (wordAt frame 2).toNat

theorem unpack_HHH {r : Bytes} (h : r.length = 6) :
    ∃ vs, structUnpack (be [Code.H, Code.H, Code.H]) r = .ok vs ∧ vs.getD 2 0 = (announced r : Int) := by
  have := unpack_words 3 r
  rw [if_pos (by omega)] at this
  exact ⟨_, this, rfl⟩

theorem announced_append {r : Bytes} (h : 6 ≤ r.length) (x : Bytes) : announced (r ++ x) = announced r := by
  unfold announced wordAt
  simp only [List.getD_eq_getElem?_getD]
  rw [List.getElem?_append_left (by omega), List.getElem?_append_left (by omega)]

theorem announced_lt (r : Bytes) : announced r < 65536 := UInt16.toNat_lt _

/-- the relation between the two loop variables -/
def RecvInv (response : Bytes) (length : Int) : Prop :=
  (response.length < 6 ∧ length = 255) ∨
  (6 ≤ response.length ∧ length = announced response + 6 ∧ (response.length : Int) ≤ length)

theorem tcpRecvLoop_step {fuel : Nat} {response : Bytes} {length : Int} (hi : RecvInv response length)
    (hl : (response.length : Int) < length) {s : Sock} (hc : s.closed = false) {b : UInt8} {t : Bytes} (hs : s.stream = b :: t) :
    ∃ length' s', RecvInv (response ++ [b]) length' ∧ s'.stream = t ∧ s.Read [b] s' ∧
      tcpRecvLoop (fuel+1) response length s = tcpRecvLoop fuel (response ++ [b]) length' s' ∧
      (5 ≤ response.length → length' = announced (response ++ [b]) + 6) := by
  obtain ⟨s', e1, e2, e3⟩ := recv1_cons hc hs
  by_cases h6 : (response ++ [b]).length = 6
  · obtain ⟨vs, e4, e5⟩ := unpack_HHH h6
    refine ⟨announced (response ++ [b]) + 6, s', .inr ⟨by omega, rfl, by omega⟩, e2, e3, ?_, fun _ => rfl⟩
    rw [tcpRecvLoop, if_pos hl]
    simp only [PyM.bind_apply, e1, if_pos h6, PyM.lift_apply, e4, e5, ne_eq, List.cons_ne_self, not_false_eq_true, reduceIte]
  · have h6' : ¬ (response.length + 1 = 6) := by simpa using h6
    refine ⟨length, s', ?_, e2, e3, ?_, ?_⟩
    · rcases hi with ⟨h1, h2⟩ | ⟨h1, h2, h3⟩
      · left; simp only [List.length_append, List.length_singleton]; omega
      · right
        rw [announced_append h1]
        simp only [List.length_append, List.length_singleton]
        omega
    · rw [tcpRecvLoop, if_pos hl]
      simp only [PyM.bind_apply, e1, if_neg h6, ne_eq, not_false_eq_true, reduceIte, reduceCtorEq]
    · intro h
      rcases hi with ⟨h1, h2⟩ | ⟨h1, h2, h3⟩
      · omega
      · rw [announced_append h1]; exact h2

theorem tcpRecvLoop_done {fuel : Nat} {response : Bytes} {length : Int} (hl : ¬ (response.length : Int) < length) (s : Sock) :
    tcpRecvLoop (fuel+1) response length s = (.ok response, s) := by
  rw [tcpRecvLoop, if_neg hl]; rfl

/-- reading a frame to its end -/
theorem tcpRecvLoop_reads (x t : Bytes) : ∀ (fuel : Nat) (response : Bytes) (length : Int) (s : Sock), s.closed = false →
    RecvInv response length → 6 ≤ (response ++ x).length → (response ++ x).length = announced (response ++ x) + 6 →
    s.stream = x ++ t → x.length < fuel →
    ∃ s', tcpRecvLoop fuel response length s = (.ok (response ++ x), s') ∧ s.Read x s' ∧ s'.stream = t := by
  induction x with
  | nil =>
    intro fuel response length s hc hi h6 hlen hs hf
    rw [List.append_nil] at h6 hlen
    match fuel with
    | 0 => omega
    | fuel+1 =>
      rcases hi with ⟨h1, _⟩ | ⟨_, h2, _⟩
      · omega
      · rw [tcpRecvLoop_done (by omega)]
        exact ⟨s, by simp, .refl s, by simpa using hs⟩
  | cons b x ih =>
    intro fuel response length s hc hi h6 hlen hs hf
    match fuel with
    | 0 => omega
    | fuel+1 =>
      have hl : (response.length : Int) < length := by
        rcases hi with ⟨h1, h2⟩ | ⟨h1, h2, _⟩
        · omega
        · rw [announced_append h1] at hlen
          simp only [List.length_append, List.length_cons] at hlen
          omega
      obtain ⟨length', s1, hi', e2, e3, e4, _⟩ := tcpRecvLoop_step (fuel := fuel) hi hl hc (b := b) (t := x ++ t) (by simpa using hs)
      rw [e4]
      have ea : response ++ [b] ++ x = response ++ b :: x := by simp
      obtain ⟨s', f1, f2, f3⟩ := ih fuel (response ++ [b]) length' s1 (by rw [e3.closed]; exact hc) hi' (by rw [ea]; exact h6)
        (by rw [ea]; exact hlen) e2 (by simpa using hf)
      refine ⟨s', by rw [f1, ea], ?_, f3⟩
      exact e3.trans f2

/-- whatever happens on the connection: the loop ends, what it returns is what it consumed, and this is a complete frame
    unless the peer has closed -/
theorem tcpRecvLoop_sound : ∀ (fuel : Nat) (response : Bytes) (length : Int) (s : Sock), s.closed = false →
    RecvInv response length → 65541 < fuel + response.length →
    (∃ e s', tcpRecvLoop fuel response length s = (.error e, s') ∧ e ≠ .nonTermination) ∨
    (∃ x s', tcpRecvLoop fuel response length s = (.ok (response ++ x), s') ∧ s.stream = x ++ s'.stream ∧
      ((s.Read x s' ∧ (response ++ x).length = announced (response ++ x) + 6) ∨ (s'.ended = some .eof ∧ s'.stream = []))) := by
  intro fuel
  induction fuel with
  | zero =>
    intro response length s hc hi hf
    rcases hi with ⟨h1, _⟩ | ⟨h1, h2, h3⟩
    · omega
    · have := announced_lt response
      omega
  | succ fuel ih =>
    intro response length s hc hi hf
    by_cases hl : (response.length : Int) < length
    · match hst : s.stream with
      | b :: t =>
        obtain ⟨length', s1, hi', e2, e3, e4, _⟩ := tcpRecvLoop_step (fuel := fuel) hi hl hc hst
        rw [e4]
        rcases ih (response ++ [b]) length' s1 (by rw [e3.closed]; exact hc) hi' (by simp; omega) with
          ⟨e, s', f1, f2⟩ | ⟨x, s', f1, f2, f3⟩
        · exact .inl ⟨e, s', f1, f2⟩
        · refine .inr ⟨b :: x, s', by rw [f1]; simp, by rw [← e2, f2]; rfl, ?_⟩
          rcases f3 with ⟨g1, g2⟩ | g
          · left
            refine ⟨e3.trans g1, ?_⟩
            rw [show response ++ b :: x = response ++ [b] ++ x by simp]
            exact g2
          · exact .inr g
      | [] =>
        rcases recv1_nil hc hst with ⟨s', e1, e2, e3, e4, e5, e6⟩ | ⟨s', e, e1, e2⟩
        · right
          refine ⟨[], s', ?_, by rw [e4]; rfl, .inr ⟨e3, e4⟩⟩
          rw [tcpRecvLoop, if_pos hl]
          simp [PyM.bind_apply, e1]
        · left
          refine ⟨e, s', ?_, ?_⟩
          · rw [tcpRecvLoop, if_pos hl]
            simp only [PyM.bind_apply, e1]
          · intro he
            subst he
            -- a socket never reports the pseudo exception
            unfold sockRecv at e1
            rw [if_neg (by simp [hc])] at e1
            split at e1
            · cases e1
            · split at e1
              · cases e1
              · cases e1
              · rename_i hb hen
                have hp : dataPrefix s.future = [] := by
                  unfold Sock.stream at hst
                  rw [hen] at hst
                  simpa using (List.append_eq_nil_iff.mp hst).2
                rcases recvWait_nodata 1 s s.future hp with ⟨_, k⟩ | ⟨_, _, k⟩ | ⟨_, _, k⟩ | ⟨_, _, k⟩ <;>
                  (rw [k] at e1; cases e1)
    · right
      rw [tcpRecvLoop_done hl]
      refine ⟨[], s, by simp, rfl, .inl ⟨.refl s, ?_⟩⟩
      rcases hi with ⟨h1, h2⟩ | ⟨h1, h2, h3⟩
      · omega
      · rw [List.append_nil]; omega

end Modbus
