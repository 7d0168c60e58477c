import Verif.Props.TcpMaster
import Verif.Props.TcpServer
/-
# Property C82: what happens when the operating system takes only a part of a message

`sock.send(data)` returns the number of bytes the system has taken, which may be less than `len(data)` (a socket with a time-out
returns as soon as there is room for something).  modbus_tcp.py:205 (master) and modbus_tcp.py:349 (server) ignore this number.
So the sender goes on exactly as if everything had been taken - `sockSend` of Model/Socket.lean is right about the sender - and the
rest of the message is lost: the peer gets a prefix of every message.
-/
namespace Modbus
open Spec (tcpAdu)

/-- what reaches the peer when the messages are handed to `send` one after the other and the system takes the given number of bytes
    of each -/
def onWire (ms : List (Bytes × Nat)) : Bytes := ms.flatMap fun m => m.1.take m.2

theorem onWire_whole : ∀ (ms : List (Bytes × Nat)), (∀ m ∈ ms, m.1.length ≤ m.2) → onWire ms = (ms.map (·.1)).flatten
  | [], _ => rfl
  | m :: ms, h => by
    have := onWire_whole ms fun x hx => h x (by simp [hx])
    simp only [onWire, List.flatMap_cons, List.map_cons, List.flatten_cons] at this ⊢
    rw [this, List.take_of_length_le (h m (by simp))]

theorem onWire_append (a b : List (Bytes × Nat)) : onWire (a ++ b) = onWire a ++ onWire b := by simp [onWire]

/-- a part of a frame is not a frame, and does not begin with one -/
theorem short_unframed {f : Bytes} (hf : ServerFrame f) {n : Nat} (hn : n < f.length) : ¬ Framed (f.take n) := by
  intro h
  obtain ⟨h1, h2⟩ := h
  unfold ServerFrame at hf
  rw [List.length_take] at h1 h2
  have : announced f = announced (f.take n) := by
    conv => lhs; rw [← List.take_append_drop n f]
    exact announced_append (by rw [List.length_take]; omega) _
  omega

theorem frames_comparable : ∀ (fs gs : List Bytes) (a b : Bytes), (∀ f ∈ fs, ServerFrame f) → (∀ g ∈ gs, ServerFrame g) →
    fs.flatten ++ a = gs.flatten ++ b → fs <+: gs ∨ gs <+: fs
  | [], _, _, _, _, _, _ => .inl List.nil_prefix
  | _ :: _, [], _, _, _, _, _ => .inr List.nil_prefix
  | f :: fs, g :: gs, a, b, hf, hg, h => by
    simp only [List.flatten_cons, List.append_assoc] at h
    obtain ⟨h1, h2⟩ := frame_prefix (hf f (by simp)) (hg g (by simp)) h
    subst h1
    rcases frames_comparable fs gs a b (fun x hx => hf x (by simp [hx])) (fun x hx => hg x (by simp [hx])) h2 with h3 | h3
    · exact .inl (List.cons_prefix_cons.mpr ⟨rfl, h3⟩)
    · exact .inr (List.cons_prefix_cons.mpr ⟨rfl, h3⟩)

/-- **C82 (partial: until the first message of which only a part is taken).** A client hands request frames to `send`; of the frames
    `whole` everything is taken, of the next one, `f`, only `n` bytes, and of the later ones anything.  Whatever the segmentation and
    the scheduling: the server handles the frames in `whole` as they were sent, in order, before anything else of this connection -/
theorem C82_before_partial (R : Registry) (hR : Quiet R) (db : Databank) (rounds : List Round) (s : Srv) (j : Nat)
    (whole later : List (Bytes × Nat)) (f : Bytes) (n : Nat) (hf : ∀ m ∈ whole, ServerFrame m.1 ∧ m.1.length ≤ m.2)
    (hd : (s.socks j).allData = onWire (whole ++ (f, n) :: later)) :
    ∃ log, SrvHistory R db s (srvRounds R db rounds s).2 log ∧
      (ofConn j log <+: whole.map (·.1) ∨ whole.map (·.1) <+: ofConn j log) := by
  obtain ⟨log, h⟩ := C29_history R hR db rounds s
  obtain ⟨rest, d, _⟩ := (h.conn j).data
  refine ⟨log, h, frames_comparable _ _ rest (onWire ((f, n) :: later)) (h.conn j).frame ?_ ?_⟩
  · intro g hg
    obtain ⟨m, hm, rfl⟩ := List.mem_map.mp hg
    exact (hf m hm).1
  · rw [← d, hd, onWire_append, onWire_whole whole fun m hm => (hf m hm).2]

/-- **C82 (partial: nothing is sent on the connection after the message that was cut).** Then nothing but the frames taken as a whole is
    handled: a cut request has no effect and gets no answer. -/
theorem C82_last_partial (R : Registry) (hR : Quiet R) (db : Databank) (rounds : List Round) (s : Srv) (j : Nat)
    (whole : List (Bytes × Nat)) (f : Bytes) (n : Nat) (hf : ∀ m ∈ whole, ServerFrame m.1 ∧ m.1.length ≤ m.2)
    (hl : ServerFrame f) (hn : n < f.length) (hd : (s.socks j).allData = onWire (whole ++ [(f, n)])) :
    ∃ log, SrvHistory R db s (srvRounds R db rounds s).2 log ∧ ofConn j log <+: whole.map (·.1) := by
  obtain ⟨log, h⟩ := C29_history R hR db rounds s
  obtain ⟨rest, d, _⟩ := (h.conn j).data
  refine ⟨log, h, frames_prefix _ _ rest (f.take n) (h.conn j).frame ?_ (short_unframed hl hn) ?_⟩
  · intro g hg
    obtain ⟨m, hm, rfl⟩ := List.mem_map.mp hg
    exact (hf m hm).1
  · rw [← d, hd, onWire_append, onWire_whole whole fun m hm => (hf m hm).2]
    simp [onWire]

/-- **C82 (partial: everything is taken).** The server handles the frames sent, in order, and nothing else. -/
theorem C82_whole_partial (R : Registry) (hR : Quiet R) (db : Databank) (rounds : List Round) (s : Srv) (j : Nat)
    (ms : List (Bytes × Nat)) (hf : ∀ m ∈ ms, ServerFrame m.1 ∧ m.1.length ≤ m.2) (hd : (s.socks j).allData = onWire ms) :
    ∃ log, SrvHistory R db s (srvRounds R db rounds s).2 log ∧ ofConn j log <+: ms.map (·.1) := by
  obtain ⟨log, h⟩ := C29_history R hR db rounds s
  obtain ⟨rest, d, _⟩ := (h.conn j).data
  refine ⟨log, h, frames_prefix _ _ rest [] (h.conn j).frame ?_ (by simp [Framed]) ?_⟩
  · intro g hg
    obtain ⟨m, hm, rfl⟩ := List.mem_map.mp hg
    exact (hf m hm).1
  · rw [← d, hd, onWire_whole ms fun m hm => (hf m hm).2, List.append_nil]

/-- **C82.** The other direction: when the server's response was cut (and nothing else has arrived), `execute` of the master raises.  So
    whenever `execute` returns, what had arrived after the request was sent is not a cut frame. -/
theorem C82_response (R : Registry) (hR : Quiet R) (a : ExecArgs) (s s' : MasterSt TcpLink) (r : ExecResult)
    (h : execute R tcpMac (tcpChan R) a s = (.ok r, s')) :
    ∃ (request : Bytes) (l0 l1 : TcpLink) (k : Sock), tcpSend R request l0 = (.ok (), l1) ∧ l1.sock = some k ∧
      ∀ (f : Bytes) (n : Nat), CompleteFrame f → n < f.length → k.stream ≠ f.take n := by
  obtain ⟨l1, k, k', frame, pdu, request, l0, p, h1, h2, h3, h4, h5, -⟩ := C30_execute R hR a s s' r h
  refine ⟨request, l0, l1, k, h1, h2, fun f n hf hn hk => ?_⟩
  rw [hk] at h4
  obtain ⟨f1, f2⟩ := hf
  obtain ⟨g1, g2⟩ := h5
  have hlen := congrArg List.length h4
  rw [List.length_take, List.length_append] at hlen
  have e : announced f = announced frame := by
    calc announced f = announced (f.take n ++ f.drop n) := by rw [List.take_append_drop]
      _ = announced (f.take n) := announced_append (by rw [List.length_take]; omega) _
      _ = announced frame := by rw [h4]; exact announced_append g1 _
  unfold announced at e
  omega

/-- **C82 is false as stated.** A client writes 7 and 8 to the registers 11 and 12 of slave 1 (the system takes all but two bytes of the
    request) and then sends a request to read them: the server takes the first two bytes of the second request - its transaction id,
    2 - for the value of register 12, and acknowledges the write.  The second request is lost; so is a third one. -/
theorem C82_false :
    let write := tcpAdu 1 0 1 [16, 0, 11, 0, 2, 4, 0, 7, 0, 8]
    let read := tcpAdu 2 0 1 [3, 0, 11, 0, 2]
    let again := tcpAdu 3 0 1 [3, 0, 11, 0, 2]
    let s : Srv := { exSrv with socks := fun i => if i = 1 then { future := [.data (onWire [(write, 15), (read, 12), (again, 12)])] } else {} }
    let s' := (srvRounds [] exTwo.st.db ([{ accept := some (.ok ()) }] ++ List.replicate 5 { arrivals := fun _ => 1 }) s).2
    s'.heap.lists 2 = [⟨10, [0, 7, 2, 0, 0], 5⟩] ∧ (s'.socks 1).sent = [tcpAdu 1 0 1 [16, 0, 11, 0, 2]] := by
  decide +kernel

/-! the hypotheses of the theorems are met -/

example : ServerFrame (tcpAdu 1 0 1 [16, 0, 11, 0, 2, 4, 0, 7, 0, 8]) := serverFrame_adu 1 0 1 (by decide)
example : (15 : Nat) < (tcpAdu 1 0 1 [16, 0, 11, 0, 2, 4, 0, 7, 0, 8]).length := by decide
-- a response cut in the middle: `execute` raises
example : (execute [] tcpMac (tcpChan []) (Spec.Call.args 1 (.readHolding 11 1))
    (⟨true, { sock := some { future := [.data ((tcpAdu 1 0 1 [3, 2, 0, 7]).take 9), .eof] } }, 0⟩ : MasterSt TcpLink)).1 =
    .error .invalidMbap := by decide +kernel

end Modbus
