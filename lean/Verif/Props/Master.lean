import Verif.Lemmas.Execute
/-
# Properties C35, C36, C38, C39, C40: what a master sends and what it makes of the answer
-/
namespace Modbus
open Spec (word toWord bytesFor packBits wordAt bitAt Fits8 Fits16 FitsReg toByte Call tcpAdu rtuAdu)

/-! ## An observer on the link -/

/-- what the master does on its link during an execute -/
inductive Event where
  /-- these bytes were handed to the transport -/
  | sent (b : Bytes)
  /-- a response of this length was waited for -/
  | asked (n : Int)
  deriving DecidableEq, Repr

/-- the same link with a record of what is sent and asked -/
def Chan.logged {σ : Type} (ch : Chan σ) : Chan (σ × List Event) where
  doOpen := fun s => let r := ch.doOpen s.1; (r.1, (r.2, s.2))
  doClose := fun s => let r := ch.doClose s.1; (r.1, (r.2, s.2))
  send := fun m s => let r := ch.send m s.1; (r.1, (r.2, s.2 ++ [.sent m]))
  recv := fun n s => let r := ch.recv n s.1; (r.1, (r.2, s.2 ++ [.asked n]))

/-- the messages sent -/
def sentOf (log : List Event) : List Bytes := log.filterMap (fun e => match e with | .sent b => some b | .asked _ => none)
/-- the response lengths asked for -/
def askedOf (log : List Event) : List Int := log.filterMap (fun e => match e with | .asked n => some n | .sent _ => none)

variable {σ : Type}

theorem open_log (ch : Chan σ) (s : MasterSt (σ × List Event)) : (masterOpen ch.logged s).2.link.2 = s.link.2 := by
  unfold masterOpen
  split
  · rfl
  · rename_i h
    simp only [Chan.logged]
    cases (ch.doOpen s.link.1).1 <;> rfl

theorem main_log {R : Registry} {mac : Mac} {ch : Chan σ} {a : ExecArgs} (hR : Quiet R)
    {s s1 s2 : MasterSt (σ × List Event)} {p : Prepared} {slave : Int}
    {request : Bytes} {q : mac.Q} (ho : masterOpen ch.logged s = (.ok (), s1)) (hp : prepare a = .ok p)
    (hs : a.slave = some slave) (hb : buildRequest mac p.pdu slave s1 = (.ok (request, q), s2)) (hl : s2.link = s1.link) :
    (execute R mac ch.logged a s).2.link.2 = s.link.2 ++ [.sent request] ∨
    (execute R mac ch.logged a s).2.link.2 = s.link.2 ++ [.sent request, .asked p.expectedLength] := by
  have h0 : s2.link.2 = s.link.2 := by
    have := open_log ch s
    rw [ho] at this
    rw [hl, this]
  rw [execute_main hR ho hp hs hb]
  simp only [Chan.logged]
  cases h1 : (ch.send request s2.link.1).1 with
  | error e => left; simp [h0]
  | ok u =>
    right
    dsimp only
    cases h2 : (ch.recv p.expectedLength (ch.send request s2.link.1).2).1 with
    | error e => simp [h0]
    | ok resp =>
      dsimp only
      cases h3 : (mac.parseResponse resp q).1 <;> simp [h0]

theorem prepared_pdu (c : Call) : c.prepared.pdu = c.pdu := by
  cases c with
  | diagnostic sub data => simp only [Call.prepared]; split <;> rfl
  | _ => rfl

/-! ## C38 -/

/-- **C38.** TCP: a call whose arguments fit sends exactly one message: the frame with the next transaction id, protocol
    0, the slave's id and the pdu of the Modbus specification. -/
theorem C38_sent_tcp (R : Registry) (hR : Quiet R) (ch : Chan σ) (c : Call) (hc : c.Fits) (hl : c.pdu.length ≤ 65534)
    (slave : Int) (h0 : 0 ≤ slave) (h1 : slave ≤ 255) (s : MasterSt (σ × List Event))
    (ht : 0 ≤ s.lastTid ∧ s.lastTid ≤ 65535) (ho : (masterOpen ch.logged s).1 = .ok ()) :
    sentOf (execute R tcpMac ch.logged (c.args slave) s).2.link.2 =
      sentOf s.link.2 ++ [tcpAdu (UInt16.ofNat ((s.lastTid + 1) % 65536).toNat) 0 (UInt8.ofNat slave.toNat) c.pdu] := by
  have hs1 : (masterOpen ch.logged s).2.lastTid = s.lastTid := masterOpen_lastTid s
  have hp := prepared_pdu c
  obtain ⟨q, hb, _⟩ := buildRequest_tcp (pdu := c.pdu) hl h0 h1 (s := (masterOpen ch.logged s).2) (by rw [hs1]; exact ht)
  rw [hs1] at hb
  rcases main_log hR (ch := ch) (s := s) (s1 := (masterOpen ch.logged s).2)
    (s2 := { (masterOpen ch.logged s).2 with lastTid := (s.lastTid + 1) % 65536 }) (mac := tcpMac) (a := c.args slave) (Prod.ext ho rfl)
    (prepare_call slave hc) (slave := slave) (by cases c <;> rfl) (by rw [hp]; exact hb) rfl with h | h <;>
  · rw [h]; simp [sentOf]

/-- **C38.** RTU: likewise, with the RTU frame. -/
theorem C38_sent_rtu (R : Registry) (hR : Quiet R) (ch : Chan σ) (c : Call) (hc : c.Fits)
    (slave : Int) (h0 : 0 ≤ slave) (h1 : slave ≤ 255) (s : MasterSt (σ × List Event))
    (ho : (masterOpen ch.logged s).1 = .ok ()) :
    sentOf (execute R rtuMac ch.logged (c.args slave) s).2.link.2 =
      sentOf s.link.2 ++ [rtuAdu (UInt8.ofNat slave.toNat) c.pdu] := by
  have hp := prepared_pdu c
  obtain ⟨q, hb, _⟩ := buildRequest_rtu (pdu := c.pdu) h0 h1 (s := (masterOpen ch.logged s).2)
  rcases main_log hR (ch := ch) (s := s) (s1 := (masterOpen ch.logged s).2) (a := c.args slave) (Prod.ext ho rfl)
    (prepare_call slave hc) (slave := slave) (by cases c <;> rfl) (by rw [hp]; exact hb) rfl with h | h <;>
  · rw [h]; simp [sentOf]

/-- **C38.** Arguments that do not fit their field (or a slave id outside 0..255) make `execute` raise, and nothing is
    sent - whatever hooks are installed. -/
theorem C38_refused (R : Registry) (mac : Mac) (hm : mac = tcpMac ∨ mac = rtuMac) (ch : Chan σ) (c : Call) (slave : Int)
    (hc : ¬ c.Fits ∨ slave < 0 ∨ slave > 255) (s : MasterSt (σ × List Event)) :
    (∃ e, (execute R mac ch.logged (c.args slave) s).1 = .error e) ∧
    (execute R mac ch.logged (c.args slave) s).2.link.2 = s.link.2 := by
  have hl := open_log ch s
  cases ho : masterOpen ch.logged s with
  | mk ro s1 =>
    rw [ho] at hl
    cases ro with
    | error e => rw [execute_open_error ho]; exact ⟨⟨e, rfl⟩, hl⟩
    | ok u =>
      by_cases hf : c.Fits
      · have hbad : slave < 0 ∨ slave > 255 := by
          rcases hc with h | h
          · exact absurd hf h
          · exact h
        have hs : (c.args slave).slave = some slave := by cases c <;> rfl
        rcases hm with rfl | rfl
        · rw [execute_build_error ho (prepare_call slave hf) hs (buildRequest_bad_tcp hbad)]
          exact ⟨⟨_, rfl⟩, hl⟩
        · rw [execute_build_error ho (prepare_call slave hf) hs (buildRequest_bad_rtu hbad)]
          exact ⟨⟨_, rfl⟩, hl⟩
      · rcases prepare_call_error slave hf with h | h <;>
        · rw [execute_prepare_error ho h]
          exact ⟨⟨_, rfl⟩, hl⟩

/-- a function code `execute` does not know raises before anything is sent -/
theorem C38_unknown_function (R : Registry) (mac : Mac) (ch : Chan σ) (a : ExecArgs)
    (hf : a.functionCode ∉ [1, 2, 3, 4, 5, 6, 7, 8, 15, 16, 20, 22, 23, 43, 0]) (s : MasterSt (σ × List Event))
    (ho : (masterOpen ch.logged s).1 = .ok ()) :
    (execute R mac ch.logged a s).1 = .error .functionNotSupported ∧
    (execute R mac ch.logged a s).2.link.2 = s.link.2 := by
  have hl := open_log ch s
  have hp : prepare a = .error .functionNotSupported := by
    simp only [List.mem_cons, List.not_mem_nil, or_false, not_or] at hf
    unfold prepare
    simp only [defines.READ_COILS, defines.READ_DISCRETE_INPUTS,
      defines.READ_HOLDING_REGISTERS, defines.READ_INPUT_REGISTERS, defines.WRITE_SINGLE_COIL, defines.WRITE_SINGLE_REGISTER,
      defines.READ_EXCEPTION_STATUS, defines.DIAGNOSTIC, defines.WRITE_MULTIPLE_COILS, defines.WRITE_MULTIPLE_REGISTERS,
      defines.READ_FILE_RECORD, defines.READ_WRITE_MULTIPLE_REGISTERS, defines.DEVICE_INFO, defines.MASK_WRITE_REGISTER,
      defines.RAW, hf, or_self, reduceIte]
  have := execute_prepare_error (R := R) (mac := mac) (a := a) (ch := ch.logged) (s := s)
    (s1 := (masterOpen ch.logged s).2) (Prod.ext ho rfl) hp
  rw [this]
  exact ⟨rfl, hl⟩

/-- an argument of the wrong kind: a number where the function needs a sequence, or a sequence where it needs a number (function 5 takes
    both, see `C38_coil_tuple`) -/
def WrongKind (a : ExecArgs) : Prop :=
  (a.functionCode ∈ [8, 15, 16, 23, 43] ∧ ∃ v, a.outputValue = .int v) ∨
  (a.functionCode = 6 ∧ ∃ vs, a.outputValue = .seq vs) ∨
  (a.functionCode ∈ [1, 2, 3, 4, 5, 6, 8, 15, 16, 22, 23] ∧ ∃ vs, a.startingAddress = .seq vs) ∨
  (a.functionCode ∈ [1, 2, 3, 4, 23] ∧ ∃ vs, a.quantity = .seq vs) ∨
  (a.functionCode = 20 ∧ ((∃ v, a.startingAddress = .int v) ∨ ∃ v, a.quantity = .int v))

theorem bind_fails {α β ε : Type} {m : Except ε α} {f : α → Except ε β} (h : ∀ x, m = .ok x → ∃ e, f x = .error e) : ∃ e, (m >>= f) = .error e := by
  cases m with
  | error e => exact ⟨e, rfl⟩
  | ok x => exact h x rfl

theorem prepare_wrongKind {a : ExecArgs} (h : WrongKind a) : ∃ e, prepare a = .error e := by
  obtain ⟨slave, fc, sa, q, ov, df, el, wa, nf, pdu, rr, am, om⟩ := a
  simp only [WrongKind, List.mem_cons, List.not_mem_nil, or_false] at h
  unfold prepare
  rcases h with ⟨hf, v, rfl⟩ | ⟨hf, v, rfl⟩ | ⟨hf, v, rfl⟩ | ⟨hf, v, rfl⟩ | ⟨hf, ⟨v, rfl⟩ | ⟨v, rfl⟩⟩
  all_goals (try rcases hf with rfl | rfl | rfl | rfl | rfl | rfl | rfl | rfl | rfl | rfl | rfl)
  all_goals simp only [defines.READ_COILS, defines.READ_DISCRETE_INPUTS,
      defines.READ_HOLDING_REGISTERS, defines.READ_INPUT_REGISTERS, defines.WRITE_SINGLE_COIL, defines.WRITE_SINGLE_REGISTER,
      defines.READ_EXCEPTION_STATUS, defines.DIAGNOSTIC, defines.WRITE_MULTIPLE_COILS, defines.WRITE_MULTIPLE_REGISTERS,
      defines.READ_FILE_RECORD, defines.READ_WRITE_MULTIPLE_REGISTERS, defines.DEVICE_INFO, defines.MASK_WRITE_REGISTER,
      defines.RAW, Int.reduceEq, or_self, or_true, true_or, reduceIte]
  all_goals (try split)
  all_goals (try split)
  all_goals first
    | exact ⟨_, rfl⟩
    | (simp only [Arg.num, Arg.len, Arg.items]
       repeat (first | exact ⟨_, rfl⟩ | (refine bind_fails fun x hx => ?_) | cases hx))

/-- **C38.** Arguments of the wrong kind make `execute` raise, and nothing is sent - whatever hooks are installed. -/
theorem C38_wrong_kind (R : Registry) (mac : Mac) (ch : Chan σ) (a : ExecArgs) (h : WrongKind a) (s : MasterSt (σ × List Event)) :
    (∃ e, (execute R mac ch.logged a s).1 = .error e) ∧ (execute R mac ch.logged a s).2.link.2 = s.link.2 := by
  have hl := open_log ch s
  cases ho : masterOpen ch.logged s with
  | mk ro s1 =>
    rw [ho] at hl
    cases ro with
    | error e => rw [execute_open_error ho]; exact ⟨⟨e, rfl⟩, hl⟩
    | ok u =>
      obtain ⟨e, he⟩ := prepare_wrongKind h
      rw [execute_prepare_error ho he]
      exact ⟨⟨_, rfl⟩, hl⟩

/-- **Function 5 takes a tuple for "on"**, also an empty one and one of zeros. -/
theorem C38_coil_tuple (a : ExecArgs) (hf : a.functionCode = 5) (vs : List Int) :
    prepare { a with outputValue := .seq vs } = prepare { a with outputValue := .int 1 } := by
  unfold prepare
  simp [hf, defines.READ_COILS, defines.READ_DISCRETE_INPUTS, defines.READ_HOLDING_REGISTERS, defines.READ_INPUT_REGISTERS,
    defines.READ_FILE_RECORD, defines.WRITE_SINGLE_COIL]

/-- **C38.** Except for Diagnostic with very long data, every pdu is short enough for a TCP frame. -/
theorem C38_length (c : Call) (hc : c.Fits) (hd : ∀ sub data, c ≠ .diagnostic sub data) : c.pdu.length ≤ 65534 := by
  have w := word_length
  cases c with
  | diagnostic sub data => exact absurd rfl (hd sub data)
  | readFileRecord rs =>
    have h := hc.2.1.2
    simp only [Call.pdu, List.length_cons]
    have : ∀ rs : List Spec.FileReq, (rs.flatMap (fun r => 6 :: (word (toWord r.file) ++ word (toWord r.record) ++
        word (toWord r.len)))).length = 7 * rs.length := by
      intro rs
      induction rs with
      | nil => rfl
      | cons r rs ih => rw [List.flatMap_cons, List.length_append, ih]; simp [w]; omega
    rw [this]; omega
  | writeCoils a vs =>
    have h := hc.2.2
    simp only [Call.pdu, Spec.Req.encode, List.length_cons, List.length_append, w, packBits_length, List.length_map,
      List.length_nil]
    omega
  | writeRegisters a vs =>
    have h := hc.2.1.2
    have e : vs.flatMap (fun v => word (toWord v)) = (vs.map toWord).flatMap word := by simp [List.flatMap_map]
    simp only [Call.pdu, Spec.Req.encode, List.length_cons, List.length_append, w, e, flatMap_word_length, List.length_map,
      List.length_nil]
    omega
  | readWrite ra rq wa vs =>
    have h := hc.2.2.2.1.2
    have e : vs.flatMap (fun v => word (toWord v)) = (vs.map toWord).flatMap word := by simp [List.flatMap_map]
    simp only [Call.pdu, Spec.Req.encode, List.length_cons, List.length_append, w, e, flatMap_word_length, List.length_map,
      List.length_nil]
    omega
  | _ => simp [Call.pdu, Spec.Req.encode, w]

/-! ### A scripted link, for examples -/

/-- a link that is always open and answers every request with the same bytes -/
def fixedLink (response : Bytes) : Chan Unit where
  doOpen := fun s => (.ok (), s)
  doClose := fun s => (.ok true, s)
  send := fun _ s => (.ok (), s)
  recv := fun _ s => (.ok response, s)

def exMaster : MasterSt (Unit × List Event) := ⟨false, ((), []), 65535⟩

example : (execute [] tcpMac (fixedLink [0, 0, 0, 0, 0, 6, 9, 6, 0, 1, 0, 7]).logged (Call.args 9 (.writeRegister 1 7)) exMaster).2.link.2 =
    [.sent [0, 0, 0, 0, 0, 6, 9, 6, 0, 1, 0, 7], .asked 8] := by decide +kernel
example : (execute [] tcpMac (fixedLink []).logged (Call.args 9 (.writeRegister 1 65536)) exMaster).2.link.2 = [] := by
  decide +kernel
example : Call.Fits (.writeRegister 1 (-32768)) ∧ ¬ Call.Fits (.writeRegister 1 (-32769)) := by decide
example : Call.Fits (.writeCoils 1 [1, 0, 0, 1]) ∧ (masterOpen (fixedLink []).logged exMaster).1 = .ok () := by decide
example : (Call.writeCoils 1 [1, 0, 0, 1]).pdu = [15, 0, 1, 0, 4, 1, 9] := by decide

/-! ## C39 -/

/-- **C39.** The response length `execute` waits for by default is the length of the RTU frame whose pdu has as many
    data bytes as the specification gives the normal response (a Diagnostic without data asks for no length). -/
theorem C39_length (R : Registry) (hR : Quiet R) (ch : Chan σ) (c : Call) (hc : c.Fits) (hd : ∀ sub, c ≠ .diagnostic sub [])
    (slave : Int) (s : MasterSt (σ × List Event)) (n : Nat) (hn : c.responseLength = some n) (addr fc : UInt8) (data : Bytes)
    (hdata : data.length = n) (m : Int) (hm : m ∈ askedOf (execute R rtuMac ch.logged (c.args slave) s).2.link.2)
    (h0 : askedOf s.link.2 = []) : m = (rtuAdu addr (fc :: data)).length := by
  -- what was asked is what was prepared
  have key : m = c.prepared.expectedLength := by
    have hl := open_log ch s
    cases ho : masterOpen ch.logged s with
    | mk ro s1 =>
      rw [ho] at hl
      cases ro with
      | error e => rw [execute_open_error ho] at hm; dsimp only at hm hl; rw [hl, h0] at hm; cases hm
      | ok u =>
        by_cases hs : 0 ≤ slave ∧ slave ≤ 255
        · obtain ⟨q, hb, _⟩ := buildRequest_rtu (pdu := c.pdu) hs.1 hs.2 (s := s1)
          rcases main_log hR (ch := ch) (s := s) (s1 := s1) (a := c.args slave) ho
            (prepare_call slave hc) (slave := slave) (by cases c <;> rfl) (by rw [prepared_pdu]; exact hb) rfl with h | h
          · rw [h] at hm
            rw [show askedOf (s.link.2 ++ [Event.sent _]) = askedOf s.link.2 by simp [askedOf], h0] at hm
            cases hm
          · rw [h] at hm
            rw [show askedOf (s.link.2 ++ [Event.sent _, Event.asked c.prepared.expectedLength]) =
              askedOf s.link.2 ++ [c.prepared.expectedLength] by simp [askedOf], h0] at hm
            simpa using hm
        · rw [execute_build_error ho (prepare_call slave hc) (slave := slave) (by cases c <;> rfl)
            (buildRequest_bad_rtu (by omega))] at hm
          dsimp only at hm hl
          rw [hl, h0] at hm
          cases hm
  rw [key]
  have hlen : ((rtuAdu addr (fc :: data)).length : Int) = n + 4 := by
    simp only [rtuAdu, List.length_append, List.length_cons, List.length_nil, hdata]
    push_cast
    omega
  rw [hlen]
  have ints : ∀ q : Int, Fits16 q → q = (q.toNat : Int) := by
    intro q hq
    have := hq.1
    omega
  cases c with
  | readCoils a q =>
    have e := ints q hc.2
    simp only [Call.responseLength, Option.some.injEq] at hn
    simp only [Call.prepared]
    rw [e, nbBytes_eq, ← hn]; push_cast; omega
  | readDiscrete a q =>
    have e := ints q hc.2
    simp only [Call.responseLength, Option.some.injEq] at hn
    simp only [Call.prepared]
    rw [e, nbBytes_eq, ← hn]; push_cast; omega
  | readHolding a q =>
    have e := ints q hc.2
    simp only [Call.responseLength, Option.some.injEq] at hn
    simp only [Call.prepared]; omega
  | readInput a q =>
    have e := ints q hc.2
    simp only [Call.responseLength, Option.some.injEq] at hn
    simp only [Call.prepared]; omega
  | readWrite ra rq wa vs =>
    have e := ints rq hc.2.1
    simp only [Call.responseLength, Option.some.injEq] at hn
    simp only [Call.prepared]; omega
  | diagnostic sub data =>
    simp only [Call.responseLength, Option.some.injEq] at hn
    simp only [Call.prepared]
    rw [if_neg (fun h => hd sub (by rw [h]))]
    dsimp only
    omega
  | readFileRecord rs =>
    simp only [Call.responseLength, Option.some.injEq] at hn
    simp only [Call.prepared]
    have : ∀ rs : List Spec.FileReq, (∀ r ∈ rs, Fits16 r.len) →
        (((rs.map (fun r => 2 + 2 * r.len.toNat)).sum : Nat) : Int) = 2 * (rs.map (·.len)).sum + 2 * rs.length := by
      intro rs
      induction rs with
      | nil => intro _; rfl
      | cons r rs ih =>
        intro h
        have h1 := ih (fun r' hr' => h r' (List.mem_cons_of_mem _ hr'))
        have h2 := (h r List.mem_cons_self).1
        simp only [List.map_cons, List.sum_cons, List.length_cons]
        push_cast
        omega
    have := this rs (fun r hr => (hc.2.2 r hr).2.2)
    omega
  | deviceInfo a b => simp [Call.responseLength] at hn
  | writeCoil a v => simp only [Call.responseLength, Option.some.injEq] at hn; simp only [Call.prepared]; omega
  | writeRegister a v => simp only [Call.responseLength, Option.some.injEq] at hn; simp only [Call.prepared]; omega
  | readExceptionStatus => simp only [Call.responseLength, Option.some.injEq] at hn; simp only [Call.prepared]; omega
  | writeCoils a vs => simp only [Call.responseLength, Option.some.injEq] at hn; simp only [Call.prepared]; omega
  | writeRegisters a vs => simp only [Call.responseLength, Option.some.injEq] at hn; simp only [Call.prepared]; omega
  | maskWrite a am om => simp only [Call.responseLength, Option.some.injEq] at hn; simp only [Call.prepared]; omega

example : askedOf (execute [] rtuMac (fixedLink []).logged (Call.args 9 (.readCoils 0 17)) exMaster).2.link.2 = [8] ∧
    (Call.readCoils 0 17).responseLength = some 4 := by decide +kernel

theorem except_bind_inv {α β : Type} {x : Except PyErr α} {f : α → Except PyErr β} {b : β} (h : (x >>= f) = .ok b) : ∃ a, x = .ok a ∧ f a = .ok b := by
  cases x with
  | error e => cases h
  | ok a => exact ⟨a, rfl, h⟩

theorem ite_inv {α : Sort _} {P : Prop} [Decidable P] {x y z : α} (h : (if P then x else y) = z) : (P ∧ x = z) ∨ (¬ P ∧ y = z) := by
  split at h
  · exact .inl ⟨by assumption, h⟩
  · exact .inr ⟨by assumption, h⟩

/-- the length given by the caller, if it is one -/
theorem prepare_given {a : ExecArgs} {p : Prepared} (h : prepare a = .ok p) (hn : 0 ≤ a.expectedLength) : p.expectedLength = a.expectedLength := by
  have ho : ∀ d, orLength a.expectedLength d = a.expectedLength := by intro d; unfold orLength; rw [if_neg (by omega)]
  unfold prepare at h
  rcases ite_inv h with ⟨_, h⟩ | ⟨_, h⟩
  · repeat (obtain ⟨_, _, h⟩ := except_bind_inv h)
    cases h; exact ho _
  rcases ite_inv h with ⟨_, h⟩ | ⟨_, h⟩
  · repeat (obtain ⟨_, _, h⟩ := except_bind_inv h)
    cases h; exact ho _
  rcases ite_inv h with ⟨_, h⟩ | ⟨_, h⟩
  · split at h
    · rcases ite_inv h with ⟨_, h⟩ | ⟨_, h⟩
      · repeat (obtain ⟨_, _, h⟩ := except_bind_inv h)
        cases h; exact ho _
      · cases h
    · cases h
  rcases ite_inv h with ⟨_, h⟩ | ⟨_, h⟩
  · repeat (obtain ⟨_, _, h⟩ := except_bind_inv h)
    cases h; exact ho _
  rcases ite_inv h with ⟨_, h⟩ | ⟨_, h⟩
  · rcases ite_inv h with ⟨_, h⟩ | ⟨_, h⟩
    · cases h
    rcases ite_inv h with ⟨_, h⟩ | ⟨_, h⟩
    · cases h
    repeat (obtain ⟨_, _, h⟩ := except_bind_inv h)
    cases h; exact ho _
  rcases ite_inv h with ⟨_, h⟩ | ⟨_, h⟩
  · repeat (obtain ⟨_, _, h⟩ := except_bind_inv h)
    cases h; exact ho _
  rcases ite_inv h with ⟨_, h⟩ | ⟨_, h⟩
  · repeat (obtain ⟨_, _, h⟩ := except_bind_inv h)
    cases h; exact ho _
  rcases ite_inv h with ⟨_, h⟩ | ⟨_, h⟩
  · repeat (obtain ⟨_, _, h⟩ := except_bind_inv h)
    cases h; exact ho _
  rcases ite_inv h with ⟨_, h⟩ | ⟨_, h⟩
  · obtain ⟨addr, _, h⟩ := except_bind_inv h
    obtain ⟨hd, _, h⟩ := except_bind_inv h
    obtain ⟨n, _, h⟩ := except_bind_inv h
    obtain ⟨vs, _, h⟩ := except_bind_inv h
    rcases ite_inv h with ⟨_, h⟩ | ⟨_, h⟩
    · obtain ⟨_, _, h⟩ := except_bind_inv h
      cases h; exact ho _
    · cases h; rfl
  rcases ite_inv h with ⟨_, h⟩ | ⟨_, h⟩
  · repeat (obtain ⟨_, _, h⟩ := except_bind_inv h)
    cases h; exact ho _
  rcases ite_inv h with ⟨_, h⟩ | ⟨_, h⟩
  · cases h; rfl
  rcases ite_inv h with ⟨_, h⟩ | ⟨_, h⟩
  · obtain ⟨vs, _, h⟩ := except_bind_inv h
    match vs, h with
    | x :: y :: _, h =>
      obtain ⟨_, _, h⟩ := except_bind_inv h
      cases h; rfl
    | [], h => cases h
    | [_], h => cases h
  · cases h

/-- a request built on the TCP or RTU mac leaves the link alone -/
theorem buildRequest_link {mac : Mac} {pdu : Bytes} {slave : Int} (s : MasterSt σ) : (buildRequest mac pdu slave s).2.link = s.link := by
  unfold buildRequest
  split <;> rfl

/-- **C39.** A length the caller gives (0 included) is the length `execute` waits for, whatever the function code and the
    other arguments, on TCP and RTU alike. -/
theorem C39_given (R : Registry) (hR : Quiet R) (mac : Mac) (ch : Chan σ) (a : ExecArgs)
    (hn : 0 ≤ a.expectedLength) (s : MasterSt (σ × List Event)) (m : Int)
    (hm : m ∈ askedOf (execute R mac ch.logged a s).2.link.2) (h0 : askedOf s.link.2 = []) : m = a.expectedLength := by
  have hl := open_log ch s
  cases ho : masterOpen ch.logged s with
  | mk ro s1 =>
    rw [ho] at hl
    cases ro with
    | error e => rw [execute_open_error ho] at hm; dsimp only at hm hl; rw [hl, h0] at hm; cases hm
    | ok u =>
      cases hp : prepare a with
      | error e => rw [execute_prepare_error ho hp] at hm; dsimp only at hm hl; rw [hl, h0] at hm; cases hm
      | ok p =>
        cases hs : a.slave with
        | none =>
          have : execute R mac ch.logged a s = (.error .typeError, s1) := by
            unfold execute
            simp only [hs]
            rw [show ∀ f : Unit → PyM (MasterSt (σ × List Event)) ExecResult, (masterOpen ch.logged >>= f) s = f () s1 by
              intro f; show PyM.bind _ _ _ = _; unfold PyM.bind; rw [ho]]
            rw [hp]
            rfl
          rw [this] at hm; dsimp only at hm hl; rw [hl, h0] at hm; cases hm
        | some slave =>
          cases hb : buildRequest mac p.pdu slave s1 with
          | mk rb s2 =>
            have hlk := buildRequest_link (mac := mac) (pdu := p.pdu) (slave := slave) s1
            rw [hb] at hlk
            dsimp only at hlk
            cases rb with
            | error e =>
              rw [execute_build_error ho hp hs hb] at hm
              dsimp only at hm hl
              rw [hlk, hl, h0] at hm; cases hm
            | ok rq =>
              obtain ⟨request, q⟩ := rq
              rcases main_log hR (ch := ch) ho hp hs hb hlk with h | h
              · rw [h, show askedOf (s.link.2 ++ [Event.sent request]) = askedOf s.link.2 by simp [askedOf], h0] at hm
                cases hm
              · rw [h, show askedOf (s.link.2 ++ [Event.sent request, Event.asked p.expectedLength]) =
                  askedOf s.link.2 ++ [p.expectedLength] by simp [askedOf], h0] at hm
                rw [← prepare_given hp hn]
                simpa using hm

example : askedOf (execute [] rtuMac (fixedLink []).logged { Call.args 9 (.readCoils 0 17) with expectedLength := 0 } exMaster).2.link.2 = [0] := by
  decide +kernel

/-- **C39.** Whatever a slave's memory, its normal response has that many data bytes. -/
theorem C39_conforming (u : Bool) (m : Spec.Mem) (c : Call) (hc : c.Fits) (data : Bytes)
    (h : (Spec.exec u m c.toReq).1 = .ok data) : c.responseLength = some data.length := by
  have tw : ∀ q : Int, Fits16 q → (toWord q).toNat = q.toNat := by
    intro q hq
    have := hq.1; have := hq.2
    rw [toWord, UInt16.toNat_ofNat']
    omega
  have bits : ∀ (t : Spec.Table) (a q : UInt16) (d : Bytes), Spec.readBits t a q = .ok d → d.length = 1 + bytesFor q.toNat := by
    intro t a q d hd
    unfold Spec.readBits at hd
    split at hd
    · cases hd
    · split at hd
      · cases hd
      · cases hd; simp [packBits_length, Spec.Table.read]; omega
  have regs : ∀ (t : Spec.Table) (a q : UInt16) (d : Bytes), Spec.readRegs t a q = .ok d → d.length = 1 + 2 * q.toNat := by
    intro t a q d hd
    unfold Spec.readRegs at hd
    split at hd
    · cases hd
    · split at hd
      · cases hd
      · cases hd
        have e : (t.read a.toNat q.toNat).flatMap (fun v => word (toWord v)) = ((t.read a.toNat q.toNat).map toWord).flatMap word := by
          simp [List.flatMap_map]
        rw [List.length_cons, e, flatMap_word_length]
        simp [Spec.Table.read]; omega
  cases c with
  | readCoils a q => have := bits _ _ _ _ h; rw [tw q hc.2] at this; rw [Call.responseLength, this]
  | readDiscrete a q => have := bits _ _ _ _ h; rw [tw q hc.2] at this; rw [Call.responseLength, this]
  | readHolding a q => have := regs _ _ _ _ h; rw [tw q hc.2] at this; rw [Call.responseLength, this]
  | readInput a q => have := regs _ _ _ _ h; rw [tw q hc.2] at this; rw [Call.responseLength, this]
  | writeCoil a v =>
    simp only [Call.toReq, Spec.exec] at h
    split at h
    · cases h
    · split at h
      · cases h; rfl
      · split at h <;> (cases h; rfl)
  | writeRegister a v =>
    simp only [Call.toReq, Spec.exec] at h
    split at h
    · cases h
    · cases h; rfl
  | readExceptionStatus => cases h; rfl
  | diagnostic sub data => cases h
  | writeCoils a vs =>
    simp only [Call.toReq, Spec.exec] at h
    split at h
    · cases h
    · split at h
      · cases h
      · cases h; rfl
  | writeRegisters a vs =>
    simp only [Call.toReq, Spec.exec] at h
    split at h
    · cases h
    · split at h
      · cases h
      · cases h; rfl
  | readFileRecord rs => cases h
  | maskWrite a am om =>
    simp only [Call.toReq, Spec.exec] at h
    split at h
    · cases h
    · cases h; rfl
  | readWrite ra rq wa vs =>
    simp only [Call.toReq, Spec.exec] at h
    cases hr : Spec.readRegs m.holding (toWord ra) (toWord rq) with
    | exc c => rw [hr] at h; cases h
    | ok d =>
      rw [hr] at h
      dsimp only at h
      have := regs _ _ _ _ hr
      rw [tw rq hc.2.1] at this
      split at h
      · cases h
      · split at h
        · cases h
        · cases h; rw [Call.responseLength, this]
  | deviceInfo a b => cases h

end Modbus
