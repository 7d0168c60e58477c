import Verif.Model.Logged
import Verif.Props.Verbose
import Verif.Props.ActingHooks
/-
# C96: the log lines of a server
-/
namespace Modbus

/-- a line could not be written -/
def LogFailed (lg : Logger) (log : List Text) : Prop := ∃ lines line e, lg (log ++ lines) line = some e

theorem logLine_apply {τ : Type} (lg : Logger) (line : Text) (t : τ) (log : List Text) :
    logLine lg line (t, log) = match lg log line with
      | none => (.ok (), (t, log ++ [line]))
      | some e => (.error e, (t, log)) := rfl

/-- what a handler with log lines does: the same without a line; or, when the request asks for a wrong quantity of registers, a line and then the same exception -/
def Reads (lg : Logger) (R : Registry) (f : PyM (Heap × List Text) Bytes) (g : PyM Heap Bytes) (line : Option Text) : Prop :=
  ∀ h log, (f (h, log) = ((g h).1, ((g h).2, log)) ∧ (Quiet R → ∀ c, (g h).1 = .error (.modbusError c) → line = none)) ∨
    ∃ L, line = some L ∧ g h = (.error (.modbusError 3), h) ∧
      f (h, log) = match lg log L with
        | none => (.error (.modbusError 3), (h, log ++ [L]))
        | some e => (.error e, (h, log))

/-- the line about a wrong quantity in a request to read registers -/
def quantityLine (pdu : Bytes) : Option Text :=
  match pdu with
  | fc :: _ :: _ :: q1 :: q0 :: _ =>
    let q := q1.toNat * 256 + q0.toNat
    if q = 0 ∨ q > 125 then
      if fc = 3 ∨ fc = 4 then some ("quantity_of_x is ".toList ++ intText q)
      else if fc = 23 then some ("quantity_of_x_to_read is ".toList ++ intText q)
      else none
    else none
  | _ => none

theorem unpack_quantity {pdu : Bytes} {vs : List Int} (h : structUnpack (be [Code.H, Code.H]) (slice pdu 1 5) = .ok vs) :
    ∃ fc a1 a0 q1 q0 rest, pdu = fc :: a1 :: a0 :: q1 :: q0 :: rest ∧ vs = [((a1.toNat * 256 + a0.toNat : Nat) : Int), ((q1.toNat * 256 + q0.toNat : Nat) : Int)] := by
  match pdu with
  | fc :: a1 :: a0 :: q1 :: q0 :: rest =>
    refine ⟨fc, a1, a0, q1, q0, rest, rfl, ?_⟩
    have : structUnpack (be [Code.H, Code.H]) (slice (fc :: a1 :: a0 :: q1 :: q0 :: rest) 1 5) =
        .ok [((a1.toNat * 256 + a0.toNat : Nat) : Int), ((q1.toNat * 256 + q0.toNat : Nat) : Int)] := by
      simp [structUnpack, slice, calcsize, be, unpackCodes, unpackOne, beNat, show Code.H.signed = false from rfl, show Code.B.signed = false from rfl]
    rw [this] at h
    exact (Except.ok.inj h).symm
  | [] | [_] | [_, _] | [_, _, _] | [_, _, _, _] => simp [structUnpack, slice, calcsize, be] at h

theorem unpack_quantity23 {pdu : Bytes} {vs : List Int} (h : structUnpack (be [Code.H, Code.H, Code.H, Code.H, Code.B]) (slice pdu 1 10) = .ok vs) :
    ∃ fc a1 a0 q1 q0 rest w1 w2 w3, pdu = fc :: a1 :: a0 :: q1 :: q0 :: rest ∧
      vs = [((a1.toNat * 256 + a0.toNat : Nat) : Int), ((q1.toNat * 256 + q0.toNat : Nat) : Int), w1, w2, w3] := by
  match pdu with
  | fc :: a1 :: a0 :: q1 :: q0 :: b1 :: b2 :: b3 :: b4 :: b5 :: rest =>
    refine ⟨fc, a1, a0, q1, q0, _, ((b1.toNat * 256 + b2.toNat : Nat) : Int), ((b3.toNat * 256 + b4.toNat : Nat) : Int), (b5.toNat : Int), rfl, ?_⟩
    have : structUnpack (be [Code.H, Code.H, Code.H, Code.H, Code.B]) (slice (fc :: a1 :: a0 :: q1 :: q0 :: b1 :: b2 :: b3 :: b4 :: b5 :: rest) 1 10) =
        .ok [((a1.toNat * 256 + a0.toNat : Nat) : Int), ((q1.toNat * 256 + q0.toNat : Nat) : Int), ((b1.toNat * 256 + b2.toNat : Nat) : Int), ((b3.toNat * 256 + b4.toNat : Nat) : Int), (b5.toNat : Int)] := by
      simp [structUnpack, slice, calcsize, be, unpackCodes, unpackOne, beNat, show Code.H.signed = false from rfl, show Code.B.signed = false from rfl]
    rw [this] at h
    exact (Except.ok.inj h).symm
  | [] | [_] | [_, _] | [_, _, _] | [_, _, _, _] | [_, _, _, _, _] | [_, _, _, _, _, _] | [_, _, _, _, _, _, _] | [_, _, _, _, _, _, _, _] | [_, _, _, _, _, _, _, _, _] =>
    simp [structUnpack, slice, calcsize, be] at h

theorem reads_unlogged (lg : Logger) (R : Registry) (f : PyM Heap Bytes) : Reads lg R (unlogged f) f none := fun _ _ => .inl ⟨rfl, fun _ _ _ => rfl⟩

theorem reads_registers (lg : Logger) (R : Registry) (sl : Slave) (bt : Int) (pdu : Bytes) (hfc : pdu.head? = some 3 ∨ pdu.head? = some 4) :
    Reads lg R (lReadRegisters lg sl bt pdu) (readRegisters sl bt pdu) (quantityLine pdu) := by
  intro h log
  unfold lReadRegisters readRegisters
  simp only [PyM.bind_apply, PyM.lift_apply]
  cases hu : structUnpack (be [Code.H, Code.H]) (slice pdu 1 5) with
  | error e =>
    refine .inl ⟨rfl, fun _ c hc => ?_⟩
    replace hc : (Except.error e : Except PyErr Bytes) = .error (.modbusError c) := hc
    cases hc
    exact absurd hu (structUnpack_noErr _ _ c)
  | ok vs =>
    obtain ⟨fc, a1, a0, q1, q0, rest, rfl, rfl⟩ := unpack_quantity hu
    have hfc' : fc = 3 ∨ fc = 4 := by simpa using hfc
    dsimp only
    by_cases hq : ((q1.toNat * 256 + q0.toNat : Nat) : Int) ≤ 0 ∨ ((q1.toNat * 256 + q0.toNat : Nat) : Int) > 125
    · rw [if_pos hq, if_pos hq]
      refine .inr ⟨"quantity_of_x is ".toList ++ intText ((q1.toNat * 256 + q0.toNat : Nat) : Int), ?_, rfl, ?_⟩
      · have hq' : q1.toNat * 256 + q0.toNat = 0 ∨ q1.toNat * 256 + q0.toNat > 125 := by omega
        simp only [quantityLine, if_pos hq', if_pos hfc']
      · simp only [PyM.bind_apply, logLine_apply]
        cases lg log _ <;> rfl
    · rw [if_neg hq, if_neg hq]
      refine .inl ⟨?_, fun _ _ _ => by simp only [quantityLine]; rw [if_neg (by omega)]⟩
      simp only [PyM.bind_apply, PyM.lift_apply, unlogged_apply]
      rcases getBlockAndOffset sl bt _ _ h with ⟨_ | ⟨b, o⟩, h1⟩
      · rfl
      · dsimp only
        rcases getSlice b o _ h1 with ⟨_ | vs, h2⟩
        · rfl
        · dsimp only
          cases structPack (be [Code.B]) [2 * ((q1.toNat * 256 + q0.toNat : Nat) : Int)] <;> rfl

theorem callHook_state {R : Registry} {n : String} {a : HookArg} {h : Heap} : (callHook_ R n a h).2 = h := by
  unfold callHook_
  simp only [PyM.bind_apply, PyM.lift_apply]
  cases callHooks R n a <;> rfl

theorem reads_after_hook {lg : Logger} {f : PyM (Heap × List Text) Bytes} {g : PyM Heap Bytes} {l : Option Text} {R : Registry} (hf : Reads lg R f g l) (n : String) (a : HookArg) :
    Reads lg R (do unlogged (callHook_ R n a); f) (do callHook_ R n a; g) l := by
  intro h log
  simp only [PyM.bind_apply, unlogged_apply]
  have hs := callHook_state (R := R) (n := n) (a := a) (h := h)
  cases hc : callHook_ R n a h with
  | mk r h1 =>
    rw [hc] at hs; cases hs
    cases r with
    | error e =>
      refine .inl ⟨rfl, fun hq => ?_⟩
      rw [callHook_quiet hq] at hc; cases hc
    | ok u => exact hf _ log

theorem reads_23 (lg : Logger) (R : Registry) (sl : Slave) (pdu : Bytes) (hfc : pdu.head? = some 23) :
    Reads lg R (lReadWriteMultipleRegisters lg R sl pdu) (readWriteMultipleRegisters R sl pdu) (quantityLine pdu) := by
  unfold lReadWriteMultipleRegisters readWriteMultipleRegisters
  refine reads_after_hook ?_ _ _
  intro h log
  simp only [PyM.bind_apply, PyM.lift_apply]
  cases hu : structUnpack (be [Code.H, Code.H, Code.H, Code.H, Code.B]) (slice pdu 1 10) with
  | error e =>
    refine .inl ⟨rfl, fun _ c hc => ?_⟩
    replace hc : (Except.error e : Except PyErr Bytes) = .error (.modbusError c) := hc
    cases hc
    exact absurd hu (structUnpack_noErr _ _ c)
  | ok vs =>
    obtain ⟨fc, a1, a0, q1, q0, rest, w1, w2, w3, rfl, rfl⟩ := unpack_quantity23 hu
    have hfc' : fc = 23 := by simpa using hfc
    dsimp only
    by_cases hq : ((q1.toNat * 256 + q0.toNat : Nat) : Int) ≤ 0 ∨ ((q1.toNat * 256 + q0.toNat : Nat) : Int) > 125
    · rw [if_pos hq, if_pos hq]
      refine .inr ⟨"quantity_of_x_to_read is ".toList ++ intText ((q1.toNat * 256 + q0.toNat : Nat) : Int), ?_, rfl, ?_⟩
      · have hq' : q1.toNat * 256 + q0.toNat = 0 ∨ q1.toNat * 256 + q0.toNat > 125 := by omega
        subst hfc'
        simp only [quantityLine, if_pos hq']
        rfl
      · simp only [PyM.bind_apply, logLine_apply]
        cases lg log _ <;> rfl
    · rw [if_neg hq, if_neg hq]
      refine .inl ⟨?_, fun _ _ _ => by simp only [quantityLine]; rw [if_neg (by omega)]⟩
      simp only [PyM.bind_apply, PyM.lift_apply, unlogged_apply]
      rcases getBlockAndOffset sl _ _ _ h with ⟨_ | ⟨b, o⟩, h1⟩
      · rfl
      · dsimp only
        rcases getSlice b o _ h1 with ⟨_ | vs, h2⟩
        · rfl
        · dsimp only
          cases structPack (be [Code.B]) [2 * ((q1.toNat * 256 + q0.toNat : Nat) : Int)] with
          | error e => rfl
          | ok hd =>
            dsimp only
            cases packRegsLoop (regCode sl) vs hd with
            | error e => rfl
            | ok resp =>
              dsimp only
              by_cases hw : w2 ≤ 0 ∨ w2 > 123 ∨ w3 ≠ w2 * 2
              · rw [if_pos hw, if_pos hw]; rfl
              · rw [if_neg hw, if_neg hw]
                simp only [PyM.bind_apply, unlogged_apply]
                rcases getBlockAndOffset sl _ _ _ h2 with ⟨_ | ⟨b', o'⟩, h3⟩
                · rfl
                · dsimp only
                  rcases writeRegsLoop R (regCode sl) b' o' _ 10 w2.toNat 0 0 h3 with ⟨_ | n, h4⟩ <;> rfl

/-- the handlers with log lines and those without -/
theorem reads_handlers (lg : Logger) (R : Registry) (sl : Slave) (b : UInt8) (pdu : Bytes) (hp : pdu.head? = some b) :
    (lFnCodeMap lg R sl b.toNat = none ∧ fnCodeMap R sl b.toNat = none) ∨
    ∃ f g, lFnCodeMap lg R sl b.toNat = some f ∧ fnCodeMap R sl b.toNat = some g ∧ Reads lg R (f pdu) (g pdu) (quantityLine pdu) := by
  have hb : ∀ n : Nat, n < 256 → ((b.toNat : Int) = n ↔ b = UInt8.ofNat n) := by
    intro n hn
    constructor
    · intro h
      have : b.toNat = n := by exact_mod_cast h
      rw [← this]; simp
    · rintro rfl; simp; omega
  unfold lFnCodeMap
  by_cases h4 : (b.toNat : Int) = defines.READ_INPUT_REGISTERS
  · rw [if_pos h4]
    right
    refine ⟨_, readInputRegisters R sl, rfl, by rw [h4]; rfl, ?_⟩
    refine reads_after_hook (reads_registers lg R sl _ pdu (.inr ?_)) _ _
    rw [hp, (hb 4 (by decide)).mp h4]; rfl
  · rw [if_neg h4]
    by_cases h3 : (b.toNat : Int) = defines.READ_HOLDING_REGISTERS
    · rw [if_pos h3]
      right
      refine ⟨_, readHoldingRegisters R sl, rfl, by rw [h3]; rfl, ?_⟩
      refine reads_after_hook (reads_registers lg R sl _ pdu (.inl ?_)) _ _
      rw [hp, (hb 3 (by decide)).mp h3]; rfl
    · rw [if_neg h3]
      by_cases h23 : (b.toNat : Int) = defines.READ_WRITE_MULTIPLE_REGISTERS
      · rw [if_pos h23]
        right
        refine ⟨_, readWriteMultipleRegisters R sl, rfl, by rw [h23]; rfl, ?_⟩
        refine reads_23 lg R sl pdu ?_
        rw [hp, (hb 23 (by decide)).mp h23]; rfl
      · rw [if_neg h23]
        cases fnCodeMap R sl b.toNat with
        | none => exact .inl ⟨rfl, rfl⟩
        | some g =>
          refine .inr ⟨_, g, rfl, rfl, ?_⟩
          have hq : quantityLine pdu = none := by
            have a3 : b ≠ 3 := fun hh => h3 (by rw [hh]; rfl)
            have a4 : b ≠ 4 := fun hh => h4 (by rw [hh]; rfl)
            have a23 : b ≠ 23 := fun hh => h23 (by rw [hh]; rfl)
            unfold quantityLine
            split
            · rename_i fc _ _ _ _ _
              have : fc = b := by simpa using hp
              subst this
              simp [a3, a4, a23]
            · rfl
          rw [hq]
          exact reads_unlogged lg R (g pdu)

/-- the handler of the log raises no exceptions of the library (but OSError, UnicodeError, ...) -/
def Logger.Foreign (lg : Logger) : Prop := ∀ log line e, lg log line = some e → (∀ c, e ≠ .modbusError c) ∧ e ≠ .invalidRequest ∧ e ≠ .missingKey

/-- A computation with log lines (result `r`) against one without (result `x`), which both begin with `log`: the same effect on the memory; the log only grows;
    the same result unless a line could not be written, and then it is the exception of the handler of the log that comes out -/
structure LFollows {α : Type} (lg : Logger) (log : List Text) (x : Except PyErr α × Heap) (r : Except PyErr α × (Heap × List Text)) : Prop where
  heap : r.2.1 = x.2
  grows : ∃ lines, r.2.2 = log ++ lines
  res : r.1 = x.1 ∨ ∃ lines line e, lg (log ++ lines) line = some e ∧ (lg.Foreign → r.1 = .error e)

theorem follows_same {α : Type} (lg : Logger) (log : List Text) (x : Except PyErr α × Heap) : LFollows lg log x (x.1, (x.2, log)) := ⟨rfl, ⟨[], by simp⟩, .inl rfl⟩

theorem follows_line {α : Type} {lg : Logger} {log : List Text} {x : Except PyErr α × Heap} {L : Text} {r : Except PyErr α × (Heap × List Text)}
    (h : ∀ e, lg log L = some e → r = (.error e, (x.2, log))) (h' : lg log L = none → LFollows lg (log ++ [L]) x r) : LFollows lg log x r := by
  cases hl : lg log L with
  | some e =>
    rw [h e hl]
    exact ⟨rfl, ⟨[], by simp⟩, .inr ⟨[], L, e, by simpa using hl, fun _ => rfl⟩⟩
  | none =>
    obtain ⟨h1, ⟨lines, h2⟩, h3⟩ := h' hl
    refine ⟨h1, ⟨L :: lines, by rw [h2]; simp⟩, ?_⟩
    rcases h3 with h3 | ⟨lines, line, e, h3, h4⟩
    · exact .inl h3
    · exact .inr ⟨L :: lines, line, e, by simpa using h3, h4⟩

theorem unpack_first {pdu : Bytes} {fc : Int} (h : unpackSingle Code.B (slice pdu 0 1) = .ok fc) : ∃ b rest, pdu = b :: rest ∧ fc = (b.toNat : Int) := by
  match pdu with
  | [] => simp [unpackSingle, structUnpack, slice, calcsize, be] at h
  | b :: rest =>
    refine ⟨b, rest, rfl, ?_⟩
    have : unpackSingle Code.B (slice (b :: rest) 0 1) = .ok (b.toNat : Int) := by
      simp [unpackSingle, structUnpack, slice, calcsize, be, unpackCodes, unpackOne, beNat, show Code.B.signed = false from rfl]
    rw [this] at h
    exact (Except.ok.inj h).symm

theorem follows_dispatch (lg : Logger) (R : Registry) (sl : Slave) (b : UInt8) (rest : Bytes) (bc : Bool) (h : Heap) (log : List Text) :
    LFollows lg log (dispatch R sl b.toNat (b :: rest) bc h) (lDispatch lg R sl b.toNat (b :: rest) bc (h, log)) := by
  unfold lDispatch dispatch
  rcases reads_handlers lg R sl b (b :: rest) rfl with ⟨h1, h2⟩ | ⟨f, g, h1, h2, hr⟩
  · rw [h1, h2]; exact follows_same lg log _
  · rw [h1, h2]
    dsimp only
    by_cases hb : bc = true ∧ cantBeBroadcasted b.toNat = true
    · rw [if_pos hb, if_pos hb]; exact follows_same lg log _
    · rw [if_neg hb, if_neg hb]
      simp only [PyM.bind_apply]
      rcases hr h log with ⟨e1, -⟩ | ⟨L, -, e2, e1⟩
      · rw [e1]
        cases hg : g (b :: rest) h with
        | mk r h' =>
          cases r with
          | error e => exact follows_same lg log (.error e, h')
          | ok resp =>
            dsimp only
            by_cases hn : resp ≠ []
            · rw [if_pos hn, if_pos hn]
              cases bc with
              | true =>
                simp only [if_true]
                simp only [PyM.bind_apply, unlogged_apply]
                have hs := callHook_state (R := R) (n := "modbus.Slave.on_handle_broadcast") (a := .msg resp) (h := h')
                cases hc : callHook_ R "modbus.Slave.on_handle_broadcast" (.msg resp) h' with
                | mk r h1 =>
                  rw [hc] at hs; cases hs
                  cases r with
                  | error e => exact follows_same lg log (.error e, h1)
                  | ok u =>
                    dsimp only
                    refine follows_line (L := broadcastLine resp) ?_ ?_
                    · intro e he; rw [logLine_apply, he]; rfl
                    · intro he; rw [logLine_apply, he]; exact follows_same lg _ (.ok [], h1)
              | false =>
                simp only [Bool.false_eq_true, if_false]
                simp only [PyM.bind_apply, PyM.lift_apply]
                cases structPack (be [Code.B]) [(b.toNat : Int)] with
                | error e => exact follows_same lg log (.error e, h')
                | ok hd => exact follows_same lg log (.ok (hd ++ resp), h')
            · rw [if_neg hn, if_neg hn]
              exact follows_same lg log (.error .generic, h')
      · rw [e1, e2]
        refine follows_line (L := L) ?_ ?_
        · intro e he; rw [he]
        · intro he; rw [he]; exact follows_same lg _ (.error (.modbusError 3), h)

theorem follows_extend {α : Type} {lg : Logger} {log lines : List Text} {x : Except PyErr α × Heap} {r : Except PyErr α × (Heap × List Text)}
    (h : LFollows lg (log ++ lines) x r) : LFollows lg log x r := by
  obtain ⟨h1, ⟨ls, h2⟩, h3⟩ := h
  refine ⟨h1, ⟨lines ++ ls, by rw [h2]; simp⟩, ?_⟩
  rcases h3 with h3 | ⟨ls, line, e, h3, h4⟩
  · exact .inl h3
  · exact .inr ⟨lines ++ ls, line, e, by simpa using h3, h4⟩

/-- `except ModbusError` of `Slave.handle_request` with and without the line -/
theorem follows_exception (lg : Logger) (txt : PyErr → Text) (R : Registry) (pdu : Bytes) (fc code : Int) (h : Heap) (log : List Text) :
    LFollows lg log
      ((do callHook_ R "modbus.Slave.on_exception" (.exc (.modbusError code) pdu); PyM.lift (structPack (be [Code.B, Code.B]) [fc + 128, code]) : PyM Heap Bytes) h)
      ((do
        logLine lg (txt (.modbusError code))
        unlogged (callHook_ R "modbus.Slave.on_exception" (.exc (.modbusError code) pdu))
        PyM.lift (structPack (be [Code.B, Code.B]) [fc + 128, code]) : PyM (Heap × List Text) Bytes) (h, log)) := by
  simp only [PyM.bind_apply, PyM.lift_apply, unlogged_apply]
  have hs := callHook_state (R := R) (n := "modbus.Slave.on_exception") (a := .exc (.modbusError code) pdu) (h := h)
  cases hc : callHook_ R "modbus.Slave.on_exception" (.exc (.modbusError code) pdu) h with
  | mk r h1 =>
    rw [hc] at hs; cases hs
    refine follows_line (L := txt (.modbusError code)) ?_ ?_
    · intro e he; rw [logLine_apply, he]; cases r <;> rfl
    · intro he
      rw [logLine_apply, he]
      simp only [PyM.bind_apply, PyM.lift_apply, unlogged_apply, hc]
      cases r with
      | error e => exact follows_same lg _ (.error e, h1)
      | ok u => exact follows_same lg _ (structPack (be [Code.B, Code.B]) [fc + 128, code], h1)

theorem follows_try {lg : Logger} {log : List Text} {h : Heap} {d : PyM Heap Bytes} {ld : PyM (Heap × List Text) Bytes} {H : PyErr → PyM Heap Bytes}
    {lH : PyErr → PyM (Heap × List Text) Bytes} (hd : LFollows lg log (d h) (ld (h, log))) (h1 : ∀ e h, (H e h).2 = h)
    (h2 : ∀ e h log, LFollows lg log (H e h) (lH e (h, log))) (h3 : ∀ e, (∀ c, e ≠ .modbusError c) → ∀ s, lH e s = (.error e, s)) :
    LFollows lg log (PyM.tryExcept d H h) (PyM.tryExcept ld lH (h, log)) := by
  obtain ⟨d1, ⟨lines, d2⟩, d3⟩ := hd
  cases hx : d h with
  | mk xr xh =>
  cases hr : ld (h, log) with
  | mk rr rs =>
  obtain ⟨rh, rl⟩ := rs
  rw [hx, hr] at d1 d3
  rw [hr] at d2
  dsimp only at d1 d2 d3
  subst d1 d2
  have e1 : PyM.tryExcept ld lH (h, log) = PyM.tryExcept (fun _ => (rr, (rh, log ++ lines))) lH (h, log) := by unfold PyM.tryExcept; rw [hr]
  have e2 : PyM.tryExcept d H h = PyM.tryExcept (fun _ => (xr, rh)) H h := by unfold PyM.tryExcept; rw [hx]
  rw [e1, e2]
  rcases d3 with d3 | ⟨ls, line, e', d3, d4⟩
  · subst d3
    cases rr with
    | ok v => exact ⟨rfl, ⟨lines, rfl⟩, .inl rfl⟩
    | error e => exact follows_extend (h2 e rh _)
  · have hall : ∀ y : Except PyErr Bytes × Heap, y.2 = rh → LFollows lg log y (PyM.tryExcept (fun _ => (rr, (rh, log ++ lines))) lH (h, log)) := by
      intro y hy
      cases rr with
      | ok v => exact ⟨hy.symm, ⟨lines, rfl⟩, .inr ⟨ls, line, e', d3, fun hF => d4 hF⟩⟩
      | error e =>
        obtain ⟨k1, ⟨k2l, k2⟩, -⟩ := h2 e rh (log ++ lines)
        refine ⟨by show (lH e _).2.1 = _; rw [k1, h1, hy], ⟨lines ++ k2l, by show (lH e _).2.2 = _; rw [k2]; simp⟩, .inr ⟨ls, line, e', d3, fun hF => ?_⟩⟩
        have := d4 hF
        injection this with this
        subst this
        show (lH e _).1 = _
        rw [h3 e (hF _ _ _ d3).1]
    cases xr with
    | ok v => exact hall (.ok v, rh) rfl
    | error e => exact hall _ (h1 e rh)

theorem follows_slave (lg : Logger) (txt : PyErr → Text) (R : Registry) (sl : Slave) (pdu : Bytes) (bc : Bool) (h : Heap) (log : List Text) :
    LFollows lg log (handleRequest R sl pdu bc h) (lHandleRequest lg txt R sl pdu bc (h, log)) := by
  unfold lHandleRequest handleRequest
  cases callHooks R "modbus.Slave.handle_request" (.msg pdu) with
  | error e =>
    cases e <;> first | exact follows_same lg log _ | skip
    rename_i code
    refine follows_line (L := txt (.modbusError code)) ?_ ?_
    · intro e he
      have : (do logLine lg (txt (.modbusError code)); PyM.raise .unboundLocal : PyM (Heap × List Text) Bytes) (h, log) = (.error e, (h, log)) := by
        simp only [PyM.bind_apply, logLine_apply, he]
      exact this
    · intro he
      have : (do logLine lg (txt (.modbusError code)); PyM.raise .unboundLocal : PyM (Heap × List Text) Bytes) (h, log) = (.error .unboundLocal, (h, log ++ [txt (.modbusError code)])) := by
        simp only [PyM.bind_apply, logLine_apply, he]; rfl
      dsimp only
      rw [this]
      exact follows_same lg _ (.error .unboundLocal, h)
  | ok rv =>
    cases rv with
    | some v => exact follows_same lg log _
    | none =>
      dsimp only
      simp only [PyM.bind_apply, PyM.lift_apply]
      cases hu : unpackSingle Code.B (slice pdu 0 1) with
      | error e => exact follows_same lg log (.error e, h)
      | ok fc =>
        obtain ⟨b, rest, rfl, rfl⟩ := unpack_first hu
        dsimp only
        refine follows_try (follows_dispatch lg R sl b rest bc h log) ?_ ?_ ?_
        · intro e h
          cases e <;> first | rfl | skip
          rename_i code
          simp only [PyM.bind_apply, PyM.lift_apply]
          have hs := callHook_state (R := R) (n := "modbus.Slave.on_exception") (a := .exc (.modbusError code) (b :: rest)) (h := h)
          cases hc : callHook_ R "modbus.Slave.on_exception" (.exc (.modbusError code) (b :: rest)) h with
          | mk r h1 =>
            rw [hc] at hs; cases hs
            cases r <;> rfl
        · intro e h log
          cases e <;> first | exact follows_same lg log _ | exact follows_exception lg txt R _ _ _ _ _
        · intro e he s
          cases e <;> first | rfl | exact absurd rfl (he _)

/-- with a handler of the log that never raises: the same result and effect, and some lines -/
def Beyond {τ α : Type} (f : PyM (τ × List Text) α) (g : PyM τ α) : Prop := ∀ h log, ∃ lines, f (h, log) = ((g h).1, ((g h).2, log ++ lines))

theorem beyond_follows {α : Type} {lg : Logger} (hc : lg.Calm) {f : PyM (Heap × List Text) α} {g : PyM Heap α} (hf : ∀ h log, LFollows lg log (g h) (f (h, log))) : Beyond f g := by
  intro h log
  obtain ⟨h1, ⟨lines, h2⟩, h3⟩ := hf h log
  refine ⟨lines, ?_⟩
  rcases h3 with h3 | ⟨_, _, _, h3, -⟩
  · rw [← h3, ← h1, ← h2]
  · rw [hc] at h3; cases h3

theorem beyond_pure {τ α : Type} (a : α) : Beyond (τ := τ) (pure a) (pure a) := fun _ _ => ⟨[], by simp⟩
theorem beyond_raise {τ α : Type} (e : PyErr) : Beyond (τ := τ) (PyM.raise e : PyM _ α) (PyM.raise e) := fun _ _ => ⟨[], by simp [PyM.raise]⟩
theorem beyond_lift {τ α : Type} (x : Except PyErr α) : Beyond (τ := τ) (PyM.lift x) (PyM.lift x) := fun _ _ => ⟨[], by simp⟩
theorem beyond_unlogged {τ α : Type} (g : PyM τ α) : Beyond (unlogged g) g := fun _ _ => ⟨[], by simp [unlogged_apply]⟩

theorem beyond_bind {τ α β : Type} {f : PyM (τ × List Text) α} {g : PyM τ α} {f' : α → PyM (τ × List Text) β} {g' : α → PyM τ β}
    (h1 : Beyond f g) (h2 : ∀ a, Beyond (f' a) (g' a)) : Beyond (f >>= f') (g >>= g') := by
  intro h log
  obtain ⟨lines, e⟩ := h1 h log
  simp only [PyM.bind_apply, e]
  cases hg : g h with
  | mk r h' =>
    cases r with
    | error e => exact ⟨lines, rfl⟩
    | ok a =>
      obtain ⟨ls, e'⟩ := h2 a h' (log ++ lines)
      exact ⟨lines ++ ls, by dsimp only; rw [e']; simp⟩

theorem beyond_line {lg : Logger} (hc : lg.Calm) (L : Text) {τ α : Type} {f : PyM (τ × List Text) α} {g : PyM τ α} (hf : Beyond f g) : Beyond (do logLine lg L; f) g := by
  intro h log
  obtain ⟨ls, e⟩ := hf h (log ++ [L])
  exact ⟨L :: ls, by simp only [PyM.bind_apply, logLine_apply, hc log L, e]; simp⟩

theorem beyond_try {τ α : Type} {f : PyM (τ × List Text) α} {g : PyM τ α} {f' : PyErr → PyM (τ × List Text) α} {g' : PyErr → PyM τ α}
    (h1 : Beyond f g) (h2 : ∀ e, Beyond (f' e) (g' e)) : Beyond (PyM.tryExcept f f') (PyM.tryExcept g g') := by
  intro h log
  obtain ⟨lines, e⟩ := h1 h log
  unfold PyM.tryExcept
  rw [e]
  cases hg : g h with
  | mk r h' =>
    cases r with
    | ok a => exact ⟨lines, rfl⟩
    | error x =>
      obtain ⟨ls, e'⟩ := h2 x h' (log ++ lines)
      exact ⟨lines ++ ls, by dsimp only; rw [e']; simp⟩

theorem beyond_slave {lg : Logger} (hc : lg.Calm) (txt : PyErr → Text) (R : Registry) (sl : Slave) (pdu : Bytes) (bc : Bool) :
    Beyond (lHandleRequest lg txt R sl pdu bc) (handleRequest R sl pdu bc) := beyond_follows hc (follows_slave lg txt R sl pdu bc)

theorem beyond_loop {lg : Logger} (hc : lg.Calm) (txt : PyErr → Text) (R : Registry) (pdu : Bytes) (sls : List (Int × Slave)) :
    Beyond (lBroadcastLoop lg txt R pdu sls) (broadcastLoop R pdu sls) := by
  induction sls with
  | nil => exact beyond_pure ()
  | cons p sls ih =>
    obtain ⟨k, sl⟩ := p
    exact beyond_bind (beyond_slave hc txt R sl pdu true) (fun _ => ih)

theorem beyond_body {lg : Logger} (hc : lg.Calm) (txt : PyErr → Text) (R : Registry) (mac : Mac) (db : Databank) (q : mac.Q) (sid : Int) (pdu : Bytes) :
    Beyond (lDbBody lg txt R mac db q sid pdu) (dbBody R mac db q sid pdu) := by
  unfold lDbBody dbBody
  by_cases h0 : sid = 0
  · rw [if_pos h0, if_pos h0]
    exact beyond_bind (beyond_loop hc txt R pdu db.slaves) (fun _ => beyond_pure none)
  · rw [if_neg h0, if_neg h0]
    cases Dict.get? db.slaves sid with
    | none =>
      dsimp only
      cases db.errorOnMissingSlave
      · exact beyond_pure _
      · exact beyond_raise _
    | some sl => exact beyond_bind (beyond_slave hc txt R sl pdu false) (fun r => beyond_bind (beyond_lift _) (fun _ => beyond_pure _))

theorem beyond_except {lg : Logger} (hc : lg.Calm) (txt : PyErr → Text) (R : Registry) (pdu : Bytes) (e : PyErr) : Beyond (lDbExcept lg txt R pdu e) (dbExcept R pdu e) := by
  cases e
  case invalidRequest => exact beyond_line hc _ (beyond_pure _)
  case missingKey => exact beyond_line hc _ (beyond_pure _)
  all_goals
    refine beyond_bind (beyond_unlogged _) (fun _ => beyond_line hc _ ?_)
    refine beyond_bind ?_ (fun _ => beyond_bind (beyond_lift _) (fun _ => beyond_pure _))
    by_cases hp : pdu.length > 0
    · rw [if_pos hp, if_pos hp]; exact beyond_lift _
    · rw [if_neg hp, if_neg hp]; exact beyond_pure _

theorem beyond_db {lg : Logger} (hc : lg.Calm) (txt : PyErr → Text) (R : Registry) (mac : Mac) (db : Databank) (request : Bytes) :
    Beyond (lDbHandle lg txt R mac db request) (dbHandle R mac db request) := by
  unfold lDbHandle dbHandle
  rcases mac.parseRequest request mac.new with ⟨_ | ⟨sid, pdu⟩, q⟩
  · exact beyond_except hc txt R _ _
  · exact beyond_try (beyond_body hc txt R mac db q sid pdu) (beyond_except hc txt R pdu)

/-- **C96.** As long as its lines can be written, the log changes nothing: every request is answered and does what it would without, whatever hook functions, slaves,
    protocol and verbosity; the log only grows. -/
theorem C96_calm (verbose : Bool) (lg : Logger) (hc : lg.Calm) (txt : PyErr → Text) (R : Registry) (mac : Mac) (db : Databank) (request : Bytes) (h : Heap) (log : List Text) :
    ∃ lines, lServerHandle verbose lg txt R mac db request (h, log) = ((serverHandle R mac db request h).1, ((serverHandle R mac db request h).2, log ++ lines)) := by
  have key : Beyond (lServerHandle verbose lg txt R mac db request) (serverHandle R mac db request) := by
    have first : ∀ {α : Type} {L : Text} {f : PyM (Heap × List Text) α} {g : PyM Heap α}, Beyond f g → Beyond (if verbose = true then (do logLine lg L; f) else f) g := by
      intro α L f g hf
      cases verbose
      · exact hf
      · exact beyond_line hc L hf
    unfold lServerHandle serverHandle
    refine first (beyond_bind (beyond_lift _) (fun rv => beyond_bind (beyond_db hc txt R mac db _) (fun resp => beyond_bind (beyond_lift _) (fun rv' => ?_))))
    dsimp only
    rcases replaceIfTruthy rv' resp with _ | _ | ⟨b, bs⟩
    · exact beyond_pure _
    · exact beyond_pure _
    · exact first (beyond_pure _)
  exact key h log

theorem dbExcept_heap (R : Registry) (pdu : Bytes) (e : PyErr) (h : Heap) : (dbExcept R pdu e h).2 = h := by
  have main : ∀ e : PyErr, ((do
      callHook_ R "modbus.Databank.on_error" (.exc e pdu)
      let funcCode ← (if pdu.length > 0 then PyM.lift (unpackSingle Code.B (slice pdu 0 1)) else pure 1 : PyM Heap Int)
      let r ← PyM.lift (structPack (be [Code.B, Code.B]) [funcCode + 0x80, defines.SLAVE_DEVICE_FAILURE])
      return (some r) : PyM Heap (Option Bytes)) h).2 = h := by
    intro e
    simp only [PyM.bind_apply, PyM.lift_apply]
    have hs := callHook_state (R := R) (n := "modbus.Databank.on_error") (a := .exc e pdu) (h := h)
    cases hc : callHook_ R "modbus.Databank.on_error" (.exc e pdu) h with
    | mk r h1 =>
      rw [hc] at hs; cases hs
      cases r with
      | error e => rfl
      | ok u =>
        dsimp only
        by_cases hp : pdu.length > 0
        · rw [if_pos hp]
          simp only [PyM.lift_apply]
          cases unpackSingle Code.B (slice pdu 0 1) with
          | error e => rfl
          | ok v => dsimp only; cases structPack (be [Code.B, Code.B]) [v + 0x80, defines.SLAVE_DEVICE_FAILURE] <;> rfl
        · rw [if_neg hp]
          simp only [PyM.pure_apply]
          cases structPack (be [Code.B, Code.B]) [1 + 0x80, defines.SLAVE_DEVICE_FAILURE] <;> rfl
  cases e <;> first | exact main _ | rfl

theorem lDbExcept_heap (lg : Logger) (txt : PyErr → Text) (R : Registry) (pdu : Bytes) (e : PyErr) (h : Heap) (log : List Text) :
    (lDbExcept lg txt R pdu e (h, log)).2.1 = h := by
  have main : ∀ e : PyErr, ((do
      unlogged (callHook_ R "modbus.Databank.on_error" (.exc e pdu))
      logLine lg ("handle request failed: ".toList ++ txt e)
      let funcCode ← (if pdu.length > 0 then PyM.lift (unpackSingle Code.B (slice pdu 0 1)) else pure 1 : PyM (Heap × List Text) Int)
      let r ← PyM.lift (structPack (be [Code.B, Code.B]) [funcCode + 0x80, defines.SLAVE_DEVICE_FAILURE])
      return (some r) : PyM (Heap × List Text) (Option Bytes)) (h, log)).2.1 = h := by
    intro e
    simp only [PyM.bind_apply, PyM.lift_apply, unlogged_apply]
    have hs := callHook_state (R := R) (n := "modbus.Databank.on_error") (a := .exc e pdu) (h := h)
    cases hc : callHook_ R "modbus.Databank.on_error" (.exc e pdu) h with
    | mk r h1 =>
      rw [hc] at hs; cases hs
      cases r with
      | error e => rfl
      | ok u =>
        dsimp only
        rw [logLine_apply]
        cases lg log _ with
        | some e => rfl
        | none =>
        dsimp only
        by_cases hp : pdu.length > 0
        · rw [if_pos hp]
          simp only [PyM.lift_apply]
          cases unpackSingle Code.B (slice pdu 0 1) with
          | error e => rfl
          | ok v => dsimp only; cases structPack (be [Code.B, Code.B]) [v + 0x80, defines.SLAVE_DEVICE_FAILURE] <;> rfl
        · rw [if_neg hp]
          simp only [PyM.pure_apply]
          cases structPack (be [Code.B, Code.B]) [1 + 0x80, defines.SLAVE_DEVICE_FAILURE] <;> rfl
  cases e <;> first | exact main _ | (simp only [lDbExcept, PyM.bind_apply, logLine_apply]; cases lg log _ <;> rfl)

theorem try_heap {α : Type} {d : PyM Heap α} {ld : PyM (Heap × List Text) α} {H : PyErr → PyM Heap α} {lH : PyErr → PyM (Heap × List Text) α} {h : Heap} {log : List Text}
    (hd : (ld (h, log)).2.1 = (d h).2) (h1 : ∀ e h, (H e h).2 = h) (h2 : ∀ e h log, (lH e (h, log)).2.1 = h) :
    (PyM.tryExcept ld lH (h, log)).2.1 = (PyM.tryExcept d H h).2 := by
  have e1 : (PyM.tryExcept d H h).2 = (d h).2 := by
    unfold PyM.tryExcept
    rcases d h with ⟨_ | _, _⟩
    · exact h1 _ _
    · rfl
  rw [e1, ← hd]
  unfold PyM.tryExcept
  rcases ld (h, log) with ⟨_ | _, _, _⟩
  · exact h2 _ _ _
  · rfl

theorem body_heap (lg : Logger) (txt : PyErr → Text) (R : Registry) (mac : Mac) (db : Databank) (q : mac.Q) (sid : Int) (h0 : sid ≠ 0) (pdu : Bytes) (h : Heap) (log : List Text) :
    (lDbBody lg txt R mac db q sid pdu (h, log)).2.1 = (dbBody R mac db q sid pdu h).2 := by
  unfold lDbBody dbBody
  rw [if_neg h0, if_neg h0]
  cases Dict.get? db.slaves sid with
  | none => dsimp only; cases db.errorOnMissingSlave <;> rfl
  | some sl =>
    simp only [PyM.bind_apply, PyM.lift_apply]
    have hf := (follows_slave lg txt R sl pdu false h log).heap
    rcases hx : handleRequest R sl pdu false h with ⟨xr, xh⟩
    rcases hr : lHandleRequest lg txt R sl pdu false (h, log) with ⟨rr, rh, rl⟩
    rw [hx, hr] at hf
    dsimp only at hf
    subst hf
    cases xr with
    | error e =>
      cases rr with
      | error e' => rfl
      | ok r => dsimp only; cases (mac.buildResponse r q).1 <;> rfl
    | ok x =>
      dsimp only
      cases rr with
      | error e' => cases (mac.buildResponse x q).1 <;> rfl
      | ok r => dsimp only; cases (mac.buildResponse x q).1 <;> cases (mac.buildResponse r q).1 <;> rfl

/-- **C96.** Whatever happens to the log, a request to one slave has done to the memory what it does without the log: nothing is lost, nothing is done twice. -/
theorem C96_memory (lg : Logger) (txt : PyErr → Text) (R : Registry) (mac : Mac) (db : Databank) (request : Bytes) (h : Heap) (log : List Text)
    (hone : ∀ sid pdu q, mac.parseRequest request mac.new = (.ok (sid, pdu), q) → sid ≠ 0) :
    (lDbHandle lg txt R mac db request (h, log)).2.1 = (dbHandle R mac db request h).2 := by
  unfold lDbHandle dbHandle
  rcases hp : mac.parseRequest request mac.new with ⟨_ | ⟨sid, pdu⟩, q⟩
  · dsimp only; rw [lDbExcept_heap, dbExcept_heap]
  · exact try_heap (body_heap lg txt R mac db q sid (hone _ _ _ hp) pdu h log) (fun e h => dbExcept_heap R pdu e h) (fun e h log => lDbExcept_heap lg txt R pdu e h log)

theorem quantity_other {b : UInt8} {rest : Bytes} (a3 : b ≠ 3) (a4 : b ≠ 4) (a23 : b ≠ 23) : quantityLine (b :: rest) = none := by
  unfold quantityLine
  split
  · rename_i fc _ _ _ _ _ heq
    have : b = fc := (List.cons.inj heq).1
    subst this
    simp [a3, a4, a23]
  · rfl

/-- a request to one slave: only the line about a wrong quantity, and that before the exception -/
theorem reads_dispatch (lg : Logger) (R : Registry) (sl : Slave) (b : UInt8) (rest : Bytes) :
    Reads lg R (lDispatch lg R sl b.toNat (b :: rest) false) (dispatch R sl b.toNat (b :: rest) false) (quantityLine (b :: rest)) := by
  unfold lDispatch dispatch
  rcases reads_handlers lg R sl b (b :: rest) rfl with ⟨h1, h2⟩ | ⟨f, g, h1, h2, hr⟩
  · rw [h1, h2]
    intro h log
    refine .inl ⟨rfl, fun _ _ _ => quantity_other ?_ ?_ ?_⟩ <;> rintro rfl <;> cases h2
  · rw [h1, h2]
    intro h log
    simp only [Bool.false_eq_true, false_and, if_false]
    simp only [PyM.bind_apply]
    rcases hr h log with ⟨e1, e3⟩ | ⟨L, hL, e2, e1⟩
    · rw [e1]
      cases hg : g (b :: rest) h with
      | mk r h' =>
        cases r with
        | error e =>
          refine .inl ⟨rfl, fun hq c hc => e3 hq c ?_⟩
          rw [hg]; exact hc
        | ok resp =>
          refine .inl ?_
          dsimp only
          by_cases hn : resp ≠ []
          · rw [if_pos hn, if_pos hn]
            simp only [PyM.bind_apply, PyM.lift_apply]
            rw [packB_u8]
            exact ⟨rfl, fun _ c hc => by cases hc⟩
          · rw [if_neg hn, if_neg hn]
            exact ⟨rfl, fun _ c hc => by cases hc⟩
    · rw [e1, e2]
      refine .inr ⟨L, hL, rfl, ?_⟩
      cases lg log L <;> rfl

theorem pack_two {a c : Int} {l : Bytes} (h : structPack (be [Code.B, Code.B]) [a, c] = .ok l) : ∃ x y : UInt8, l = [x, y] ∧ (x.toNat : Int) = a ∧ (y.toNat : Int) = c := by
  have hcode : ∀ v l, packOne true Code.B v = .ok l → ∃ x : UInt8, l = [x] ∧ (x.toNat : Int) = v := by
    intro v l hv
    by_cases hr : 0 ≤ v ∧ v < 256
    · rw [packOne_B hr.1 hr.2] at hv
      refine ⟨_, (Except.ok.inj hv).symm, ?_⟩
      simp
      omega
    · unfold packOne at hv
      rw [if_neg (by rw [show Code.B.lo = 0 from rfl, show Code.B.hi = 256 from rfl]; exact hr)] at hv
      cases hv
  replace h : packCodes true [Code.B, Code.B] [a, c] = .ok l := h
  simp only [packCodes] at h
  cases h1 : packOne true Code.B a with
  | error e => rw [h1] at h; cases h
  | ok l1 =>
    cases h2 : packOne true Code.B c with
    | error e => rw [h1, h2] at h; cases h
    | ok l2 =>
      rw [h1, h2] at h
      obtain ⟨x, rfl, hx⟩ := hcode _ _ h1
      obtain ⟨y, rfl, hy⟩ := hcode _ _ h2
      exact ⟨x, y, (Except.ok.inj h).symm, hx, hy⟩

/-- `Slave.handle_request` after the first hook -/
def afterHook (R : Registry) (sl : Slave) (b : UInt8) (rest : Bytes) (bc : Bool) : PyM Heap Bytes :=
  PyM.tryExcept (dispatch R sl b.toNat (b :: rest) bc) (fun e => match e with
    | .modbusError code => do
        callHook_ R "modbus.Slave.on_exception" (.exc (.modbusError code) (b :: rest))
        PyM.lift (structPack (be [Code.B, Code.B]) [(b.toNat : Int) + 128, code])
    | e => PyM.raise e)

theorem unpack_byte (b : UInt8) (rest : Bytes) : unpackSingle Code.B (slice (b :: rest) 0 1) = .ok (b.toNat : Int) := by
  simp [unpackSingle, structUnpack, slice, calcsize, be, unpackCodes, unpackOne, beNat, show Code.B.signed = false from rfl]

/-- the exception response of a slave is not its normal response -/
theorem exception_head {R : Registry} {b : UInt8} {rest : Bytes} {code : Int} {h h' : Heap} {resp : Bytes}
    (hx : (do callHook_ R "modbus.Slave.on_exception" (.exc (.modbusError code) (b :: rest)); PyM.lift (structPack (be [Code.B, Code.B]) [(b.toNat : Int) + 128, code]) : PyM Heap Bytes) h =
      (.ok resp, h')) : h' = h ∧ ∃ x y : UInt8, resp = [x, y] ∧ x ≠ b ∧ x = b + 128 ∧ (y.toNat : Int) = code ∧ structPack (be [Code.B, Code.B]) [(b.toNat : Int) + 128, code] = .ok [x, y] := by
  simp only [PyM.bind_apply, PyM.lift_apply] at hx
  have hs := callHook_state (R := R) (n := "modbus.Slave.on_exception") (a := .exc (.modbusError code) (b :: rest)) (h := h)
  cases hc : callHook_ R "modbus.Slave.on_exception" (.exc (.modbusError code) (b :: rest)) h with
  | mk r h1 =>
    rw [hc] at hs hx; cases hs
    cases r with
    | error e => cases hx
    | ok u =>
      dsimp only at hx
      cases hp : structPack (be [Code.B, Code.B]) [(b.toNat : Int) + 128, code] with
      | error e => rw [hp] at hx; cases hx
      | ok l =>
        rw [hp] at hx
        cases hx
        obtain ⟨x, y, hl, hx, hy⟩ := pack_two hp
        rw [hl] at hp ⊢
        refine ⟨rfl, x, y, rfl, ?_, ?_, hy, rfl⟩
        · rintro rfl; omega
        · apply UInt8.toNat_inj.mp
          have := x.toNat_lt
          rw [UInt8.toNat_add]
          have : (128 : UInt8).toNat = 128 := rfl
          omega

/-- **C96.** A request to one slave that gets a normal response writes no line (without the verbose mode), so the log plays no part in it. -/
theorem C96_answered (lg : Logger) (txt : PyErr → Text) (R : Registry) (mac : Mac) (db : Databank) (request : Bytes) (sid : Int) (b : UInt8) (rest resp response : Bytes) (q : mac.Q)
    (sl : Slave) (h h' : Heap) (log : List Text) (hp : mac.parseRequest request mac.new = (.ok (sid, b :: rest), q)) (h0 : sid ≠ 0) (hs : Dict.get? db.slaves sid = some sl)
    (hr : handleRequest R sl (b :: rest) false h = (.ok (b :: resp), h')) (hb : (mac.buildResponse (b :: resp) q).1 = .ok response) :
    lDbHandle lg txt R mac db request (h, log) = (.ok (some response), (h', log)) ∧ dbHandle R mac db request h = (.ok (some response), h') := by
  have key : lHandleRequest lg txt R sl (b :: rest) false (h, log) = (.ok (b :: resp), (h', log)) := by
    unfold handleRequest at hr
    unfold lHandleRequest
    cases hh : callHooks R "modbus.Slave.handle_request" (.msg (b :: rest)) with
    | error e => rw [hh] at hr; cases e <;> cases hr
    | ok rv =>
      cases rv with
      | some v => rw [hh] at hr; cases hr; rfl
      | none =>
        rw [hh] at hr
        dsimp only at hr ⊢
        simp only [PyM.bind_apply, PyM.lift_apply, unpack_byte] at hr ⊢
        replace hr : afterHook R sl b rest false h = (.ok (b :: resp), h') := hr
        unfold afterHook PyM.tryExcept at hr
        unfold PyM.tryExcept
        rcases reads_dispatch lg R sl b rest h log with ⟨e1, -⟩ | ⟨L, hL, e2, e1⟩
        · rw [e1]
          cases hd : dispatch R sl b.toNat (b :: rest) false h with
          | mk r hm =>
            rw [hd] at hr
            cases r with
            | ok v => cases hr; rfl
            | error e =>
              cases e <;> first | cases hr | skip
              obtain ⟨-, x, y, hl, hne, -⟩ := exception_head hr
              cases hl
              exact absurd rfl hne
        · rw [e2] at hr
          obtain ⟨-, x, y, hl, hne, -⟩ := exception_head hr
          cases hl
          exact absurd rfl hne
  constructor
  · unfold lDbHandle
    rw [hp]
    dsimp only
    unfold PyM.tryExcept lDbBody
    rw [if_neg h0, hs]
    simp only [PyM.bind_apply, PyM.lift_apply, key, hb]
    rfl
  · unfold dbHandle
    rw [hp]
    dsimp only
    unfold PyM.tryExcept dbBody
    rw [if_neg h0, hs]
    simp only [PyM.bind_apply, PyM.lift_apply, hr, hb]
    rfl

/-- **C96.** An exception response comes with these lines: first, if the request asked for a wrong quantity of registers, the quantity; then the text of the exception. -/
theorem C96_exception_lines (lg : Logger) (hc : lg.Calm) (txt : PyErr → Text) (R : Registry) (hR : Quiet R) (sl : Slave) (b x y : UInt8) (rest : Bytes) (h h' : Heap) (log : List Text)
    (hne : x ≠ b) (hr : handleRequest R sl (b :: rest) false h = (.ok [x, y], h')) :
    lHandleRequest lg txt R sl (b :: rest) false (h, log) = (.ok [x, y], (h', log ++ (quantityLine (b :: rest)).toList ++ [txt (.modbusError y.toNat)])) := by
  unfold handleRequest at hr
  unfold lHandleRequest
  rw [hR] at hr ⊢
  dsimp only at hr ⊢
  simp only [PyM.bind_apply, PyM.lift_apply, unpack_byte] at hr ⊢
  replace hr : afterHook R sl b rest false h = (.ok [x, y], h') := hr
  unfold afterHook PyM.tryExcept at hr
  unfold PyM.tryExcept
  rcases reads_dispatch lg R sl b rest h log with ⟨e1, e3⟩ | ⟨L, hL, e2, e1⟩
  · rw [e1]
    cases hd : dispatch R sl b.toNat (b :: rest) false h with
    | mk r hm =>
      rw [hd] at hr
      rw [hd] at e3
      cases r with
      | ok v =>
        cases hr
        exfalso
        unfold dispatch at hd
        cases hf : fnCodeMap R sl b.toNat with
        | none => rw [hf] at hd; cases hd
        | some f =>
          rw [hf] at hd
          simp only [Bool.false_eq_true, false_and, if_false] at hd
          simp only [PyM.bind_apply] at hd
          rcases hff : f (b :: rest) h with ⟨_ | resp, hf'⟩
          · rw [hff] at hd; cases hd
          · rw [hff] at hd
            dsimp only at hd
            by_cases hn : resp ≠ []
            · rw [if_pos hn] at hd
              simp only [PyM.bind_apply, PyM.lift_apply, packB_u8] at hd
              cases hd
              exact hne rfl
            · rw [if_neg hn] at hd; cases hd
      | error e =>
        cases e <;> first | cases hr | skip
        rename_i code
        obtain ⟨rfl, x', y', hl, -, -, hy, hpk⟩ := exception_head hr
        cases hl
        subst hy
        have hq := e3 hR _ rfl
        rw [hq]
        simp only [PyM.bind_apply, PyM.lift_apply, logLine_apply, hc log]
        simp only [unlogged_apply, callHook_quiet hR, hpk]
        simp
  · rw [e2] at hr
    rw [e1, hc]
    obtain ⟨rfl, x', y', hl, -, -, hy, hpk⟩ := exception_head hr
    cases hl
    rw [hL]
    have hy3 : y.toNat = 3 := by omega
    simp only [PyM.bind_apply, PyM.lift_apply, logLine_apply, hc _]
    simp only [unlogged_apply, callHook_quiet hR, hpk, hy3]
    simp

/-- the line the databank writes about an exception -/
def errorLine (txt : PyErr → Text) (e : PyErr) : Text := (if e = .invalidRequest then "invalid request: ".toList else "handle request failed: ".toList) ++ txt e

/-- the answer to a request that could not be handled: function code + 128 and code 4, which fits for function codes below 128 only -/
def deviceFailure (b : UInt8) : Except PyErr (Option Bytes) := if b.toNat < 128 then .ok (some [b + 128, 4]) else .error .structError

theorem pack_failure (b : UInt8) : (structPack (be [Code.B, Code.B]) [(b.toNat : Int) + 0x80, defines.SLAVE_DEVICE_FAILURE]).map some = deviceFailure b := by
  unfold deviceFailure
  by_cases hb : b.toNat < 128
  · rw [if_pos hb]
    have := packBB_exc b 4 hb
    rw [show defines.SLAVE_DEVICE_FAILURE = (((4 : UInt8).toNat : Nat) : Int) from rfl]
    exact congrArg (Except.map some) this
  · rw [if_neg hb]
    show (packCodes true [Code.B, Code.B] [(b.toNat : Int) + 0x80, defines.SLAVE_DEVICE_FAILURE]).map some = _
    have : packOne true Code.B ((b.toNat : Int) + 0x80) = .error .structError := by
      unfold packOne
      rw [if_neg (by rw [show Code.B.hi = 256 from rfl]; omega)]
    rw [packCodes, this]
    rfl

/-- the exception handlers of the databank without hook functions -/
theorem lDbExcept_quiet (lg : Logger) (txt : PyErr → Text) (R : Registry) (hR : Quiet R) (b : UInt8) (rest : Bytes) (e : PyErr) (h : Heap) (log : List Text) :
    lDbExcept lg txt R (b :: rest) e (h, log) = (match lg log (errorLine txt e) with
      | some x => (.error x, (h, log))
      | none => (if e = .invalidRequest ∨ e = .missingKey then .ok (some []) else deviceFailure b, (h, log ++ [errorLine txt e]))) := by
  have main : ∀ e : PyErr, ((do
      unlogged (callHook_ R "modbus.Databank.on_error" (.exc e (b :: rest)))
      logLine lg ("handle request failed: ".toList ++ txt e)
      let funcCode ← (if (b :: rest).length > 0 then PyM.lift (unpackSingle Code.B (slice (b :: rest) 0 1)) else pure 1 : PyM (Heap × List Text) Int)
      let r ← PyM.lift (structPack (be [Code.B, Code.B]) [funcCode + 0x80, defines.SLAVE_DEVICE_FAILURE])
      return (some r) : PyM (Heap × List Text) (Option Bytes)) (h, log)) = (match lg log ("handle request failed: ".toList ++ txt e) with
      | some x => (.error x, (h, log))
      | none => (deviceFailure b, (h, log ++ ["handle request failed: ".toList ++ txt e]))) := by
    intro e
    simp only [PyM.bind_apply, PyM.lift_apply, unlogged_apply, callHook_quiet hR, logLine_apply]
    cases lg log ("handle request failed: ".toList ++ txt e) with
    | some x => rfl
    | none =>
      dsimp only
      rw [if_pos (by simp)]
      simp only [PyM.lift_apply, unpack_byte]
      rw [← pack_failure b]
      cases structPack (be [Code.B, Code.B]) [(b.toNat : Int) + 0x80, defines.SLAVE_DEVICE_FAILURE] <;> rfl
  cases e
  case invalidRequest => simp only [lDbExcept, PyM.bind_apply, logLine_apply]; rw [show errorLine txt .invalidRequest = "invalid request: ".toList ++ txt .invalidRequest from rfl]; cases lg log _ <;> rfl
  case missingKey => simp only [lDbExcept, PyM.bind_apply, logLine_apply]; rw [show errorLine txt .missingKey = "handle request failed: ".toList ++ txt .missingKey from rfl]; cases lg log _ <;> rfl
  all_goals exact main _

theorem dbExcept_quiet (R : Registry) (hR : Quiet R) (b : UInt8) (rest : Bytes) (e : PyErr) (h : Heap) :
    dbExcept R (b :: rest) e h = (if e = .invalidRequest ∨ e = .missingKey then .ok (some []) else deviceFailure b, h) := by
  obtain ⟨lines, h1⟩ := beyond_except (lg := fun _ _ => none) (fun _ _ => rfl) (fun _ => []) R (b :: rest) e h []
  rw [lDbExcept_quiet _ _ R hR] at h1
  have a := congrArg Prod.fst h1
  have b' := congrArg (fun x => x.2.1) h1
  dsimp only at a b'
  rw [Prod.ext_iff]
  exact ⟨a.symm, b'.symm⟩

/-- **C96.** When a line cannot be written (and the handler of the log does not raise exceptions of the library), a request to one slave still has one of three ends: what it gets without the
    log; the response "slave device failure" (which needs no success of the log any more); or the exception of the handler of the log, for the server to catch (C47, C64).
    Its effect is in any case that of `C96_memory`. -/
theorem C96_failing (lg : Logger) (hF : lg.Foreign) (txt : PyErr → Text) (R : Registry) (hR : Quiet R) (mac : Mac) (db : Databank) (request : Bytes) (sid : Int) (b : UInt8) (rest : Bytes)
    (q : mac.Q) (h : Heap) (log : List Text) (hp : mac.parseRequest request mac.new = (.ok (sid, b :: rest), q)) (h0 : sid ≠ 0) :
    (lDbHandle lg txt R mac db request (h, log)).1 = (dbHandle R mac db request h).1 ∨
    ∃ lines line e, lg (log ++ lines) line = some e ∧
      ((lDbHandle lg txt R mac db request (h, log)).1 = deviceFailure b ∨ (lDbHandle lg txt R mac db request (h, log)).1 = .error e) := by
  unfold lDbHandle dbHandle
  rw [hp]
  dsimp only
  -- the handlers of the databank
  have hex : ∀ (e : PyErr) (h1 h2 : Heap) (log' : List Text), (lDbExcept lg txt R (b :: rest) e (h1, log')).1 = (dbExcept R (b :: rest) e h2).1 ∨
      ∃ line x, lg log' line = some x ∧ (lDbExcept lg txt R (b :: rest) e (h1, log')).1 = .error x := by
    intro e h1 h2 log'
    rw [lDbExcept_quiet lg txt R hR, dbExcept_quiet R hR]
    cases hl : lg log' (errorLine txt e) with
    | none => exact .inl rfl
    | some x => exact .inr ⟨_, x, hl, rfl⟩
  have hbody : ∃ lines, (lDbBody lg txt R mac db q sid (b :: rest) (h, log)).2.2 = log ++ lines ∧
      ((lDbBody lg txt R mac db q sid (b :: rest) (h, log)).1 = (dbBody R mac db q sid (b :: rest) h).1 ∨
      ∃ ls line e, lg (log ++ ls) line = some e ∧ (lDbBody lg txt R mac db q sid (b :: rest) (h, log)).1 = .error e) := by
    unfold lDbBody dbBody
    rw [if_neg h0, if_neg h0]
    cases Dict.get? db.slaves sid with
    | none => dsimp only; cases db.errorOnMissingSlave <;> exact ⟨[], by simp [PyM.raise], .inl rfl⟩
    | some sl =>
      simp only [PyM.bind_apply, PyM.lift_apply]
      obtain ⟨-, ⟨lines, f2⟩, f3⟩ := follows_slave lg txt R sl (b :: rest) false h log
      rcases hx : handleRequest R sl (b :: rest) false h with ⟨xr, xh⟩
      rcases hr : lHandleRequest lg txt R sl (b :: rest) false (h, log) with ⟨rr, rh, rl⟩
      rw [hr] at f2 f3
      rw [hx] at f3
      dsimp only at f2 f3
      subst f2
      rcases f3 with rfl | ⟨ls, line, e, f3, f4⟩
      · cases rr with
        | error e => exact ⟨lines, rfl, .inl rfl⟩
        | ok v => dsimp only; cases (mac.buildResponse v q).1 <;> exact ⟨lines, rfl, .inl rfl⟩
      · rw [f4 hF]
        exact ⟨lines, rfl, .inr ⟨ls, line, e, f3, rfl⟩⟩
  obtain ⟨lines, g1, g2⟩ := hbody
  unfold PyM.tryExcept
  rcases hx : dbBody R mac db q sid (b :: rest) h with ⟨xr, xh⟩
  rcases hr : lDbBody lg txt R mac db q sid (b :: rest) (h, log) with ⟨rr, rh, rl⟩
  rw [hr] at g1 g2
  rw [hx] at g2
  dsimp only at g1 g2
  subst g1
  rcases g2 with rfl | ⟨ls, line, e, g2, rfl⟩
  · cases rr with
    | ok v => exact .inl rfl
    | error e =>
      rcases hex e rh xh (log ++ lines) with k | ⟨line, x, k1, k2⟩
      · exact .inl k
      · exact .inr ⟨lines, line, x, k1, .inr k2⟩
  · right
    dsimp only
    rw [lDbExcept_quiet lg txt R hR]
    obtain ⟨n1, n2, n3⟩ := hF _ _ _ g2
    cases hl : lg (log ++ lines) (errorLine txt e) with
    | none =>
      refine ⟨ls, line, e, g2, .inl ?_⟩
      dsimp only
      rw [if_neg (by rintro (k | k); exact n2 k; exact n3 k)]
    | some x => exact ⟨lines, _, x, hl, .inr rfl⟩

/-- **C96.** An exception that reaches the databank comes with one line more: of the slave or the framing. -/
theorem C96_error_line (lg : Logger) (hc : lg.Calm) (txt : PyErr → Text) (R : Registry) (hR : Quiet R) (mac : Mac) (db : Databank) (request : Bytes) (sid : Int) (b : UInt8) (rest : Bytes)
    (q : mac.Q) (h h' : Heap) (log ls : List Text) (hp : mac.parseRequest request mac.new = (.ok (sid, b :: rest), q)) (h0 : sid ≠ 0) (sl : Slave) (hs : Dict.get? db.slaves sid = some sl) (e : PyErr)
    (hr : lHandleRequest lg txt R sl (b :: rest) false (h, log) = (.error e, (h', log ++ ls))) :
    (lDbHandle lg txt R mac db request (h, log)).2.2 = log ++ ls ++ [errorLine txt e] := by
  unfold lDbHandle
  rw [hp]
  dsimp only
  unfold PyM.tryExcept lDbBody
  rw [if_neg h0, hs]
  simp only [PyM.bind_apply, hr]
  rw [lDbExcept_quiet lg txt R hR, hc]

/-- **C96.** With `error_on_missing_slave`, a request to a slave that is not there writes one line, and is not answered. -/
theorem C96_missing_line (lg : Logger) (hc : lg.Calm) (txt : PyErr → Text) (R : Registry) (hR : Quiet R) (mac : Mac) (db : Databank) (request : Bytes) (sid : Int) (b : UInt8) (rest : Bytes)
    (q : mac.Q) (h : Heap) (log : List Text) (hp : mac.parseRequest request mac.new = (.ok (sid, b :: rest), q)) (h0 : sid ≠ 0) (hs : Dict.get? db.slaves sid = none) :
    lDbHandle lg txt R mac db request (h, log) =
      (.ok (some []), (h, if db.errorOnMissingSlave then log ++ ["handle request failed: ".toList ++ txt .missingKey] else log)) := by
  unfold lDbHandle
  rw [hp]
  dsimp only
  unfold PyM.tryExcept lDbBody
  rw [if_neg h0, hs]
  cases db.errorOnMissingSlave with
  | false => rfl
  | true =>
    show lDbExcept lg txt R (b :: rest) .missingKey (h, log) = _
    rw [lDbExcept_quiet lg txt R hR, hc]
    rfl

/-- **C96.** A broadcast and a log that fails: the slaves are reached in their order up to some place, and all of them unless a line could not be written (or a slave raised, as without the log). -/
theorem C96_broadcast (lg : Logger) (hF : lg.Foreign) (txt : PyErr → Text) (R : Registry) (mac : Mac) (db : Databank) (request pdu : Bytes) (q : mac.Q) (h : Heap) (log : List Text)
    (hp : mac.parseRequest request mac.new = (.ok (0, pdu), q)) :
    ∃ k, (lDbHandle lg txt R mac db request (h, log)).2.1 = (broadcastLoop R pdu (db.slaves.take k) h).2 ∧
      (db.slaves.length ≤ k ∨ LogFailed lg log ∨ ∃ e, (broadcastLoop R pdu db.slaves h).1 = .error e) := by
  have loop : ∀ (sls : List (Int × Slave)) (h : Heap) (ls : List Text), ∃ k, (lBroadcastLoop lg txt R pdu sls (h, log ++ ls)).2.1 = (broadcastLoop R pdu (sls.take k) h).2 ∧
      (sls.length ≤ k ∨ LogFailed lg log ∨ ∃ e, (broadcastLoop R pdu sls h).1 = .error e) := by
    intro sls
    induction sls with
    | nil => intro h ls; exact ⟨0, rfl, .inl (by simp)⟩
    | cons p sls ih =>
      intro h ls
      obtain ⟨k, sl⟩ := p
      obtain ⟨f1, ⟨lines, f2⟩, f3⟩ := follows_slave lg txt R sl pdu true h (log ++ ls)
      rcases hx : handleRequest R sl pdu true h with ⟨xr, xh⟩
      rcases hr : lHandleRequest lg txt R sl pdu true (h, log ++ ls) with ⟨rr, rh, rl⟩
      rw [hr] at f1 f2 f3
      rw [hx] at f1 f3
      dsimp only at f1 f2 f3
      subst f1 f2
      have e1 : ∀ rest, broadcastLoop R pdu ((k, sl) :: rest) h = match ((xr, rh) : Except PyErr Bytes × Heap) with
          | (.ok _, s') => broadcastLoop R pdu rest s'
          | (.error e, s') => (.error e, s') := by
        intro rest; rw [broadcastLoop]; simp only [PyM.bind_apply, hx]; cases xr <;> rfl
      have e2 : lBroadcastLoop lg txt R pdu ((k, sl) :: sls) (h, log ++ ls) = match ((rr, (rh, log ++ ls ++ lines)) : Except PyErr Bytes × (Heap × List Text)) with
          | (.ok _, s') => lBroadcastLoop lg txt R pdu sls s'
          | (.error e, s') => (.error e, s') := by
        rw [lBroadcastLoop]; simp only [PyM.bind_apply, hr]; cases rr <;> rfl
      have one : (broadcastLoop R pdu (((k, sl) :: sls).take 1) h).2 = rh := by
        rw [List.take_succ_cons, List.take_zero, e1]; cases xr <;> rfl
      rw [e2]
      rcases f3 with rfl | ⟨l', line, e, f3, f4⟩
      · cases rr with
        | error e => exact ⟨1, one.symm, .inr (.inr ⟨e, by rw [e1]⟩)⟩
        | ok v =>
          obtain ⟨n, g1, g2⟩ := ih rh (ls ++ lines)
          refine ⟨n + 1, ?_, ?_⟩
          · rw [List.take_succ_cons, e1, ← g1, List.append_assoc]
          · rw [e1]
            rcases g2 with g2 | g2 | g2
            · exact .inl (by simpa using g2)
            · exact .inr (.inl g2)
            · exact .inr (.inr g2)
      · rw [f4 hF]
        exact ⟨1, one.symm, .inr (.inl ⟨ls ++ l', line, e, by simpa using f3⟩)⟩
  unfold lDbHandle
  rw [hp]
  dsimp only
  obtain ⟨k, k1, k2⟩ := loop db.slaves h []
  rw [List.append_nil] at k1
  refine ⟨k, ?_, k2⟩
  rw [← k1]
  unfold PyM.tryExcept lDbBody
  rw [if_pos rfl]
  simp only [PyM.bind_apply]
  rcases lBroadcastLoop lg txt R pdu db.slaves (h, log) with ⟨_ | _, _, _⟩
  · exact lDbExcept_heap lg txt R pdu _ _ _
  · rfl

/-- **C96.** A broadcast writes one line for every slave that carries it out: the answer it would have given, without the function code. -/
theorem C96_broadcast_line (lg : Logger) (hc : lg.Calm) (txt : PyErr → Text) (R : Registry) (hR : Quiet R) (sl : Slave) (b : UInt8) (rest resp : Bytes) (h h' : Heap) (log : List Text)
    (hf : b ∉ ([1, 2, 3, 4] : List UInt8)) (hr : handleRequest R sl (b :: rest) false h = (.ok (b :: resp), h')) :
    lHandleRequest lg txt R sl (b :: rest) true (h, log) = (.ok [], (h', log ++ ["broadcast: ".toList ++ getLogBuffer "!!".toList resp])) := by
  unfold handleRequest at hr
  unfold lHandleRequest
  rw [hR] at hr ⊢
  dsimp only at hr ⊢
  simp only [PyM.bind_apply, PyM.lift_apply, unpack_byte] at hr ⊢
  replace hr : afterHook R sl b rest false h = (.ok (b :: resp), h') := hr
  unfold afterHook PyM.tryExcept at hr
  unfold PyM.tryExcept
  have hcant : cantBeBroadcasted (b.toNat : Int) = false := by
    cases hcb : cantBeBroadcasted (b.toNat : Int) with
    | false => rfl
    | true =>
      exfalso
      apply hf
      have : (b.toNat : Int) = 1 ∨ (b.toNat : Int) = 2 ∨ (b.toNat : Int) = 4 ∨ (b.toNat : Int) = 3 := by
        simpa [cantBeBroadcasted, defines.READ_COILS, defines.READ_DISCRETE_INPUTS, defines.READ_HOLDING_REGISTERS, defines.READ_INPUT_REGISTERS] using hcb
      have h2 : b.toNat = 1 ∨ b.toNat = 2 ∨ b.toNat = 3 ∨ b.toNat = 4 := by omega
      rw [← UInt8.ofNat_toNat (x := b)]
      rcases h2 with e | e | e | e <;> rw [e] <;> decide
  have hd : dispatch R sl b.toNat (b :: rest) false h = (.ok (b :: resp), h') := by
    cases hd : dispatch R sl b.toNat (b :: rest) false h with
    | mk r hm =>
      rw [hd] at hr
      cases r with
      | ok v => exact hr
      | error e =>
        cases e <;> first | cases hr | skip
        obtain ⟨-, x, y, hl, hne, -⟩ := exception_head hr
        exact absurd (List.cons.inj hl).1.symm hne
  have key : lDispatch lg R sl b.toNat (b :: rest) true (h, log) = (.ok [], (h', log ++ ["broadcast: ".toList ++ getLogBuffer "!!".toList resp])) := by
    unfold dispatch at hd
    unfold lDispatch
    rcases reads_handlers lg R sl b (b :: rest) rfl with ⟨h1, h2⟩ | ⟨f, g, h1, h2, hrd⟩
    · rw [h2] at hd; cases hd
    · rw [h2] at hd
      rw [h1]
      simp only [Bool.false_eq_true, false_and, if_false] at hd
      simp only [hcant, Bool.false_eq_true, and_false, if_false]
      simp only [PyM.bind_apply] at hd ⊢
      rcases hrd h log with ⟨e1, -⟩ | ⟨L, -, e2, e1⟩
      · rw [e1]
        rcases hg : g (b :: rest) h with ⟨_ | v, hm⟩
        · rw [hg] at hd; cases hd
        · rw [hg] at hd
          dsimp only at hd ⊢
          by_cases hn : v ≠ []
          · rw [if_pos hn] at hd ⊢
            simp only [PyM.bind_apply, PyM.lift_apply, packB_u8] at hd
            cases hd
            simp only [if_true]
            simp only [PyM.bind_apply, unlogged_apply, callHook_quiet hR, logLine_apply, hc log]
            rfl
          · rw [if_neg hn] at hd; cases hd
      · rw [e2] at hd; cases hd
  rw [key]

/-- **C96.** The lines of a whole request: in verbose mode the request first; the lines of the databank; in verbose mode the response, if there is one. -/
theorem C96_server_lines (verbose : Bool) (lg : Logger) (hc : lg.Calm) (txt : PyErr → Text) (R : Registry) (hR : Quiet R) (mac : Mac) (db : Databank) (request : Bytes)
    (h h' : Heap) (log lines : List Text) (resp : Option Bytes)
    (hd : lDbHandle lg txt R mac db request (h, log ++ if verbose then [getLogBuffer "-->".toList request] else []) = (.ok resp, (h', lines))) :
    lServerHandle verbose lg txt R mac db request (h, log) =
      (.ok resp, (h', lines ++ if verbose ∧ resp.getD [] ≠ [] then [getLogBuffer "<--".toList (resp.getD [])] else [])) := by
  have hrep : ∀ x : Option Bytes, replaceIfTruthy none x = x := fun _ => rfl
  have hq : ∀ n a, callHooks R n a = .ok none := hR
  unfold lServerHandle
  cases verbose with
  | false =>
    simp only [Bool.false_eq_true, if_false, List.append_nil] at hd
    simp only [Bool.false_eq_true, if_false, false_and, List.append_nil]
    simp only [PyM.bind_apply, PyM.lift_apply, PyM.pure_apply, hq, hrep, Option.getD_some, hd]
    rcases resp with _ | _ | ⟨b, bs⟩ <;> rfl
  | true =>
    simp only [if_true] at hd
    simp only [if_true]
    simp only [PyM.bind_apply, PyM.lift_apply, PyM.pure_apply, logLine_apply, hc log, hq, hrep, Option.getD_some, hd]
    rcases resp with _ | _ | ⟨b, bs⟩
    · simp
    · simp
    · simp [hc _, logLine_apply]

/-- **C96.** The line of a broadcast is written after its hook: if the hook raises there is none, and the same exception. -/
theorem C96_broadcast_hook (lg : Logger) (txt : PyErr → Text) (R : Registry) (e : PyErr) (he : e ≠ .structError)
    (hR : ∀ n a, callHooks R n a = if n = "modbus.Slave.on_handle_broadcast" then .error e else .ok none)
    (sl : Slave) (pdu : Bytes) (h : Heap) (log : List Text) (hq : quantityLine pdu = none)
    (hr : (handleRequest R sl pdu true h).1 = .error e) : (lHandleRequest lg txt R sl pdu true (h, log)).2.2 = log := by
  unfold handleRequest at hr
  unfold lHandleRequest
  rw [hR] at hr ⊢
  rw [if_neg (by decide)] at hr ⊢
  dsimp only at hr ⊢
  simp only [PyM.bind_apply, PyM.lift_apply] at hr ⊢
  cases hu : unpackSingle Code.B (slice pdu 0 1) with
  | error x => rfl
  | ok fc =>
    obtain ⟨b, rest, rfl, rfl⟩ := unpack_first hu
    rw [hu] at hr
    replace hr : (afterHook R sl b rest true h).1 = .error e := hr
    dsimp only
    have key : (lDispatch lg R sl b.toNat (b :: rest) true (h, log)).2.2 = log ∧
        (lDispatch lg R sl b.toNat (b :: rest) true (h, log)).1 = (dispatch R sl b.toNat (b :: rest) true h).1 := by
      unfold lDispatch dispatch
      rcases reads_handlers lg R sl b (b :: rest) rfl with ⟨h1, h2⟩ | ⟨f, g, h1, h2, hrd⟩
      · rw [h1, h2]; exact ⟨rfl, rfl⟩
      · rw [h1, h2]
        dsimp only
        by_cases hb : True ∧ cantBeBroadcasted (b.toNat : Int) = true
        · rw [if_pos (by simpa using hb.2), if_pos (by simpa using hb.2)]; exact ⟨rfl, rfl⟩
        · rw [if_neg (by simpa using hb), if_neg (by simpa using hb)]
          simp only [PyM.bind_apply]
          rcases hrd h log with ⟨e1, -⟩ | ⟨L, hL, -⟩
          · rw [e1]
            rcases hg : g (b :: rest) h with ⟨_ | v, hm⟩
            · exact ⟨rfl, rfl⟩
            · dsimp only
              by_cases hn : v ≠ []
              · rw [if_pos hn, if_pos hn]
                simp only [if_true]
                have hcb : callHook_ R "modbus.Slave.on_handle_broadcast" (.msg v) hm = (.error e, hm) := by
                  unfold callHook_
                  simp only [PyM.bind_apply, PyM.lift_apply, hR, if_true]
                simp only [PyM.bind_apply, unlogged_apply, hcb]
                exact ⟨trivial, trivial⟩
              · rw [if_neg hn, if_neg hn]; exact ⟨rfl, rfl⟩
          · rw [hq] at hL; cases hL
    unfold PyM.tryExcept
    rcases hld : lDispatch lg R sl b.toNat (b :: rest) true (h, log) with ⟨r, h1, l1⟩
    rw [hld] at key
    obtain ⟨k1, k2⟩ := key
    dsimp only at k1 k2
    subst k1
    cases r with
    | ok v => rfl
    | error x =>
      unfold afterHook PyM.tryExcept at hr
      rcases hdd : dispatch R sl b.toNat (b :: rest) true h with ⟨rd, hdh⟩
      rw [hdd] at hr k2
      dsimp only at k2
      subst k2
      cases x
      case modbusError c =>
        exfalso
        dsimp only at hr
        have hcb : callHook_ R "modbus.Slave.on_exception" (.exc (.modbusError c) (b :: rest)) hdh = (.ok (), hdh) := by
          unfold callHook_
          simp only [PyM.bind_apply, PyM.lift_apply, hR]
          rfl
        simp only [PyM.bind_apply, PyM.lift_apply, hcb] at hr
        cases hp : structPack (be [Code.B, Code.B]) [(b.toNat : Int) + 128, c] with
        | ok v => rw [hp] at hr; cases hr
        | error y =>
          rw [hp] at hr
          have hy : y = .structError := by
            replace hp : packCodes true [Code.B, Code.B] [(b.toNat : Int) + 128, c] = .error y := hp
            rw [packCodes, packCodes, packCodes, packOne_B_iff, packOne_B_iff] at hp
            by_cases f1 : Spec.Fits8 ((b.toNat : Int) + 128)
            · by_cases f2 : Spec.Fits8 c
              · rw [if_pos f1, if_pos f2] at hp; cases hp
              · rw [if_pos f1, if_neg f2] at hp; cases hp; rfl
            · rw [if_neg f1] at hp; cases hp; rfl
          rw [hy] at hr
          cases hr
          exact he rfl
      all_goals rfl

/-- **C96.** A failure is shown to the `on_error` hook before its line: if the hook raises there is no line, and its exception leaves the databank. -/
theorem C96_on_error (lg : Logger) (txt : PyErr → Text) (R : Registry) (pdu : Bytes) (e x : PyErr) (h : Heap) (log : List Text) (h1 : e ≠ .invalidRequest) (h2 : e ≠ .missingKey)
    (hx : callHooks R "modbus.Databank.on_error" (.exc e pdu) = .error x) : lDbExcept lg txt R pdu e (h, log) = (.error x, (h, log)) := by
  have hcb : callHook_ R "modbus.Databank.on_error" (.exc e pdu) h = (.error x, h) := by
    unfold callHook_
    simp only [PyM.bind_apply, PyM.lift_apply, hx]
  cases e
  case invalidRequest => exact absurd rfl h1
  case missingKey => exact absurd rfl h2
  all_goals
    unfold lDbExcept
    simp only [PyM.bind_apply, unlogged_apply, hcb]

/-- **C96.** A `ModbusError` of a `handle_request` hook is written, and then the slave fails. -/
theorem C96_hook_exception (lg : Logger) (hc : lg.Calm) (txt : PyErr → Text) (R : Registry) (sl : Slave) (pdu : Bytes) (bc : Bool) (code : Int) (h : Heap) (log : List Text)
    (hx : callHooks R "modbus.Slave.handle_request" (.msg pdu) = .error (.modbusError code)) :
    lHandleRequest lg txt R sl pdu bc (h, log) = (.error .unboundLocal, (h, log ++ [txt (.modbusError code)])) := by
  unfold lHandleRequest
  rw [hx]
  simp only [PyM.bind_apply, logLine_apply, hc log]
  rfl

/-! ## Instances -/

theorem failsAt_foreign (t : Text) : (failsAt t).Foreign := by
  intro log line e he
  unfold failsAt at he
  split at he
  · cases he
    exact ⟨fun c => PyErr.noConfusion, PyErr.noConfusion, PyErr.noConfusion⟩
  · cases he

/-- the text of an exception, for the examples -/
def exText : PyErr → Text
  | .modbusError c => "Modbus Error: Exception code = ".toList ++ intText c
  | .missingKey => "Slave 9 doesn't exist".toList
  | _ => "?".toList

/-- **C96 is false of a broadcast whose log fails.** The log cannot take the line of the first slave: the second slave is not reached although its memory would have taken the
    value, and the broadcast, which has no answer, is answered with two bytes that are no frame. -/
theorem C96_false_broadcast : ∃ lg : Logger, lg.Foreign ∧
    (tcpMac.parseRequest [0, 1, 0, 0, 0, 6, 0, 6, 0, 10, 0, 7] tcpMac.new).1 = .ok (0, [6, 0, 10, 0, 7]) ∧
    (let r := dbHandle [] tcpMac exTwo.st.db [0, 1, 0, 0, 0, 6, 0, 6, 0, 10, 0, 7] exTwo.st.heap
     (r.1, r.2.lists 2, r.2.lists 6)) = (.ok none, [⟨10, [7, 0, 0, 0, 0], 5⟩], [⟨8, [0, 0, 7], 3⟩]) ∧
    (let r := lServerHandle false lg exText [] tcpMac exTwo.st.db [0, 1, 0, 0, 0, 6, 0, 6, 0, 10, 0, 7] (exTwo.st.heap, [])
     (r.1, r.2.1.lists 2, r.2.1.lists 6)) = (.ok (some [0x86, 4]), [⟨10, [7, 0, 0, 0, 0], 5⟩], [⟨8, [0, 0, 0], 3⟩]) :=
  ⟨failsAt "broadcast".toList, failsAt_foreign _, by decide, by decide, by decide +kernel⟩

-- one line per slave of a broadcast with a log that works
example : lServerHandle false (fun _ _ => none) exText [] tcpMac exTwo.st.db [0, 1, 0, 0, 0, 6, 0, 6, 0, 10, 0, 7] (exTwo.st.heap, []) |>.2.2 =
    ["broadcast: !!0-10-0-7".toList, "broadcast: !!0-10-0-7".toList] := by decide +kernel
example : ((6 : UInt8) ∉ ([1, 2, 3, 4] : List UInt8)) ∧ (handleRequest [] ⟨1, true, [("a", (3, 10))], 0⟩ [6, 0, 10, 0, 7] false exTwo.st.heap).1 = .ok [6, 0, 10, 0, 7] := by decide

-- a request for 200 registers: two lines and the exception response 3; and the same slave asked for a register that is not there: one line
example : (lHandleRequest (fun _ _ => none) exText [] ⟨1, true, [("a", (3, 10))], 0⟩ [3, 0, 10, 0, 200] false (exTwo.st.heap, [])).1 = .ok [0x83, 3] ∧
    (lHandleRequest (fun _ _ => none) exText [] ⟨1, true, [("a", (3, 10))], 0⟩ [3, 0, 10, 0, 200] false (exTwo.st.heap, [])).2.2 =
      ["quantity_of_x is 200".toList, "Modbus Error: Exception code = 3".toList] ∧
    (lHandleRequest (fun _ _ => none) exText [] ⟨1, true, [("a", (3, 10))], 0⟩ [3, 0, 50, 0, 1] false (exTwo.st.heap, [])).2.2 =
      ["Modbus Error: Exception code = 2".toList] := by decide +kernel
example : (handleRequest [] ⟨1, true, [("a", (3, 10))], 0⟩ [3, 0, 10, 0, 200] false exTwo.st.heap).1 = .ok [0x83, 3] := by decide

-- the three ends of `C96_failing`: the log fails at the line of the exception and takes the line of the databank: device failure; it takes no line at all: its own exception
example : (lDbHandle (failsAt "Modbus".toList) exText [] tcpMac exTwo.st.db [0, 1, 0, 0, 0, 6, 1, 3, 0, 50, 0, 1] (exTwo.st.heap, [])).1 = .ok (some [0x83, 4]) ∧
    (lDbHandle (failsAt []) exText [] tcpMac exTwo.st.db [0, 1, 0, 0, 0, 6, 1, 3, 0, 50, 0, 1] (exTwo.st.heap, [])).1 = .error .osError ∧
    (lDbHandle (failsAt []) exText [] tcpMac exTwo.st.db [0, 1, 0, 0, 0, 6, 1, 3, 0, 10, 0, 1] (exTwo.st.heap, [])).1 = .ok (some [0, 1, 0, 0, 0, 5, 1, 3, 2, 0, 0]) := by
  decide +kernel
-- a slave that is not there
example : (lDbHandle (fun _ _ => none) exText [] tcpMac exTwo.st.db [0, 1, 0, 0, 0, 6, 9, 3, 0, 50, 0, 1] (exTwo.st.heap, [])).1 = .ok (some []) ∧
    (lDbHandle (fun _ _ => none) exText [] tcpMac exTwo.st.db [0, 1, 0, 0, 0, 6, 9, 3, 0, 50, 0, 1] (exTwo.st.heap, [])).2.2 =
      ["handle request failed: Slave 9 doesn't exist".toList] := by
  decide +kernel

-- a whole verbose request that fails in the slave (an unknown quantity)
example : (lServerHandle true (fun _ _ => none) exText [] tcpMac exTwo.st.db [0, 1, 0, 0, 0, 6, 1, 4, 0, 10, 0, 0] (exTwo.st.heap, [])).2.2 =
    ["-->0-1-0-0-0-6-1-4-0-10-0-0".toList, "quantity_of_x is 0".toList, "Modbus Error: Exception code = 3".toList, "<--0-1-0-0-0-3-1-132-3".toList] := by decide +kernel

-- hook functions that raise: the hypotheses of `C96_broadcast_hook`, `C96_on_error` and `C96_hook_exception`
example : ∀ n a, callHooks [("modbus.Slave.on_handle_broadcast", [⟨1, fun _ => .error .valueError⟩])] n a =
    if n = "modbus.Slave.on_handle_broadcast" then .error .valueError else .ok none := by
  intro n a
  unfold callHooks Dict.get?
  by_cases hn : n = "modbus.Slave.on_handle_broadcast"
  · subst hn; rfl
  · rw [if_neg hn]
    simp [Ne.symm hn, Dict.get?]
example : (handleRequest [("modbus.Slave.on_handle_broadcast", [⟨1, fun _ => .error .valueError⟩])] ⟨1, true, [("a", (3, 10))], 0⟩ [6, 0, 10, 0, 7] true exTwo.st.heap).1 = .error .valueError := by decide
example : callHooks [("modbus.Databank.on_error", [⟨1, fun _ => .error .valueError⟩])] "modbus.Databank.on_error" (.exc .structError [3]) = .error .valueError := by decide
example : callHooks [("modbus.Slave.handle_request", [⟨1, fun _ => .error (.modbusError 6)⟩])] "modbus.Slave.handle_request" (.msg [3]) = .error (.modbusError 6) := by decide

end Modbus
