import Verif.Model.PyClient
import Verif.Props.EndToEnd
import Verif.Props.OpenClose
/-
# Property C57: the drop-in client `PyModbusClientTCP`

The reading methods cannot be used at all (Python 3); the writing ones and `open`/`close`/`is_open` do what they should.
-/
namespace Modbus
open Spec

variable {σ : Type}

theorem mapNone_unusable (r : ExecResult) : (mapNone r).toList = .ok [] ∨ (mapNone r).toList = .error .typeError := by
  have h : ∀ l, MapObj.toList ⟨false, l⟩ = .ok [] ∨ MapObj.toList ⟨false, l⟩ = .error .typeError := by
    intro l; cases l <;> simp [MapObj.toList]
  cases r <;> exact h _

/-- **C57 is false as stated**: whatever the transport and the server do, no value ever comes out of `read_input_registers` or
    `read_discrete_inputs` (the object returned is empty or raises TypeError when iterated over), and `read_coils` always raises. -/
theorem C57_false_reads (R : Registry) (ch : Chan σ) (a q : Int) (s : MasterSt σ) :
    (∀ m s', pyReadInputRegisters R ch a q s = (.ok m, s') → m.toList = .ok [] ∨ m.toList = .error .typeError) ∧
    (∀ m s', pyReadDiscreteInputs R ch a q s = (.ok m, s') → m.toList = .ok [] ∨ m.toList = .error .typeError) ∧
    (∀ m s', pyReadCoils R ch a q s ≠ (.ok m, s')) := by
  refine ⟨?_, ?_, ?_⟩
  · intro m s' h
    unfold pyReadInputRegisters at h
    rw [PyM.bind_apply] at h
    split at h
    · cases h; exact mapNone_unusable _
    · cases h
  · intro m s' h
    unfold pyReadDiscreteInputs at h
    rw [PyM.bind_apply] at h
    split at h
    · cases h; exact mapNone_unusable _
    · cases h
  · intro m s' h
    unfold pyReadCoils at h
    rw [PyM.bind_apply] at h
    split at h <;> cases h

/-- **C57 is false as stated**: the server answers the read correctly and the client cannot get at the values. -/
theorem C57_false (R : Registry) (hR : Quiet R) (sl : Slave) (r : Refs) (s : MasterSt Net) (hs : Ready 1 sl r s) (a q : Int)
    (ha : Fits16 a) (hq : Fits16 q) (vs : List Int)
    (hv : (Call.readInput a q).answer sl.unsigned (absMem s.link.heap sl) = .ok vs) (hne : vs ≠ []) :
    ∃ m s', pyReadInputRegisters R (serverLink R tcpMac) a q s = (.ok m, s') ∧ m.items = vs ∧ m.toList = .error .typeError := by
  obtain ⟨s', e1, -, -⟩ := C34_tcp R hR 1 (by decide) (by decide) sl r s hs (.readInput a q) ⟨ha, hq⟩ (by simp [Call.pdu, Req.encode, word_length])
    (.inr (by simp))
  rw [hv] at e1
  refine ⟨⟨false, vs⟩, s', ?_, rfl, ?_⟩
  · unfold pyReadInputRegisters
    rw [PyM.bind_apply, show execute R tcpMac (serverLink R tcpMac)
      { slave := some 1, functionCode := defines.READ_INPUT_REGISTERS, startingAddress := .int a, quantity := .int q } s = _ from e1]
    rfl
  · cases vs with
    | nil => exact absurd rfl hne
    | cons => rfl

/-- what a method that returns `x` after a call does, in terms of the call -/
def okWith {α} (x : α) : Except UInt8 (List Int) → Except PyErr α
  | .ok _ => .ok x
  | .error code => .error (.modbusError code.toNat)

/-- what a reading method gives: an object holding the values, which it never yields -/
def heldBy : Except UInt8 (List Int) → Except PyErr MapObj
  | .ok vs => .ok ⟨false, vs⟩
  | .error code => .error (.modbusError code.toNat)

/-- **C57 (part).** Against a modbus-tk server the reading methods ask for what they should: `read_input_registers` and
    `read_discrete_inputs` hold the values prescribed (but do not yield them, `C57_false_reads`) or raise ModbusError with the code
    prescribed; `read_coils` raises that ModbusError, or AttributeError if there is none; the memory does not change. -/
theorem C57_reads_partial (R : Registry) (hR : Quiet R) (sl : Slave) (r : Refs) (s : MasterSt Net) (hs : Ready 1 sl r s)
    (a q : Int) (ha : Fits16 a) (hq : Fits16 q) :
    (∃ s', pyReadInputRegisters R (serverLink R tcpMac) a q s =
        (heldBy ((Call.readInput a q).answer sl.unsigned (absMem s.link.heap sl)), s') ∧
      absMem s'.link.heap sl = absMem s.link.heap sl ∧ Ready 1 sl r s') ∧
    (∃ s', pyReadDiscreteInputs R (serverLink R tcpMac) a q s =
        (heldBy ((Call.readDiscrete a q).answer sl.unsigned (absMem s.link.heap sl)), s') ∧
      absMem s'.link.heap sl = absMem s.link.heap sl ∧ Ready 1 sl r s') ∧
    (∃ e s', pyReadCoils R (serverLink R tcpMac) a q s = (.error e, s') ∧
      (∀ code, (Call.readCoils a q).answer sl.unsigned (absMem s.link.heap sl) = .error code → e = .modbusError code.toNat) ∧
      (∀ vs, (Call.readCoils a q).answer sl.unsigned (absMem s.link.heap sl) = .ok vs → e = .attributeError) ∧
      absMem s'.link.heap sl = absMem s.link.heap sl ∧ Ready 1 sl r s') := by
  refine ⟨?_, ?_, ?_⟩
  · obtain ⟨s', e1, e2, e3⟩ := C34_tcp R hR 1 (by decide) (by decide) sl r s hs (.readInput a q) ⟨ha, hq⟩
      (by simp [Call.pdu, Req.encode, word_length]) (.inr (by simp))
    refine ⟨s', ?_, e2, e3⟩
    unfold pyReadInputRegisters
    rw [PyM.bind_apply, show execute R tcpMac (serverLink R tcpMac)
      { slave := some 1, functionCode := defines.READ_INPUT_REGISTERS, startingAddress := .int a, quantity := .int q } s = _ from e1]
    cases (Call.readInput a q).answer sl.unsigned (absMem s.link.heap sl) <;> rfl
  · obtain ⟨s', e1, e2, e3⟩ := C34_tcp R hR 1 (by decide) (by decide) sl r s hs (.readDiscrete a q) ⟨ha, hq⟩
      (by simp [Call.pdu, Req.encode, word_length]) (.inr (by simp))
    refine ⟨s', ?_, e2, e3⟩
    unfold pyReadDiscreteInputs
    rw [PyM.bind_apply, show execute R tcpMac (serverLink R tcpMac)
      { slave := some 1, functionCode := defines.READ_DISCRETE_INPUTS, startingAddress := .int a, quantity := .int q } s = _ from e1]
    cases (Call.readDiscrete a q).answer sl.unsigned (absMem s.link.heap sl) <;> rfl
  · obtain ⟨s', e1, e2, e3⟩ := C34_tcp R hR 1 (by decide) (by decide) sl r s hs (.readCoils a q) ⟨ha, hq⟩
      (by simp [Call.pdu, Req.encode, word_length]) (.inr (by simp))
    cases hans : (Call.readCoils a q).answer sl.unsigned (absMem s.link.heap sl) with
    | ok vs =>
      rw [hans] at e1
      refine ⟨.attributeError, s', ?_, (fun c hc => by cases hc), (fun _ _ => rfl), e2, e3⟩
      unfold pyReadCoils
      rw [PyM.bind_apply, show execute R tcpMac (serverLink R tcpMac)
        { slave := some 1, functionCode := defines.READ_COILS, startingAddress := .int a, quantity := .int q } s = _ from e1]
      rfl
    | error code =>
      rw [hans] at e1
      refine ⟨.modbusError code.toNat, s', ?_, (fun c hc => by cases hc; rfl), (fun _ hc => by cases hc), e2, e3⟩
      unfold pyReadCoils
      rw [PyM.bind_apply, show execute R tcpMac (serverLink R tcpMac)
        { slave := some 1, functionCode := defines.READ_COILS, startingAddress := .int a, quantity := .int q } s = _ from e1]
      rfl

/-- **C57 (part).** Against a modbus-tk server `write_single_register` returns True and changes the memory of slave 1 as the
    specification prescribes, or raises ModbusError with the code prescribed (and then the specification prescribes no change).
    Missing: the reading methods (`C57_false_reads`). -/
theorem C57_write_register_partial (R : Registry) (hR : Quiet R) (sl : Slave) (r : Refs) (s : MasterSt Net) (hs : Ready 1 sl r s)
    (a v : Int) (ha : Fits16 a) (hv : FitsReg v) :
    ∃ s', pyWriteSingleRegister R (serverLink R tcpMac) a v s =
        (okWith true ((Call.writeRegister a v).answer sl.unsigned (absMem s.link.heap sl)), s') ∧
      absMem s'.link.heap sl = (Call.writeRegister a v).after sl.unsigned (absMem s.link.heap sl) ∧ Ready 1 sl r s' := by
  obtain ⟨s', e1, e2, e3⟩ := C34_tcp R hR 1 (by decide) (by decide) sl r s hs (.writeRegister a v) ⟨ha, hv⟩ (by simp [Call.pdu, Req.encode, word_length])
    (.inr (by simp))
  refine ⟨s', ?_, e2, e3⟩
  unfold pyWriteSingleRegister
  rw [PyM.bind_apply, show execute R tcpMac (serverLink R tcpMac)
    { slave := some 1, functionCode := defines.WRITE_SINGLE_REGISTER, startingAddress := .int a, outputValue := .int v } s = _ from e1]
  cases (Call.writeRegister a v).answer sl.unsigned (absMem s.link.heap sl) <;> rfl

/-- **C57 (part).** `write_single_coil`; the method returns None. -/
theorem C57_write_coil_partial (R : Registry) (hR : Quiet R) (sl : Slave) (r : Refs) (s : MasterSt Net) (hs : Ready 1 sl r s)
    (a v : Int) (ha : Fits16 a) :
    ∃ s', pyWriteSingleCoil R (serverLink R tcpMac) a v s =
        (okWith () ((Call.writeCoil a v).answer sl.unsigned (absMem s.link.heap sl)), s') ∧
      absMem s'.link.heap sl = (Call.writeCoil a v).after sl.unsigned (absMem s.link.heap sl) ∧ Ready 1 sl r s' := by
  obtain ⟨s', e1, e2, e3⟩ := C34_tcp R hR 1 (by decide) (by decide) sl r s hs (.writeCoil a v) ha (by simp [Call.pdu, Req.encode, word_length])
    (.inr (by simp))
  refine ⟨s', ?_, e2, e3⟩
  unfold pyWriteSingleCoil
  rw [PyM.bind_apply, show execute R tcpMac (serverLink R tcpMac)
    { slave := some 1, functionCode := defines.WRITE_SINGLE_COIL, startingAddress := .int a, outputValue := .int v } s = _ from e1]
  cases (Call.writeCoil a v).answer sl.unsigned (absMem s.link.heap sl) <;> rfl

/-- **C57 (part).** After any history of a client (`open`, `close` and the other methods, which all call `execute`): if `open` returns it
    returns True, `is_open` is True and the connection exists; `close` returns True, `is_open` is then False and, if it was open, the
    connection is gone. -/
theorem C57_open_close_partial (R : Registry) (hR : Quiet R) (peers : List (Option Sock)) (tid : Int) (ops : List MasterOp)
    (s : MasterSt TcpLink) (hs : s = runMaster R tcpMac (tcpChan R) ops ⟨false, { peers := peers }, tid⟩) :
    (∀ b s', pyOpen (tcpChan R) s = (.ok b, s') → b = true ∧ pyIsOpen s' = true ∧ s'.link.sock ≠ none) ∧
    (∃ s', pyClose (tcpChan R) s = (.ok true, s') ∧ pyIsOpen s' = false ∧ (pyIsOpen s = true → s'.link.sock = none)) := by
  obtain ⟨h1, s', h2, h3, h4, -⟩ := C50_open_close_partial R tcpMac (tcpChan R) _ (tcp_laws hR) { peers := peers } tid ops s hs
  constructor
  · intro b s1 h
    unfold pyOpen at h
    rw [PyM.bind_apply] at h
    split at h
    · rename_i x s2 he
      cases h
      obtain ⟨a1, a2, -⟩ := h1 s1 he
      exact ⟨rfl, a1, a2⟩
    · cases h
  · refine ⟨s', ?_, h3, fun h => Classical.not_not.mp (h4 h)⟩
    unfold pyClose
    rw [PyM.bind_apply, h2]; rfl

/-! ### Concrete cases -/

example : ∃ s', pyWriteSingleRegister [] (serverLink [] tcpMac) 14 (-1) exNet = (.ok true, s') := by
  obtain ⟨s', h, -⟩ := C57_write_register_partial [] quiet_nil _ _ exNet exNet_ready 14 (-1) (by decide) (by decide)
  exact ⟨s', h⟩

example : (pyWriteSingleRegister [] (serverLink [] tcpMac) 15 0 exNet).1 = .error (.modbusError 2) := by decide +kernel

end Modbus
