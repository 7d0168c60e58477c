import Verif.Spec.Modbus
/-
# Specification: the requests a master can make, and their pdus

Nothing here refers to the model.
-/
namespace Modbus.Spec

/-- a value of a 16-bit field -/
def Fits16 (v : Int) : Prop := 0 ≤ v ∧ v < 65536
/-- a value of a byte field -/
def Fits8 (v : Int) : Prop := 0 ≤ v ∧ v < 256
/-- a value of a register: unsigned or two's complement -/
def FitsReg (v : Int) : Prop := -32768 ≤ v ∧ v < 65536

instance (v : Int) : Decidable (Fits16 v) := by unfold Fits16; infer_instance
instance (v : Int) : Decidable (Fits8 v) := by unfold Fits8; infer_instance
instance (v : Int) : Decidable (FitsReg v) := by unfold FitsReg; infer_instance

/-- the byte representing an integer of `Fits8` -/
def toByte (v : Int) : UInt8 := UInt8.ofNat (v % 256).toNat

/-- one sub-request of Read File Record: file, record, length -/
structure FileReq where
  file : Int
  record : Int
  len : Int
  deriving DecidableEq, Repr

/-- the functions of the master with their arguments (a coil is on if its value is positive) -/
inductive Call where
  | readCoils (a q : Int)
  | readDiscrete (a q : Int)
  | readHolding (a q : Int)
  | readInput (a q : Int)
  /-- any value but 0 switches the coil on -/
  | writeCoil (a v : Int)
  | writeRegister (a v : Int)
  | readExceptionStatus
  /-- sub-function and data bytes -/
  | diagnostic (sub : Int) (data : List Int)
  | writeCoils (a : Int) (vs : List Int)
  | writeRegisters (a : Int) (vs : List Int)
  | readFileRecord (rs : List FileReq)
  | maskWrite (a am om : Int)
  | readWrite (ra rq wa : Int) (vs : List Int)
  /-- read device id code and object id -/
  | deviceInfo (code object : Int)
  deriving DecidableEq, Repr

/-- every argument fits the field of the pdu it goes into -/
def Call.Fits : Call → Prop
  | .readCoils a q | .readDiscrete a q | .readHolding a q | .readInput a q => Fits16 a ∧ Fits16 q
  | .writeCoil a _ => Fits16 a
  | .writeRegister a v => Fits16 a ∧ FitsReg v
  | .readExceptionStatus => True
  | .diagnostic sub data => Fits16 sub ∧ ∀ v ∈ data, Fits8 v
  | .writeCoils a vs => Fits16 a ∧ Fits8 (bytesFor vs.length)
  | .writeRegisters a vs => Fits16 a ∧ Fits8 (2 * vs.length) ∧ ∀ v ∈ vs, FitsReg v
  | .readFileRecord rs => rs ≠ [] ∧ Fits8 (7 * rs.length) ∧ ∀ r ∈ rs, Fits16 r.file ∧ Fits16 r.record ∧ Fits16 r.len
  | .maskWrite a am om => Fits16 a ∧ Fits16 am ∧ Fits16 om
  | .readWrite ra rq wa vs => Fits16 ra ∧ Fits16 rq ∧ Fits16 wa ∧ Fits8 (2 * vs.length) ∧ ∀ v ∈ vs, FitsReg v
  | .deviceInfo c o => Fits8 c ∧ Fits8 o

/-- the request of the application protocol the call stands for (the functions a modbus-tk slave does not implement are
    `other`) -/
def Call.toReq : Call → Req
  | .readCoils a q => .readCoils (toWord a) (toWord q)
  | .readDiscrete a q => .readDiscrete (toWord a) (toWord q)
  | .readHolding a q => .readHolding (toWord a) (toWord q)
  | .readInput a q => .readInput (toWord a) (toWord q)
  | .writeCoil a v => .writeCoil (toWord a) (if v = 0 then 0 else 0xff00)
  | .writeRegister a v => .writeRegister (toWord a) (toWord v)
  | .readExceptionStatus => .readExceptionStatus
  | .diagnostic sub data => .other 8 (word (toWord sub) ++ data.map toByte)
  | .writeCoils a vs => .writeCoils (toWord a) (toWord vs.length) (toByte (bytesFor vs.length))
      (packBits (vs.map (fun v => decide (0 < v))))
  | .writeRegisters a vs => .writeRegisters (toWord a) (toWord vs.length) (toByte (2 * vs.length))
      (vs.flatMap (fun v => word (toWord v)))
  | .readFileRecord rs => .other 20 (toByte (7 * rs.length) ::
      rs.flatMap (fun r => 6 :: (word (toWord r.file) ++ word (toWord r.record) ++ word (toWord r.len))))
  | .maskWrite a am om => .maskWrite (toWord a) (toWord am) (toWord om)
  | .readWrite ra rq wa vs => .readWrite (toWord ra) (toWord rq) (toWord wa) (toWord vs.length) (toByte (2 * vs.length))
      (vs.flatMap (fun v => word (toWord v)))
  | .deviceInfo c o => .other 43 [14, toByte c, toByte o]

/-- the request pdu of the Modbus application protocol -/
def Call.pdu : Call → Bytes
  | .readCoils a q => (Req.readCoils (toWord a) (toWord q)).encode
  | .readDiscrete a q => (Req.readDiscrete (toWord a) (toWord q)).encode
  | .readHolding a q => (Req.readHolding (toWord a) (toWord q)).encode
  | .readInput a q => (Req.readInput (toWord a) (toWord q)).encode
  | .writeCoil a v => (Req.writeCoil (toWord a) (if v = 0 then 0 else 0xff00)).encode
  | .writeRegister a v => (Req.writeRegister (toWord a) (toWord v)).encode
  | .readExceptionStatus => Req.readExceptionStatus.encode
  | .diagnostic sub data => 8 :: (word (toWord sub) ++ data.map toByte)
  | .writeCoils a vs => (Req.writeCoils (toWord a) (toWord vs.length) (toByte (bytesFor vs.length))
      (packBits (vs.map (fun v => decide (0 < v))))).encode
  | .writeRegisters a vs => (Req.writeRegisters (toWord a) (toWord vs.length) (toByte (2 * vs.length))
      (vs.flatMap (fun v => word (toWord v)))).encode
  | .readFileRecord rs => 20 :: toByte (7 * rs.length) ::
      rs.flatMap (fun r => 6 :: (word (toWord r.file) ++ word (toWord r.record) ++ word (toWord r.len)))
  | .maskWrite a am om => (Req.maskWrite (toWord a) (toWord am) (toWord om)).encode
  | .readWrite ra rq wa vs => (Req.readWrite (toWord ra) (toWord rq) (toWord wa) (toWord vs.length) (toByte (2 * vs.length))
      (vs.flatMap (fun v => word (toWord v)))).encode
  | .deviceInfo c o => [43, 14, toByte c, toByte o]

/-- number of bytes after the function code of the normal response, for the functions where the request determines it -/
def Call.responseLength : Call → Option Nat
  | .readCoils _ q | .readDiscrete _ q => some (1 + bytesFor q.toNat)
  | .readHolding _ q | .readInput _ q => some (1 + 2 * q.toNat)
  | .writeCoil .. | .writeRegister .. | .writeCoils .. | .writeRegisters .. => some 4
  | .readExceptionStatus => some 1
  | .diagnostic _ data => some (2 + data.length) -- the request is echoed
  | .readFileRecord rs => some (1 + (rs.map (fun r => 2 + 2 * r.len.toNat)).sum)
  | .maskWrite .. => some 6
  | .readWrite _ rq _ _ => some (1 + 2 * rq.toNat)
  | .deviceInfo .. => none

/-- What a call on a slave with memory `m` has to give: the exception code of a refusal or the values.
    Coils and inputs are 0 or 1; a register is given as the unsigned number its word stands for; the writing functions
    give back what was acknowledged (address and value, address and count, address and masks). -/
def Call.answer (u : Bool) (m : Mem) (c : Call) : Except UInt8 (List Int) :=
  match (exec u m c.toReq).1 with
  | .exc code => .error code
  | .ok _ => .ok (match c with
    | .readCoils a q => (m.coils.read a q.toNat).map (fun v => if v ≠ 0 then 1 else 0)
    | .readDiscrete a q => (m.discrete.read a q.toNat).map (fun v => if v ≠ 0 then 1 else 0)
    | .readHolding a q => (m.holding.read a q.toNat).map (fun v => v % 65536)
    | .readInput a q => (m.input.read a q.toNat).map (fun v => v % 65536)
    | .writeCoil a v => [a, if v = 0 then 0 else 65280]
    | .writeRegister a v => [a, v % 65536]
    | .readExceptionStatus => [0]
    | .writeCoils a vs => [a, vs.length]
    | .writeRegisters a vs => [a, vs.length]
    | .maskWrite a am om => [a, am, om]
    | .readWrite ra rq _ _ => (m.holding.read ra rq.toNat).map (fun v => v % 65536)
    -- never: a modbus-tk slave refuses these functions
    | .diagnostic .. | .readFileRecord .. | .deviceInfo .. => [])

/-- the memory after a call -/
def Call.after (u : Bool) (m : Mem) (c : Call) : Mem := (exec u m c.toReq).2

end Modbus.Spec
