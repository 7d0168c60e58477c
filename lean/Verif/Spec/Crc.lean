import Verif.Py
/-
# Specification: CRC-16/MODBUS, bit by bit

Reflected polynomial 0xA001, initial value 0xFFFF, bytes fed least significant bit first (Modbus over serial line,
section 6.2.2).  Nothing here refers to the model.
-/
namespace Modbus.Spec

/-- one shift of the register -/
def crcShift (c : Nat) : Nat := if c % 2 = 1 then (c / 2) ^^^ 0xA001 else c / 2

/-- `n` shifts -/
def crcShifts : Nat → Nat → Nat
  | 0, c => c
  | n+1, c => crcShifts n (crcShift c)

/-- exclusive-or a byte into the register, then shift eight times -/
def crcByte (c : Nat) (b : UInt8) : Nat := crcShifts 8 (c ^^^ b.toNat)

/-- the CRC of a message -/
def crc16 (data : Bytes) : Nat := data.foldl crcByte 0xFFFF

/-- bit `p` of a frame in transmission order: bytes in order, least significant bit first -/
def frameBit (f : Bytes) (p : Nat) : Bool := (f.getD (p / 8) 0).toNat.testBit (p % 8)

end Modbus.Spec
