import Verif.Spec.Crc
import Verif.Spec.Modbus
/-
# Specification: the two frame formats

Modbus over serial line (RTU): address, pdu, CRC with its low byte first.
Modbus TCP: transaction id, protocol id, length of what follows, unit id, pdu.
Nothing here refers to the model.
-/
namespace Modbus.Spec

/-- the RTU frame carrying a pdu to or from a slave -/
def rtuAdu (addr : UInt8) (pdu : Bytes) : Bytes :=
  addr :: pdu ++ [UInt8.ofNat (crc16 (addr :: pdu) % 256), UInt8.ofNat (crc16 (addr :: pdu) / 256)]

/-- the TCP frame with this transaction id, protocol id and unit id -/
def tcpAdu (tid pid : UInt16) (unit : UInt8) (pdu : Bytes) : Bytes :=
  word tid ++ word pid ++ word (UInt16.ofNat (pdu.length + 1)) ++ unit :: pdu

end Modbus.Spec
