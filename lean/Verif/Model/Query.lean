import Verif.Model.Utils
/-
# Model of the MAC layer: `TcpMbap`, `TcpQuery` (modbus_tcp.py:34-152) and `RtuQuery` (modbus_rtu.py:25-82)

A query object is a state; its methods are computations over that state.
-/
namespace Modbus

/-- The interface `Query`, modbus.py:35-74.  The request-building method also sees the class variable
    `TcpQuery._last_transaction_id` (unused by RTU). -/
structure Mac where
  Q : Type
  /-- `_make_query()` -/
  new : Q
  buildRequest : Bytes → Int → PyM (Q × Int) Bytes
  parseResponse : Bytes → PyM Q Bytes
  parseRequest : Bytes → PyM Q (Int × Bytes)
  buildResponse : Bytes → PyM Q Bytes

/-! ## TCP -/

/-- `TcpMbap`, modbus_tcp.py:34-50. -/
structure Mbap where
  transactionId : Int
  protocolId : Int
  length : Int
  unitId : Int
  deriving DecidableEq, Repr

/-- `TcpMbap.__init__`, modbus_tcp.py:37-42. -/
def Mbap.zero : Mbap := ⟨0, 0, 0, 0⟩

/-- `TcpMbap._check_ids` returns "" , modbus_tcp.py:51-71. -/
def Mbap.checkIds (m req : Mbap) : Bool :=
  req.transactionId = m.transactionId ∧ req.protocolId = m.protocolId ∧ req.unitId = m.unitId

/-- `TcpMbap.check_length` returns "", modbus_tcp.py:72-77. -/
def Mbap.checkLength (m : Mbap) (pduLength : Int) : Bool := m.length = pduLength + 1

/-- `TcpMbap.check_response`, modbus_tcp.py:79-84. -/
def Mbap.checkResponse (m req : Mbap) (pduLength : Int) : Except PyErr Unit :=
  if m.checkIds req ∧ m.checkLength pduLength then .ok () else .error .invalidMbap

/-- `TcpMbap.pack`, modbus_tcp.py:86-88. -/
def Mbap.pack (m : Mbap) : Except PyErr Bytes :=
  structPack (be [Code.H, Code.H, Code.H, Code.B]) [m.transactionId, m.protocolId, m.length, m.unitId]

/-- `TcpMbap.unpack`, modbus_tcp.py:90-92. -/
def Mbap.unpack (value : Bytes) : Except PyErr Mbap :=
  match structUnpack (be [Code.H, Code.H, Code.H, Code.B]) value with
  | .ok [t, p, l, u] => .ok ⟨t, p, l, u⟩
  | .ok _ => .error .valueError -- unreachable: four codes give four values
  | .error e => .error e

/-- `TcpQuery`, modbus_tcp.py:95-105. -/
structure TcpQuery where
  request : Mbap
  response : Mbap
  deriving DecidableEq, Repr

/-- `TcpQuery._get_transaction_id`, modbus_tcp.py:107-114: the new value of the class variable (and the result). -/
def nextTransactionId (last : Int) : Int := if last < 0xffff then last + 1 else 0

/-- `TcpQuery.build_request`, modbus_tcp.py:116-124. -/
def tcpBuildRequest (pdu : Bytes) (slave : Int) : PyM (TcpQuery × Int) Bytes := fun s =>
  if slave < 0 ∨ slave > 255 then (.error .invalidArgument, s)
  else
    let tid := nextTransactionId s.2
    let m : Mbap := { s.1.request with length := pdu.length + 1, transactionId := tid, unitId := slave }
    let s' := ({ s.1 with request := m }, tid)
    match m.pack with
    | .error e => (.error e, s')
    | .ok mbap => (.ok (mbap ++ pdu), s')

/-- `TcpQuery.parse_response`, modbus_tcp.py:126-134. -/
def tcpParseResponse (response : Bytes) : PyM TcpQuery Bytes := fun s =>
  if response.length > 6 then
    match Mbap.unpack (slice response 0 7) with
    | .error e => (.error e, s)
    | .ok m =>
      let s' := { s with response := m }
      match m.checkResponse s.request (response.drop 7).length with
      | .error e => (.error e, s')
      | .ok () => (.ok (response.drop 7), s')
  else (.error .invalidResponse, s)

/-- `TcpQuery.parse_request`, modbus_tcp.py:136-146. -/
def tcpParseRequest (request : Bytes) : PyM TcpQuery (Int × Bytes) := fun s =>
  if request.length > 6 then
    match Mbap.unpack (slice request 0 7) with
    | .error e => (.error e, s)
    | .ok m =>
      let s' := { s with request := m }
      if m.checkLength (request.drop 7).length then (.ok (m.unitId, request.drop 7), s')
      else (.error .invalidMbap, s')
  else (.error .invalidRequest, s)

/-- `TcpQuery.build_response`, modbus_tcp.py:148-152 (`clone` copies the four fields). -/
def tcpBuildResponse (pdu : Bytes) : PyM TcpQuery Bytes := fun s =>
  let m : Mbap := { s.request with length := pdu.length + 1 }
  let s' := { s with response := m }
  match m.pack with
  | .error e => (.error e, s')
  | .ok mbap => (.ok (mbap ++ pdu), s')

/-- the TCP MAC layer -/
def tcpMac : Mac where
  Q := TcpQuery
  new := ⟨Mbap.zero, Mbap.zero⟩
  buildRequest := tcpBuildRequest
  parseResponse := tcpParseResponse
  parseRequest := tcpParseRequest
  buildResponse := tcpBuildResponse

/-! ## RTU -/

/-- `RtuQuery`, modbus_rtu.py:25-32. -/
structure RtuQuery where
  requestAddress : Int
  responseAddress : Int
  deriving DecidableEq, Repr

/-- `struct.pack(">B", a) + pdu + crc`, the common part of modbus_rtu.py:39-41 and 78-80 -/
def rtuFrame (a : Int) (pdu : Bytes) : Except PyErr Bytes := do
  let hd ← structPack (be [Code.B]) [a]
  let data := hd ++ pdu
  let crc ← structPack (be [Code.H]) [(calculateCrc data : Int)]
  return data ++ crc

/-- `RtuQuery.build_request`, modbus_rtu.py:34-41. -/
def rtuBuildRequest (pdu : Bytes) (slave : Int) : PyM (RtuQuery × Int) Bytes := fun s =>
  let s' := ({ s.1 with requestAddress := slave }, s.2)
  if slave < 0 ∨ slave > 255 then (.error .invalidArgument, s')
  else (rtuFrame slave pdu, s')

/-- `struct.unpack(">B", data)` / `(">H", ...)` with a single value -/
def unpack1 (c : Code) (data : Bytes) : Except PyErr Int :=
  match structUnpack (be [c]) data with
  | .ok (v :: _) => .ok v
  | .ok [] => .error .valueError -- unreachable
  | .error e => .error e

/-- `RtuQuery.parse_response`, modbus_rtu.py:43-62. -/
def rtuParseResponse (response : Bytes) : PyM RtuQuery Bytes := fun s =>
  if response.length < 3 then (.error .invalidResponse, s)
  else match unpack1 Code.B (slice response 0 1) with
  | .error e => (.error e, s)
  | .ok a =>
    let s' := { s with responseAddress := a }
    if s.requestAddress ≠ a then (.error .invalidResponse, s')
    else match unpack1 Code.H (lastN response 2) with
    | .error e => (.error e, s')
    | .ok crc =>
      if crc ≠ calculateCrc (dropLastN response 2) then (.error .invalidResponse, s')
      else (.ok ((dropLastN response 2).drop 1), s')

/-- `RtuQuery.parse_request`, modbus_rtu.py:64-75. -/
def rtuParseRequest (request : Bytes) : PyM RtuQuery (Int × Bytes) := fun s =>
  if request.length < 3 then (.error .invalidRequest, s)
  else match unpack1 Code.B (slice request 0 1) with
  | .error e => (.error e, s)
  | .ok a =>
    let s' := { s with requestAddress := a }
    match unpack1 Code.H (lastN request 2) with
    | .error e => (.error e, s')
    | .ok crc =>
      if crc ≠ calculateCrc (dropLastN request 2) then (.error .invalidRequest, s')
      else (.ok (a, (dropLastN request 2).drop 1), s')

/-- `RtuQuery.build_response`, modbus_rtu.py:77-82. -/
def rtuBuildResponse (pdu : Bytes) : PyM RtuQuery Bytes := fun s =>
  (rtuFrame s.requestAddress pdu, { s with responseAddress := s.requestAddress })

/-- the RTU MAC layer -/
def rtuMac : Mac where
  Q := RtuQuery
  new := ⟨0, 0⟩
  buildRequest := rtuBuildRequest
  parseResponse := rtuParseResponse
  parseRequest := rtuParseRequest
  buildResponse := rtuBuildResponse

end Modbus
