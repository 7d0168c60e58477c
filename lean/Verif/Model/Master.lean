import Verif.Model.Query
import Verif.Model.Slave
/-
# Model of `Master` (modbus_tk/modbus.py:77-425)

The transport (`_do_open`, `_do_close`, `_send`, `_recv` of the subclasses) is a parameter: `Chan`.
The decorator `threadsafe_function` of `execute` is modelled in `Model/Locks.lean`.
-/
namespace Modbus

/-- an argument that may be a number or a tuple/list of numbers -/
inductive Arg where
  | int (v : Int)
  | seq (vs : List Int)
  deriving DecidableEq, Repr

/-- The arguments of `Master.execute`, modbus.py:138-141, with their defaults.
    `data_format=""` is `none`; other formats are a byte order and integer codes (simplification: no repeat counts, pad
    bytes, floats or strings). -/
structure ExecArgs where
  /-- `None` is allowed by the code -/
  slave : Option Int
  functionCode : Int
  startingAddress : Arg
  quantity : Arg := .int 0
  outputValue : Arg := .int 0
  dataFormat : Option Fmt := none
  expectedLength : Int := -1
  writeStartingAddressFc23 : Int := 0
  /-- `None` becomes `tuple()` (modbus.py:158-159) -/
  numberFile : List Int := []
  pdu : Bytes := []
  returnsRaw : Bool := false
  andMask : Int := -1
  orMask : Int := -1

/-- what the first half of `execute` computes -/
structure Prepared where
  pdu : Bytes
  isRead : Bool
  nbOfDigits : Int
  dataFormat : Option Fmt
  expectedLength : Int
  deriving DecidableEq, Repr

/-- an argument of `struct.pack`: anything but a number is a struct.error -/
def Arg.num : Arg → Except PyErr Int
  | .int v => .ok v
  | .seq _ => .error .structError

/-- `len(x)`, TypeError for a number -/
def Arg.len : Arg → Except PyErr Int
  | .int _ => .error .typeError
  | .seq vs => .ok vs.length

/-- iterating over `x`, TypeError for a number -/
def Arg.items : Arg → Except PyErr (List Int)
  | .int _ => .error .typeError
  | .seq vs => .ok vs

/-- `if not data_format: data_format = d` -/
def orFormat (f : Option Fmt) (d : Fmt) : Option Fmt := some (f.getD d)

/-- `if expected_length < 0: expected_length = d` -/
def orLength (n d : Int) : Int := if n < 0 then d else n

/-- `quantity_of_x // 8` plus one if there is a rest, modbus.py:169-171 and 243-245 -/
def nbBytes (q : Int) : Int := if q % 8 > 0 then q / 8 + 1 else q / 8

/-- `struct.pack(">" + ("H" if j >= 0 else "h"), j)`, modbus.py:274-276 and 314-317 -/
def packWordSigned (j : Int) : Except PyErr Bytes := structPack (be [if j ≥ 0 then Code.H else Code.h]) [j]

/-- `for j in output_value: pdu += ...` -/
def packAll (f : Int → Except PyErr Bytes) : List Int → Bytes → Except PyErr Bytes
  | [], acc => .ok acc
  | j :: js, acc => match f j with
    | .error e => .error e
    | .ok b => packAll f js (acc ++ b)

/-- the loop of modbus.py:247-257 -/
def packCoilsLoop : List Int → (i : Nat) → (byteValue : Nat) → Bytes → Except PyErr Bytes
  | [], i, bv, pdu => if i > 0 then (structPack (be [Code.B]) [(bv : Int)]).map (pdu ++ ·) else .ok pdu
  | j :: js, i, bv, pdu =>
    let bv := if j > 0 then bv + 2 ^ i else bv
    if i = 7 then do
      let b ← structPack (be [Code.B]) [(bv : Int)]
      packCoilsLoop js 0 0 (pdu ++ b)
    else packCoilsLoop js (i + 1) bv pdu

/-- `struct.pack(">BHHH", 6, file, record, length)` for every sub-request, modbus.py:206 (`zip` of three tuples) -/
def packRecords : List Int → List Int → List Int → Except PyErr Bytes
  | f :: fs, a :: as, q :: qs => do
      let b ← structPack (be [Code.B, Code.H, Code.H, Code.H]) [6, f, a, q]
      let rest ← packRecords fs as qs
      return b ++ rest
  | _, _, _ => .ok []

/-- `">BB" + 'BB'.join(map(lambda x: x*'H', quantity_of_x))`, modbus.py:208 -/
def recordFormat (qs : List Int) : Fmt :=
  be (Code.B :: Code.B :: List.intercalate [Code.B, Code.B] (qs.map (fun q => List.replicate q.toNat Code.H)))

/-- `output_value and data_format` (modbus.py:266): the format if there is one and the output value is a non-empty tuple or
    a non-zero number -/
def customFormat (out : Arg) (f : Option Fmt) : Option Fmt := if out = .int 0 ∨ out = .seq [] then none else f

/-- Building the pdu and the format of the expected data, modbus.py:164-342. -/
def prepare (a : ExecArgs) : Except PyErr Prepared :=
  if a.functionCode = defines.READ_COILS ∨ a.functionCode = defines.READ_DISCRETE_INPUTS then do
    let addr ← a.startingAddress.num
    let q ← a.quantity.num
    let pdu ← structPack (be [Code.B, Code.H, Code.H]) [a.functionCode, addr, q]
    let byteCount := nbBytes q
    return { pdu := pdu, isRead := true, nbOfDigits := q,
             dataFormat := orFormat a.dataFormat (be (List.replicate byteCount.toNat Code.B)),
             expectedLength := orLength a.expectedLength (byteCount + 5) }
  else if a.functionCode = defines.READ_INPUT_REGISTERS ∨ a.functionCode = defines.READ_HOLDING_REGISTERS then do
    let addr ← a.startingAddress.num
    let q ← a.quantity.num
    let pdu ← structPack (be [Code.B, Code.H, Code.H]) [a.functionCode, addr, q]
    return { pdu := pdu, isRead := true, nbOfDigits := 0,
             dataFormat := orFormat a.dataFormat (be (List.replicate q.toNat Code.H)),
             expectedLength := orLength a.expectedLength (2 * q + 5) }
  else if a.functionCode = defines.READ_FILE_RECORD then
    match a.startingAddress, a.quantity with
    | .seq addrs, .seq qs =>
      if a.numberFile.length = addrs.length ∧ addrs.length = qs.length ∧ qs.length > 0 then do
        let countSeq : Int := a.numberFile.length
        let hd ← structPack (be [Code.B, Code.B]) [a.functionCode, countSeq * 7]
        let records ← packRecords a.numberFile addrs qs
        return { pdu := hd ++ records, isRead := true, nbOfDigits := 0,
                 dataFormat := orFormat a.dataFormat (recordFormat qs),
                 expectedLength := orLength a.expectedLength (2 * qs.sum + 2 * countSeq + 5) }
      else .error .invalidRequest
    | _, _ => .error .invalidRequest
  else if a.functionCode = defines.WRITE_SINGLE_COIL ∨ a.functionCode = defines.WRITE_SINGLE_REGISTER then do
    let (v, fmt) ← (if a.functionCode = defines.WRITE_SINGLE_COIL then
        -- `output_value != 0` is True for a tuple
        Except.ok (if a.outputValue ≠ .int 0 then 0xff00 else 0, be [Code.B, Code.H, Code.H])
      else match a.outputValue with
        | .seq _ => .error .typeError -- tuple >= 0
        | .int v => .ok (v, be [Code.B, Code.H, if v ≥ 0 then Code.H else Code.h]) : Except PyErr (Int × Fmt))
    let addr ← a.startingAddress.num
    let pdu ← structPack fmt [a.functionCode, addr, v]
    return { pdu := pdu, isRead := false, nbOfDigits := 0, dataFormat := orFormat a.dataFormat (be [Code.H, Code.H]),
             expectedLength := orLength a.expectedLength 8 }
  else if a.functionCode = defines.MASK_WRITE_REGISTER then
    if a.andMask < 0 then .error .invalidRequest
    else if a.orMask < 0 then .error .invalidRequest
    else do
      let addr ← a.startingAddress.num
      let pdu ← structPack (be [Code.B, Code.H, Code.H, Code.H]) [a.functionCode, addr, a.andMask, a.orMask]
      return { pdu := pdu, isRead := false, nbOfDigits := 0,
               dataFormat := orFormat a.dataFormat (be [Code.H, Code.H, Code.H]),
               expectedLength := orLength a.expectedLength 10 }
  else if a.functionCode = defines.WRITE_MULTIPLE_COILS then do
    let n ← a.outputValue.len
    let vs ← a.outputValue.items
    let addr ← a.startingAddress.num
    let hd ← structPack (be [Code.B, Code.H, Code.H, Code.B]) [a.functionCode, addr, n, nbBytes n]
    let pdu ← packCoilsLoop vs 0 0 hd
    return { pdu := pdu, isRead := false, nbOfDigits := 0, dataFormat := orFormat a.dataFormat (be [Code.H, Code.H]),
             expectedLength := orLength a.expectedLength 8 }
  else if a.functionCode = defines.WRITE_MULTIPLE_REGISTERS then do
    let byteCount ← (match customFormat a.outputValue a.dataFormat with
      | some f => .ok (calcsize f : Int)
      | none => do return 2 * (← a.outputValue.len) : Except PyErr Int)
    let addr ← a.startingAddress.num
    let hd ← structPack (be [Code.B, Code.H, Code.H, Code.B]) [a.functionCode, addr, byteCount / 2, byteCount]
    let vs ← a.outputValue.items
    let pdu ← (match customFormat a.outputValue a.dataFormat with
      | some f => (structPack f vs).map (hd ++ ·)
      | none => packAll packWordSigned vs hd)
    return { pdu := pdu, isRead := false, nbOfDigits := 0, dataFormat := some (be [Code.H, Code.H]),
             expectedLength := orLength a.expectedLength 8 }
  else if a.functionCode = defines.READ_EXCEPTION_STATUS then do
    let pdu ← structPack (be [Code.B]) [a.functionCode]
    return { pdu := pdu, isRead := false, nbOfDigits := 0, dataFormat := some (be [Code.B]),
             expectedLength := orLength a.expectedLength 5 }
  else if a.functionCode = defines.DIAGNOSTIC then do
    let addr ← a.startingAddress.num
    let hd ← structPack (be [Code.B, Code.H]) [a.functionCode, addr]
    let n ← a.outputValue.len
    let vs ← a.outputValue.items
    if n > 0 then do
      let pdu ← packAll (fun j => structPack (be [Code.B]) [j]) vs hd
      return { pdu := pdu, isRead := false, nbOfDigits := 0,
               dataFormat := orFormat a.dataFormat (be (List.replicate n.toNat Code.B)),
               expectedLength := orLength a.expectedLength (n + 6) }
    else
      return { pdu := hd, isRead := false, nbOfDigits := 0, dataFormat := a.dataFormat,
               expectedLength := a.expectedLength }
  else if a.functionCode = defines.READ_WRITE_MULTIPLE_REGISTERS then do
    let n ← a.outputValue.len
    let vs ← a.outputValue.items
    let addr ← a.startingAddress.num
    let q ← a.quantity.num
    let hd ← structPack (be [Code.B, Code.H, Code.H, Code.H, Code.H, Code.B])
      [a.functionCode, addr, q, a.writeStartingAddressFc23, n, 2 * n]
    let pdu ← packAll packWordSigned vs hd
    return { pdu := pdu, isRead := true, nbOfDigits := 0,
             dataFormat := orFormat a.dataFormat (be (List.replicate q.toNat Code.H)),
             expectedLength := orLength a.expectedLength (2 * q + 5) }
  else if a.functionCode = defines.RAW then
    return { pdu := a.pdu, isRead := false, nbOfDigits := 0, dataFormat := a.dataFormat,
             expectedLength := a.expectedLength }
  else if a.functionCode = defines.DEVICE_INFO then do
    let vs ← a.outputValue.items
    match vs with
    | x :: y :: _ => do
        let pdu ← structPack (be [Code.B, Code.B, Code.B, Code.B]) [a.functionCode, 0x0E, x, y]
        return { pdu := pdu, isRead := false, nbOfDigits := 0, dataFormat := a.dataFormat,
                 expectedLength := a.expectedLength }
    | _ => .error .indexError
  else .error .functionNotSupported

/-- what `execute` returns: the data part as it is, a tuple of numbers, or a tuple of tuples -/
inductive ExecResult where
  | raw (data : Bytes)
  | values (vs : List Int)
  | records (rs : List (List Int))
  deriving DecidableEq, Repr

/-- the inner loop of modbus.py:404-408 for one byte -/
def digitsInner : Nat → Int → List Int → Nat → List Int
  | 0, _, digits, _ => digits
  | k+1, byteVal, digits, nb =>
    if digits.length ≥ nb then digits
    else digitsInner k (byteVal / 2) (digits ++ [byteVal % 2]) nb

/-- modbus.py:401-409: at most `nb` digits, the least significant bit of every byte first -/
def digitsLoop (result : List Int) (nb : Nat) : List Int :=
  result.foldl (fun digits byteVal => digitsInner 8 byteVal digits nb) []

/-- `result[i]`, negative indices count from the end -/
def pyIndex (l : List Int) (i : Int) : Except PyErr Int :=
  let j := if i < 0 then i + l.length else i
  if j < 0 then .error .indexError
  else match l[j.toNat]? with
    | some v => .ok v
    | none => .error .indexError

/-- The loop of modbus.py:411-415 with a bound on the number of rounds; `none` means that the bound was reached.
    Returns the pairs of slice bounds. -/
def recordsLoop (result : List Int) : Nat → Int → List (Int × Int) → Option (Except PyErr (List (Int × Int)))
  | 0, _, _ => none
  | fuel+1, ptr, acc =>
    if ptr < result.length then
      match pyIndex result ptr with
      | .error e => some (.error e)
      | .ok v => recordsLoop result fuel (ptr + (v / 2 + 2)) (acc ++ [(ptr + 2, ptr + 2 + v / 2)])
    else some (.ok acc)

/-- modbus.py:410-416.  The loop variable stays between `-len` and `len`, so a loop that has not ended after `2*len+1`
    rounds repeats a state and never ends (proved: `recordsLoop_diverges`); the model reports this as the pseudo
    exception `.nonTermination`. -/
def splitRecords (result : List Int) : Except PyErr (List (List Int)) :=
  match recordsLoop result (2 * result.length + 2) 0 [] with
  | none => .error .nonTermination
  | some (.error e) => .error e
  | some (.ok bounds) => .ok (bounds.map (fun b => pySlice result b.1 b.2))

/-- The end of `execute`: the data part of the response and its format give the result, modbus.py:396-417. -/
def analyseData (a : ExecArgs) (p : Prepared) (data : Bytes) (fmt : Fmt) : Except PyErr ExecResult := do
  if a.returnsRaw then return .raw data
  else do
    let result ← structUnpack fmt data
    let result := if p.nbOfDigits > 0 then digitsLoop result p.nbOfDigits.toNat else result
    if a.functionCode = defines.READ_FILE_RECORD then return .records (← splitRecords result)
    else return .values result

/-- Analysis of the response pdu, modbus.py:372-417. -/
def analyse (a : ExecArgs) (p : Prepared) (responsePdu : Bytes) : Except PyErr ExecResult := do
  match ← structUnpack (be [Code.B, Code.B]) (slice responsePdu 0 2) with
  | [returnCode, byte2] =>
    if returnCode > 0x80 then .error (.modbusError byte2)
    else do
      let (data, fmt) ← (if p.isRead then
          let data := responsePdu.drop 2
          if byte2 ≠ data.length then .error .invalidResponse else .ok (data, p.dataFormat.getD (be []))
        else if a.functionCode = defines.DEVICE_INFO then
          let data := responsePdu.drop 1
          .ok (data, be (List.replicate data.length Code.B))
        else .ok (responsePdu.drop 1, p.dataFormat.getD (be [])) : Except PyErr (Bytes × Fmt))
      analyseData a p data fmt
  | _ => .error .valueError -- unreachable: two codes give two values

/-- the MAC layer methods a subclass of `Master` provides, modbus.py:110-135 -/
structure Chan (σ : Type) where
  doOpen : PyM σ Unit
  doClose : PyM σ Bool
  send : Bytes → PyM σ Unit
  recv : Int → PyM σ Bytes

/-- a master object with its link and the class variable `TcpQuery._last_transaction_id` -/
structure MasterSt (σ : Type) where
  isOpened : Bool
  link : σ
  lastTid : Int

variable {σ : Type}

/-- run a method of the MAC layer -/
def onLink {α} (f : PyM σ α) : PyM (MasterSt σ) α := fun s =>
  let r := f s.link
  (r.1, { s with link := r.2 })

/-- `Master.open`, modbus.py:97-101. -/
def masterOpen (ch : Chan σ) : PyM (MasterSt σ) Unit := fun s =>
  if s.isOpened then (.ok (), s)
  else match ch.doOpen s.link with
    | (.ok _, l) => (.ok (), { s with link := l, isOpened := true })
    | (.error e, l) => (.error e, { s with link := l })

/-- `Master.close`, modbus.py:103-108. -/
def masterClose (ch : Chan σ) : PyM (MasterSt σ) Unit := fun s =>
  if s.isOpened then
    match ch.doClose s.link with
    | (.ok b, l) => (.ok (), { s with link := l, isOpened := !b })
    | (.error e, l) => (.error e, { s with link := l })
  else (.ok (), s)

/-- `query.build_request(pdu, slave)` on a new query object -/
def buildRequest (mac : Mac) (pdu : Bytes) (slave : Int) : PyM (MasterSt σ) (Bytes × mac.Q) := fun s =>
  match mac.buildRequest pdu slave (mac.new, s.lastTid) with
  | (.ok request, (q, tid)) => (.ok (request, q), { s with lastTid := tid })
  | (.error e, (_, tid)) => (.error e, { s with lastTid := tid })

/-- `Master.execute`, modbus.py:137-417.  For `slave=None` the comparison `slave < 0` in `build_request` raises
    TypeError in Python 3, so the branch without response is never reached. -/
def execute (R : Registry) (mac : Mac) (ch : Chan σ) (a : ExecArgs) : PyM (MasterSt σ) ExecResult := do
  masterOpen ch
  let p ← PyM.lift (prepare a)
  match a.slave with
  | none => PyM.raise .typeError
  | some slave => do
    let (request, q) ← buildRequest mac p.pdu slave
    let retval ← PyM.lift (callHooks R "modbus.Master.before_send" (.msg request))
    onLink (ch.send (retval.getD request))
    let _ ← PyM.lift (callHooks R "modbus.Master.after_send" .obj)
    let response ← onLink (ch.recv p.expectedLength)
    let retval ← PyM.lift (callHooks R "modbus.Master.after_recv" (.msg response))
    let responsePdu ← PyM.lift (mac.parseResponse (retval.getD response) q).1
    PyM.lift (analyse a p responsePdu)

end Modbus
