import Verif.Model.Master
/-
# `struct` with format texts, and `Master.execute` with a `data_format` text

In `Model/Master.lean` a data format is a byte order and a list of integer codes.  Here it is the text the caller passes, and the texts modbus.py builds are built as it builds
them (`">" + (quantity_of_x * "H")`, ...).  The struct module is modelled for texts with repeat counts, white space, the prefixes `@ = < > !` with native sizes and alignment, and
the codes `x c b B ? h H i I l L q Q e f d s`.  Values are integers, bools, floats and byte strings.

Not modelled: the codes `n N p P F D`, the limit on the size of a format (`sys.maxsize`), texts with characters outside ASCII, objects with `__index__` or `__float__`.
-/
namespace Modbus

/-- What differs between machines, and the floating point numbers `F`.  `pack k x` is the packed form of `x` in `k` bytes, the first byte being the most significant (it may raise
    OverflowError, which has no name of its own in the model). -/
structure Platform (F : Type) where
  /-- `sys.byteorder == "big"` -/
  big : Bool
  /-- the size of `l` and `L` in native formats -/
  long : Nat
  long_pos : 0 < long
  pack : Nat → F → Except PyErr Bytes
  unpack : Nat → Bytes → F
  pack_length : ∀ k x bs, pack k x = .ok bs → bs.length = k
  /-- `float(n)`; `none`: too large -/
  ofInt : Int → Option F
  /-- `x == 0`, `x >= 0`, `x > 0` -/
  isZero : F → Bool
  nonneg : F → Bool
  pos : F → Bool

/-- the values formats are about -/
inductive PyVal (F : Type) where
  | int (n : Int)
  | bool (b : Bool)
  | float (x : F)
  | bytes (bs : Bytes)

variable {F : Type}

/-- `v.__index__()`; a bool is an integer -/
def PyVal.asInt : PyVal F → Option Int
  | .int n => some n
  | .bool b => some (if b then 1 else 0)
  | _ => none

/-- `bool(v)` -/
def PyVal.truth (P : Platform F) : PyVal F → Bool
  | .int n => decide (n ≠ 0)
  | .bool b => b
  | .float x => !P.isZero x
  | .bytes bs => decide (bs ≠ [])

/-- `float(v)` -/
def PyVal.asFloat (P : Platform F) : PyVal F → Option F
  | .float x => some x
  | v => v.asInt.bind P.ofInt

/-! ## The struct module -/

/-- what one format character stands for -/
inductive Item where
  /-- `x`, and the gaps of native alignment -/
  | pad (n : Nat)
  | int (c : Code)
  | bool
  | char
  /-- `s` with its length -/
  | str (n : Nat)
  | float (size : Nat)
  deriving DecidableEq, Repr

def Item.size : Item → Nat
  | .pad n => n
  | .int c => c.size
  | .bool => 1
  | .char => 1
  | .str n => n
  | .float k => k

/-- is a value packed for it? -/
def Item.takes : Item → Bool
  | .pad _ => false
  | _ => true

/-- a format text that was read: byte order and items -/
structure TextLayout where
  big : Bool
  items : List Item
  deriving DecidableEq, Repr

/-- the tables `native_table`, `bigendian_table` and `lilendian_table` of _struct.c: the item of one character (for `s` and `x`: of one byte) -/
def formatEntry (native : Bool) (long : Nat) (c : Char) : Option Item :=
  if c = 'x' then some (.pad 1)
  else if c = 'c' then some .char
  else if c = 'b' then some (.int Code.b)
  else if c = 'B' then some (.int Code.B)
  else if c = '?' then some .bool
  else if c = 'h' then some (.int Code.h)
  else if c = 'H' then some (.int Code.H)
  else if c = 'i' then some (.int Code.i)
  else if c = 'I' then some (.int Code.I)
  else if c = 'l' then some (.int (if native then ⟨long, true⟩ else Code.i))
  else if c = 'L' then some (.int (if native then ⟨long, false⟩ else Code.I))
  else if c = 'q' then some (.int Code.q)
  else if c = 'Q' then some (.int Code.Q)
  else if c = 'e' then some (.float 2)
  else if c = 'f' then some (.float 4)
  else if c = 'd' then some (.float 8)
  else if c = 's' then some (.str 1)
  else none

/-- a count before a character -/
def Item.times (n : Nat) : Item → List Item
  | .pad _ => [.pad n]
  | .str _ => [.str n]
  | i => List.replicate n i

/-- `align(size, c, e)` of _struct.c: how far the next multiple of the alignment is (which is the size of the code; `x`, `c`, `b`, `s` have none) -/
def gapTo (align size : Nat) : Nat := (align - size % align) % align

/-- a gap, if there is one -/
def padItems (n : Nat) : List Item := if n = 0 then [] else [.pad n]

/-- `prepare_s` of _struct.c.  `num`: the repeat count read so far; `size`: of what was read. -/
def scanFormat (native : Bool) (long : Nat) : (num : Option Nat) → (size : Nat) → Text → Except PyErr (List Item)
  | none, _, [] => .ok []
  | some _, _, [] => .error .structError -- repeat count given without format specifier
  | num, size, c :: rest =>
    if num = none ∧ isSpace c then scanFormat native long none size rest
    else match digitVal c with
      | some d => scanFormat native long (some (10 * num.getD 0 + d)) size rest
      | none =>
        match formatEntry native long c with
        | none => .error .structError -- bad char in struct format
        | some item =>
          let gap := if native then gapTo item.size size else 0
          let n := num.getD 1
          match scanFormat native long none (size + gap + n * item.size) rest with
          | .error e => .error e
          | .ok items => .ok (padItems gap ++ item.times n ++ items)

/-- the format text of `struct`: `whichtable` and `prepare_s` of _struct.c -/
def parseFormat (P : Platform F) : Text → Except PyErr TextLayout
  | '<' :: t => (scanFormat false P.long none 0 t).map (⟨false, ·⟩)
  | '>' :: t => (scanFormat false P.long none 0 t).map (⟨true, ·⟩)
  | '!' :: t => (scanFormat false P.long none 0 t).map (⟨true, ·⟩)
  | '=' :: t => (scanFormat false P.long none 0 t).map (⟨P.big, ·⟩)
  | '@' :: t => (scanFormat true P.long none 0 t).map (⟨P.big, ·⟩)
  | t => (scanFormat true P.long none 0 t).map (⟨P.big, ·⟩)

def TextLayout.size (l : TextLayout) : Nat := (l.items.map Item.size).sum

/-- `struct.calcsize(text)` -/
def sCalcsize (P : Platform F) (t : Text) : Except PyErr Nat := (parseFormat P t).map TextLayout.size

/-- packing of one value -/
def packItem (P : Platform F) (big : Bool) : Item → PyVal F → Except PyErr Bytes
  | .int c, v => match v.asInt with
    | some n => packOne big c n
    | none => .error .structError
  | .bool, v => .ok [if v.truth P then 1 else 0]
  | .char, .bytes [b] => .ok [b]
  | .str n, .bytes bs => .ok (bs.take n ++ List.replicate (n - bs.length) 0)
  | .float k, v => match v.asFloat P with
    | some x => (P.pack k x).map (fun bs => if big then bs else bs.reverse)
    | none => .error .structError
  | _, _ => .error .structError

def packItems (P : Platform F) (big : Bool) : List Item → List (PyVal F) → Except PyErr Bytes
  | [], [] => .ok []
  | .pad n :: is, vs => (packItems P big is vs).map (List.replicate n 0 ++ ·)
  | i :: is, v :: vs => do
      let x ← packItem P big i v
      let y ← packItems P big is vs
      return x ++ y
  | _, _ => .error .structError

/-- `struct.pack(text, *vals)`: the number of values is checked first -/
def sPack (P : Platform F) (t : Text) (vals : List (PyVal F)) : Except PyErr Bytes := do
  let l ← parseFormat P t
  if vals.length = (l.items.filter Item.takes).length then packItems P l.big l.items vals else .error .structError

/-- unpacking of one value -/
def unpackItem (P : Platform F) (big : Bool) : Item → Bytes → PyVal F
  | .int c, bs => .int (unpackOne big c bs)
  | .bool, bs => .bool (decide (bs ≠ [0]))
  | .float k, bs => .float (P.unpack k (if big then bs else bs.reverse))
  | _, bs => .bytes bs

def unpackItems (P : Platform F) (big : Bool) : List Item → Bytes → List (PyVal F)
  | [], _ => []
  | .pad n :: is, bs => unpackItems P big is (bs.drop n)
  | i :: is, bs => unpackItem P big i (bs.take i.size) :: unpackItems P big is (bs.drop i.size)

/-- `struct.unpack(text, data)` -/
def sUnpack (P : Platform F) (t : Text) (data : Bytes) : Except PyErr (List (PyVal F)) := do
  let l ← parseFormat P t
  if data.length = l.size then .ok (unpackItems P l.big l.items data) else .error .structError

/-! ## `Master.execute` -/

/-- an argument that may be a value or a tuple/list of values -/
inductive ArgV (F : Type) where
  | one (v : PyVal F)
  | seq (vs : List (PyVal F))

/-- the arguments of `Master.execute`, modbus.py:138-141 -/
structure ExecArgsT (F : Type) where
  slave : Option Int
  functionCode : Int
  startingAddress : ArgV F
  quantity : ArgV F := .one (.int 0)
  outputValue : ArgV F := .one (.int 0)
  dataFormat : Text := []
  expectedLength : Int := -1
  writeStartingAddressFc23 : Int := 0
  numberFile : List (PyVal F) := []
  pdu : Bytes := []
  returnsRaw : Bool := false
  andMask : Int := -1
  orMask : Int := -1

/-- what the first half of `execute` computes -/
structure PreparedT where
  pdu : Bytes
  isRead : Bool
  nbOfDigits : Int
  dataFormat : Text
  expectedLength : Int

/-- an argument of `struct.pack`: a tuple is a struct.error (for every code a tuple is passed to in modbus.py) -/
def ArgV.num : ArgV F → Except PyErr (PyVal F)
  | .one v => .ok v
  | .seq _ => .error .structError

/-- `len(x)`; a byte string alone is not modelled as a tuple -/
def ArgV.len : ArgV F → Except PyErr Int
  | .one _ => .error .typeError
  | .seq vs => .ok vs.length

def ArgV.items : ArgV F → Except PyErr (List (PyVal F))
  | .one _ => .error .typeError
  | .seq vs => .ok vs

/-- an operand of integer arithmetic and of `x * "H"` -/
def PyVal.number (v : PyVal F) : Except PyErr Int :=
  match v.asInt with
  | some n => .ok n
  | none => .error .typeError

/-- `x >= 0` -/
def PyVal.ge0 (P : Platform F) : PyVal F → Except PyErr Bool
  | .float x => .ok (P.nonneg x)
  | v => v.number.map (fun n => decide (0 ≤ n))

/-- `x > 0` -/
def PyVal.gt0 (P : Platform F) : PyVal F → Except PyErr Bool
  | .float x => .ok (P.pos x)
  | v => v.number.map (fun n => decide (0 < n))

/-- `x == 0` -/
def ArgV.isZero (P : Platform F) : ArgV F → Bool
  | .one (.bytes _) => false
  | .one v => !v.truth P
  | .seq _ => false

/-- `bool(x)` -/
def ArgV.truth (P : Platform F) : ArgV F → Bool
  | .one v => v.truth P
  | .seq vs => decide (vs ≠ [])

/-- `n * text` -/
def timesText (n : Int) (t : Text) : Text := (List.replicate n.toNat t).flatten

/-- `if not data_format: data_format = d` -/
def orText (t d : Text) : Text := if t = [] then d else t

/-- `for j in output_value: pdu += f(j)` -/
def packAllT (f : PyVal F → Except PyErr Bytes) : List (PyVal F) → Bytes → Except PyErr Bytes
  | [], acc => .ok acc
  | j :: js, acc => match f j with
    | .error e => .error e
    | .ok b => packAllT f js (acc ++ b)

/-- `struct.pack(">" + ("H" if j >= 0 else "h"), j)`, modbus.py:274-276 and 314-317 -/
def packWordT (P : Platform F) (j : PyVal F) : Except PyErr Bytes := do
  let nonneg ← j.ge0 P
  sPack P (">".toList ++ (if nonneg then "H".toList else "h".toList)) [j]

/-- the loop of modbus.py:247-257 -/
def packCoilsT (P : Platform F) : List (PyVal F) → (i : Nat) → (byteValue : Nat) → Bytes → Except PyErr Bytes
  | [], i, bv, pdu => if i > 0 then (sPack P ">B".toList [.int bv]).map (pdu ++ ·) else .ok pdu
  | j :: js, i, bv, pdu => do
    let pos ← j.gt0 P
    let bv := if pos then bv + 2 ^ i else bv
    if i = 7 then do
      let b ← sPack P ">B".toList [.int bv]
      packCoilsT P js 0 0 (pdu ++ b)
    else packCoilsT P js (i + 1) bv pdu

/-- `struct.pack(">BHHH", 6, file, record, length)` for every sub-request, modbus.py:206 -/
def packRecordsT (P : Platform F) : List (PyVal F) → List (PyVal F) → List (PyVal F) → Except PyErr Bytes
  | f :: fs, a :: as, q :: qs => do
      let b ← sPack P ">BHHH".toList [.int 6, f, a, q]
      let rest ← packRecordsT P fs as qs
      return b ++ rest
  | _, _, _ => .ok []

/-- the numbers in a tuple -/
def numbersT : List (PyVal F) → Except PyErr (List Int)
  | [] => .ok []
  | v :: vs => do
      let n ← v.number
      let ns ← numbersT vs
      return n :: ns

/-- Building the pdu and the format of the expected data, modbus.py:164-342. -/
def prepareT (P : Platform F) (a : ExecArgsT F) : Except PyErr PreparedT :=
  if a.functionCode = defines.READ_COILS ∨ a.functionCode = defines.READ_DISCRETE_INPUTS then do
    let addr ← a.startingAddress.num
    let q ← a.quantity.num
    let pdu ← sPack P ">BHH".toList [.int a.functionCode, addr, q]
    let q ← q.number
    let byteCount := nbBytes q
    return { pdu := pdu, isRead := true, nbOfDigits := q,
             dataFormat := orText a.dataFormat (">".toList ++ timesText byteCount "B".toList),
             expectedLength := orLength a.expectedLength (byteCount + 5) }
  else if a.functionCode = defines.READ_INPUT_REGISTERS ∨ a.functionCode = defines.READ_HOLDING_REGISTERS then do
    let addr ← a.startingAddress.num
    let q ← a.quantity.num
    let pdu ← sPack P ">BHH".toList [.int a.functionCode, addr, q]
    let q ← q.number
    return { pdu := pdu, isRead := true, nbOfDigits := 0,
             dataFormat := orText a.dataFormat (">".toList ++ timesText q "H".toList),
             expectedLength := orLength a.expectedLength (2 * q + 5) }
  else if a.functionCode = defines.READ_FILE_RECORD then
    match a.startingAddress, a.quantity with
    | .seq addrs, .seq qs =>
      if a.numberFile.length = addrs.length ∧ addrs.length = qs.length ∧ qs.length > 0 then do
        let countSeq : Int := a.numberFile.length
        let hd ← sPack P ">BB".toList [.int a.functionCode, .int (countSeq * 7)]
        let records ← packRecordsT P a.numberFile addrs qs
        let qs ← numbersT qs
        return { pdu := hd ++ records, isRead := true, nbOfDigits := 0,
                 dataFormat := orText a.dataFormat (">BB".toList ++ List.intercalate "BB".toList (qs.map (fun q => timesText q "H".toList))),
                 expectedLength := orLength a.expectedLength (2 * qs.sum + 2 * countSeq + 5) }
      else .error .invalidRequest
    | _, _ => .error .invalidRequest
  else if a.functionCode = defines.WRITE_SINGLE_COIL ∨ a.functionCode = defines.WRITE_SINGLE_REGISTER then do
    let (v, fmt) ← (if a.functionCode = defines.WRITE_SINGLE_COIL then
        Except.ok (if a.outputValue.isZero P then a.outputValue else .one (.int 0xff00), ">BHH".toList)
      else match a.outputValue with
        | .seq _ => .error .typeError
        | .one v => do return (.one v, ">BH".toList ++ (if ← v.ge0 P then "H".toList else "h".toList)) : Except PyErr (ArgV F × Text))
    let addr ← a.startingAddress.num
    let v ← v.num
    let pdu ← sPack P fmt [.int a.functionCode, addr, v]
    return { pdu := pdu, isRead := false, nbOfDigits := 0, dataFormat := orText a.dataFormat ">HH".toList,
             expectedLength := orLength a.expectedLength 8 }
  else if a.functionCode = defines.MASK_WRITE_REGISTER then
    if a.andMask < 0 then .error .invalidRequest
    else if a.orMask < 0 then .error .invalidRequest
    else do
      let addr ← a.startingAddress.num
      let pdu ← sPack P ">BHHH".toList [.int a.functionCode, addr, .int a.andMask, .int a.orMask]
      return { pdu := pdu, isRead := false, nbOfDigits := 0,
               dataFormat := orText a.dataFormat ">HHH".toList,
               expectedLength := orLength a.expectedLength 10 }
  else if a.functionCode = defines.WRITE_MULTIPLE_COILS then do
    let n ← a.outputValue.len
    let vs ← a.outputValue.items
    let addr ← a.startingAddress.num
    let hd ← sPack P ">BHHB".toList [.int a.functionCode, addr, .int n, .int (nbBytes n)]
    let pdu ← packCoilsT P vs 0 0 hd
    return { pdu := pdu, isRead := false, nbOfDigits := 0, dataFormat := orText a.dataFormat ">HH".toList,
             expectedLength := orLength a.expectedLength 8 }
  else if a.functionCode = defines.WRITE_MULTIPLE_REGISTERS then do
    let byteCount ← (if a.outputValue.truth P ∧ a.dataFormat ≠ [] then (sCalcsize P a.dataFormat).map (fun (n : Nat) => (n : Int))
      else do return 2 * (← a.outputValue.len) : Except PyErr Int)
    let addr ← a.startingAddress.num
    let hd ← sPack P ">BHHB".toList [.int a.functionCode, addr, .int (byteCount / 2), .int byteCount]
    let vs ← a.outputValue.items
    let pdu ← (if a.outputValue.truth P ∧ a.dataFormat ≠ [] then (sPack P a.dataFormat vs).map (hd ++ ·)
      else packAllT (packWordT P) vs hd)
    return { pdu := pdu, isRead := false, nbOfDigits := 0, dataFormat := ">HH".toList,
             expectedLength := orLength a.expectedLength 8 }
  else if a.functionCode = defines.READ_EXCEPTION_STATUS then do
    let pdu ← sPack P ">B".toList [.int a.functionCode]
    return { pdu := pdu, isRead := false, nbOfDigits := 0, dataFormat := ">B".toList,
             expectedLength := orLength a.expectedLength 5 }
  else if a.functionCode = defines.DIAGNOSTIC then do
    let addr ← a.startingAddress.num
    let hd ← sPack P ">BH".toList [.int a.functionCode, addr]
    let n ← a.outputValue.len
    let vs ← a.outputValue.items
    if n > 0 then do
      let pdu ← packAllT (fun j => sPack P ">B".toList [j]) vs hd
      return { pdu := pdu, isRead := false, nbOfDigits := 0,
               dataFormat := orText a.dataFormat (">".toList ++ timesText n "B".toList),
               expectedLength := orLength a.expectedLength (n + 6) }
    else
      return { pdu := hd, isRead := false, nbOfDigits := 0, dataFormat := a.dataFormat,
               expectedLength := a.expectedLength }
  else if a.functionCode = defines.READ_WRITE_MULTIPLE_REGISTERS then do
    let n ← a.outputValue.len
    let vs ← a.outputValue.items
    let addr ← a.startingAddress.num
    let q ← a.quantity.num
    let hd ← sPack P ">BHHHHB".toList
      [.int a.functionCode, addr, q, .int a.writeStartingAddressFc23, .int n, .int (2 * n)]
    let pdu ← packAllT (packWordT P) vs hd
    let q ← q.number
    return { pdu := pdu, isRead := true, nbOfDigits := 0,
             dataFormat := orText a.dataFormat (">".toList ++ timesText q "H".toList),
             expectedLength := orLength a.expectedLength (2 * q + 5) }
  else if a.functionCode = defines.RAW then
    return { pdu := a.pdu, isRead := false, nbOfDigits := 0, dataFormat := a.dataFormat,
             expectedLength := a.expectedLength }
  else if a.functionCode = defines.DEVICE_INFO then do
    let vs ← a.outputValue.items
    match vs with
    | x :: y :: _ => do
        let pdu ← sPack P ">BBBB".toList [.int a.functionCode, .int 0x0E, x, y]
        return { pdu := pdu, isRead := false, nbOfDigits := 0, dataFormat := a.dataFormat,
                 expectedLength := a.expectedLength }
    | _ => .error .indexError
  else .error .functionNotSupported

/-- what `execute` returns -/
inductive ExecResultT (F : Type) where
  | raw (data : Bytes)
  | values (vs : List (PyVal F))
  | records (rs : List (List (PyVal F)))

/-- modbus.py:401-409: a float has no `>>`, a byte string no `%` that fits -/
def digitsT (nb : Nat) : List (PyVal F) → List (PyVal F) → Except PyErr (List (PyVal F))
  | [], digits => .ok digits
  | v :: vs, digits =>
    if digits.length ≥ nb then digitsT nb vs digits
    else match v.asInt with
      | none => .error .typeError
      | some n => digitsT nb vs (digits ++ (digitsInner 8 n [] (nb - digits.length)).map .int)

/-- `result[i]` -/
def pyIndexT (l : List (PyVal F)) (i : Int) : Except PyErr (PyVal F) :=
  let j := if i < 0 then i + l.length else i
  if j < 0 then .error .indexError
  else match l[j.toNat]? with
    | some v => .ok v
    | none => .error .indexError

/-- The loop of modbus.py:411-415, see `recordsLoop`.  A value that is no integer ends in a TypeError: in `// 2` for a byte string, in the next index or slice for a float. -/
def recordsLoopT (result : List (PyVal F)) : Nat → Int → List (Int × Int) → Option (Except PyErr (List (Int × Int)))
  | 0, _, _ => none
  | fuel+1, ptr, acc =>
    if ptr < result.length then
      match pyIndexT result ptr with
      | .error e => some (.error e)
      | .ok v =>
        match v.asInt with
        | none => some (.error .typeError)
        | some n => recordsLoopT result fuel (ptr + (n / 2 + 2)) (acc ++ [(ptr + 2, ptr + 2 + n / 2)])
    else some (.ok acc)

/-- modbus.py:410-416, see `splitRecords` -/
def splitRecordsT (result : List (PyVal F)) : Except PyErr (List (List (PyVal F))) :=
  match recordsLoopT result (2 * result.length + 2) 0 [] with
  | none => .error .nonTermination
  | some (.error e) => .error e
  | some (.ok bounds) => .ok (bounds.map (fun b => pySlice result b.1 b.2))

/-- The end of `execute`, modbus.py:396-417. -/
def analyseDataT (P : Platform F) (a : ExecArgsT F) (p : PreparedT) (data : Bytes) (fmt : Text) : Except PyErr (ExecResultT F) := do
  if a.returnsRaw then return .raw data
  else do
    let result ← sUnpack P fmt data
    let result ← (if p.nbOfDigits > 0 then digitsT p.nbOfDigits.toNat result [] else .ok result)
    if a.functionCode = defines.READ_FILE_RECORD then return .records (← splitRecordsT result)
    else return .values result

/-- Analysis of the response pdu, modbus.py:372-417; `data_format = ">" + (len(data) * "B")` for DEVICE_INFO. -/
def analyseT (P : Platform F) (a : ExecArgsT F) (p : PreparedT) (responsePdu : Bytes) : Except PyErr (ExecResultT F) := do
  match ← sUnpack P ">BB".toList (slice responsePdu 0 2) with
  | [.int returnCode, .int byte2] =>
    if returnCode > 0x80 then .error (.modbusError byte2)
    else do
      let (data, fmt) ← (if p.isRead then
          let data := responsePdu.drop 2
          if byte2 ≠ data.length then .error .invalidResponse else .ok (data, p.dataFormat)
        else if a.functionCode = defines.DEVICE_INFO then
          let data := responsePdu.drop 1
          .ok (data, ">".toList ++ timesText data.length "B".toList)
        else .ok (responsePdu.drop 1, p.dataFormat) : Except PyErr (Bytes × Text))
      analyseDataT P a p data fmt
  | _ => .error .valueError -- unreachable: two codes give two numbers

variable {σ : Type}

/-- `Master.execute`, modbus.py:137-417, with a format text (see `execute`) -/
def executeT (P : Platform F) (R : Registry) (mac : Mac) (ch : Chan σ) (a : ExecArgsT F) : PyM (MasterSt σ) (ExecResultT F) := do
  masterOpen ch
  let p ← PyM.lift (prepareT P a)
  match a.slave with
  | none => PyM.raise .typeError
  | some slave => do
    let (request, q) ← buildRequest mac p.pdu slave
    let retval ← PyM.lift (callHooks R "modbus.Master.before_send" (.msg request))
    onLink (ch.send (retval.getD request))
    let _ ← PyM.lift (callHooks R "modbus.Master.after_send" .obj)
    let response ← onLink (ch.recv p.expectedLength)
    let retval ← PyM.lift (callHooks R "modbus.Master.after_recv" (.msg response))
    let responsePdu ← PyM.lift (mac.parseResponse (retval.getD response) q).1
    PyM.lift (analyseT P a p responsePdu)

end Modbus
