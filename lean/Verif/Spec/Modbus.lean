/-
# What a Modbus slave does — specification

This file does not mention the model.  It describes, in the vocabulary of the Modbus application protocol, what a
request means for four tables of cells.  A table has a list of address regions (a request must fall inside one
region) and a value for every address.
-/
namespace Modbus.Spec

abbrev Bytes := List UInt8

/-! ## Tables -/

structure Table where
  /-- (first address, number of addresses) -/
  regions : List (Int × Int)
  val : Int → Int

/-- the range `[a, a+n)` lies inside one region -/
def Table.covers (t : Table) (a n : Int) : Bool := t.regions.any (fun r => r.1 ≤ a ∧ a + n ≤ r.1 + r.2)
/-- the `n` values from address `a` on -/
def Table.read (t : Table) (a : Int) (n : Nat) : List Int := (List.range n).map (fun (k : Nat) => t.val (a + k))
/-- store `vs` from address `a` on, keep everything else -/
def Table.write (t : Table) (a : Int) (vs : List Int) : Table :=
  { t with val := fun x => if a ≤ x ∧ x < a + vs.length then vs.getD (x - a).toNat 0 else t.val x }

structure Mem where
  coils : Table
  discrete : Table
  holding : Table
  input : Table

/-! ## Words and bits -/

/-- a 16-bit word, high byte first -/
def word (x : UInt16) : Bytes := [UInt8.ofNat (x.toNat / 256), UInt8.ofNat (x.toNat % 256)]

/-- the 16-bit word (two's complement) representing an integer -/
def toWord (v : Int) : UInt16 := UInt16.ofNat (v % 65536).toNat

/-- the integer a 16-bit word stands for -/
def ofWord (unsigned : Bool) (x : UInt16) : Int :=
  if unsigned ∨ x.toNat < 32768 then x.toNat else (x.toNat : Int) - 65536

/-- the integer can be held by one register of that signedness -/
def fits (unsigned : Bool) (v : Int) : Prop :=
  if unsigned then 0 ≤ v ∧ v < 65536 else -32768 ≤ v ∧ v < 32768

instance (u : Bool) (v : Int) : Decidable (fits u v) := by unfold fits; split <;> infer_instance

/-- word number `i` of a payload of big-endian words -/
def wordAt (payload : Bytes) (i : Nat) : UInt16 :=
  UInt16.ofNat ((payload.getD (2*i) 0).toNat * 256 + (payload.getD (2*i+1) 0).toNat)

/-- bit number `k` of a payload, least significant bit of the first byte first -/
def bitAt (payload : Bytes) (k : Nat) : Bool := (payload.getD (k / 8) 0).toNat.testBit (k % 8)

/-- number of bytes needed for `n` bits -/
def bytesFor (n : Nat) : Nat := (n + 7) / 8

/-- byte `i` of the packed bits: bit `j` is cell `8i+j`, padding is 0 -/
def bitByte (bits : List Bool) (i : Nat) : UInt8 :=
  UInt8.ofNat (((List.range 8).map (fun j => if bits.getD (8*i + j) false then 2^j else 0)).sum)

def packBits (bits : List Bool) : Bytes := (List.range (bytesFor bits.length)).map (bitByte bits)

/-! ## Requests -/

inductive Req where
  | readCoils (a q : UInt16)
  | readDiscrete (a q : UInt16)
  | readHolding (a q : UInt16)
  | readInput (a q : UInt16)
  | writeCoil (a v : UInt16)
  | writeRegister (a v : UInt16)
  | readExceptionStatus
  /-- address, quantity, byte count, payload -/
  | writeCoils (a q : UInt16) (bc : UInt8) (payload : Bytes)
  | writeRegisters (a q : UInt16) (bc : UInt8) (payload : Bytes)
  /-- address, and-mask, or-mask -/
  | maskWrite (a am om : UInt16)
  /-- read address/quantity, write address/quantity, byte count, payload -/
  | readWrite (ra rq wa wq : UInt16) (bc : UInt8) (payload : Bytes)
  /-- a function code below 128 that the slave does not implement -/
  | other (fc : UInt8) (rest : Bytes)

/-- function code -/
def Req.fc : Req → UInt8
  | .readCoils .. => 1
  | .readDiscrete .. => 2
  | .readHolding .. => 3
  | .readInput .. => 4
  | .writeCoil .. => 5
  | .writeRegister .. => 6
  | .readExceptionStatus => 7
  | .writeCoils .. => 15
  | .writeRegisters .. => 16
  | .maskWrite .. => 22
  | .readWrite .. => 23
  | .other fc _ => fc

/-- the request pdu -/
def Req.encode : Req → Bytes
  | .readCoils a q => 1 :: (word a ++ word q)
  | .readDiscrete a q => 2 :: (word a ++ word q)
  | .readHolding a q => 3 :: (word a ++ word q)
  | .readInput a q => 4 :: (word a ++ word q)
  | .writeCoil a v => 5 :: (word a ++ word v)
  | .writeRegister a v => 6 :: (word a ++ word v)
  | .readExceptionStatus => [7]
  | .writeCoils a q bc payload => 15 :: (word a ++ word q ++ [bc] ++ payload)
  | .writeRegisters a q bc payload => 16 :: (word a ++ word q ++ [bc] ++ payload)
  | .maskWrite a am om => 22 :: (word a ++ word am ++ word om)
  | .readWrite ra rq wa wq bc payload => 23 :: (word ra ++ word rq ++ word wa ++ word wq ++ [bc] ++ payload)
  | .other fc rest => fc :: rest

/-- the function codes a slave implements -/
def implemented (fc : UInt8) : Prop :=
  fc = 1 ∨ fc = 2 ∨ fc = 3 ∨ fc = 4 ∨ fc = 5 ∨ fc = 6 ∨ fc = 7 ∨ fc = 15 ∨ fc = 16 ∨ fc = 22 ∨ fc = 23

instance (fc : UInt8) : Decidable (implemented fc) := by unfold implemented; infer_instance

/-- well-formed: the payload has the announced number of bytes, an unknown function code is below 128 -/
def Req.WF : Req → Prop
  | .writeCoils _ _ bc payload => payload.length = bc.toNat
  | .writeRegisters _ _ bc payload => payload.length = bc.toNat
  | .readWrite _ _ _ _ bc payload => payload.length = bc.toNat
  | .other fc _ => ¬ implemented fc ∧ fc.toNat < 128
  | _ => True

/-! ## Meaning -/

inductive Reply where
  /-- exception response with this code -/
  | exc (code : UInt8)
  /-- normal response with these bytes after the function code -/
  | ok (data : Bytes)
  deriving DecidableEq, Repr

/-- the response pdu -/
def Reply.encode (fc : UInt8) : Reply → Bytes
  | .exc code => [fc + 128, code]
  | .ok data => fc :: data

/-- reading bits: at most 2000 -/
def readBits (t : Table) (a q : UInt16) : Reply :=
  if q.toNat = 0 ∨ q.toNat > 2000 then .exc 3
  else if !t.covers a.toNat q.toNat then .exc 2
  else .ok (UInt8.ofNat (bytesFor q.toNat) :: packBits ((t.read a.toNat q.toNat).map (fun v => v != 0)))

/-- reading registers: at most 125 -/
def readRegs (t : Table) (a q : UInt16) : Reply :=
  if q.toNat = 0 ∨ q.toNat > 125 then .exc 3
  else if !t.covers a.toNat q.toNat then .exc 2
  else .ok (UInt8.ofNat (2 * q.toNat) :: (t.read a.toNat q.toNat).flatMap (fun v => word (toWord v)))

/-- the words of a payload as stored values -/
def payloadValues (unsigned : Bool) (payload : Bytes) (n : Nat) : List Int :=
  (List.range n).map (fun i => ofWord unsigned (wordAt payload i))

/-- the bits of a payload as stored values -/
def payloadBits (payload : Bytes) (n : Nat) : List Int :=
  (List.range n).map (fun k => if bitAt payload k then 1 else 0)

/-- the masked word: bit by bit the current bit where the and-mask is 1, the or-mask bit where it is 0 -/
def maskWord (cur am om : UInt16) : UInt16 := (cur &&& am) ||| (om &&& ~~~am)

/-- What a request answers and does.  Function 23 is specified as *read, then write* (see C11 for the deviation from
    the official order). -/
def exec (unsigned : Bool) (m : Mem) : Req → Reply × Mem
  | .readCoils a q => (readBits m.coils a q, m)
  | .readDiscrete a q => (readBits m.discrete a q, m)
  | .readHolding a q => (readRegs m.holding a q, m)
  | .readInput a q => (readRegs m.input a q, m)
  | .writeCoil a v =>
    if !m.coils.covers a.toNat 1 then (.exc 2, m)
    else if v = 0 then (.ok (word a ++ word v), { m with coils := m.coils.write a.toNat [0] })
    else if v = 0xff00 then (.ok (word a ++ word v), { m with coils := m.coils.write a.toNat [1] })
    else (.exc 3, m)
  | .writeRegister a v =>
    if !m.holding.covers a.toNat 1 then (.exc 2, m)
    else (.ok (word a ++ word v), { m with holding := m.holding.write a.toNat [ofWord unsigned v] })
  | .readExceptionStatus => (.ok [0], m)
  | .writeCoils a q bc payload =>
    if q.toNat = 0 ∨ q.toNat > 1968 ∨ bc.toNat ≠ bytesFor q.toNat then (.exc 3, m)
    else if !m.coils.covers a.toNat q.toNat then (.exc 2, m)
    else (.ok (word a ++ word q), { m with coils := m.coils.write a.toNat (payloadBits payload q.toNat) })
  | .writeRegisters a q bc payload =>
    if q.toNat = 0 ∨ q.toNat > 123 ∨ bc.toNat ≠ 2 * q.toNat then (.exc 3, m)
    else if !m.holding.covers a.toNat q.toNat then (.exc 2, m)
    else (.ok (word a ++ word q),
      { m with holding := m.holding.write a.toNat (payloadValues unsigned payload q.toNat) })
  | .maskWrite a am om =>
    if !m.holding.covers a.toNat 1 then (.exc 2, m)
    else
      let new := ofWord unsigned (maskWord (toWord (m.holding.val a.toNat)) am om)
      (.ok (word a ++ word am ++ word om), { m with holding := m.holding.write a.toNat [new] })
  | .readWrite ra rq wa wq bc payload =>
    match readRegs m.holding ra rq with
    | .exc c => (.exc c, m)
    | .ok data =>
      if wq.toNat = 0 ∨ wq.toNat > 123 ∨ bc.toNat ≠ 2 * wq.toNat then (.exc 3, m)
      else if !m.holding.covers wa.toNat wq.toNat then (.exc 2, m)
      else (.ok data, { m with holding := m.holding.write wa.toNat (payloadValues unsigned payload wq.toNat) })
  | .other _ _ => (.exc 1, m)

end Modbus.Spec
