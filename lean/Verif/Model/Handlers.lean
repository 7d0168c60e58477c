import Verif.Model.Slave
/-
# The handlers of `Slave` with other cells and with hooks that act

`Model/Slave.lean` simplifies twice: cells hold integers, and hook functions do not modify library objects.  Here the handlers of modbus.py:511-774 are
written once more, over an environment that says what a cell is and what calling a hook does.  With the environment `intEnv` they are the handlers of
`Model/Slave.lean` (proved: `generic_handle` in Props/ObjectCells.lean).
-/
namespace Modbus

/-- what the handlers need to know about the memory of the slave, about the values in it and about the hooks.  `σ`: the state, `V`: the values of the cells -/
structure Env (σ V : Type) where
  /-- `self.unsigned` -/
  unsigned : Bool
  /-- `call_hooks(name, args)` -/
  hook : String → HookArg → PyM σ (Option Bytes)
  /-- `self._get_block_and_offset(block_type, address, length)` -/
  locate : Int → Int → Int → PyM σ (BlockRef × Int)
  /-- `block[i:j]` -/
  slice : BlockRef → Int → Int → PyM σ (List V)
  /-- `block[i]` -/
  item : BlockRef → Int → PyM σ V
  /-- `block[i] = v` (with its hook) -/
  assign : BlockRef → Int → V → PyM σ Unit
  /-- an integer is a value -/
  cell : Int → V
  /-- `bool(v)` -/
  truth : V → Bool
  /-- `struct.pack(">" + code, v)` -/
  pack : Code → V → Except PyErr Bytes
  /-- `(v & and_mask) | (or_mask & ~and_mask)` -/
  mask : V → Int → Int → Except PyErr Int

variable {σ V : Type}

/-- a hook whose answer is ignored -/
def Env.hook_ (E : Env σ V) (name : String) (a : HookArg) : PyM σ Unit := do
  let _ ← E.hook name a
  return ()

/-- the loop of `_read_digital`, modbus.py:531-546, see `packBitsLoop` -/
def gPackBits (truth : V → Bool) (unsigned : Bool) : List V → (i bv : Nat) → Bytes → Except PyErr Bytes
  | [], i, bv, acc =>
    if i > 0 then do
      let x ← structPack (be [if unsigned then Code.B else Code.b]) [(bv : Int)]
      return acc ++ x
    else .ok acc
  | coil :: coils, i, bv, acc =>
    let bv' := if truth coil then bv + 1 <<< i else bv
    if i ≥ 7 then do
      let x ← structPack (be [Code.B]) [(bv' : Int)]
      gPackBits truth unsigned coils 0 0 (acc ++ x)
    else gPackBits truth unsigned coils (i + 1) bv' acc

/-- `Slave._read_digital`, modbus.py:511-547 -/
def gReadDigital (E : Env σ V) (bt : Int) (pdu : Bytes) : PyM σ Bytes := do
  match ← PyM.lift (structUnpack (be [Code.H, Code.H]) (slice pdu 1 5)) with
  | [startingAddress, quantity] =>
    if quantity ≤ 0 ∨ quantity > 2000 then PyM.raise (.modbusError defines.ILLEGAL_DATA_VALUE)
    else do
      let (block, offset) ← E.locate bt startingAddress quantity
      let values ← E.slice block offset (offset + quantity)
      let header ← PyM.lift (structPack (be [Code.B]) [byteCount quantity])
      PyM.lift (gPackBits E.truth E.unsigned values 0 0 header)
  | _ => PyM.raise .structError

/-- `"H" if self.unsigned else "h"` -/
def Env.regCode (E : Env σ V) : Code := if E.unsigned then Code.H else Code.h

/-- the loop of modbus.py:577-579 / 618-620 -/
def gPackRegs (pack : Code → V → Except PyErr Bytes) (c : Code) : List V → Bytes → Except PyErr Bytes
  | [], acc => .ok acc
  | v :: vs, acc => do
      let x ← pack c v
      gPackRegs pack c vs (acc ++ x)

/-- `Slave._read_registers`, modbus.py:559-580 -/
def gReadRegisters (E : Env σ V) (bt : Int) (pdu : Bytes) : PyM σ Bytes := do
  match ← PyM.lift (structUnpack (be [Code.H, Code.H]) (slice pdu 1 5)) with
  | [startingAddress, quantity] =>
    if quantity ≤ 0 ∨ quantity > 125 then PyM.raise (.modbusError defines.ILLEGAL_DATA_VALUE)
    else do
      let (block, offset) ← E.locate bt startingAddress quantity
      let values ← E.slice block offset (offset + quantity)
      let header ← PyM.lift (structPack (be [Code.B]) [2 * quantity])
      PyM.lift (gPackRegs E.pack E.regCode values header)
  | _ => PyM.raise .structError

/-- `Slave._read_coils`, modbus.py:549-552 -/
def gReadCoils (E : Env σ V) (pdu : Bytes) : PyM σ Bytes := do
  E.hook_ "modbus.Slave.handle_read_coils_request" (.msg pdu)
  gReadDigital E defines.COILS pdu

/-- `Slave._read_discrete_inputs`, modbus.py:554-557 -/
def gReadDiscreteInputs (E : Env σ V) (pdu : Bytes) : PyM σ Bytes := do
  E.hook_ "modbus.Slave.handle_read_discrete_inputs_request" (.msg pdu)
  gReadDigital E defines.DISCRETE_INPUTS pdu

/-- `Slave._read_holding_registers`, modbus.py:582-585 -/
def gReadHoldingRegisters (E : Env σ V) (pdu : Bytes) : PyM σ Bytes := do
  E.hook_ "modbus.Slave.handle_read_holding_registers_request" (.msg pdu)
  gReadRegisters E defines.HOLDING_REGISTERS pdu

/-- `Slave._read_input_registers`, modbus.py:587-590 -/
def gReadInputRegisters (E : Env σ V) (pdu : Bytes) : PyM σ Bytes := do
  E.hook_ "modbus.Slave.handle_read_input_registers_request" (.msg pdu)
  gReadRegisters E defines.ANALOG_INPUTS pdu

/-- `Slave._read_exception_status`, modbus.py:592-596 -/
def gReadExceptionStatus (E : Env σ V) (pdu : Bytes) : PyM σ Bytes := do
  E.hook_ "modbus.Slave.handle_read_exception_status_request" (.msg pdu)
  PyM.lift (structPack (be [Code.B]) [0])

/-- the loop of modbus.py:662-666 / 630-634, see `writeRegsLoop` -/
def gWriteRegsLoop (E : Env σ V) (c : Code) (block : BlockRef) (offset : Int) (pdu : Bytes) (base : Nat) :
    (n i : Nat) → (count : Int) → PyM σ Int
  | 0, _, count => return count
  | n+1, i, count => do
      let v ← PyM.lift (unpackSingle c (slice pdu (base + 2*i) (base + 2 + 2*i)))
      E.assign block (offset + i) (E.cell v)
      gWriteRegsLoop E c block offset pdu base n (i+1) (count + 1)

/-- `Slave._read_write_multiple_registers`, modbus.py:598-636 -/
def gReadWriteMultipleRegisters (E : Env σ V) (pdu : Bytes) : PyM σ Bytes := do
  E.hook_ "modbus.Slave.handle_read_write_multiple_registers_request" (.msg pdu)
  match ← PyM.lift (structUnpack (be [Code.H, Code.H, Code.H, Code.H, Code.B]) (slice pdu 1 10)) with
  | [readAddress, readQuantity, writeAddress, writeQuantity, writeByteCount] =>
    if readQuantity ≤ 0 ∨ readQuantity > 125 then PyM.raise (.modbusError defines.ILLEGAL_DATA_VALUE)
    else do
      let (block, offset) ← E.locate defines.HOLDING_REGISTERS readAddress readQuantity
      let values ← E.slice block offset (offset + readQuantity)
      let header ← PyM.lift (structPack (be [Code.B]) [2 * readQuantity])
      let response ← PyM.lift (gPackRegs E.pack E.regCode values header)
      if writeQuantity ≤ 0 ∨ writeQuantity > 123 ∨ writeByteCount ≠ writeQuantity * 2 then
        PyM.raise (.modbusError defines.ILLEGAL_DATA_VALUE)
      else do
        let (wblock, woffset) ← E.locate defines.HOLDING_REGISTERS writeAddress writeQuantity
        let _ ← gWriteRegsLoop E E.regCode wblock woffset pdu 10 writeQuantity.toNat 0 0
        return response
  | _ => PyM.raise .structError

/-- `Slave._mask_write_register`, modbus.py:638-647 -/
def gMaskWriteRegister (E : Env σ V) (pdu : Bytes) : PyM σ Bytes := do
  E.hook_ "modbus.Slave.handle_mask_write_register_request" (.msg pdu)
  match ← PyM.lift (structUnpack (be [Code.H, Code.H, Code.H]) (slice pdu 1 7)) with
  | [dataAddress, andMask, orMask] => do
      let (block, offset) ← E.locate defines.HOLDING_REGISTERS dataAddress 1
      let cur ← E.item block offset
      let new ← PyM.lift (E.mask cur andMask orMask)
      E.assign block offset (E.cell new)
      return pdu.drop 1
  | _ => PyM.raise .structError

/-- `Slave._write_multiple_registers`, modbus.py:649-668 -/
def gWriteMultipleRegisters (E : Env σ V) (pdu : Bytes) : PyM σ Bytes := do
  E.hook_ "modbus.Slave.handle_write_multiple_registers_request" (.msg pdu)
  match ← PyM.lift (structUnpack (be [Code.H, Code.H, Code.B]) (slice pdu 1 6)) with
  | [startingAddress, quantity, byteCnt] =>
    if quantity ≤ 0 ∨ quantity > 123 ∨ byteCnt ≠ quantity * 2 then
      PyM.raise (.modbusError defines.ILLEGAL_DATA_VALUE)
    else do
      let (block, offset) ← E.locate defines.HOLDING_REGISTERS startingAddress quantity
      let count ← gWriteRegsLoop E E.regCode block offset pdu 6 quantity.toNat 0 0
      PyM.lift (structPack (be [Code.H, Code.H]) [startingAddress, count])
  | _ => PyM.raise .structError

/-- the inner loop of modbus.py:693-702, see `writeCoilsInner` -/
def gWriteCoilsInner (E : Env σ V) (block : BlockRef) (offset quantity byteValue : Int) (i : Nat) :
    List Nat → (count : Int) → PyM σ Int
  | [], count => return count
  | j :: js, count =>
    if count ≥ quantity then return count
    else do
      E.assign block (offset + i*8 + j) (E.cell (if pyBit byteValue j then 1 else 0))
      gWriteCoilsInner E block offset quantity byteValue i js (count + 1)

/-- the outer loop of modbus.py:687-702, see `writeCoilsOuter` -/
def gWriteCoilsOuter (E : Env σ V) (c : Code) (block : BlockRef) (offset quantity : Int) (pdu : Bytes) :
    List Nat → (count : Int) → PyM σ Int
  | [], count => return count
  | i :: is, count =>
    if count ≥ quantity then return count
    else do
      let byteValue ← PyM.lift (unpackSingle c (slice pdu (6+i) (7+i)))
      let count' ← gWriteCoilsInner E block offset quantity byteValue i (List.range 8) count
      gWriteCoilsOuter E c block offset quantity pdu is count'

/-- `Slave._write_multiple_coils`, modbus.py:670-703 -/
def gWriteMultipleCoils (E : Env σ V) (pdu : Bytes) : PyM σ Bytes := do
  E.hook_ "modbus.Slave.handle_write_multiple_coils_request" (.msg pdu)
  match ← PyM.lift (structUnpack (be [Code.H, Code.H, Code.B]) (slice pdu 1 6)) with
  | [startingAddress, quantity, byteCnt] =>
    if quantity ≤ 0 ∨ quantity > 1968 ∨ byteCnt ≠ byteCount quantity then
      PyM.raise (.modbusError defines.ILLEGAL_DATA_VALUE)
    else do
      let (block, offset) ← E.locate defines.COILS startingAddress quantity
      let count ← gWriteCoilsOuter E (if E.unsigned then Code.B else Code.b) block offset quantity pdu
        (List.range byteCnt.toNat) 0
      PyM.lift (structPack (be [Code.H, Code.H]) [startingAddress, count])
  | _ => PyM.raise .structError

/-- `Slave._write_single_register`, modbus.py:705-714 -/
def gWriteSingleRegister (E : Env σ V) (pdu : Bytes) : PyM σ Bytes := do
  E.hook_ "modbus.Slave.handle_write_single_register_request" (.msg pdu)
  match ← PyM.lift (structUnpack (be [Code.H, E.regCode]) (slice pdu 1 5)) with
  | [dataAddress, value] => do
      let (block, offset) ← E.locate defines.HOLDING_REGISTERS dataAddress 1
      E.assign block offset (E.cell value)
      return pdu.drop 1
  | _ => PyM.raise .structError

/-- `Slave._write_single_coil`, modbus.py:716-729 -/
def gWriteSingleCoil (E : Env σ V) (pdu : Bytes) : PyM σ Bytes := do
  E.hook_ "modbus.Slave.handle_write_single_coil_request" (.msg pdu)
  match ← PyM.lift (structUnpack (be [Code.H, Code.H]) (slice pdu 1 5)) with
  | [dataAddress, value] => do
      let (block, offset) ← E.locate defines.COILS dataAddress 1
      if value = 0 then E.assign block offset (E.cell 0)
      else if value = 0xff00 then E.assign block offset (E.cell 1)
      else PyM.raise (.modbusError defines.ILLEGAL_DATA_VALUE)
      return pdu.drop 1
  | _ => PyM.raise .structError

/-- `_fn_code_map`, modbus.py:488-500 -/
def gFnCodeMap (E : Env σ V) (functionCode : Int) : Option (Bytes → PyM σ Bytes) :=
  if functionCode = defines.READ_COILS then some (gReadCoils E)
  else if functionCode = defines.READ_DISCRETE_INPUTS then some (gReadDiscreteInputs E)
  else if functionCode = defines.READ_INPUT_REGISTERS then some (gReadInputRegisters E)
  else if functionCode = defines.READ_HOLDING_REGISTERS then some (gReadHoldingRegisters E)
  else if functionCode = defines.READ_EXCEPTION_STATUS then some (gReadExceptionStatus E)
  else if functionCode = defines.WRITE_SINGLE_COIL then some (gWriteSingleCoil E)
  else if functionCode = defines.WRITE_SINGLE_REGISTER then some (gWriteSingleRegister E)
  else if functionCode = defines.WRITE_MULTIPLE_COILS then some (gWriteMultipleCoils E)
  else if functionCode = defines.WRITE_MULTIPLE_REGISTERS then some (gWriteMultipleRegisters E)
  else if functionCode = defines.MASK_WRITE_REGISTER then some (gMaskWriteRegister E)
  else if functionCode = defines.READ_WRITE_MULTIPLE_REGISTERS then some (gReadWriteMultipleRegisters E)
  else none

/-- the part of the `try` block after the function code is known, modbus.py:746-769 -/
def gDispatch (E : Env σ V) (fc : Int) (pdu : Bytes) (broadcast : Bool) : PyM σ Bytes :=
  match gFnCodeMap E fc with
  | none => PyM.raise (.modbusError defines.ILLEGAL_FUNCTION)
  | some f =>
    if broadcast ∧ cantBeBroadcasted fc then PyM.raise .invalidRequest
    else do
      let responsePdu ← f pdu
      if responsePdu ≠ [] then
        if broadcast then do
          E.hook_ "modbus.Slave.on_handle_broadcast" (.msg responsePdu)
          return []
        else do
          let hd ← PyM.lift (structPack (be [Code.B]) [fc])
          return hd ++ responsePdu
      else PyM.raise .generic

/-- `Slave.handle_request`, modbus.py:731-774, see `handleRequest` -/
def gHandleRequest (E : Env σ V) (pdu : Bytes) (broadcast : Bool) : PyM σ Bytes := fun s =>
  match E.hook "modbus.Slave.handle_request" (.msg pdu) s with
  | (.error (.modbusError _), s') => (.error .unboundLocal, s')
  | (.error e, s') => (.error e, s')
  | (.ok (some retval), s') => (.ok retval, s')
  | (.ok none, s') =>
    (do
      let fc ← PyM.lift (unpackSingle Code.B (slice pdu 0 1))
      PyM.tryExcept (gDispatch E fc pdu broadcast) (fun e =>
        match e with
        | .modbusError code => do
            E.hook_ "modbus.Slave.on_exception" (.exc (.modbusError code) pdu)
            PyM.lift (structPack (be [Code.B, Code.B]) [fc + 128, code])
        | e => PyM.raise e)) s'

/-- integers in the cells, hooks that do not act: the simplification of `Model/Slave.lean` -/
def intEnv (R : Registry) (sl : Slave) : Env Heap Int where
  unsigned := sl.unsigned
  hook := fun name a => PyM.lift (callHooks R name a)
  locate := getBlockAndOffset sl
  slice := getSlice
  item := getItem
  assign := setItem R
  cell := fun n => n
  truth := fun n => decide (n ≠ 0)
  pack := fun c n => structPack (be [c]) [n]
  mask := fun n a o => .ok (pyOr (pyAnd n a) (pyAnd o (pyNot a)))

/-! ## Any objects in the cells -/

/-- A Python object in a cell: an integer (a bool is one), or an object that is neither an integer nor convertible to one by `__index__` and that has no operator `&`
    for integers - a float, a string, None, a list ...; of such an object the handlers see only `bool(v)`.  `tag` tells objects apart. -/
inductive PyObj where
  | int (n : Int)
  | other (truth : Bool) (tag : Nat)
  deriving DecidableEq, Repr

/-- `bool(v)` -/
def PyObj.truth : PyObj → Bool
  | .int n => decide (n ≠ 0)
  | .other b _ => b

/-- `struct.pack(">" + code, v)`: "required argument is not an integer" -/
def PyObj.pack (c : Code) : PyObj → Except PyErr Bytes
  | .int n => structPack (be [c]) [n]
  | .other _ _ => .error .structError

/-- `(v & and_mask) | (or_mask & ~and_mask)`: "unsupported operand type(s)" -/
def PyObj.mask (a o : Int) : PyObj → Except PyErr Int
  | .int n => .ok (pyOr (pyAnd n a) (pyAnd o (pyNot a)))
  | .other _ _ => .error .typeError

/-- `ModbusBlock`, modbus.py:428-437 -/
structure OBlock where
  start : Int
  data : List PyObj
  size : Int
  deriving DecidableEq, Repr

/-- the heap, see `Heap` -/
structure OHeap where
  lists : Nat → List OBlock
  dicts : Nat → List (Int × Nat)

/-- `self._memory[block_type]` -/
def oMemRef (sl : Slave) (bt : Int) : PyM OHeap Nat := fun h =>
  match Dict.get? (h.dicts sl.mem) bt with
  | some r => (.ok r, h)
  | none => (.error .keyError, h)

/-- the loop of modbus.py:504-508 -/
def oFindBlock : List OBlock → Int → Int → Option (Nat × Int)
  | [], _, _ => none
  | b :: bs, address, length =>
    if address ≥ b.start ∧ b.size ≥ (address - b.start) + length then some (0, address - b.start)
    else (oFindBlock bs address length).map (fun p => (p.1 + 1, p.2))

/-- `Slave._get_block_and_offset`, modbus.py:502-509 -/
def oLocate (sl : Slave) (bt address length : Int) : PyM OHeap (BlockRef × Int) := do
  let r ← oMemRef sl bt
  let h ← PyM.get
  match oFindBlock (h.lists r) address length with
  | some (i, off) => return (⟨r, i⟩, off)
  | none => PyM.raise (.modbusError defines.ILLEGAL_DATA_ADDRESS)

def OHeap.block? (h : OHeap) (b : BlockRef) : Option OBlock := (h.lists b.list)[b.idx]?
def OHeap.setBlock (h : OHeap) (b : BlockRef) (blk : OBlock) : OHeap :=
  { h with lists := fun r => if r = b.list then (h.lists b.list).set b.idx blk else h.lists r }

/-- `block[i:j]`, modbus.py:450-452 -/
def oSlice (b : BlockRef) (i j : Int) : PyM OHeap (List PyObj) := fun h =>
  match h.block? b with
  | some blk => (.ok (pySlice blk.data i j), h)
  | none => (.error .indexError, h)

/-- `block[i]`, modbus.py:450-452 (negative indices as in `getItem`) -/
def oItem (b : BlockRef) (i : Int) : PyM OHeap PyObj := fun h =>
  match h.block? b with
  | some blk =>
    match if i < 0 then none else blk.data[i.toNat]? with
    | some v => (.ok v, h)
    | none => (.error .indexError, h)
  | none => (.error .indexError, h)

/-- what a hook of `ModbusBlock.setitem` sees.  Simplification: values that are not integers are passed as "an object". -/
def oHookArg (start i : Int) : List PyObj → List Int → HookArg
  | [], acc => .setitem start i acc.reverse
  | .int n :: vs, acc => oHookArg start i vs (n :: acc)
  | .other _ _ :: _, _ => .obj

/-- `block[i] = v`, modbus.py:454-457 -/
def oAssign (R : Registry) (b : BlockRef) (i : Int) (v : PyObj) : PyM OHeap Unit := fun h =>
  match h.block? b with
  | some blk =>
    match callHooks R "modbus.ModbusBlock.setitem" (oHookArg blk.start i [v] []) with
    | .error e => (.error e, h)
    | .ok _ =>
      if 0 ≤ i ∧ i < blk.data.length then (.ok (), h.setBlock b { blk with data := blk.data.set i.toNat v })
      else (.error .indexError, h)
  | none => (.error .indexError, h)

/-- `block[i:i+len(values)] = values`, modbus.py:454-457, 869 -/
def oAssignSlice (R : Registry) (b : BlockRef) (i : Int) (values : List PyObj) : PyM OHeap Unit := fun h =>
  match h.block? b with
  | some blk =>
    match callHooks R "modbus.ModbusBlock.setitem" (oHookArg blk.start i values []) with
    | .error e => (.error e, h)
    | .ok _ =>
      let lo := sliceBound blk.data.length i
      let hi := max lo (sliceBound blk.data.length (i + values.length))
      (.ok (), h.setBlock b { blk with data := blk.data.take lo ++ values ++ blk.data.drop hi })
  | none => (.error .indexError, h)

/-- objects in the cells -/
def objEnv (R : Registry) (sl : Slave) : Env OHeap PyObj where
  unsigned := sl.unsigned
  hook := fun name a => PyM.lift (callHooks R name a)
  locate := oLocate sl
  slice := oSlice
  item := oItem
  assign := oAssign R
  cell := .int
  truth := PyObj.truth
  pack := PyObj.pack
  mask := fun v a o => v.mask a o

/-- `Slave.handle_request`, modbus.py:731-774, on cells that hold objects -/
def oHandleRequest (R : Registry) (sl : Slave) (pdu : Bytes) (broadcast : Bool) : PyM OHeap Bytes := gHandleRequest (objEnv R sl) pdu broadcast

/-- `Slave._get_block`, modbus.py:834-842 -/
def oGetBlock (sl : Slave) (name : String) : PyM OHeap BlockRef := fun h =>
  match Dict.get? sl.names name with
  | none => (.error .missingKey, h)
  | some (bt, start) =>
    match Dict.get? (h.dicts sl.mem) bt with
    | none => (.error .keyError, h)
    | some r =>
      match (h.lists r).findIdx? (fun b => b.start = start) with
      | some i => (.ok ⟨r, i⟩, h)
      | none => (.error .generic, h)

/-- the value argument of `set_values`: a list or tuple of objects, or one object that is neither -/
inductive OValues where
  | seq (vs : List PyObj)
  | one (v : PyObj)
  deriving DecidableEq, Repr

/-- `Slave.set_values`, modbus.py:844-871 -/
def oSetValues (R : Registry) (name : String) (address : Int) (values : OValues) (sl : Slave) : PyM OHeap Unit := do
  let b ← oGetBlock sl name
  let h ← PyM.get
  match h.block? b with
  | none => PyM.raise .indexError
  | some blk =>
    let offset := address - blk.start
    let size : Int := match values with | .seq vs => vs.length | .one _ => 1
    if offset < 0 ∨ offset + size > blk.size then PyM.raise .outOfBlock
    else match values with
      | .seq vs => oAssignSlice R b offset vs
      | .one v => oAssign R b offset v

/-- `Slave.get_values`, modbus.py:873-894 -/
def oGetValues (name : String) (address : Int) (size : Int) (sl : Slave) : PyM OHeap (List PyObj) := do
  let b ← oGetBlock sl name
  let h ← PyM.get
  match h.block? b with
  | none => PyM.raise .indexError
  | some blk =>
    let offset := address - blk.start
    if offset < 0 ∨ offset + size > blk.size then PyM.raise .outOfBlock
    else if size = 1 then do
      let v ← oItem b offset
      return [v]
    else oSlice b offset (offset + size)

end Modbus
