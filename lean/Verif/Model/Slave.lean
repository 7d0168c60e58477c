import Verif.Model.Hooks
/-
# Model of `ModbusBlock` and `Slave` (modbus_tk/modbus.py:428-894)

Block lists and memory dictionaries are mutable objects that can be shared (the `memory` argument of `Slave` and of
`Databank.add_slave`), so they live in an explicit heap.
-/
namespace Modbus

/-! Constants of modbus_tk/defines.py:13-43. -/
namespace defines
abbrev ILLEGAL_FUNCTION : Int := 1
abbrev ILLEGAL_DATA_ADDRESS : Int := 2
abbrev ILLEGAL_DATA_VALUE : Int := 3
abbrev SLAVE_DEVICE_FAILURE : Int := 4
abbrev RAW : Int := 0
abbrev READ_COILS : Int := 1
abbrev READ_DISCRETE_INPUTS : Int := 2
abbrev READ_HOLDING_REGISTERS : Int := 3
abbrev READ_INPUT_REGISTERS : Int := 4
abbrev WRITE_SINGLE_COIL : Int := 5
abbrev WRITE_SINGLE_REGISTER : Int := 6
abbrev READ_EXCEPTION_STATUS : Int := 7
abbrev DIAGNOSTIC : Int := 8
abbrev REPORT_SLAVE_ID : Int := 17
abbrev WRITE_MULTIPLE_COILS : Int := 15
abbrev WRITE_MULTIPLE_REGISTERS : Int := 16
abbrev READ_FILE_RECORD : Int := 20
abbrev MASK_WRITE_REGISTER : Int := 22
abbrev READ_WRITE_MULTIPLE_REGISTERS : Int := 23
abbrev DEVICE_INFO : Int := 43
abbrev COILS : Int := 1
abbrev DISCRETE_INPUTS : Int := 2
abbrev HOLDING_REGISTERS : Int := 3
abbrev ANALOG_INPUTS : Int := 4
end defines

/-- `ModbusBlock`, modbus.py:428-437.  Cell values are integers (simplification: Python stores any object). -/
structure Block where
  start : Int
  data : List Int
  /-- `self.size = len(self._data)`, set once by the constructor -/
  size : Int
  deriving DecidableEq, Repr

/-- `ModbusBlock.__init__`, modbus.py:431-437 (`[0] * size` is empty for `size <= 0`). -/
def Block.new (start size : Int) : Block :=
  { start := start, data := List.replicate size.toNat 0, size := size.toNat }

/-- `ModbusBlock.is_in`, modbus.py:439-448. -/
def Block.isIn (b : Block) (start size : Int) : Bool :=
  if start > b.start then decide (b.start + b.size > start)
  else if start < b.start then decide (start + size > b.start)
  else true

/-- The heap of shared mutable objects: block lists and memory dictionaries (`_memory`, modbus.py:475-484). -/
structure Heap where
  lists : Nat → List Block
  dicts : Nat → List (Int × Nat)
  nextList : Nat
  nextDict : Nat

/-- The empty heap. -/
def Heap.empty : Heap := ⟨fun _ => [], fun _ => [], 0, 0⟩

/-- mutate a list object in place -/
def Heap.setList (h : Heap) (r : Nat) (l : List Block) : Heap :=
  { h with lists := fun r' => if r' = r then l else h.lists r' }

/-- `Slave`, modbus.py:466-500.  The memory dictionary is a reference; the lock is modelled in `Model/Locks.lean`. -/
structure Slave where
  id : Int
  unsigned : Bool
  /-- `_blocks`: name -> (block_type, starting_address) -/
  names : List (String × (Int × Int))
  /-- reference of the `_memory` dictionary -/
  mem : Nat
  deriving DecidableEq, Repr

/-- a new default memory, modbus.py:477-482: four new empty lists in a new dictionary; returns the dictionary -/
def Heap.allocMemory (h : Heap) : Nat × Heap :=
  (h.nextDict,
   { lists := fun r => if h.nextList ≤ r ∧ r < h.nextList + 4 then [] else h.lists r
     dicts := fun d => if d = h.nextDict then
         [(defines.COILS, h.nextList), (defines.DISCRETE_INPUTS, h.nextList + 1),
          (defines.HOLDING_REGISTERS, h.nextList + 2), (defines.ANALOG_INPUTS, h.nextList + 3)]
       else h.dicts d
     nextList := h.nextList + 4
     nextDict := h.nextDict + 1 })

/-- `Slave.__init__`, modbus.py:466-500: a new memory, or the dictionary object given as `memory` -/
def Slave.new (id : Int) (unsigned : Bool) (memory : Option Nat) (h : Heap) : Slave × Heap :=
  match memory with
  | none => (⟨id, unsigned, [], h.allocMemory.1⟩, h.allocMemory.2)
  | some d => (⟨id, unsigned, [], d⟩, h)

/-- A block object: which list, which position in it.  (Positions are stable: lists change only under the lock.) -/
structure BlockRef where
  list : Nat
  idx : Nat
  deriving DecidableEq, Repr

/-- `self._memory[block_type]` (KeyError if absent). -/
def memRef (sl : Slave) (bt : Int) : PyM Heap Nat := fun h =>
  match Dict.get? (h.dicts sl.mem) bt with
  | some r => (.ok r, h)
  | none => (.error .keyError, h)

/-- the loop of modbus.py:504-508: position of the first suitable block and offset in it -/
def findBlock : List Block → Int → Int → Option (Nat × Int)
  | [], _, _ => none
  | b :: bs, address, length =>
    if address ≥ b.start ∧ b.size ≥ (address - b.start) + length then some (0, address - b.start)
    else (findBlock bs address length).map (fun p => (p.1 + 1, p.2))

/-- `Slave._get_block_and_offset`, modbus.py:502-509. -/
def getBlockAndOffset (sl : Slave) (bt address length : Int) : PyM Heap (BlockRef × Int) := do
  let r ← memRef sl bt
  let h ← PyM.get
  match findBlock (h.lists r) address length with
  | some (i, off) => return (⟨r, i⟩, off)
  | none => PyM.raise (.modbusError defines.ILLEGAL_DATA_ADDRESS)

/-- the block object behind a reference -/
def Heap.block? (h : Heap) (b : BlockRef) : Option Block := (h.lists b.list)[b.idx]?

/-- `block[i:j]` (`ModbusBlock.__getitem__` on a slice), modbus.py:450-452. -/
def getSlice (b : BlockRef) (i j : Int) : PyM Heap (List Int) := fun h =>
  match h.block? b with
  | some blk => (.ok (pySlice blk.data i j), h)
  | none => (.error .indexError, h)

/-- `block[i]` (`ModbusBlock.__getitem__` on an index), modbus.py:450-452.
    Simplification: negative indices (which Python counts from the end) are refused; no caller passes one. -/
def getItem (b : BlockRef) (i : Int) : PyM Heap Int := fun h =>
  match h.block? b with
  | some blk =>
    match if i < 0 then none else blk.data[i.toNat]? with
    | some v => (.ok v, h)
    | none => (.error .indexError, h)
  | none => (.error .indexError, h)

/-- replace the block object behind a reference -/
def Heap.setBlock (h : Heap) (b : BlockRef) (blk : Block) : Heap :=
  h.setList b.list ((h.lists b.list).set b.idx blk)

/-- `block[i] = v` (`ModbusBlock.__setitem__` on an index), modbus.py:454-457: the hook first, then the assignment. -/
def setItem (R : Registry) (b : BlockRef) (i : Int) (v : Int) : PyM Heap Unit := fun h =>
  match h.block? b with
  | some blk =>
    match callHooks R "modbus.ModbusBlock.setitem" (.setitem blk.start i [v]) with
    | .error e => (.error e, h)
    | .ok _ =>
      if 0 ≤ i ∧ i < blk.data.length then (.ok (), h.setBlock b { blk with data := blk.data.set i.toNat v })
      else (.error .indexError, h)
  | none => (.error .indexError, h)

/-- `block[i:i+len(values)] = values` (`__setitem__` on a slice), modbus.py:454-457, 869.
    Python replaces the slice by the values whatever their number; here both lengths are the same expression. -/
def setSlice (R : Registry) (b : BlockRef) (i : Int) (values : List Int) : PyM Heap Unit := fun h =>
  match h.block? b with
  | some blk =>
    match callHooks R "modbus.ModbusBlock.setitem" (.setitem blk.start i values) with
    | .error e => (.error e, h)
    | .ok _ =>
      let lo := sliceBound blk.data.length i
      let hi := max lo (sliceBound blk.data.length (i + values.length))
      (.ok (), h.setBlock b { blk with data := blk.data.take lo ++ values ++ blk.data.drop hi })
  | none => (.error .indexError, h)

/-- call a hook and ignore its answer (an exception propagates) -/
def callHook_ (R : Registry) (name : String) (a : HookArg) : PyM Heap Unit := do
  let _ ← PyM.lift (callHooks R name a)
  return ()

/-- `q // 8`, plus one if `q % 8 > 0` (modbus.py:524-526, 676-678; also 169-171, 243-245). -/
def byteCount (q : Int) : Int := if q % 8 > 0 then q / 8 + 1 else q / 8

/-- the bit-packing loop of `_read_digital`, modbus.py:531-546: `i` is the bit position, `bv` the byte under
    construction, `acc` the response so far.  The last, incomplete byte is packed with "B" or "b". -/
def packBitsLoop (unsigned : Bool) : List Int → (i bv : Nat) → Bytes → Except PyErr Bytes
  | [], i, bv, acc =>
    if i > 0 then do
      let x ← structPack (be [if unsigned then Code.B else Code.b]) [(bv : Int)]
      return acc ++ x
    else .ok acc
  | coil :: coils, i, bv, acc =>
    let bv' := if coil ≠ 0 then bv + 1 <<< i else bv
    if i ≥ 7 then do
      let x ← structPack (be [Code.B]) [(bv' : Int)]
      packBitsLoop unsigned coils 0 0 (acc ++ x)
    else packBitsLoop unsigned coils (i + 1) bv' acc

/-- `Slave._read_digital`, modbus.py:511-547. -/
def readDigital (sl : Slave) (bt : Int) (pdu : Bytes) : PyM Heap Bytes := do
  match ← PyM.lift (structUnpack (be [Code.H, Code.H]) (slice pdu 1 5)) with
  | [startingAddress, quantity] =>
    if quantity ≤ 0 ∨ quantity > 2000 then PyM.raise (.modbusError defines.ILLEGAL_DATA_VALUE)
    else do
      let (block, offset) ← getBlockAndOffset sl bt startingAddress quantity
      let values ← getSlice block offset (offset + quantity)
      let header ← PyM.lift (structPack (be [Code.B]) [byteCount quantity])
      PyM.lift (packBitsLoop sl.unsigned values 0 0 header)
  | _ => PyM.raise .structError -- unreachable: two codes give two values

/-- `"H" if self.unsigned else "h"` -/
def regCode (sl : Slave) : Code := if sl.unsigned then Code.H else Code.h

/-- the loop of modbus.py:577-579 / 618-620: append every register -/
def packRegsLoop (c : Code) : List Int → Bytes → Except PyErr Bytes
  | [], acc => .ok acc
  | v :: vs, acc => do
      let x ← structPack (be [c]) [v]
      packRegsLoop c vs (acc ++ x)

/-- `Slave._read_registers`, modbus.py:559-580. -/
def readRegisters (sl : Slave) (bt : Int) (pdu : Bytes) : PyM Heap Bytes := do
  match ← PyM.lift (structUnpack (be [Code.H, Code.H]) (slice pdu 1 5)) with
  | [startingAddress, quantity] =>
    if quantity ≤ 0 ∨ quantity > 125 then PyM.raise (.modbusError defines.ILLEGAL_DATA_VALUE)
    else do
      let (block, offset) ← getBlockAndOffset sl bt startingAddress quantity
      let values ← getSlice block offset (offset + quantity)
      let header ← PyM.lift (structPack (be [Code.B]) [2 * quantity])
      PyM.lift (packRegsLoop (regCode sl) values header)
  | _ => PyM.raise .structError -- unreachable

/-- `Slave._read_coils`, modbus.py:549-552. -/
def readCoils (R : Registry) (sl : Slave) (pdu : Bytes) : PyM Heap Bytes := do
  callHook_ R "modbus.Slave.handle_read_coils_request" (.msg pdu)
  readDigital sl defines.COILS pdu

/-- `Slave._read_discrete_inputs`, modbus.py:554-557. -/
def readDiscreteInputs (R : Registry) (sl : Slave) (pdu : Bytes) : PyM Heap Bytes := do
  callHook_ R "modbus.Slave.handle_read_discrete_inputs_request" (.msg pdu)
  readDigital sl defines.DISCRETE_INPUTS pdu

/-- `Slave._read_holding_registers`, modbus.py:582-585. -/
def readHoldingRegisters (R : Registry) (sl : Slave) (pdu : Bytes) : PyM Heap Bytes := do
  callHook_ R "modbus.Slave.handle_read_holding_registers_request" (.msg pdu)
  readRegisters sl defines.HOLDING_REGISTERS pdu

/-- `Slave._read_input_registers`, modbus.py:587-590. -/
def readInputRegisters (R : Registry) (sl : Slave) (pdu : Bytes) : PyM Heap Bytes := do
  callHook_ R "modbus.Slave.handle_read_input_registers_request" (.msg pdu)
  readRegisters sl defines.ANALOG_INPUTS pdu

/-- `Slave._read_exception_status`, modbus.py:592-596. -/
def readExceptionStatus (R : Registry) (_sl : Slave) (pdu : Bytes) : PyM Heap Bytes := do
  callHook_ R "modbus.Slave.handle_read_exception_status_request" (.msg pdu)
  PyM.lift (structPack (be [Code.B]) [0])

/-- `struct.unpack(">"+fmt, data)[0]` for a single code -/
def unpackSingle (c : Code) (data : Bytes) : Except PyErr Int :=
  match structUnpack (be [c]) data with
  | .ok (v :: _) => .ok v
  | .ok [] => .error .indexError -- unreachable
  | .error e => .error e

/-- the loop of modbus.py:662-666 / 630-634: `for i in range(quantity)`, reading at `base+2*i` in the pdu.
    `n` iterations remain, the loop variable is `i`, the result is `count`. -/
def writeRegsLoop (R : Registry) (c : Code) (block : BlockRef) (offset : Int) (pdu : Bytes) (base : Nat) :
    (n i : Nat) → (count : Int) → PyM Heap Int
  | 0, _, count => return count
  | n+1, i, count => do
      let v ← PyM.lift (unpackSingle c (slice pdu (base + 2*i) (base + 2 + 2*i)))
      setItem R block (offset + i) v
      writeRegsLoop R c block offset pdu base n (i+1) (count + 1)

/-- `Slave._read_write_multiple_registers`, modbus.py:598-636. -/
def readWriteMultipleRegisters (R : Registry) (sl : Slave) (pdu : Bytes) : PyM Heap Bytes := do
  callHook_ R "modbus.Slave.handle_read_write_multiple_registers_request" (.msg pdu)
  match ← PyM.lift (structUnpack (be [Code.H, Code.H, Code.H, Code.H, Code.B]) (slice pdu 1 10)) with
  | [readAddress, readQuantity, writeAddress, writeQuantity, writeByteCount] =>
    -- read part
    if readQuantity ≤ 0 ∨ readQuantity > 125 then PyM.raise (.modbusError defines.ILLEGAL_DATA_VALUE)
    else do
      let (block, offset) ← getBlockAndOffset sl defines.HOLDING_REGISTERS readAddress readQuantity
      let values ← getSlice block offset (offset + readQuantity)
      let header ← PyM.lift (structPack (be [Code.B]) [2 * readQuantity])
      let response ← PyM.lift (packRegsLoop (regCode sl) values header)
      -- write part
      if writeQuantity ≤ 0 ∨ writeQuantity > 123 ∨ writeByteCount ≠ writeQuantity * 2 then
        PyM.raise (.modbusError defines.ILLEGAL_DATA_VALUE)
      else do
        let (wblock, woffset) ← getBlockAndOffset sl defines.HOLDING_REGISTERS writeAddress writeQuantity
        let _ ← writeRegsLoop R (regCode sl) wblock woffset pdu 10 writeQuantity.toNat 0 0
        return response
  | _ => PyM.raise .structError -- unreachable

/-- `Slave._mask_write_register`, modbus.py:638-647. -/
def maskWriteRegister (R : Registry) (sl : Slave) (pdu : Bytes) : PyM Heap Bytes := do
  callHook_ R "modbus.Slave.handle_mask_write_register_request" (.msg pdu)
  match ← PyM.lift (structUnpack (be [Code.H, Code.H, Code.H]) (slice pdu 1 7)) with
  | [dataAddress, andMask, orMask] => do
      let (block, offset) ← getBlockAndOffset sl defines.HOLDING_REGISTERS dataAddress 1
      let cur ← getItem block offset
      setItem R block offset (pyOr (pyAnd cur andMask) (pyAnd orMask (pyNot andMask)))
      return pdu.drop 1
  | _ => PyM.raise .structError -- unreachable

/-- `Slave._write_multiple_registers`, modbus.py:649-668. -/
def writeMultipleRegisters (R : Registry) (sl : Slave) (pdu : Bytes) : PyM Heap Bytes := do
  callHook_ R "modbus.Slave.handle_write_multiple_registers_request" (.msg pdu)
  match ← PyM.lift (structUnpack (be [Code.H, Code.H, Code.B]) (slice pdu 1 6)) with
  | [startingAddress, quantity, byteCnt] =>
    if quantity ≤ 0 ∨ quantity > 123 ∨ byteCnt ≠ quantity * 2 then
      PyM.raise (.modbusError defines.ILLEGAL_DATA_VALUE)
    else do
      let (block, offset) ← getBlockAndOffset sl defines.HOLDING_REGISTERS startingAddress quantity
      let count ← writeRegsLoop R (regCode sl) block offset pdu 6 quantity.toNat 0 0
      PyM.lift (structPack (be [Code.H, Code.H]) [startingAddress, count])
  | _ => PyM.raise .structError -- unreachable

/-- the inner loop of modbus.py:693-702 over the remaining values of `j` -/
def writeCoilsInner (R : Registry) (block : BlockRef) (offset quantity byteValue : Int) (i : Nat) :
    List Nat → (count : Int) → PyM Heap Int
  | [], count => return count
  | j :: js, count =>
    if count ≥ quantity then return count -- break
    else do
      setItem R block (offset + i*8 + j) (if pyBit byteValue j then 1 else 0)
      writeCoilsInner R block offset quantity byteValue i js (count + 1)

/-- the outer loop of modbus.py:687-702 over the remaining values of `i` -/
def writeCoilsOuter (R : Registry) (c : Code) (block : BlockRef) (offset quantity : Int) (pdu : Bytes) :
    List Nat → (count : Int) → PyM Heap Int
  | [], count => return count
  | i :: is, count =>
    if count ≥ quantity then return count -- break
    else do
      let byteValue ← PyM.lift (unpackSingle c (slice pdu (6+i) (7+i)))
      let count' ← writeCoilsInner R block offset quantity byteValue i (List.range 8) count
      writeCoilsOuter R c block offset quantity pdu is count'

/-- `Slave._write_multiple_coils`, modbus.py:670-703. -/
def writeMultipleCoils (R : Registry) (sl : Slave) (pdu : Bytes) : PyM Heap Bytes := do
  callHook_ R "modbus.Slave.handle_write_multiple_coils_request" (.msg pdu)
  match ← PyM.lift (structUnpack (be [Code.H, Code.H, Code.B]) (slice pdu 1 6)) with
  | [startingAddress, quantity, byteCnt] =>
    if quantity ≤ 0 ∨ quantity > 1968 ∨ byteCnt ≠ byteCount quantity then
      PyM.raise (.modbusError defines.ILLEGAL_DATA_VALUE)
    else do
      let (block, offset) ← getBlockAndOffset sl defines.COILS startingAddress quantity
      let count ← writeCoilsOuter R (if sl.unsigned then Code.B else Code.b) block offset quantity pdu
        (List.range byteCnt.toNat) 0
      PyM.lift (structPack (be [Code.H, Code.H]) [startingAddress, count])
  | _ => PyM.raise .structError -- unreachable

/-- `Slave._write_single_register`, modbus.py:705-714. -/
def writeSingleRegister (R : Registry) (sl : Slave) (pdu : Bytes) : PyM Heap Bytes := do
  callHook_ R "modbus.Slave.handle_write_single_register_request" (.msg pdu)
  match ← PyM.lift (structUnpack (be [Code.H, regCode sl]) (slice pdu 1 5)) with
  | [dataAddress, value] => do
      let (block, offset) ← getBlockAndOffset sl defines.HOLDING_REGISTERS dataAddress 1
      setItem R block offset value
      return pdu.drop 1
  | _ => PyM.raise .structError -- unreachable

/-- `Slave._write_single_coil`, modbus.py:716-729. -/
def writeSingleCoil (R : Registry) (sl : Slave) (pdu : Bytes) : PyM Heap Bytes := do
  callHook_ R "modbus.Slave.handle_write_single_coil_request" (.msg pdu)
  match ← PyM.lift (structUnpack (be [Code.H, Code.H]) (slice pdu 1 5)) with
  | [dataAddress, value] => do
      let (block, offset) ← getBlockAndOffset sl defines.COILS dataAddress 1
      if value = 0 then setItem R block offset 0
      else if value = 0xff00 then setItem R block offset 1
      else PyM.raise (.modbusError defines.ILLEGAL_DATA_VALUE)
      return pdu.drop 1
  | _ => PyM.raise .structError -- unreachable

/-- `_fn_code_map`, modbus.py:488-500. -/
def fnCodeMap (R : Registry) (sl : Slave) (functionCode : Int) : Option (Bytes → PyM Heap Bytes) :=
  if functionCode = defines.READ_COILS then some (readCoils R sl)
  else if functionCode = defines.READ_DISCRETE_INPUTS then some (readDiscreteInputs R sl)
  else if functionCode = defines.READ_INPUT_REGISTERS then some (readInputRegisters R sl)
  else if functionCode = defines.READ_HOLDING_REGISTERS then some (readHoldingRegisters R sl)
  else if functionCode = defines.READ_EXCEPTION_STATUS then some (readExceptionStatus R sl)
  else if functionCode = defines.WRITE_SINGLE_COIL then some (writeSingleCoil R sl)
  else if functionCode = defines.WRITE_SINGLE_REGISTER then some (writeSingleRegister R sl)
  else if functionCode = defines.WRITE_MULTIPLE_COILS then some (writeMultipleCoils R sl)
  else if functionCode = defines.WRITE_MULTIPLE_REGISTERS then some (writeMultipleRegisters R sl)
  else if functionCode = defines.MASK_WRITE_REGISTER then some (maskWriteRegister R sl)
  else if functionCode = defines.READ_WRITE_MULTIPLE_REGISTERS then some (readWriteMultipleRegisters R sl)
  else none

/-- `cant_be_broadcasted`, modbus.py:751-756. -/
def cantBeBroadcasted (fc : Int) : Bool :=
  fc = defines.READ_COILS ∨ fc = defines.READ_DISCRETE_INPUTS ∨ fc = defines.READ_INPUT_REGISTERS
    ∨ fc = defines.READ_HOLDING_REGISTERS

/-- the part of the `try` block after the function code is known, modbus.py:746-769 -/
def dispatch (R : Registry) (sl : Slave) (fc : Int) (pdu : Bytes) (broadcast : Bool) : PyM Heap Bytes :=
  match fnCodeMap R sl fc with
  | none => PyM.raise (.modbusError defines.ILLEGAL_FUNCTION)
  | some f =>
    if broadcast ∧ cantBeBroadcasted fc then PyM.raise .invalidRequest
    else do
      let responsePdu ← f pdu
      if responsePdu ≠ [] then
        if broadcast then do
          callHook_ R "modbus.Slave.on_handle_broadcast" (.msg responsePdu)
          return []
        else do
          let hd ← PyM.lift (structPack (be [Code.B]) [fc])
          return hd ++ responsePdu
      else PyM.raise .generic

/-- `Slave.handle_request`, modbus.py:731-774.  `return ""` is the empty byte string.
    If the `handle_request` hook itself raises ModbusError the handler refers to the still unbound `function_code`
    (UnboundLocalError).  `function_code + 128` above 255 makes `struct.pack` raise inside the handler. -/
def handleRequest (R : Registry) (sl : Slave) (pdu : Bytes) (broadcast : Bool) : PyM Heap Bytes := do
  match callHooks R "modbus.Slave.handle_request" (.msg pdu) with
  | .error (.modbusError _) => PyM.raise .unboundLocal
  | .error e => PyM.raise e
  | .ok (some retval) => return retval
  | .ok none =>
    let fc ← PyM.lift (unpackSingle Code.B (slice pdu 0 1))
    PyM.tryExcept (dispatch R sl fc pdu broadcast) (fun e =>
      match e with
      | .modbusError code => do
          callHook_ R "modbus.Slave.on_exception" (.exc (.modbusError code) pdu)
          PyM.lift (structPack (be [Code.B, Code.B]) [fc + 128, code])
      | e => PyM.raise e)

/-! ## The block API of a slave -/

/-- a slave object together with the heap it lives in -/
structure SlaveSt where
  sl : Slave
  heap : Heap

/-- run a heap computation on a slave state -/
def onHeap {α} (f : Slave → PyM Heap α) : PyM SlaveSt α := fun s =>
  let r := f s.sl s.heap
  (r.1, { s with heap := r.2 })

/-- the loop of modbus.py:795-804: returns the insertion index, or none for an overlap -/
def insertionIndex : List Block → (i : Nat) → Int → Int → Option Nat
  | [], _, _, _ => some 0
  | b :: bs, i, start, size =>
    if b.isIn start size then none
    else if b.start > start then some i
    else insertionIndex bs (i+1) start size

/-- `Slave.add_block`, modbus.py:776-809. -/
def addBlock (name : String) (bt start size : Int) : PyM SlaveSt Unit := fun s =>
  if size ≤ 0 then (.error .invalidArgument, s)
  else if start < 0 then (.error .invalidArgument, s)
  else if Dict.has s.sl.names name then (.error .duplicatedKey, s)
  else
    match Dict.get? (s.heap.dicts s.sl.mem) bt with
    | none => (.error .invalidModbusBlock, s)
    | some r =>
      match insertionIndex (s.heap.lists r) 0 start size with
      | none => (.error .overlapBlock, s)
      | some i =>
        (.ok (), { sl := { s.sl with names := Dict.set s.sl.names name (bt, start) },
                   heap := s.heap.setList r ((s.heap.lists r).insertIdx i (Block.new start size)) })

/-- `Slave._get_block`, modbus.py:834-842.  `self._memory[block_type]` may raise KeyError. -/
def getBlock (sl : Slave) (name : String) : PyM Heap BlockRef := fun h =>
  match Dict.get? sl.names name with
  | none => (.error .missingKey, h)
  | some (bt, start) =>
    match Dict.get? (h.dicts sl.mem) bt with
    | none => (.error .keyError, h)
    | some r =>
      match (h.lists r).findIdx? (fun b => b.start = start) with
      | some i => (.ok ⟨r, i⟩, h)
      | none => (.error .generic, h)

/-- `Slave.remove_block`, modbus.py:811-822.  `list.remove(block)` removes the object found by `_get_block`
    (ModbusBlock has no `__eq__`, so equality is identity). -/
def removeBlock (name : String) : PyM SlaveSt Unit := fun s =>
  match getBlock s.sl name s.heap with
  | (.error e, _) => (.error e, s)
  | (.ok b, _) =>
    (.ok (), { sl := { s.sl with names := Dict.erase s.sl.names name },
               heap := s.heap.setList b.list ((s.heap.lists b.list).eraseIdx b.idx) })

/-- `Slave.remove_all_blocks`, modbus.py:824-832: every key of the (possibly shared) dictionary gets a *new* list. -/
def removeAllBlocks : PyM SlaveSt Unit := fun s =>
  let keys := (s.heap.dicts s.sl.mem).map Prod.fst
  let fresh := keys.zipIdx.map (fun p => (p.1, s.heap.nextList + p.2))
  (.ok (), { sl := { s.sl with names := [] },
             heap := { s.heap with
               lists := fun r => if s.heap.nextList ≤ r ∧ r < s.heap.nextList + keys.length then [] else s.heap.lists r
               dicts := fun d => if d = s.sl.mem then fresh else s.heap.dicts d
               nextList := s.heap.nextList + keys.length } })

/-- the value argument of `set_values`: a list/tuple or a single number -/
inductive Values where
  | seq (vs : List Int)
  | one (v : Int)
  deriving DecidableEq, Repr

/-- `Slave.set_values`, modbus.py:844-871. -/
def setValues (R : Registry) (name : String) (address : Int) (values : Values) (sl : Slave) : PyM Heap Unit := do
  let b ← getBlock sl name
  let h ← PyM.get
  match h.block? b with
  | none => PyM.raise .indexError -- unreachable: the reference was just found
  | some blk =>
    let offset := address - blk.start
    let size : Int := match values with | .seq vs => vs.length | .one _ => 1
    if offset < 0 ∨ offset + size > blk.size then PyM.raise .outOfBlock
    else match values with
      | .seq vs => setSlice R b offset vs
      | .one v => setItem R b offset v

/-- `Slave.get_values`, modbus.py:873-894. -/
def getValues (name : String) (address : Int) (size : Int) (sl : Slave) : PyM Heap (List Int) := do
  let b ← getBlock sl name
  let h ← PyM.get
  match h.block? b with
  | none => PyM.raise .indexError -- unreachable
  | some blk =>
    let offset := address - blk.start
    if offset < 0 ∨ offset + size > blk.size then PyM.raise .outOfBlock
    else if size = 1 then do
      let v ← getItem b offset
      return [v]
    else getSlice b offset (offset + size)

end Modbus
