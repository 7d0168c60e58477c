import Verif.Model.TcpMaster
/-
# Model of `PyModbusClientTCP` (modbus_tk/pymodbusclient.py), Python 3

The object has one attribute, `client` (a `TcpMaster`); the state is that of the master.  The transport is a parameter
(`tcpChan` for the real one).  The constructor, lines 7-8, makes a master that is not opened.
-/
namespace Modbus

variable {σ : Type}

/-- The object made by `map(f, xs)` in Python 3: nothing is computed before it is iterated over.  `callable` says that
    `f` can be called. -/
structure MapObj where
  callable : Bool
  items : List Int
  deriving DecidableEq, Repr

/-- `list(m)`, or any other iteration up to the end, for `m = map(f, xs)`: `None(x)` is a TypeError.  (For a callable `f` the
    result is not modelled: the code has only `f = None`.) -/
def MapObj.toList (m : MapObj) : Except PyErr (List Int) :=
  match m.items with
  | [] => .ok []
  | _ :: _ => if m.callable then .ok m.items else .error .typeError

/-- `map(None, ret)` for the result of an execute: the values of a read function.  (`raw` and `records` are not returned for the function
    codes used here; `map` of them would have other items.) -/
def mapNone : ExecResult → MapObj
  | .values vs => ⟨false, vs⟩
  | .raw d => ⟨false, d.map (fun b => (b.toNat : Int))⟩
  | .records rs => ⟨false, rs.map (fun _ => 0)⟩

/-- `PyModbusClientTCP.open`, pymodbusclient.py:10-12. -/
def pyOpen (ch : Chan σ) : PyM (MasterSt σ) Bool := do
  masterOpen ch
  return true

/-- `PyModbusClientTCP.is_open`, pymodbusclient.py:14-15. -/
def pyIsOpen (s : MasterSt σ) : Bool := s.isOpened

/-- `PyModbusClientTCP.read_input_registers`, pymodbusclient.py:17-21. -/
def pyReadInputRegisters (R : Registry) (ch : Chan σ) (register num : Int) : PyM (MasterSt σ) MapObj := do
  let ret ← execute R tcpMac ch
    { slave := some 1, functionCode := defines.READ_INPUT_REGISTERS, startingAddress := .int register, quantity := .int num }
  return mapNone ret

/-- `PyModbusClientTCP.write_single_register`, pymodbusclient.py:23-25. -/
def pyWriteSingleRegister (R : Registry) (ch : Chan σ) (register word : Int) : PyM (MasterSt σ) Bool := do
  let _ ← execute R tcpMac ch
    { slave := some 1, functionCode := defines.WRITE_SINGLE_REGISTER, startingAddress := .int register, outputValue := .int word }
  return true

/-- `PyModbusClientTCP.write_single_coil`, pymodbusclient.py:27-28 (`num` is not used; the result is None). -/
def pyWriteSingleCoil (R : Registry) (ch : Chan σ) (coil value : Int) : PyM (MasterSt σ) Unit := do
  let _ ← execute R tcpMac ch
    { slave := some 1, functionCode := defines.WRITE_SINGLE_COIL, startingAddress := .int coil, outputValue := .int value }
  return ()

/-- `PyModbusClientTCP.read_coils`, pymodbusclient.py:30-35: the class and its objects have no attribute `coils`. -/
def pyReadCoils (R : Registry) (ch : Chan σ) (bitAddr bitNumber : Int) : PyM (MasterSt σ) MapObj := do
  let _ ← execute R tcpMac ch
    { slave := some 1, functionCode := defines.READ_COILS, startingAddress := .int bitAddr, quantity := .int bitNumber }
  PyM.raise .attributeError

/-- `PyModbusClientTCP.read_discrete_inputs`, pymodbusclient.py:37-41. -/
def pyReadDiscreteInputs (R : Registry) (ch : Chan σ) (bitAddr bitNumber : Int) : PyM (MasterSt σ) MapObj := do
  let registers ← execute R tcpMac ch
    { slave := some 1, functionCode := defines.READ_DISCRETE_INPUTS, startingAddress := .int bitAddr, quantity := .int bitNumber }
  return mapNone registers

/-- `PyModbusClientTCP.close`, pymodbusclient.py:47-49. -/
def pyClose (ch : Chan σ) : PyM (MasterSt σ) Bool := do
  masterClose ch
  return true

end Modbus
