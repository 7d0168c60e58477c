import Verif.Spec.Master
import Verif.Model.Master
/- How the functions of `Spec.Call` are called through `Master.execute`: the arguments a user passes. -/
namespace Modbus
open Spec (Call)

/-- `master.execute(slave, FUNCTION, ...)` with everything else left at its default -/
def Spec.Call.args (slave : Int) : Call → ExecArgs
  | .readCoils a q => { slave := slave, functionCode := 1, startingAddress := .int a, quantity := .int q }
  | .readDiscrete a q => { slave := slave, functionCode := 2, startingAddress := .int a, quantity := .int q }
  | .readHolding a q => { slave := slave, functionCode := 3, startingAddress := .int a, quantity := .int q }
  | .readInput a q => { slave := slave, functionCode := 4, startingAddress := .int a, quantity := .int q }
  | .writeCoil a v => { slave := slave, functionCode := 5, startingAddress := .int a, outputValue := .int v }
  | .writeRegister a v => { slave := slave, functionCode := 6, startingAddress := .int a, outputValue := .int v }
  | .readExceptionStatus => { slave := slave, functionCode := 7, startingAddress := .int 0 }
  | .diagnostic sub data => { slave := slave, functionCode := 8, startingAddress := .int sub, outputValue := .seq data }
  | .writeCoils a vs => { slave := slave, functionCode := 15, startingAddress := .int a, outputValue := .seq vs }
  | .writeRegisters a vs => { slave := slave, functionCode := 16, startingAddress := .int a, outputValue := .seq vs }
  | .readFileRecord rs => { slave := slave, functionCode := 20, startingAddress := .seq (rs.map (·.record)),
                            quantity := .seq (rs.map (·.len)), numberFile := rs.map (·.file) }
  | .maskWrite a am om => { slave := slave, functionCode := 22, startingAddress := .int a, andMask := am, orMask := om }
  | .readWrite ra rq wa vs => { slave := slave, functionCode := 23, startingAddress := .int ra, quantity := .int rq,
                                outputValue := .seq vs, writeStartingAddressFc23 := wa }
  | .deviceInfo code object => { slave := slave, functionCode := 43, startingAddress := .int 0,
                                 outputValue := .seq [code, object] }

end Modbus
