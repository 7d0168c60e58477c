import Verif.Model.Databank
import Verif.Model.TcpMaster
import Verif.Model.TcpServer
import Verif.Model.Rtu
/-
# The library uses the registered hooks only through `call_hooks`

If two registries answer every call of `call_hooks` alike, every function of the library behaves alike.
-/
namespace Modbus

variable {R R' : Registry}

theorem callHook__congr (h : callHooks R = callHooks R') : callHook_ R = callHook_ R' := by
  funext n a; simp only [callHook_, h]

theorem setItem_congr (h : callHooks R = callHooks R') : setItem R = setItem R' := by
  funext b i v s; simp only [setItem, h]

theorem setSlice_congr (h : callHooks R = callHooks R') : setSlice R = setSlice R' := by
  funext b i v s; simp only [setSlice, h]

theorem writeRegsLoop_congr (h : callHooks R = callHooks R') : writeRegsLoop R = writeRegsLoop R' := by
  funext c b off pdu base n
  induction n with
  | zero => rfl
  | succ n ih => funext i count; simp only [writeRegsLoop, setItem_congr h, ih]

theorem writeCoilsInner_congr (h : callHooks R = callHooks R') : writeCoilsInner R = writeCoilsInner R' := by
  funext b off q bv i js
  induction js with
  | nil => rfl
  | cons j js ih => funext count; simp only [writeCoilsInner, setItem_congr h, ih]

theorem writeCoilsOuter_congr (h : callHooks R = callHooks R') : writeCoilsOuter R = writeCoilsOuter R' := by
  funext c b off q pdu is
  induction is with
  | nil => rfl
  | cons i is ih => funext count; simp only [writeCoilsOuter, writeCoilsInner_congr h, ih]

theorem fnCodeMap_congr (h : callHooks R = callHooks R') : fnCodeMap R = fnCodeMap R' := by
  funext sl fc
  have h1 := callHook__congr h
  have h2 := setItem_congr h
  have h3 := writeRegsLoop_congr h
  have h4 := writeCoilsOuter_congr h
  have e1 : readCoils R = readCoils R' := by funext sl pdu; simp only [readCoils, h1]
  have e2 : readDiscreteInputs R = readDiscreteInputs R' := by funext sl pdu; simp only [readDiscreteInputs, h1]
  have e3 : readHoldingRegisters R = readHoldingRegisters R' := by funext sl pdu; simp only [readHoldingRegisters, h1]
  have e4 : readInputRegisters R = readInputRegisters R' := by funext sl pdu; simp only [readInputRegisters, h1]
  have e5 : readExceptionStatus R = readExceptionStatus R' := by funext sl pdu; simp only [readExceptionStatus, h1]
  have e6 : readWriteMultipleRegisters R = readWriteMultipleRegisters R' := by
    funext sl pdu; simp only [readWriteMultipleRegisters, h1, h3]
  have e7 : maskWriteRegister R = maskWriteRegister R' := by funext sl pdu; simp only [maskWriteRegister, h1, h2]
  have e8 : writeMultipleRegisters R = writeMultipleRegisters R' := by
    funext sl pdu; simp only [writeMultipleRegisters, h1, h3]
  have e9 : writeMultipleCoils R = writeMultipleCoils R' := by funext sl pdu; simp only [writeMultipleCoils, h1, h4]
  have e10 : writeSingleRegister R = writeSingleRegister R' := by funext sl pdu; simp only [writeSingleRegister, h1, h2]
  have e11 : writeSingleCoil R = writeSingleCoil R' := by funext sl pdu; simp only [writeSingleCoil, h1, h2]
  simp only [fnCodeMap, e1, e2, e3, e4, e5, e6, e7, e8, e9, e10, e11]

theorem handleRequest_congr (h : callHooks R = callHooks R') : handleRequest R = handleRequest R' := by
  funext sl pdu b
  have e : dispatch R = dispatch R' := by
    funext sl fc pdu b; simp only [dispatch, fnCodeMap_congr h, callHook__congr h]
  simp only [handleRequest, h, e, callHook__congr h]

theorem setValues_congr (h : callHooks R = callHooks R') : setValues R = setValues R' := by
  funext n a v sl; simp only [setValues, setItem_congr h, setSlice_congr h]

theorem broadcastLoop_congr (h : callHooks R = callHooks R') : broadcastLoop R = broadcastLoop R' := by
  funext pdu l
  induction l with
  | nil => rfl
  | cons p l ih => obtain ⟨i, sl⟩ := p; simp only [broadcastLoop, handleRequest_congr h, ih]

theorem dbExcept_congr (h : callHooks R = callHooks R') : dbExcept R = dbExcept R' := by
  funext pdu e; cases e <;> simp only [dbExcept, callHook__congr h]

theorem dbHandle_congr (h : callHooks R = callHooks R') : dbHandle R = dbHandle R' := by
  funext mac db request
  have e : dbBody R = dbBody R' := by
    funext mac db q i pdu; simp only [dbBody, broadcastLoop_congr h, handleRequest_congr h]
  simp only [dbHandle, e, dbExcept_congr h]

theorem serverHandle_congr (h : callHooks R = callHooks R') : serverHandle R = serverHandle R' := by
  funext mac db request; simp only [serverHandle, h, dbHandle_congr h]

theorem execute_congr {σ : Type} (h : callHooks R = callHooks R') (mac : Mac) (ch : Chan σ) : execute R mac ch = execute R' mac ch := by
  funext a; simp only [execute, h]

theorem tcpDoOpen_congr (h : callHooks R = callHooks R') : tcpDoOpen R = tcpDoOpen R' := by
  funext s; simp only [tcpDoOpen, h]

theorem tcpDoClose_congr (h : callHooks R = callHooks R') : tcpDoClose R = tcpDoClose R' := by
  funext s; simp only [tcpDoClose, h]

theorem tcpSend_congr (h : callHooks R = callHooks R') : tcpSend R = tcpSend R' := by
  funext r; simp only [tcpSend, h, tcpDoOpen_congr h]

theorem tcpChan_congr (h : callHooks R = callHooks R') : tcpChan R = tcpChan R' := by
  have e : tcpRecv R = tcpRecv R' := by funext n; simp only [tcpRecv, h]
  simp only [tcpChan, tcpDoOpen_congr h, tcpDoClose_congr h, tcpSend_congr h, e]

theorem rtuOverTcpChan_congr (h : callHooks R = callHooks R') : rtuOverTcpChan R = rtuOverTcpChan R' := by
  have e : rtuOverTcpRecv R = rtuOverTcpRecv R' := by funext n; simp only [rtuOverTcpRecv, h]
  simp only [rtuOverTcpChan, tcpDoOpen_congr h, tcpDoClose_congr h, tcpSend_congr h, e]

theorem rtuChan_congr (h : callHooks R = callHooks R') : rtuChan R = rtuChan R' := by
  funext cfg
  have e1 : rtuDoOpen R = rtuDoOpen R' := by funext s; simp only [rtuDoOpen, h]
  have e2 : rtuDoClose R = rtuDoClose R' := by funext s; simp only [rtuDoClose, h]
  have e3 : rtuSend R = rtuSend R' := by funext c r; simp only [rtuSend, h]
  have e4 : rtuRecv R = rtuRecv R' := by funext c n; simp only [rtuRecv, h]
  simp only [rtuChan, e1, e2, e3, e4]

theorem rtuRun_congr (h : callHooks R = callHooks R') : rtuRun R = rtuRun R' := by
  funext db
  have e1 : rtuAnswer R = rtuAnswer R' := by funext db r; simp only [rtuAnswer, h, serverHandle_congr h]
  have e2 : rtuBody R = rtuBody R' := by funext db; simp only [rtuBody, e1]
  simp only [rtuRun, e2, h]

theorem rtuRuns_congr (h : callHooks R = callHooks R') : rtuRuns R = rtuRuns R' := by
  funext db n
  induction n with
  | zero => rfl
  | succ n ih => simp only [rtuRuns, rtuRun_congr h, ih]

theorem rtuInit_congr (h : callHooks R = callHooks R') : rtuInit R = rtuInit R' := by
  funext s; simp only [rtuInit, h]

theorem rtuExit_congr (h : callHooks R = callHooks R') : rtuExit R = rtuExit R' := by
  funext s; simp only [rtuExit, h]

theorem srvClient_congr (h : callHooks R = callHooks R') : srvClient R = srvClient R' := by
  funext db t
  have e1 : srvSend R = srvSend R' := by funext r; simp only [srvSend, h]
  have e2 : srvAnswer R = srvAnswer R' := by funext db r; simp only [srvAnswer, serverHandle_congr h, e1]
  simp only [srvClient, h, e2]

theorem srvLoop_congr (h : callHooks R = callHooks R') : srvLoop R = srvLoop R' := by
  have e1 : srvAccept R = srvAccept R' := by funext acc s; simp only [srvAccept, h]
  have e2 : srvOne R = srvOne R' := by funext db acc i s; simp only [srvOne, e1, srvClient_congr h]
  funext db acc l
  induction l with
  | nil => rfl
  | cons i l ih => funext s; simp only [srvLoop, e2, h, ih]

theorem srvRun_congr (h : callHooks R = callHooks R') : srvRun R = srvRun R' := by
  funext db rd s; simp only [srvRun, srvLoop_congr h]

theorem srvRounds_congr (h : callHooks R = callHooks R') : srvRounds R = srvRounds R' := by
  funext db l
  induction l with
  | nil => rfl
  | cons rd l ih => funext s; simp only [srvRounds, srvRun_congr h, ih]

end Modbus
