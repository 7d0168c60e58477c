import Verif.Model.CloseRace
/-
# Interrupted calls of a master

An exception that is not the method's own - KeyboardInterrupt on Ctrl-C, an exception thrown into a thread - may end `open`, `close` or `execute` of a master
between any two of its actions.  Nothing in `Master`, `RtuMaster` and `TcpMaster` catches it (`except Exception` in utils.py:46 re-raises, KeyboardInterrupt is
not even an Exception; `_send` catches exceptions of `flush_socket` only, modbus_tcp.py:198-204: an interrupt inside `flush_socket` that is an `Exception` is a failure
of `flush` of `Model/CloseRace`); `finally` releases the lock (utils.py:48-50).  Acquiring the lock and entering `try` are one action here, as in `Model/CloseRace`.
-/
namespace Modbus

/-- the method thread `t` is in (places of `RtuMaster`) -/
def RtuPlace.op : RtuPlace → Option RaceOp
  | .idle => none
  | .lock | .send | .recv => some .execute
  | .openTest c | .portTest c | .portOpen c | .setOpened c => some (callOr c)
  | .closeTest | .closePortTest | .closePort | .clearOpened => some .close

/-- an event of `Model/CloseRace`, or thread `t` is interrupted -/
inductive RtuIntEv where
  | ev (e : RaceEv)
  | interrupt (t : Nat)
  deriving DecidableEq, Repr

/-- one event; an interrupt ends the method: it raises -/
def rtuIntStep (s : RtuRace) : RtuIntEv → Option RtuRace
  | .ev e => rtuRaceStep s e
  | .interrupt t => (s.place t).op.map fun o => s.done t (.raised t o)

/-- a sequence of events -/
def rtuIntRun (s : RtuRace) : List RtuIntEv → Option RtuRace
  | [] => some s
  | e :: es => (rtuIntStep s e).bind (rtuIntRun · es)

/-- the method a thread is in (places of `TcpMaster`) -/
def TcpPlace.op : TcpPlace → Option RaceOp
  | .idle => none
  | .lock | .flush | .send | .recv | .receiving _ => some .execute
  | .openTest w | .oldTest w | .oldClose w | .create w | .options w | .connect w | .connecting w _ | .setOpened w => some w.op
  | .closeTest | .closeSockTest | .closeSock | .clearSock | .clearOpened => some .close

/-- an event of `Model/CloseRace`, or thread `t` is interrupted -/
inductive TcpIntEv where
  | ev (e : TcpRaceEv)
  | interrupt (t : Nat)
  deriving DecidableEq, Repr

/-- one event -/
def tcpIntStep (s : TcpRace) : TcpIntEv → Option TcpRace
  | .ev e => tcpRaceStep s e
  | .interrupt t => (s.place t).op.map fun o => s.done t (.raised t o)

/-- a sequence of events -/
def tcpIntRun (s : TcpRace) : List TcpIntEv → Option TcpRace
  | [] => some s
  | e :: es => (tcpIntStep s e).bind (tcpIntRun · es)

end Modbus
