import Mathlib.Logic.Function.Basic
/-
# `open`, `close` and `execute` of one master by several threads

`execute` runs under a lock (`threadsafe_function`, utils.py:23-57), `open` and `close` do not: a thread may close a master while another
one is in the middle of a call.  Two transition systems, for `RtuMaster` and `TcpMaster`; every test and every assignment of an attribute and
every operation on the port or socket is one action, and the actions of any number of threads interleave arbitrarily.  Hooks are left out (they
answer None), and so are the contents of requests and responses: an operation on an open line succeeds or fails, as the environment decides.
-/
namespace Modbus

/-! ## RtuMaster -/

/-- what a thread is about to do; the argument of the places of `open` tells whether it is called by `execute` -/
inductive RtuPlace where
  | idle
  /-- waiting for the lock of `execute`, utils.py:36-41 -/
  | lock
  /-- `if not self._is_opened`, modbus.py:99 -/
  | openTest (inCall : Bool)
  /-- `if not self._serial.is_open`, modbus_rtu.py:108 -/
  | portTest (inCall : Bool)
  /-- `self._serial.open()`, modbus_rtu.py:110 -/
  | portOpen (inCall : Bool)
  /-- `self._is_opened = True`, modbus.py:101 -/
  | setOpened (inCall : Bool)
  /-- `RtuMaster._send`, modbus_rtu.py:126-140 -/
  | send
  /-- `RtuMaster._recv`, modbus_rtu.py:142-173 -/
  | recv
  /-- `if self._is_opened`, modbus.py:105 -/
  | closeTest
  /-- `if self._serial.is_open`, modbus_rtu.py:114 -/
  | closePortTest
  /-- `self._serial.close()`, modbus_rtu.py:115 -/
  | closePort
  /-- `self._is_opened = False`, modbus.py:108 -/
  | clearOpened
  deriving DecidableEq, Repr

/-- the methods -/
inductive RaceOp where
  | open
  | close
  | execute
  deriving DecidableEq, Repr

/-- what callers see: a method called by thread `t` returned or raised -/
inductive RaceObs where
  | returned (t : Nat) (op : RaceOp)
  | raised (t : Nat) (op : RaceOp)
  deriving DecidableEq, Repr

/-- the method that runs `open` -/
def callOr (inCall : Bool) : RaceOp := if inCall then .execute else .open

/-- a master, its serial port, its threads -/
structure RtuRace where
  opened : Bool := false
  portOpen : Bool := false
  owner : Option Nat := none
  place : Nat → RtuPlace := fun _ => .idle
  log : List RaceObs := []

/-- what happens: a thread calls a method, or does its next action (`ok`: does the device do what is asked?) -/
inductive RaceEv where
  | callOpen (t : Nat)
  | callClose (t : Nat)
  | callExecute (t : Nat)
  | act (t : Nat) (ok : Bool)
  deriving DecidableEq, Repr

/-- thread `t` goes on at `p` -/
def RtuRace.goto (s : RtuRace) (t : Nat) (p : RtuPlace) : RtuRace := { s with place := Function.update s.place t p }

/-- the method of thread `t` ends; the lock is released if the thread has it (`finally`, utils.py:50-53) -/
def RtuRace.done (s : RtuRace) (t : Nat) (o : RaceObs) : RtuRace :=
  { s with place := Function.update s.place t .idle, owner := if s.owner = some t then none else s.owner, log := s.log ++ [o] }

/-- one action of thread `t` -/
def rtuAct (s : RtuRace) (t : Nat) (ok : Bool) : Option RtuRace :=
  match s.place t with
  | .idle => none
  | .lock => if s.owner = none then some ({ s with owner := some t }.goto t (.openTest true)) else none
  | .openTest c =>
    if s.opened then some (if c then s.goto t .send else s.done t (.returned t .open)) else some (s.goto t (.portTest c))
  | .portTest c => some (s.goto t (if s.portOpen then .setOpened c else .portOpen c))
  | .portOpen c =>
    if s.portOpen then some (s.done t (.raised t (callOr c)))
    else if ok then some ({ s with portOpen := true }.goto t (.setOpened c))
    else some (s.done t (.raised t (callOr c)))
  | .setOpened c =>
    let s' := { s with opened := true }
    some (if c then s'.goto t .send else s'.done t (.returned t .open))
  | .send => some (if s.portOpen ∧ ok then s.goto t .recv else s.done t (.raised t .execute))
  | .recv => some (s.done t (if s.portOpen ∧ ok then .returned t .execute else .raised t .execute))
  | .closeTest => some (if s.opened then s.goto t .closePortTest else s.done t (.returned t .close))
  | .closePortTest => some (if s.portOpen then s.goto t .closePort else s.done t (.returned t .close))
  | .closePort => some ({ s with portOpen := false }.goto t .clearOpened)
  | .clearOpened => some ({ s with opened := false }.done t (.returned t .close))

/-- one event -/
def rtuRaceStep (s : RtuRace) : RaceEv → Option RtuRace
  | .callOpen t => if s.place t = .idle then some (s.goto t (.openTest false)) else none
  | .callClose t => if s.place t = .idle then some (s.goto t .closeTest) else none
  | .callExecute t => if s.place t = .idle then some (s.goto t .lock) else none
  | .act t ok => rtuAct s t ok

/-- a sequence of events -/
def rtuRaceRun (s : RtuRace) : List RaceEv → Option RtuRace
  | [] => some s
  | e :: es => (rtuRaceStep s e).bind (rtuRaceRun · es)

/-! ## TcpMaster -/

/-- a socket object -/
inductive SockState where
  | fresh
  | connected
  | closed
  deriving DecidableEq, Repr

/-- on whose behalf `_do_open` runs -/
inductive OpenFor where
  /-- `open()` called by the user -/
  | user
  /-- `self.open()` in `execute` -/
  | call
  /-- `self._do_open()` in `_send`, modbus_tcp.py:204 -/
  | resend
  deriving DecidableEq, Repr

/-- the method that runs `_do_open` -/
def OpenFor.op : OpenFor → RaceOp
  | .user => .open
  | _ => .execute

/-- what a thread is about to do -/
inductive TcpPlace where
  | idle
  /-- waiting for the lock of `execute`, utils.py:36-41 -/
  | lock
  /-- `if not self._is_opened`, modbus.py:99 -/
  | openTest (w : OpenFor)
  /-- `if self._sock`, modbus_tcp.py:167 -/
  | oldTest (w : OpenFor)
  /-- `self._sock.close()`, modbus_tcp.py:168 -/
  | oldClose (w : OpenFor)
  /-- `self._sock = socket.socket(...)`, modbus_tcp.py:169 -/
  | create (w : OpenFor)
  /-- `self.set_timeout(...)`, `self._sock.setsockopt(...)`, modbus_tcp.py:170-171, taken as one action -/
  | options (w : OpenFor)
  /-- `self._sock.connect(...)`, modbus_tcp.py:173: reading the attribute -/
  | connect (w : OpenFor)
  /-- `connect` of socket `k` -/
  | connecting (w : OpenFor) (k : Nat)
  /-- `self._is_opened = True`, modbus.py:101 -/
  | setOpened (w : OpenFor)
  /-- `flush_socket(self._sock, 3)`, modbus_tcp.py:199: taken as one action -/
  | flush
  /-- `self._sock.send(request)`, modbus_tcp.py:205 -/
  | send
  /-- `self._sock.recv(1)`, modbus_tcp.py:216: reading the attribute -/
  | recv
  /-- `recv(1)` of socket `k` -/
  | receiving (k : Nat)
  /-- `if self._is_opened`, modbus.py:105 -/
  | closeTest
  /-- `if self._sock`, modbus_tcp.py:178 -/
  | closeSockTest
  /-- `self._sock.close()`, modbus_tcp.py:180 -/
  | closeSock
  /-- `self._sock = None`, modbus_tcp.py:182 -/
  | clearSock
  /-- `self._is_opened = False`, modbus.py:108 -/
  | clearOpened
  deriving DecidableEq, Repr

/-- a master, the sockets it has made (numbered), its threads -/
structure TcpRace where
  opened : Bool := false
  sock : Option Nat := none
  next : Nat := 0
  socks : Nat → SockState := fun _ => .fresh
  owner : Option Nat := none
  place : Nat → TcpPlace := fun _ => .idle
  log : List RaceObs := []
  /-- the sockets requests were sent on, with the sender; for observation only -/
  sent : List (Nat × Nat) := []

/-- thread `t` goes on at `p` -/
def TcpRace.goto (s : TcpRace) (t : Nat) (p : TcpPlace) : TcpRace := { s with place := Function.update s.place t p }

/-- the method of thread `t` ends -/
def TcpRace.done (s : TcpRace) (t : Nat) (o : RaceObs) : TcpRace :=
  { s with place := Function.update s.place t .idle, owner := if s.owner = some t then none else s.owner, log := s.log ++ [o] }

/-- socket `k` changes -/
def TcpRace.setSock (s : TcpRace) (k : Nat) (x : SockState) : TcpRace := { s with socks := Function.update s.socks k x }

/-- where `open` continues when the master is open -/
def TcpRace.afterOpen (s : TcpRace) (t : Nat) : OpenFor → TcpRace
  | .user => s.done t (.returned t .open)
  | .call => s.goto t .flush
  | .resend => s.goto t .send

/-- One action of thread `t`.  `None` has no methods: AttributeError (TypeError in `select`).  A socket that is not connected raises OSError,
    and so does `connect` of one that is closed or connected.  `more`: `recv` has returned a byte and more are expected. -/
def tcpAct (s : TcpRace) (t : Nat) (ok more : Bool) : Option TcpRace :=
  match s.place t with
  | .idle => none
  | .lock => if s.owner = none then some ({ s with owner := some t }.goto t (.openTest .call)) else none
  | .openTest w => some (if s.opened then s.afterOpen t w else s.goto t (.oldTest w))
  | .oldTest w => some (s.goto t (if s.sock.isSome then .oldClose w else .create w))
  | .oldClose w =>
    match s.sock with
    | none => some (s.done t (.raised t w.op))
    | some k => some ((s.setSock k .closed).goto t (.create w))
  | .create w => some ({ s.setSock s.next .fresh with sock := some s.next, next := s.next + 1 }.goto t (.options w))
  | .options w =>
    match s.sock with
    | none => some (s.done t (.raised t w.op))
    | some k => some (if s.socks k = .closed then s.done t (.raised t w.op) else s.goto t (.connect w))
  | .connect w =>
    match s.sock with
    | none => some (s.done t (.raised t w.op))
    | some k => some (s.goto t (.connecting w k))
  | .connecting w k =>
    if s.socks k = .fresh ∧ ok then
      let s' := s.setSock k .connected
      some (if w = .resend then s'.goto t .send else s'.goto t (.setOpened w))
    else some (s.done t (.raised t w.op))
  | .setOpened w => some ({ s with opened := true }.afterOpen t w)
  | .flush =>
    match s.sock with
    | none => some (s.goto t (.oldTest .resend))
    | some k => some (s.goto t (if s.socks k = .connected ∧ ok then .send else .oldTest .resend))
  | .send =>
    match s.sock with
    | none => some (s.done t (.raised t .execute))
    | some k => some (if s.socks k = .connected ∧ ok then { s with sent := s.sent ++ [(t, k)] }.goto t .recv else s.done t (.raised t .execute))
  | .recv =>
    match s.sock with
    | none => some (s.done t (.raised t .execute))
    | some k => some (s.goto t (.receiving k))
  | .receiving k =>
    some (if s.socks k = .connected ∧ ok then (if more then s.goto t .recv else s.done t (.returned t .execute)) else s.done t (.raised t .execute))
  | .closeTest => some (if s.opened then s.goto t .closeSockTest else s.done t (.returned t .close))
  | .closeSockTest => some (if s.sock.isSome then s.goto t .closeSock else s.done t (.returned t .close))
  | .closeSock =>
    match s.sock with
    | none => some (s.done t (.raised t .close))
    | some k => some ((s.setSock k .closed).goto t .clearSock)
  | .clearSock => some ({ s with sock := none }.goto t .clearOpened)
  | .clearOpened => some ({ s with opened := false }.done t (.returned t .close))

/-- what happens to a `TcpMaster` -/
inductive TcpRaceEv where
  | callOpen (t : Nat)
  | callClose (t : Nat)
  | callExecute (t : Nat)
  | act (t : Nat) (ok more : Bool)
  deriving DecidableEq, Repr

/-- one event -/
def tcpRaceStep (s : TcpRace) : TcpRaceEv → Option TcpRace
  | .callOpen t => if s.place t = .idle then some (s.goto t (.openTest .user)) else none
  | .callClose t => if s.place t = .idle then some (s.goto t .closeTest) else none
  | .callExecute t => if s.place t = .idle then some (s.goto t .lock) else none
  | .act t ok more => tcpAct s t ok more

/-- a sequence of events -/
def tcpRaceRun (s : TcpRace) : List TcpRaceEv → Option TcpRace
  | [] => some s
  | e :: es => (tcpRaceStep s e).bind (tcpRaceRun · es)

end Modbus
