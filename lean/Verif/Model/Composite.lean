import Verif.Model.ServerThread
import Verif.Model.Threads
import Verif.Model.Databank
/-
# Model of `CompositeServer` (simulator.py:50-83): several servers sharing one databank
-/
namespace Modbus

/-! ## Construction -/

/-- an element of `list_of_server_classes`: whether it is a subclass of `modbus.Server`, and its constructor with the positional arguments
    `the_args` and the keyword argument `databank` (a reference to a databank).  The constructor returns a reference to the new server, or
    raises. -/
structure ServerClass (σ A : Type) where
  isServer : Bool
  make : A → Nat → PyM σ Nat

/-- the list comprehension of `CompositeServer.__init__`, simulator.py:56-60: `zip` ends with the shorter list, classes that are not servers
    are skipped together with their arguments.  (`issubclass` of something that is not a class raises TypeError; left out.) -/
def makeServers {σ A : Type} (db : Nat) : List (ServerClass σ A) → List A → PyM σ (List Nat)
  | c :: cs, a :: as =>
    if c.isServer then do
      let srv ← c.make a db
      let rest ← makeServers db cs as
      return srv :: rest
    else makeServers db cs as
  | _, _ => return []

/-- `CompositeServer.__init__`, simulator.py:53-60, with `Server.__init__`, modbus.py:994-1001: the databank given, or a new one
    (`newDb`); `_make_thread` does nothing, simulator.py:67-69.  Returns the databank and the servers. -/
def compositeNew {σ A : Type} (newDb : PyM σ Nat) (classes : List (ServerClass σ A)) (args : List A) (databank : Option Nat) :
    PyM σ (Nat × List Nat) := do
  let db ← (match databank with
    | some d => (pure d : PyM σ Nat)
    | none => newDb)
  let servers ← makeServers db classes args
  return (db, servers)

/-! ## `start` and `stop` -/

/-- what the thread that calls `CompositeServer.start` / `stop` is about to do (`up`: in `start`) -/
inductive CCaller where
  | idle
  /-- `for srv in self._servers`: the next server is the one number `i` -/
  | next (up : Bool) (i : Nat)
  /-- in `srv.start()` / `srv.stop()` of server `i` -/
  | inside (up : Bool) (i : Nat)
  deriving DecidableEq, Repr

/-- what its user sees; in the traceback of an exception also from which server it came -/
inductive CObs where
  | startDone
  | startRaised (i : Nat)
  | stopDone
  | stopRaised (i : Nat)
  deriving DecidableEq, Repr

/-- a composite server with `n` servers -/
structure CompObj where
  n : Nat
  servers : Nat → ServerObj := fun _ => .new
  caller : CCaller := .idle
  log : List CObs := []

/-- the last call of a method of this server ended with an exception -/
def ServerObj.lastRaised (s : ServerObj) : Bool := s.log.getLast? = some .startRaised ∨ s.log.getLast? = some .stopRaised

/-- `CompositeServer.start`, `stop`, simulator.py:75-83: the next action of the controlling thread.  An exception raised by a server's method
    leaves the loop. -/
def compControl (c : CompObj) : Option CompObj :=
  match c.caller with
  | .idle => none
  | .next up i =>
    if i < c.n then
      match serverStep (c.servers i) (if up then .callStart else .callStop) with
      | none => none
      | some s => some { c with servers := Function.update c.servers i s, caller := .inside up i }
    else some { c with caller := .idle, log := c.log ++ [if up then .startDone else .stopDone] }
  | .inside up i =>
    match controlAct (c.servers i) with
    | none => none
    | some s =>
      let c' := { c with servers := Function.update c.servers i s }
      if s.caller = .idle then
        if s.lastRaised then some { c' with caller := .idle, log := c.log ++ [if up then .startRaised i else .stopRaised i] }
        else some { c' with caller := .next up (i + 1) }
      else some c'

/-- one action -/
inductive CEv where
  | callStart
  | callStop
  | control
  /-- thread `t` of server `i` -/
  | server (i t : Nat) (ok : Bool)
  deriving DecidableEq, Repr

/-- one step; `none`: not possible now -/
def compStep (c : CompObj) : CEv → Option CompObj
  | .callStart => if c.caller = .idle then some { c with caller := .next true 0 } else none
  | .callStop => if c.caller = .idle then some { c with caller := .next false 0 } else none
  | .control => compControl c
  | .server i t ok =>
    match serverAct (c.servers i) t ok with
    | none => none
    | some s => some { c with servers := Function.update c.servers i s }

/-- an execution -/
def compRun : CompObj → List CEv → Option CompObj
  | c, [] => some c
  | c, e :: es => match compStep c e with
    | none => none
    | some c' => compRun c' es

/-! ## Requests to the common databank -/

/-- the kinds of servers -/
inductive Wire where
  | tcp
  | rtu
  deriving DecidableEq, Repr

/-- `_make_query`, modbus_tcp.py:250-252, modbus_rtu.py:222-224 -/
def Wire.mac : Wire → Mac
  | .tcp => tcpMac
  | .rtu => rtuMac

/-- the request is addressed to the slave `id` (not a broadcast), as `parse_request` finds -/
def Addressed (w : Wire) (id : Int) (request : Bytes) : Prop :=
  id ≠ 0 ∧ ∃ pdu q, w.mac.parseRequest request w.mac.new = (.ok (id, pdu), q)

/-- what the threads of the servers and of the users do with the slaves of the common databank (the set of slaves does not change) -/
inductive BankOp where
  /-- a server handles a request addressed to the slave `id`: `Databank.handle_request`, modbus.py:940-985 -/
  | frame (w : Wire) (id : Int) (request : Bytes) (h : Addressed w id request)
  /-- `server.get_slave(id).method(...)` -/
  | call (id : Int) (c : SlaveCall)

/-- the slave -/
def BankOp.key : BankOp → Int
  | .frame _ id _ _ => id
  | .call id _ => id

inductive BankRes where
  | answer (r : Except PyErr (Option Bytes))
  | result (r : SlaveRes)

/-- What the operation does when nobody else uses the slave.  The state of each slave is kept separately (slaves do not share their memories),
    so the databank is the one with this slave only. -/
def BankOp.run (R : Registry) : BankOp → SlaveSt → BankRes × SlaveSt
  | .frame w id request _, s =>
    let r := dbHandle R w.mac ⟨[(id, s.sl)], true⟩ request s.heap
    (.answer r.1, { s with heap := r.2 })
  | .call _ c, s => let r := c.run R s; (.result r.1, r.2)

/-- The code: everything is done in methods of the slave, under its `_data_lock` (`D id`), modbus.py:737-894.  What `Databank.handle_request` does
    outside - parsing the request, looking up the slave under `Databank._lock`, building the response - does not depend on the state of the
    slaves. -/
def bankCode {L : Type} (D : Int → L) (body : BankOp → Prog L SlaveSt BankRes) (op : BankOp) : Prog L SlaveSt BankRes :=
  (body op).withLock (D op.key)

/-- the exception an operation ended with -/
def BankRes.raised : BankRes → Option PyErr
  | .answer (.error e) => some e
  | .result (.response (.error e)) => some e
  | .result (.done (.error e)) => some e
  | .result (.values (.error e)) => some e
  | _ => none

/-- the loop over the slaves for a broadcast, modbus.py:951-953: the lock of each slave is held only while that slave handles the request; an
    exception raised by one slave leaves the loop -/
def broadcastCode {L : Type} (D : Int → L) (body : BankOp → Prog L SlaveSt BankRes) (pdu : Bytes) :
    List Int → Prog L (Int → SlaveSt) (Option PyErr)
  | [] => .ret none
  | id :: ids =>
    (Prog.onKey id (bankCode D body (.call id (.handle pdu true)))).bind fun r =>
      match r.raised with
      | some e => .ret (some e)
      | none => broadcastCode D body pdu ids

end Modbus
