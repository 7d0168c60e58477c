import Verif.Model.Composite
/-
# Threads that use one databank: `Databank` (modbus.py:897-985) with its lock `_lock` and the locks `_data_lock` of its slaves

The state is kept in cells: the cell `none` is the map of slaves, the cell `some ref` the slave object `ref`.  Slave objects are made by `add_slave` only
(without the argument `memory`: slaves do not share memories); what it hands out is a reference, which stays usable when the slave is removed from the map.
-/
namespace Modbus

/-- a reference to the `made`-th slave object that was made; `Slave(slave_id, unsigned)`, modbus.py:914 -/
structure SlaveRef where
  id : Int
  unsigned : Bool
  made : Nat
  deriving DecidableEq, Repr

/-- the content of a cell: `slaves` (`_slaves`, modbus.py:903) and `made` in the cell `none`, `slave` in the others -/
structure DbCell where
  slaves : List (Int × SlaveRef) := []
  made : Nat := 0
  slave : SlaveSt

/-- the slave object as `Slave.__init__` leaves it (its cell before anybody can have a reference to it) -/
def madeSlave (ref : SlaveRef) : SlaveSt :=
  let r := Slave.new ref.id ref.unsigned none Heap.empty
  ⟨r.1, r.2⟩

/-- the cells when the databank is made, modbus.py:900-906 -/
def newCells : Option SlaveRef → DbCell
  | none => { slave := ⟨⟨0, true, [], 0⟩, Heap.empty⟩ }
  | some ref => { slave := madeSlave ref }

/-- methods of the databank and of slaves -/
inductive DbCallOp where
  | add (id : Int) (unsigned : Bool)
  | get (id : Int)
  | remove (id : Int)
  | removeAll
  /-- a method of a slave that somebody has a reference to -/
  | slave (ref : SlaveRef) (c : SlaveCall)

/-- a request addressed to slave `id` that arrived at a TCP or RTU server (broadcasts: `broadcastSteps`) -/
structure DbRequest where
  w : Wire
  id : Int
  request : Bytes
  addressed : Addressed w id request

inductive DbRes where
  | ref (r : Except PyErr SlaveRef)
  | done (r : Except PyErr Unit)
  | slave (r : SlaveRes)
  /-- `get_slave` in `handle_request` found this slave -/
  | found (ref : SlaveRef)
  | answer (r : Except PyErr (Option Bytes))

/-- what is done under one lock -/
inductive DbAct where
  | op (c : DbCallOp)
  /-- `self.get_slave(slave_id)` in `handle_request`, modbus.py:957, and what is answered when there is no such slave -/
  | lookup (q : DbRequest)
  /-- `slave.handle_request(request_pdu)` and what follows, modbus.py:964-985 -/
  | handle (q : DbRequest) (ref : SlaveRef)

/-- the cell -/
def DbAct.key : DbAct → Option SlaveRef
  | .op (.slave ref _) => some ref
  | .op _ => none
  | .lookup _ => none
  | .handle _ ref => some ref

/-- What each of them does with its cell when nobody else uses it: `add_slave`, `get_slave`, `remove_slave`, `remove_all_slaves`, modbus.py:908-938;
    the methods of slaves (Model/Threads.lean); the parts of `handle_request`, modbus.py:940-985. -/
def DbAct.run (R : Registry) : DbAct → DbCell → DbRes × DbCell
  | .op (.add id unsigned), m =>
    if id ≤ 0 ∨ id > 255 then (.ref (.error .generic), m)
    else if Dict.has m.slaves id then (.ref (.error .duplicatedKey), m)
    else (.ref (.ok ⟨id, unsigned, m.made⟩), { m with slaves := Dict.set m.slaves id ⟨id, unsigned, m.made⟩, made := m.made + 1 })
  | .op (.get id), m =>
    match Dict.get? m.slaves id with
    | some ref => (.ref (.ok ref), m)
    | none => (.ref (.error .missingKey), m)
  | .op (.remove id), m =>
    if Dict.has m.slaves id then (.done (.ok ()), { m with slaves := Dict.erase m.slaves id })
    else (.done (.error .missingKey), m)
  | .op .removeAll, m => (.done (.ok ()), { m with slaves := [] })
  | .op (.slave _ c), m => let r := c.run R m.slave; (.slave r.1, { m with slave := r.2 })
  | .lookup q, m =>
    match Dict.get? m.slaves q.id with
    | some ref => (.found ref, m)
    | none => (.answer (dbHandle R q.w.mac ⟨[], true⟩ q.request Heap.empty).1, m)
  | .handle q _, m =>
    let r := dbHandle R q.w.mac ⟨[(q.id, m.slave.sl)], true⟩ q.request m.slave.heap
    (.answer r.1, { m with slave := { m.slave with heap := r.2 } })

/-- what threads do with a databank -/
inductive DbTask where
  | op (c : DbCallOp)
  | request (q : DbRequest)

/-- The code: each method holds the lock of its object (`D none` is `Databank._lock`, `D (some ref)` the `_data_lock` of the slave); `handle_request`
    holds `_lock` while it looks up the slave and the slave's lock while the slave handles the request, modbus.py:957-964. -/
def dbCode {L : Type} (D : Option SlaveRef → L) (body : DbAct → Prog L DbCell DbRes) : DbTask → Prog L (Option SlaveRef → DbCell) DbRes
  | .op c => ((body (.op c)).withLock (D (DbAct.op c).key)).onKey (DbAct.op c).key
  | .request q =>
    (((body (.lookup q)).withLock (D (DbAct.lookup q).key)).onKey (DbAct.lookup q).key).bind fun r =>
      match r with
      | .found ref => ((body (.handle q ref)).withLock (D (DbAct.handle q ref).key)).onKey (DbAct.handle q ref).key
      | r => .ret r

/-- `for key in self._slaves: self._slaves[key].handle_request(request_pdu, broadcast=True)`, modbus.py:952-953, without a lock, in atomic steps:
    the iterator looks at the size of the dictionary each time (`dictionary changed size during iteration` is a RuntimeError) and yields the
    entry number `i`; the lookup of the key may fail (KeyError); then the slave, with its lock, handles the request.  `fuel`: number of entries left.
    (When other threads remove and add the same number of slaves between two steps, which entry comes next depends on the internal table of the
    dictionary; here it is the entry number `i` of those now in the map.) -/
def broadcastSteps {L : Type} (D : Option SlaveRef → L) (body : DbAct → Prog L DbCell DbRes) (pdu : Bytes) (size : Nat) :
    Nat → Nat → Prog L (Option SlaveRef → DbCell) (Option PyErr)
  | 0, _ => .step id fun x => if (x none).slaves.length = size then .ret none else .ret (some .runtimeError)
  | fuel + 1, i => .step id fun x =>
    if (x none).slaves.length = size then
      match (x none).slaves[i]? with
      | none => .ret none
      | some (id, _) => .step (fun x => x) fun x =>
        match Dict.get? (x none).slaves id with
        | none => .ret (some .keyError)
        | some ref =>
          (((body (.op (.slave ref (.handle pdu true)))).withLock (D (some ref))).onKey (some ref)).bind fun r =>
            match r with
            | .slave (.response (.error e)) => .ret (some e)
            | _ => broadcastSteps D body pdu size fuel (i + 1)
    else .ret (some .runtimeError)

/-- the loop from its beginning: the iterator notes the size -/
def broadcastTask {L : Type} (D : Option SlaveRef → L) (body : DbAct → Prog L DbCell DbRes) (pdu : Bytes) :
    Prog L (Option SlaveRef → DbCell) (Option PyErr) :=
  .step id fun x => broadcastSteps D body pdu (x none).slaves.length (x none).slaves.length 0

end Modbus
