import Verif.Model.Master
import Verif.Model.Text
/-
# Model of hmi/master_webhmi.py, the web interface of a master, and of its templates (hmi/templates)

`W` is everything outside the program; `exec row` is `execute` of the master object made for a row of the table `master`.
Simplifications: the numbers in urls, forms and the database are integers (the code passes them through `int`); a `SELECT` without `ORDER BY` gives the rows in the order in which they were inserted;
replacing the master objects in `_load_masters` has no effect on the world; of the pages only the data they show is modelled.  The program is Python 2, single-threaded; `SERIAL` is true (pyserial is installed).
-/
namespace Modbus

/-- a row of the table `master`, master_webhmi.py:90-92 -/
structure MasterRow where
  id : Int
  protocol : Text
  address : Text
  deriving DecidableEq, Repr

/-- a row of the table `request`, master_webhmi.py:94-100 -/
structure RequestRow where
  id : Int
  masterId : Int
  slave : Int
  function : Int
  address : Int
  length : Int
  deriving DecidableEq, Repr

/-- The database.  `AUTOINCREMENT`: the largest id ever given is remembered (`sqlite_sequence`), ids are not given twice. -/
structure HmiDb where
  masters : List MasterRow
  requests : List RequestRow
  lastMaster : Int
  lastRequest : Int
  deriving DecidableEq, Repr

/-- a `Master` object of the web interface, master_webhmi.py:30-81, with its copy of the requests -/
structure HmiMaster where
  row : MasterRow
  requests : List RequestRow
  deriving DecidableEq, Repr

/-- the `App` object and the dictionary `SERIAL_PORTS` -/
structure Hmi where
  db : HmiDb
  masters : List (Int × HmiMaster)
  serialPorts : List (Text × Unit)
  deriving DecidableEq, Repr

/-- the data a page shows -/
inductive Page where
  /-- masters_list.tpl -/
  | list (masters : List MasterRow)
  /-- master_index.tpl: the requests, and the slaves with a link to all their holding registers -/
  | master (row : MasterRow) (requests : List RequestRow) (slaves : List Int)
  /-- master_results.tpl: rows of a heading and cells; a cell has an id and a value -/
  | results (rows : List (Int × List (Nat × Int)))
  /-- master_results_all_hr.tpl: register and value -/
  | registers (regs : List (Int × Int))
  /-- the data asked for every second by the scripts of the two pages before -/
  | json (data : List (Int × Int))
  /-- modbus_error.tpl -/
  | error (code : Int)
  | redirect (master : Option Int)
  deriving DecidableEq, Repr

/-! ## The database -/

/-- `Persistence.get_requests`, master_webhmi.py:127-132 (the name put together from the columns is left out) -/
def HmiDb.requestsOf (db : HmiDb) (master : Int) : List RequestRow := db.requests.filter (fun r => r.masterId = master)

/-- `Persistence.get_slaves`, master_webhmi.py:134-136: `SELECT DISTINCT slave` -/
def HmiDb.slavesOf (db : HmiDb) (master : Int) : List Int := ((db.requestsOf master).map (·.slave)).eraseDups

/-- `Persistence.get_hr_requests_for_slave`, master_webhmi.py:138-140 -/
def HmiDb.hrRequests (db : HmiDb) (master slave : Int) : List RequestRow := db.requests.filter (fun r => r.masterId = master ∧ r.slave = slave ∧ r.function = 3)

/-- `Persistence.add_request`, master_webhmi.py:142-146 -/
def HmiDb.addRequest (db : HmiDb) (master slave fct start length : Int) : HmiDb :=
  { db with requests := db.requests ++ [⟨db.lastRequest + 1, master, slave, fct, start, length⟩], lastRequest := db.lastRequest + 1 }

/-- `Persistence.delete_request`, master_webhmi.py:148-151 -/
def HmiDb.deleteRequest (db : HmiDb) (id : Int) : HmiDb := { db with requests := db.requests.filter (fun r => r.id ≠ id) }

/-- `SELECT MAX(id) FROM master` -/
def maxId : List MasterRow → Int
  | [] => 0
  | r :: rs => rs.foldl (fun m r => max m r.id) r.id

/-- `Persistence.add_master`, master_webhmi.py:153-157 -/
def HmiDb.addMaster (db : HmiDb) (protocol address : Text) : HmiDb × Int :=
  let db' := { db with masters := db.masters ++ [⟨db.lastMaster + 1, protocol, address⟩], lastMaster := db.lastMaster + 1 }
  (db', maxId db'.masters)

/-- `Persistence.delete_master`, master_webhmi.py:159-162 -/
def HmiDb.deleteMaster (db : HmiDb) (id : Int) : HmiDb := { db with masters := db.masters.filter (fun r => r.id ≠ id) }

/-! ## Masters -/

/-- the loop of master_webhmi.py:43-51 over `address.split(',')`: the port; ValueError unless every part is `key:value` -/
def serialPort : List Text → Option Text → Except PyErr (Option Text)
  | [], port => .ok port
  | a :: as, port =>
    match splitOn ':' a with
    | [key, val] => serialPort as (if key = "port".toList then some val else port)
    | _ => .error .valueError

/-- `SERIAL_PORTS[port]`, or a new port `except IndexError` (a dictionary raises KeyError), master_webhmi.py:53-56.  No port in the address: UnboundLocalError. -/
def findPort (ports : List (Text × Unit)) (port : Option Text) : Except PyErr (List (Text × Unit)) :=
  match port with
  | none => .error .unboundLocal
  | some p =>
    match (match Dict.get? ports p with | some _ => Except.ok () | none => .error PyErr.keyError) with
    | .ok _ => .ok ports
    | .error .indexError => .ok (Dict.set ports p ())
    | .error e => .error e

/-- `Master.__init__`, master_webhmi.py:31-70: for `tcp` it always succeeds, with the part before `:` as host and the part behind as port, or with the whole as host.  Gives the serial ports, too. -/
def newMaster (db : HmiDb) (ports : List (Text × Unit)) (row : MasterRow) : Except PyErr (HmiMaster × List (Text × Unit)) :=
  if row.protocol = "tcp".toList then .ok (⟨row, db.requestsOf row.id⟩, ports)
  else if row.protocol = "rtu".toList then
    match serialPort (splitOn ',' row.address) none with
    | .error e => .error e
    | .ok port =>
      match findPort ports port with
      | .error _ => .error .generic
      | .ok ports' => .ok (⟨row, db.requestsOf row.id⟩, ports')
  else .error .generic

/-- the loop of `App._load_masters`, master_webhmi.py:171-176 -/
def loadLoop (db : HmiDb) : List MasterRow → List (Int × HmiMaster) → List (Text × Unit) → List (Int × HmiMaster) × List (Text × Unit)
  | [], ms, ports => (ms, ports)
  | row :: rows, ms, ports =>
    match newMaster db ports row with
    | .ok (m, ports') => loadLoop db rows (Dict.set ms row.id m) ports'
    | .error _ => loadLoop db rows ms ports

/-- `App._load_masters`, master_webhmi.py:169-176 -/
def loadMasters (h : Hmi) : Hmi :=
  let r := loadLoop h.db h.db.masters [] h.serialPorts
  { h with masters := r.1, serialPorts := r.2 }

/-- the program is started, master_webhmi.py:22, 164-167, 196 -/
def Hmi.start (db : HmiDb) : Hmi := loadMasters ⟨db, [], []⟩

/-- a new database, master_webhmi.py:89-102 -/
def HmiDb.new : HmiDb := ⟨[⟨1, "tcp".toList, "localhost".toList⟩], [], 1, 0⟩

/-! ## The pages -/

variable {W : Type}

/-- a step of the program that leaves the world alone -/
def inHmi {α : Type} (f : PyM Hmi α) : PyM (Hmi × W) α := fun s => ((f s.1).1, ((f s.1).2, s.2))

/-- a step in the world -/
def inWorld {α : Type} (f : PyM W α) : PyM (Hmi × W) α := fun s => ((f s.2).1, (s.1, (f s.2).2))

/-- `App.get_master`, master_webhmi.py:183-185 -/
def getMaster (id : Int) : PyM Hmi HmiMaster := fun h =>
  match Dict.get? h.masters id with
  | some m => (.ok m, h)
  | none => (.error .keyError, h)

/-- `App.get_masters`, master_webhmi.py:178-181, and the page of them (208-211): the keys are sorted -/
def listPage : PyM Hmi Page := fun h =>
  (.ok (.list (((h.masters.map (·.1)).mergeSort (· ≤ ·)).filterMap (fun k => (Dict.get? h.masters k).map (·.row)))), h)

/-- `master_detail`, master_webhmi.py:213-216 -/
def detailPage (id : Int) : PyM Hmi Page := do
  let m ← getMaster id
  fun h => (.ok (.master m.row m.requests (h.db.slavesOf m.row.id)), h)

/-- the values of the tuple `execute` returned -/
def ExecResult.tuple : ExecResult → List Int
  | .values vs => vs
  | _ => []

/-- `{{i}}` and `{{r}}` of the cells of one line, with the counter `i` of master_results.tpl -/
def numberCells : Nat → List Int → List (Nat × Int)
  | _, [] => []
  | i, r :: rs => (i, r) :: numberCells (i + 1) rs

/-- the loop over `lines` of master_results.tpl -/
def pageLoop (start : Int) (results : List Int) : List Nat → Nat → List (Int × List (Nat × Int))
  | [], _ => []
  | l :: ls, i =>
    let cells := numberCells i (slice results l (l + 16))
    ((l : Int) + start, cells) :: pageLoop start results ls (i + cells.length)

/-- `lines = [i*16 for i in range(int(len(results)%16>0)+len(results)//16)]`, master_webhmi.py:234 -/
def pageLines (n : Nat) : List Nat := (List.range ((if n % 16 > 0 then 1 else 0) + n / 16)).map (· * 16)

/-- the table of master_results.tpl -/
def resultRows (start : Int) (results : List Int) : List (Int × List (Nat × Int)) := pageLoop start results (pageLines results.length) 0

/-- `except modbus.ModbusError` -/
def exceptModbus {α : Type} (x : PyM (Hmi × W) α) (h : Int → PyM (Hmi × W) α) : PyM (Hmi × W) α := fun s =>
  match x s with
  | (.error (.modbusError c), s') => h c s'
  | r => r

/-- `master.modbus.execute(int(slave_id), int(function_code), int(start_address), int(length))` -/
def readArgs (slave fct start length : Int) : ExecArgs := { slave := some slave, functionCode := fct, startingAddress := .int start, quantity := .int length }

/-- `show_results`, master_webhmi.py:225-238 -/
def readPage (exec : MasterRow → ExecArgs → PyM W ExecResult) (master slave fct start length : Int) : PyM (Hmi × W) Page := do
  let m ← inHmi (getMaster master)
  exceptModbus (do
    let r ← inWorld (exec m.row (readArgs slave fct start length))
    return .results (resultRows start r.tuple)) (fun c => return .error c)

/-- `json_data[str(i)] = r; i += 1`, master_webhmi.py:291-293; `all_results[i] = ...; i += 1`, 254-256 -/
def putAll : List (Int × Int) → Int → List Int → List (Int × Int)
  | d, _, [] => d
  | d, i, r :: rs => putAll (Dict.set d i r) (i + 1) rs

/-- `get_json_data`, master_webhmi.py:284-296; in `except`, `name` is not defined (NameError) -/
def jsonPage (exec : MasterRow → ExecArgs → PyM W ExecResult) (master slave fct start length : Int) : PyM (Hmi × W) Page := do
  let m ← inHmi (getMaster master)
  exceptModbus (do
    let r ← inWorld (exec m.row (readArgs slave fct start length))
    return .json (putAll [] 0 r.tuple)) (fun _ => PyM.raise .unboundLocal)

/-- the loop of master_webhmi.py:250-256 and 304-309 -/
def readAllLoop (ex : ExecArgs → PyM W ExecResult) (slave : Int) : List RequestRow → List (Int × Int) → PyM W (List (Int × Int))
  | [], d => return d
  | q :: qs, d => do
    let r ← ex (readArgs slave 3 q.address q.length)
    readAllLoop ex slave qs (putAll d q.address r.tuple)

/-- `show_results_all_hr`, master_webhmi.py:240-260 -/
def readAllPage (exec : MasterRow → ExecArgs → PyM W ExecResult) (master slave : Int) : PyM (Hmi × W) Page := do
  let m ← inHmi (getMaster master)
  exceptModbus (fun s =>
    (do let d ← inWorld (readAllLoop (exec m.row) slave (s.1.db.hrRequests master slave) [])
        return .registers d : PyM (Hmi × W) Page) s) (fun c => return .error c)

/-- `get_all_json_data`, master_webhmi.py:298-312 -/
def jsonAllPage (exec : MasterRow → ExecArgs → PyM W ExecResult) (master slave : Int) : PyM (Hmi × W) Page := do
  let m ← inHmi (getMaster master)
  exceptModbus (fun s =>
    (do let d ← inWorld (readAllLoop (exec m.row) slave (s.1.db.hrRequests master slave) [])
        return .json d : PyM (Hmi × W) Page) s) (fun _ => PyM.raise .unboundLocal)

/-- the copy of the requests is renewed, master_webhmi.py:75-81 -/
def renew (h : Hmi) (m : HmiMaster) : Hmi := { h with masters := Dict.set h.masters m.row.id { m with requests := h.db.requestsOf m.row.id } }

/-- what can be asked of the program -/
inductive HmiOp where
  | list
  | detail (master : Int)
  | deleteMaster (master : Int)
  | read (master slave fct start length : Int)
  | readAll (master slave : Int)
  | addRequest (master slave fct start length : Int)
  | deleteRequest (master id : Int)
  | addMaster (protocol address : Text)
  | json (master slave fct start length : Int)
  | jsonAll (master slave : Int)
  deriving DecidableEq, Repr

/-- the routes, master_webhmi.py:198-312.  `add_request` (263-270): the master is looked up first, and the new request is read.  `delete_request` (272-275), `add_master` (277-282),
    `delete_master` (218-222). -/
def hmiStep (exec : MasterRow → ExecArgs → PyM W ExecResult) : HmiOp → PyM (Hmi × W) Page
  | .list => inHmi listPage
  | .detail id => inHmi (detailPage id)
  | .deleteMaster id => inHmi (fun h => (.ok (.redirect none), loadMasters { h with db := h.db.deleteMaster id }))
  | .read m s f a n => readPage exec m s f a n
  | .readAll m s => readAllPage exec m s
  | .addRequest m s f a n => do
    let x ← inHmi (getMaster m)
    inHmi (fun h => (.ok (), renew { h with db := h.db.addRequest x.row.id s f a n } x))
    readPage exec m s f a n
  | .deleteRequest m id => do
    let x ← inHmi (getMaster m)
    inHmi (fun h => (.ok (), renew { h with db := h.db.deleteRequest id } x))
    return .redirect (some m)
  | .addMaster p a => do
    let id ← inHmi (fun h => let r := h.db.addMaster p a; (.ok r.2, loadMasters { h with db := r.1 }))
    inHmi (detailPage id)
  | .json m s f a n => jsonPage exec m s f a n
  | .jsonAll m s => jsonAllPage exec m s

/-- a history: the pages and the final state; the server goes on after an exception (error 500) -/
def hmiRun (exec : MasterRow → ExecArgs → PyM W ExecResult) : List HmiOp → Hmi × W → List (Except PyErr Page) × (Hmi × W)
  | [], s => ([], s)
  | op :: ops, s =>
    let r := hmiStep exec op s
    let rest := hmiRun exec ops r.2
    (r.1 :: rest.1, rest.2)

/-- the binary display of a value by the script of master_results_all_hr.tpl: `bin_val` is `dec_val.toString(2)`; node `i` of 1..16 -/
def binaryNode (digits : List Nat) (i : Nat) : Nat := if i > digits.length then 0 else digits.getD (digits.length - i) 0

end Modbus
