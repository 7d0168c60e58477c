import Verif.Model.Locks
import Verif.Model.Slave
import Verif.Model.Master
/-
# Which methods hold which lock
-/
namespace Modbus

/-! ## Slaves -/

/-- a call of a method of a slave -/
inductive SlaveCall where
  | handle (pdu : Bytes) (broadcast : Bool)
  | addBlock (name : String) (bt start size : Int)
  | removeBlock (name : String)
  | removeAllBlocks
  | setValues (name : String) (address : Int) (values : Values)
  | getValues (name : String) (address size : Int)

/-- its result -/
inductive SlaveRes where
  | response (r : Except PyErr Bytes)
  | done (r : Except PyErr Unit)
  | values (r : Except PyErr (List Int))

/-- what the call does when nobody else uses the slave: the model of `Model/Slave.lean` -/
def SlaveCall.run (R : Registry) : SlaveCall → SlaveSt → SlaveRes × SlaveSt
  | .handle pdu b, s => let r := onHeap (fun sl => handleRequest R sl pdu b) s; (.response r.1, r.2)
  | .addBlock n bt st sz, s => let r := Modbus.addBlock n bt st sz s; (.done r.1, r.2)
  | .removeBlock n, s => let r := Modbus.removeBlock n s; (.done r.1, r.2)
  | .removeAllBlocks, s => let r := Modbus.removeAllBlocks s; (.done r.1, r.2)
  | .setValues n a v, s => let r := onHeap (Modbus.setValues R n a v) s; (.done r.1, r.2)
  | .getValues n a k, s => let r := onHeap (Modbus.getValues n a k) s; (.values r.1, r.2)

/-- The methods with their locks, modbus.py:737 (`handle_request`), 779 (`add_block`), 817 (`remove_block`), 829
    (`remove_all_blocks`), 851 (`set_values`), 878 (`get_values`): each is `with self._data_lock:` around its whole body.
    `body`: the bodies as programs, in atomic steps of any size (they may take further locks, e.g. in `call_hooks`). -/
def slaveCode {L : Type} (D : L) (body : SlaveCall → Prog L SlaveSt SlaveRes) : SlaveCall → Prog L SlaveSt SlaveRes
  | .handle pdu b => .withLock D (body (.handle pdu b))
  | .addBlock n bt st sz => .withLock D (body (.addBlock n bt st sz))
  | .removeBlock n => .withLock D (body (.removeBlock n))
  | .removeAllBlocks => .withLock D (body .removeAllBlocks)
  | .setValues n a v => .withLock D (body (.setValues n a v))
  | .getValues n a k => .withLock D (body (.getValues n a k))

/-! ## Masters -/

/-- `Master.execute` with its decorator, modbus.py:137, utils.py:24-44: one lock for all masters, taken unless the caller passes
    `threadsafe=False` -/
def executeCode {L σ Op Res : Type} (E : L) (body : Op → Prog L σ Res) (threadsafe : Op → Bool) (op : Op) : Prog L σ Res :=
  .threadsafe E (threadsafe op) (body op)

/-- `TcpQuery._get_transaction_id` with its decorator, modbus_tcp.py:107-114; it is called without the argument `threadsafe` -/
def getTransactionIdCode {L : Type} (l : L) : Prog L Int Int := .threadsafe l true getTransactionIdBody

end Modbus
