import Verif.Model.Handlers
/-
# `Slave.handle_request` with hook functions that act

In `Model/Slave.lean` hook functions only answer, or raise.  Here a hook function may also change the memory of the slaves (for example by `set_values`: the locks of the
library are reentrant) and the program around it.  The state is the heap and `ω`, everything else the functions of the program look at or change.

Simplifications: `_HOOKS` itself does not change during a request (see `Model/LiveHooks.lean` for functions that install and uninstall functions).  A block is referred to by its
place in the list of its table, so functions that are called between the look-up of a block and the last assignment - those of `modbus.ModbusBlock.setitem` - do not add or remove
blocks; functions called earlier may.
-/
namespace Modbus

/-- the argument tuple of a hook function: `(slave, request_pdu)`, `(slave, response_pdu)`, `(slave, excpt, request_pdu)` or `(block, item, value)` -/
structure EArg where
  slave : Option Slave := none
  block : Option BlockRef := none
  data : HookArg

/-- a hook function that acts -/
structure EHook (ω : Type) where
  id : Nat
  fn : EArg → PyM (Heap × ω) (Option Bytes)

/-- `_HOOKS`, hooks.py:16 -/
abbrev ERegistry (ω : Type) := List (String × List (EHook ω))

variable {ω : Type}

/-- the loop of hooks.py:103-106 -/
def eCallLoop : List (EHook ω) → EArg → PyM (Heap × ω) (Option Bytes)
  | [], _ => fun s => (.ok none, s)
  | f :: fs, a => fun s =>
    match f.fn a s with
    | (.error e, s') => (.error e, s')
    | (.ok (some v), s') => (.ok (some v), s')
    | (.ok none, s') => eCallLoop fs a s'

/-- `call_hooks(name, args)`, hooks.py:99-109: a KeyError of a function is swallowed, what the functions did before stays -/
def eCallHooks (R : ERegistry ω) (name : String) (a : EArg) : PyM (Heap × ω) (Option Bytes) := fun s =>
  match Dict.get? R name with
  | none => (.ok none, s)
  | some fs =>
    match eCallLoop fs a s with
    | (.error .keyError, s') => (.ok none, s')
    | r => r

/-- what the library does to the memory leaves the program alone -/
def inMemory {α : Type} (f : PyM Heap α) : PyM (Heap × ω) α := fun s => ((f s.1).1, ((f s.1).2, s.2))

/-- `block[i] = v`, modbus.py:454-457: the hook functions first; then `self._data.__setitem__(item, value)` on the block as they left it -/
def eAssign (R : ERegistry ω) (b : BlockRef) (i v : Int) : PyM (Heap × ω) Unit := fun s =>
  match s.1.block? b with
  | none => (.error .indexError, s)
  | some blk =>
    match eCallHooks R "modbus.ModbusBlock.setitem" { block := some b, data := .setitem blk.start i [v] } s with
    | (.error e, s') => (.error e, s')
    | (.ok _, s') => inMemory (setItem [] b i v) s'

/-- integers in the cells, hooks that act -/
def effEnv (R : ERegistry ω) (sl : Slave) : Env (Heap × ω) Int where
  unsigned := sl.unsigned
  hook := fun name a => eCallHooks R name { slave := some sl, data := a }
  locate := fun t a n => inMemory (getBlockAndOffset sl t a n)
  slice := fun b i j => inMemory (getSlice b i j)
  item := fun b i => inMemory (getItem b i)
  assign := eAssign R
  cell := fun n => n
  truth := fun n => decide (n ≠ 0)
  pack := fun c n => structPack (be [c]) [n]
  mask := fun n a o => .ok (pyOr (pyAnd n a) (pyAnd o (pyNot a)))

/-- `Slave.handle_request`, modbus.py:731-774, with hooks that act -/
def eHandleRequest (R : ERegistry ω) (sl : Slave) (pdu : Bytes) (broadcast : Bool) : PyM (Heap × ω) Bytes := gHandleRequest (effEnv R sl) pdu broadcast

end Modbus
