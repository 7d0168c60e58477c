import Verif.Py
/-
# Model of modbus_tk/hooks.py

`_HOOKS` is a dict from hook names to lists of functions (hooks.py:15-16).  The lock `_LOCK` makes every operation
atomic with respect to other threads; its effect is the subject of `Model/Locks.lean`.
-/
namespace Modbus

/-- What a hook function sees of its argument tuple.
    Simplification: only the data part of the tuple (the message, the item and value, the exception) is passed; the
    master/server/slave/socket object is not, so hooks of the model cannot modify library objects. -/
inductive HookArg where
  /-- tuples carrying only objects, e.g. `(self, )` -/
  | obj
  /-- tuples carrying a message, e.g. `(self, request)` -/
  | msg (b : Bytes)
  /-- `None` or `""` passed as message (Server.after_handle_request may get None) -/
  | noMsg
  /-- `(self, item, value)` of `modbus.ModbusBlock.setitem`: block address, first index, values -/
  | setitem (start : Int) (index : Int) (values : List Int)
  /-- `(self, function_code, excpt)` / `(self, excpt, request_pdu)` / `(self, excpt)` -/
  | exc (e : PyErr) (b : Bytes)
  deriving DecidableEq, Repr

/-- A hook function: an identity (Python function equality) and its behaviour — answer None, answer a value, raise. -/
structure Hook where
  id : Nat
  fn : HookArg → Except PyErr (Option Bytes)

/-- `_HOOKS`, hooks.py:16 -/
abbrev Registry := List (String × List Hook)

/-- `install_hook(name, fct)`, hooks.py:83-87: append, or create the list on KeyError. -/
def installHook (R : Registry) (name : String) (f : Hook) : Registry :=
  match Dict.get? R name with
  | some fs => Dict.set R name (fs ++ [f])
  | none => Dict.set R name [f]

/-- `uninstall_hook(name, fct)`, hooks.py:90-96.  `fct=None` empties the list.
    `list.remove` removes the first equal element or raises ValueError; an unknown name raises KeyError. -/
def uninstallHook (R : Registry) (name : String) (f : Option Hook) : Except PyErr Registry :=
  match Dict.get? R name with
  | none => .error .keyError
  | some fs =>
    match f with
    | some f =>
      if fs.any (fun g => g.id = f.id) then .ok (Dict.set R name (fs.eraseP (fun g => g.id = f.id)))
      else .error .valueError
    | none => .ok (Dict.set R name [])

/-- the loop of hooks.py:103-106 -/
def callLoop : List Hook → HookArg → Except PyErr (Option Bytes)
  | [], _ => .ok none
  | f :: fs, a =>
    match f.fn a with
    | .error e => .error e
    | .ok (some v) => .ok (some v)
    | .ok none => callLoop fs a

/-- `call_hooks(name, args)`, hooks.py:99-109.  Note that `except KeyError` surrounds the calls: a KeyError raised by
    a hook function is swallowed and the result is None. -/
def callHooks (R : Registry) (name : String) (a : HookArg) : Except PyErr (Option Bytes) :=
  match Dict.get? R name with
  | none => .ok none
  | some fs =>
    match callLoop fs a with
    | .error .keyError => .ok none
    | r => r

/-- No installed hook answers a value or raises (in particular: no hook is installed). -/
def Quiet (R : Registry) : Prop := ∀ name a, callHooks R name a = .ok none

end Modbus
