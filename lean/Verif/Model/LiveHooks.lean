import Verif.Model.Hooks
/-
# `call_hooks` with functions that have effects (hooks.py:83-109)

`Model/Hooks.lean` gives the result of `call_hooks` for functions that only compute an answer.  Here a hook function may change
anything, also `_HOOKS` itself (through `install_hook` and `uninstall_hook`: the lock is reentrant).  Functions are numbers;
what they do is given separately.
-/
namespace Modbus

/-- `_HOOKS`: name -> list of functions -/
abbrev LiveReg := List (String × List Nat)

/-- `install_hook(name, fct)`, hooks.py:83-87.  The list object of a name is created once and only changed in place, so the list
    a running loop iterates over is the current list of the name. -/
def liveInstall (R : LiveReg) (name : String) (f : Nat) : LiveReg :=
  match Dict.get? R name with
  | some fs => Dict.set R name (fs ++ [f])
  | none => Dict.set R name [f]

/-- `uninstall_hook(name, fct)`, hooks.py:90-96; see `uninstallHook` -/
def liveUninstall (R : LiveReg) (name : String) (f : Option Nat) : Except PyErr LiveReg :=
  match Dict.get? R name with
  | none => .error .keyError
  | some fs =>
    match f with
    | some f => if f ∈ fs then .ok (Dict.set R name (fs.erase f)) else .error .valueError
    | none => .ok (Dict.set R name [])

/-- the state hook functions act on: the hooks and the rest of the world -/
structure HookWorld (σ : Type) where
  reg : LiveReg
  ext : σ

/-- what every function does and answers -/
abbrev HookFns (σ : Type) := Nat → HookArg → HookWorld σ → Except PyErr (Option Bytes) × HookWorld σ

/-- The loop of hooks.py:103-106.  Python iterates over a list by position: the function at position `i` of the list as it is
    then, until the position is not below the length.  The loop need not end: at most `fuel` rounds, `none` if that is not enough. -/
def liveLoop {σ : Type} (fn : HookFns σ) (name : String) (a : HookArg) :
    (fuel i : Nat) → HookWorld σ → Option (Except PyErr (Option Bytes) × HookWorld σ)
  | 0, _, _ => none
  | fuel+1, i, w =>
    match ((Dict.get? w.reg name).getD [])[i]? with
    | none => some (.ok none, w)
    | some f =>
      match fn f a w with
      | (.error e, w') => some (.error e, w')
      | (.ok (some v), w') => some (.ok (some v), w')
      | (.ok none, w') => liveLoop fn name a fuel (i+1) w'

/-- `call_hooks(name, args)`, hooks.py:99-109: the KeyError of a missing name and one raised by a function are both caught. -/
def liveCall {σ : Type} (fn : HookFns σ) (fuel : Nat) (name : String) (a : HookArg) (w : HookWorld σ) :
    Option (Except PyErr (Option Bytes) × HookWorld σ) :=
  match Dict.get? w.reg name with
  | none => some (.ok none, w)
  | some _ =>
    match liveLoop fn name a fuel 0 w with
    | some (.error .keyError, w') => some (.ok none, w')
    | r => r

end Modbus
