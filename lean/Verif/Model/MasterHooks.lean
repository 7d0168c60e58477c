import Verif.Model.Master
/-
# `Master.execute` with hook functions that act (modbus.py:137-417, hooks.py:99-109)

In `Model/Master.lean` hook functions only answer, or raise.  Here a hook function may change the master, its link and the program around it (`ω`), and may call `master.execute` again:
the lock of `threadsafe_function` (utils.py:19-37) and that of the hooks are reentrant.  Calls nest up to a depth (the recursion limit of the interpreter), then RecursionError (a RuntimeError) is raised;
simplification: the limit is counted in nested calls of `execute`.  `_HOOKS` itself does not change during a call (see `Model/LiveHooks.lean`).
The hooks of the transports (`modbus_tcp.TcpMaster.*`, `modbus_rtu.RtuMaster.*`) are part of `ch`.
-/
namespace Modbus

variable {σ ω : Type}

/-- a hook function that acts: given `master.execute` and the data part of its argument tuple -/
structure MHook (σ ω : Type) where
  id : Nat
  fn : (ExecArgs → PyM (MasterSt σ × ω) ExecResult) → HookArg → PyM (MasterSt σ × ω) (Option Bytes)

/-- `_HOOKS`, hooks.py:16 -/
abbrev MRegistry (σ ω : Type) := List (String × List (MHook σ ω))

/-- the loop of hooks.py:103-106 -/
def mCallLoop (self : ExecArgs → PyM (MasterSt σ × ω) ExecResult) : List (MHook σ ω) → HookArg → PyM (MasterSt σ × ω) (Option Bytes)
  | [], _ => fun s => (.ok none, s)
  | f :: fs, a => fun s =>
    match f.fn self a s with
    | (.error e, s') => (.error e, s')
    | (.ok (some v), s') => (.ok (some v), s')
    | (.ok none, s') => mCallLoop self fs a s'

/-- `call_hooks(name, args)`, hooks.py:99-109: a KeyError of a function is swallowed, what the functions did before stays -/
def mCallHooks (self : ExecArgs → PyM (MasterSt σ × ω) ExecResult) (R : MRegistry σ ω) (name : String) (a : HookArg) : PyM (MasterSt σ × ω) (Option Bytes) := fun s =>
  match Dict.get? R name with
  | none => (.ok none, s)
  | some fs =>
    match mCallLoop self fs a s with
    | (.error .keyError, s') => (.ok none, s')
    | r => r

/-- what the library does to the master leaves the program alone -/
def onMaster {α : Type} (f : PyM (MasterSt σ) α) : PyM (MasterSt σ × ω) α := fun s =>
  let r := f s.1
  (r.1, (r.2, s.2))

/-- `Master.execute`, modbus.py:137-417, with hook functions that act; `depth` is how deep calls may still nest -/
def mExecute (R : MRegistry σ ω) (mac : Mac) (ch : Chan σ) : (depth : Nat) → ExecArgs → PyM (MasterSt σ × ω) ExecResult
  | 0, _ => PyM.raise .runtimeError
  | depth + 1, a => do
    let self := mExecute R mac ch depth
    onMaster (masterOpen ch)
    let p ← PyM.lift (prepare a)
    match a.slave with
    | none => PyM.raise .typeError
    | some slave => do
      let (request, q) ← onMaster (buildRequest mac p.pdu slave)
      let retval ← mCallHooks self R "modbus.Master.before_send" (.msg request)
      onMaster (onLink (ch.send (retval.getD request)))
      let _ ← mCallHooks self R "modbus.Master.after_send" .obj
      let response ← onMaster (onLink (ch.recv p.expectedLength))
      let retval ← mCallHooks self R "modbus.Master.after_recv" (.msg response)
      let responsePdu ← PyM.lift (mac.parseResponse (retval.getD response) q).1
      PyM.lift (analyse a p responsePdu)

end Modbus
