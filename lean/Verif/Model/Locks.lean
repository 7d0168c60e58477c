import Mathlib.Logic.Function.Basic
import Verif.Model.Query
/-
# Threads and locks

Every lock of the library is a `threading.RLock` used through `with lock:` or, in `threadsafe_function`,
through `acquire` / `try` ... `finally: release`:

| lock | where |
|---|---|
| one for all `Master.execute` | utils.py:26 for modbus.py:137 |
| one for `TcpQuery._get_transaction_id` | utils.py:26 for modbus_tcp.py:107 |
| `Slave._data_lock`, one per slave | modbus.py:486, held in 737, 779, 817, 829, 851, 878 |
| `Databank._lock`, one per databank | modbus.py:905, held in 910, 921, 929, 937 |
| `hooks._LOCK` | hooks.py:15, held in 83, 92, 101 |

A thread is a tree of atomic steps on a shared state, lock acquisitions and releases.  A program may stop for as long as
the scheduler likes between any two of them; the grain of the steps is arbitrary, so a statement about all programs covers
every way the interpreter may cut Python code into atomic actions.
-/
namespace Modbus

/-- a piece of code of one thread: `L` - names of locks, `σ` - shared state, `α` - result (`Except ..` when the code may raise) -/
inductive Prog (L σ α : Type) where
  | ret (a : α)
  /-- acquire a lock, then go on -/
  | acq (l : L) (k : Prog L σ α)
  | rel (l : L) (k : Prog L σ α)
  /-- an atomic step: change the state and go on depending on the state found -/
  | step (f : σ → σ) (k : σ → Prog L σ α)

namespace Prog
variable {L σ α β : Type}

/-- sequential composition -/
def bind : Prog L σ α → (α → Prog L σ β) → Prog L σ β
  | .ret a, g => g a
  | .acq l k, g => .acq l (k.bind g)
  | .rel l k, g => .rel l (k.bind g)
  | .step f k, g => .step f (fun s => (k s).bind g)

/-- `with l: p`; also `threadsafe_function`, utils.py:24-44: the lock is released whether `p` returns or raises (the exception
    is part of the result), and the result is handed on -/
def withLock (l : L) (p : Prog L σ α) : Prog L σ α := .acq l (p.bind fun a => .rel l (.ret a))

/-- `threadsafe_function(p)(threadsafe=b)`, utils.py:28-43 -/
def threadsafe (l : L) (b : Bool) (p : Prog L σ α) : Prog L σ α := if b then withLock l p else p

/-- what the program does when nobody else runs -/
def run : Prog L σ α → σ → α × σ
  | .ret a, s => (a, s)
  | .acq _ k, s => k.run s
  | .rel _ k, s => k.run s
  | .step f k, s => (k s).run (f s)

/-- a program for one object (e.g. one slave) as a program for the object `k` of many -/
def onKey {K : Type} [DecidableEq K] (k : K) : Prog L σ α → Prog L (K → σ) α
  | .ret a => .ret a
  | .acq l p => .acq l (p.onKey k)
  | .rel l p => .rel l (p.onKey k)
  | .step f p => .step (fun x => Function.update x k (f (x k))) (fun x => (p (x k)).onKey k)

/-- nothing left to do -/
def isRet : Prog L σ α → Bool
  | .ret _ => true
  | _ => false

end Prog

/-- the state of all `RLock`s: the owner and how often it has acquired it -/
abbrev Owners (L : Type) := L → Option (Nat × Nat)

section
variable {L : Type} [DecidableEq L]

/-- `lock.acquire()` by thread `t`; `none`: the thread has to wait -/
def acquire (o : Owners L) (t : Nat) (l : L) : Option (Owners L) :=
  match o l with
  | none => some (Function.update o l (some (t, 1)))
  | some (t', n) => if t' = t then some (Function.update o l (some (t, n + 1))) else none

/-- `lock.release()` by thread `t`; `none`: RuntimeError, the lock is not owned by `t` -/
def release (o : Owners L) (t : Nat) (l : L) : Option (Owners L) :=
  match o l with
  | none => none
  | some (t', n) => if t' = t then some (Function.update o l (if n ≤ 1 then none else some (t, n - 1))) else none

/-- all threads, the locks and the shared state -/
structure Sys (L σ α : Type) where
  shared : σ
  owners : Owners L
  progs : Nat → Prog L σ α

variable {σ α : Type}

/-- the next action of a program run by thread `t`, if it can be done now -/
def Prog.next (t : Nat) (p : Prog L σ α) (x : σ) (o : Owners L) : Option (Prog L σ α × σ × Owners L) :=
  match p with
  | .ret _ => none
  | .acq l k => (acquire o t l).map fun o' => (k, x, o')
  | .rel l k => (release o t l).map fun o' => (k, x, o')
  | .step f k => some (k x, f x, o)

/-- the next action of thread `t`, if it can do it now -/
def Sys.next (s : Sys L σ α) (t : Nat) : Option (Sys L σ α) :=
  ((s.progs t).next t s.shared s.owners).map fun (p, x, o) => ⟨x, o, Function.update s.progs t p⟩

/-- executions: any thread that can act may act next -/
inductive Sys.Reach (s0 : Sys L σ α) : Sys L σ α → Prop
  | refl : Reach s0 s0
  | step {s s' : Sys L σ α} (t : Nat) : Reach s0 s → s.next t = some s' → Reach s0 s'

/-- threads about to run, nobody holds a lock -/
def Sys.init (σ0 : σ) (ps : Nat → Prog L σ α) : Sys L σ α := ⟨σ0, fun _ => none, ps⟩

/-! ### Threads that call operations of an object -/

/-- Each thread is idle or in the middle of an operation; `hist`: the operations it has completed and what they returned. -/
structure Calls (L σ Op Res : Type) where
  shared : σ
  owners : Owners L
  cur : Nat → Option (Op × Prog L σ Res)
  hist : Nat → List (Op × Res)

variable {Op Res : Type}

/-- An idle thread may call any operation at any time; a thread in an operation may do its next action; a finished operation
    returns.  `code op` is the program of the operation. -/
inductive Calls.Step (code : Op → Prog L σ Res) : Calls L σ Op Res → Calls L σ Op Res → Prop
  | call {s : Calls L σ Op Res} (t : Nat) (op : Op) : s.cur t = none →
      Step code s { s with cur := Function.update s.cur t (some (op, code op)) }
  | act {s : Calls L σ Op Res} (t : Nat) {op : Op} {p p' : Prog L σ Res} {x : σ} {o : Owners L} :
      s.cur t = some (op, p) → p.next t s.shared s.owners = some (p', x, o) →
      Step code s { s with shared := x, owners := o, cur := Function.update s.cur t (some (op, p')) }
  | back {s : Calls L σ Op Res} (t : Nat) {op : Op} {r : Res} : s.cur t = some (op, .ret r) →
      Step code s { s with cur := Function.update s.cur t none,
                           hist := Function.update s.hist t (s.hist t ++ [(op, r)]) }

/-- any number of steps -/
inductive Calls.Reach (code : Op → Prog L σ Res) (s0 : Calls L σ Op Res) : Calls L σ Op Res → Prop
  | refl : Reach code s0 s0
  | step {s s' : Calls L σ Op Res} : Reach code s0 s → Calls.Step code s s' → Reach code s0 s'

/-- nothing was called yet -/
def Calls.init (x : σ) : Calls L σ Op Res := ⟨x, fun _ => none, fun _ => none, fun _ => []⟩

end

/-! ## `TcpQuery._get_transaction_id` in atomic steps -/

/-- `_get_transaction_id` without its decorator, modbus_tcp.py:107-114, one step per access to the class variable (the
    comparison, the read and the write of `+= 1`, the read of the result) -/
def getTransactionIdBody {L : Type} : Prog L Int Int :=
  .step id fun last =>
    if last < 0xffff then
      .step id fun last' => .step (fun _ => last' + 1) fun _ => .step id fun r => .ret r
    else .step (fun _ => 0) fun _ => .step id fun r => .ret r

end Modbus
