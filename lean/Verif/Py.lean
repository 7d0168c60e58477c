/-
# The fragment of Python 3 used by the model

Bytes, exceptions as values, state + exception computations, slices, integer bit operations and the integer part
of the `struct` module.  None of this is library code of modbus-tk; it is the run-time the model stands on and is
part of the trusted base (see DESIGN.md).
-/
namespace Modbus

/-- A Python `bytes` / `bytearray` value. -/
abbrev Bytes := List UInt8

/-- Classes of the exceptions raised in the modelled code (messages are not modelled).
    modbus_tk/exceptions.py:12-88, modbus_tk/modbus_tcp.py:26 and the built-in classes that occur. -/
inductive PyErr where
  /-- `ModbusError(exception_code)`, exceptions.py:12-24 -/
  | modbusError (code : Int)
  | functionNotSupported
  | duplicatedKey
  | missingKey
  | invalidModbusBlock
  | invalidArgument
  | overlapBlock
  | outOfBlock
  | invalidResponse
  | invalidRequest
  /-- `ModbusInvalidMbapError`, modbus_tcp.py:26-30 -/
  | invalidMbap
  /-- `struct.error` -/
  | structError
  | typeError
  | valueError
  | zeroDivision
  | indexError
  | keyError
  | attributeError
  | runtimeError
  /-- `UnboundLocalError` -/
  | unboundLocal
  /-- `socket.timeout` -/
  | timeout
  /-- `OSError` and subclasses raised by sockets / serial ports -/
  | osError
  /-- not an exception: the computation never ends (used only where an infinite loop is proved possible) -/
  | nonTermination
  /-- a plain `Exception(...)` -/
  | generic
  deriving DecidableEq, Repr

/-- A Python computation over a state `σ`: it returns or raises, and the state survives an exception. -/
def PyM (σ α : Type) : Type := σ → Except PyErr α × σ

namespace PyM
variable {σ α β : Type}

def pure (a : α) : PyM σ α := fun s => (.ok a, s)
def bind (x : PyM σ α) (f : α → PyM σ β) : PyM σ β := fun s =>
  match x s with
  | (.ok a, s') => f a s'
  | (.error e, s') => (.error e, s')

instance : Monad (PyM σ) where
  pure := PyM.pure
  bind := PyM.bind

/-- `raise e` -/
def raise (e : PyErr) : PyM σ α := fun s => (.error e, s)
def get : PyM σ σ := fun s => (.ok s, s)
def set (s : σ) : PyM σ Unit := fun _ => (.ok (), s)
def modify (f : σ → σ) : PyM σ Unit := fun s => (.ok (), f s)
/-- run a computation that does not touch the state -/
def lift (x : Except PyErr α) : PyM σ α := fun s => (x, s)
/-- `try: x except ...: h` — `h` may re-raise; the state is *not* rolled back -/
def tryExcept (x : PyM σ α) (h : PyErr → PyM σ α) : PyM σ α := fun s =>
  match x s with
  | (.ok a, s') => (.ok a, s')
  | (.error e, s') => h e s'

@[simp] theorem pure_apply (a : α) (s : σ) : (Pure.pure a : PyM σ α) s = (.ok a, s) := rfl
@[simp] theorem bind_apply (x : PyM σ α) (f : α → PyM σ β) (s : σ) :
    (x >>= f) s = match x s with
      | (.ok a, s') => f a s'
      | (.error e, s') => (.error e, s') := rfl
@[simp] theorem raise_apply (e : PyErr) (s : σ) : (raise e : PyM σ α) s = (.error e, s) := rfl
@[simp] theorem get_apply (s : σ) : (get : PyM σ σ) s = (.ok s, s) := rfl
@[simp] theorem set_apply (s t : σ) : (set t : PyM σ Unit) s = (.ok (), t) := rfl
@[simp] theorem modify_apply (f : σ → σ) (s : σ) : (modify f : PyM σ Unit) s = (.ok (), f s) := rfl
@[simp] theorem lift_apply (x : Except PyErr α) (s : σ) : (lift x : PyM σ α) s = (x, s) := rfl
@[simp] theorem tryExcept_apply (x : PyM σ α) (h : PyErr → PyM σ α) (s : σ) :
    tryExcept x h s = match x s with
      | (.ok a, s') => (.ok a, s')
      | (.error e, s') => h e s' := rfl
end PyM

/-! ## Slices -/

/-- `l[i:j]` for non-negative `i`, `j` -/
def slice {α} (l : List α) (i j : Nat) : List α := (l.take j).drop i

/-- normalisation of a slice bound: negative bounds count from the end, then clamp to `0..len` -/
def sliceBound (len : Nat) (i : Int) : Nat :=
  if i < 0 then (i + len).toNat else min i.toNat len

/-- `l[i:j]` for arbitrary Python ints -/
def pySlice {α} (l : List α) (i j : Int) : List α :=
  slice l (sliceBound l.length i) (sliceBound l.length j)

/-- `l[-n:]` for a positive literal `n` -/
def lastN {α} (l : List α) (n : Nat) : List α := l.drop (l.length - n)
/-- `l[:-n]` for a positive literal `n` -/
def dropLastN {α} (l : List α) (n : Nat) : List α := l.take (l.length - n)

/-! ## Bit operations on Python ints (infinite two's complement) -/

/-- bit `j` of `v` -/
def pyBit : Int → Nat → Bool
  | .ofNat a, j => a.testBit j
  | .negSucc a, j => !a.testBit j

/-- `a & ~b` on naturals -/
def natAndNot (a b : Nat) : Nat := a ^^^ (a &&& b)

/-- `a & b` -/
def pyAnd : Int → Int → Int
  | .ofNat a, .ofNat b => .ofNat (a &&& b)
  | .ofNat a, .negSucc b => .ofNat (natAndNot a b)
  | .negSucc a, .ofNat b => .ofNat (natAndNot b a)
  | .negSucc a, .negSucc b => .negSucc (a ||| b)

/-- `a | b` -/
def pyOr : Int → Int → Int
  | .ofNat a, .ofNat b => .ofNat (a ||| b)
  | .ofNat a, .negSucc b => .negSucc (natAndNot b a)
  | .negSucc a, .ofNat b => .negSucc (natAndNot a b)
  | .negSucc a, .negSucc b => .negSucc (a &&& b)

/-- `~a` -/
def pyNot (a : Int) : Int := -a - 1

/-! ## `struct` (integer codes, standard sizes) -/

/-- An integer format character: its size in bytes and its signedness. -/
structure Code where
  size : Nat
  signed : Bool
  deriving DecidableEq, Repr

namespace Code
def B : Code := ⟨1, false⟩
def b : Code := ⟨1, true⟩
def H : Code := ⟨2, false⟩
def h : Code := ⟨2, true⟩
def I : Code := ⟨4, false⟩
def i : Code := ⟨4, true⟩
def Q : Code := ⟨8, false⟩
def q : Code := ⟨8, true⟩

def modulus (c : Code) : Nat := 256 ^ c.size
/-- least packable value -/
def lo (c : Code) : Int := if c.signed then -((c.modulus / 2 : Nat) : Int) else 0
/-- one past the greatest packable value -/
def hi (c : Code) : Int := if c.signed then ((c.modulus / 2 : Nat) : Int) else (c.modulus : Int)
end Code

/-- A parsed format string: byte order (`>` is big-endian) and codes, e.g. `">BHH"`. -/
structure Fmt where
  big : Bool
  codes : List Code
  deriving DecidableEq, Repr

/-- the format `">"` followed by the given codes -/
def be (codes : List Code) : Fmt := ⟨true, codes⟩

/-- the `n` low bytes of `v`, most significant first -/
def natBE : Nat → Nat → Bytes
  | 0, _ => []
  | n+1, v => natBE n (v / 256) ++ [UInt8.ofNat (v % 256)]

/-- the number whose base-256 digits, most significant first, are the given bytes -/
def beNat (bs : Bytes) : Nat := bs.foldl (fun acc b => acc * 256 + b.toNat) 0

/-- `struct.pack` of one value -/
def packOne (big : Bool) (c : Code) (v : Int) : Except PyErr Bytes :=
  if c.lo ≤ v ∧ v < c.hi then
    let bs := natBE c.size (v % (c.modulus : Int)).toNat
    .ok (if big then bs else bs.reverse)
  else .error .structError

/-- `struct.unpack` of one value from exactly `c.size` bytes -/
def unpackOne (big : Bool) (c : Code) (bs : Bytes) : Int :=
  let n := beNat (if big then bs else bs.reverse)
  if c.signed ∧ c.modulus / 2 ≤ n then (n : Int) - c.modulus else n

def packCodes (big : Bool) : List Code → List Int → Except PyErr Bytes
  | [], [] => .ok []
  | c :: cs, v :: vs => do
      let x ← packOne big c v
      let y ← packCodes big cs vs
      return x ++ y
  | _, _ => .error .structError

/-- `struct.pack(fmt, *vals)` -/
def structPack (f : Fmt) (vals : List Int) : Except PyErr Bytes := packCodes f.big f.codes vals

/-- `struct.calcsize(fmt)` -/
def calcsize (f : Fmt) : Nat := (f.codes.map Code.size).sum

def unpackCodes (big : Bool) : List Code → Bytes → List Int
  | [], _ => []
  | c :: cs, bs => unpackOne big c (bs.take c.size) :: unpackCodes big cs (bs.drop c.size)

/-- `struct.unpack(fmt, data)`: the length must be exactly `calcsize(fmt)` -/
def structUnpack (f : Fmt) (data : Bytes) : Except PyErr (List Int) :=
  if data.length = calcsize f then .ok (unpackCodes f.big f.codes data) else .error .structError

/-! ## Dictionaries (insertion ordered) -/

namespace Dict
variable {κ ν : Type} [DecidableEq κ]
/-- `d.get(k)` -/
def get? : List (κ × ν) → κ → Option ν
  | [], _ => none
  | (k', v) :: d, k => if k' = k then some v else get? d k
/-- `k in d` -/
def has (d : List (κ × ν)) (k : κ) : Bool := (get? d k).isSome
/-- `d[k] = v`: overwrite in place or append -/
def set : List (κ × ν) → κ → ν → List (κ × ν)
  | [], k, v => [(k, v)]
  | (k', v') :: d, k, v => if k' = k then (k', v) :: d else (k', v') :: set d k v
/-- `d.pop(k)` / `del d[k]` for a present key -/
def erase : List (κ × ν) → κ → List (κ × ν)
  | [], _ => []
  | (k', v') :: d, k => if k' = k then erase d k else (k', v') :: erase d k
end Dict

end Modbus
