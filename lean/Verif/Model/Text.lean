/-
# Python text functions

A string is a list of characters.
-/
namespace Modbus

abbrev Text := List Char

/-- the digit of a number below ten -/
def digitChar (d : Nat) : Char := Char.ofNat (48 + d)

/-- `str(n)` for a non-negative integer: decimal digits, most significant first, no leading zeros -/
def natText (n : Nat) : Text := if n < 10 then [digitChar n] else natText (n / 10) ++ [digitChar (n % 10)]
  termination_by n

/-- `str(i)` and `"%d" % i` for an integer -/
def intText (i : Int) : Text := if i < 0 then '-' :: natText i.natAbs else natText i.natAbs

/-- `s.strip(chars)` -/
def stripChars (p : Char → Bool) (s : Text) : Text := ((s.dropWhile p).reverse.dropWhile p).reverse

/-- the characters `strip()` and `int()` remove at both ends (the ASCII ones) -/
def isSpace (c : Char) : Bool := c = ' ' ∨ c = '\t' ∨ c = '\n' ∨ c = '\r' ∨ c = '\x0b' ∨ c = '\x0c'

/-- for `strip('\r\n')` -/
def isCrLf (c : Char) : Bool := c = '\r' ∨ c = '\n'

/-- the value of a decimal digit -/
def digitVal (c : Char) : Option Nat := if 48 ≤ c.toNat ∧ c.toNat ≤ 57 then some (c.toNat - 48) else none

/-- the rest of a decimal number after its first digit; underscores are allowed between digits -/
def parseDigits : Nat → Text → Option Nat
  | acc, [] => some acc
  | acc, c :: rest =>
    if c = '_' then
      match rest with
      | [] => none
      | d :: rest' => match digitVal d with
        | some v => parseDigits (10 * acc + v) rest'
        | none => none
    else match digitVal c with
      | some v => parseDigits (10 * acc + v) rest
      | none => none

/-- an unsigned decimal number -/
def parseNat : Text → Option Nat
  | [] => none
  | c :: rest => match digitVal c with
    | some v => parseDigits v rest
    | none => none

/-- `int(s)` for a string; `none`: ValueError.  Simplification: only ASCII digits and spaces. -/
def parseInt (s : Text) : Option Int :=
  match stripChars isSpace s with
  | '-' :: ds => (parseNat ds).map fun (n : Nat) => -(n : Int)
  | '+' :: ds => (parseNat ds).map fun (n : Nat) => (n : Int)
  | ds => (parseNat ds).map fun (n : Nat) => (n : Int)

/-- `s.split(sep)` for a one-character separator: never empty -/
def splitOn (sep : Char) : Text → List Text
  | [] => [[]]
  | c :: rest =>
    if c = sep then [] :: splitOn sep rest
    else match splitOn sep rest with
      | [] => [[c]]
      | w :: ws => (c :: w) :: ws

end Modbus
