import Verif.Model.GoStr

/-! # Model of the number parsing functions of Go's strconv -/

namespace Verif.Model

/-- An ASCII digit. -/
def isDigit (c : Byte) : Bool := decide (48 ≤ c ∧ c ≤ 57)

/-- The value of a string of digits, most significant first. -/
def digitsVal (s : Str) : Nat := s.foldl (fun a c => a * 10 + (c - 48)) 0

/-- `strconv.ParseUint(s, 10, 64)`: only digits, at least one, at most 2^64-1.  (Base 10 given explicitly:
underscores are refused.) -/
def parseUint64 (s : Str) : Option Nat :=
  if s ≠ [] ∧ s.all isDigit = true ∧ digitsVal s < 2 ^ 64 then some (digitsVal s) else none

/-- `strconv.ParseInt(s, 10, 64)` (and `strconv.Atoi` on a 64-bit platform): an optional sign. -/
def parseInt64 (s : Str) : Option Int :=
  match s with
  | 45 :: r => match parseUint64 r with
    | some n => if n ≤ 2 ^ 63 then some (-(n : Int)) else none
    | none => none
  | 43 :: r => match parseUint64 r with
    | some n => if n < 2 ^ 63 then some n else none
    | none => none
  | r => match parseUint64 r with
    | some n => if n < 2 ^ 63 then some n else none
    | none => none

/-- `%d` of a signed integer. -/
def itoaInt (n : Int) : Str := if n < 0 then 45 :: itoa n.natAbs else itoa n.natAbs

end Verif.Model
