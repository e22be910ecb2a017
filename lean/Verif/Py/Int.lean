import Verif.Py.Str
/-
Python's `int(s)` on strings.
-/
namespace Cot

/-- A non-empty run of ASCII digits as a number. -/
def parseNat (s : Str) : Option Nat :=
  if s ≠ [] ∧ s.all isDig = true then some (digitsVal s) else none

/-- `int(s)`: white space around, an optional sign, decimal digits.
Simplifications: digit groups with underscores ("1_000") and non-ASCII digits are rejected. -/
def pyInt (s : Str) : Option Int :=
  match strip s with
  | '-' :: t => (parseNat t).map (fun n : Nat => - (n : Int))
  | '+' :: t => (parseNat t).map (fun n : Nat => (n : Int))
  | t => (parseNat t).map (fun n : Nat => (n : Int))

end Cot
