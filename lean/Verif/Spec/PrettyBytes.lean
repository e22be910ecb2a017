import Verif.Py.Str
import Mathlib.Data.Rat.Defs
import Mathlib.Algebra.Order.Field.Rat
/-
Specification for C87: what number a size such as `63.99 GiB` tells the reader.
-/
namespace Cot

/-- The decimal numeral `t` writes the number `x`: digits, or digits, a point and digits. -/
def WritesNumber (t : Str) (x : ℚ) : Prop :=
  ∃ a f : Str, a ≠ [] ∧ (∀ c ∈ a, isDig c = true) ∧ (∀ c ∈ f, isDig c = true) ∧
    ((f = [] ∧ t = a) ∨ (f ≠ [] ∧ t = a ++ '.' :: f)) ∧
    x = (digitsVal a : ℚ) + (digitsVal f : ℚ) / 10 ^ f.length

/-- The units, and how many bytes each of them is. -/
def sizeUnits : List (Str × Nat) :=
  [("B".toList, 1), ("KiB".toList, 2 ^ 10), ("MiB".toList, 2 ^ 20), ("GiB".toList, 2 ^ 30), ("TiB".toList, 2 ^ 40),
   ("PiB".toList, 2 ^ 50), ("EiB".toList, 2 ^ 60), ("ZiB".toList, 2 ^ 70), ("YiB".toList, 2 ^ 80)]

/-- `text` is the number `x`, a space, and the name of the unit of `b` bytes. -/
def ShowsSize (text : Str) (x : ℚ) (b : Nat) : Prop :=
  ∃ t u : Str, text = t ++ ' ' :: u ∧ (u, b) ∈ sizeUnits ∧ WritesNumber t x

end Cot
