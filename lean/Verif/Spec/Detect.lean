import Verif.Py.Str
/-
Names of package files.
-/
namespace Cot

/-- `base` is the last component of the path -/
def LastComponent (p base : Str) : Prop :=
  '/' ∉ base ∧ ∃ dir, p = dir ++ base ∧ (dir = [] ∨ ∃ d, dir = d ++ ['/'])

/-- the name ends in the extension, and there is more before it than dots -/
def HasExtension (base ext : Str) : Prop :=
  (ext = ".ovf".toList ∨ ext = ".ova".toList ∨ ext = ".box".toList) ∧ ∃ stem, base = stem ++ ext ∧ ∃ c ∈ stem, c ≠ '.'

/-- an ASCII letter or digit -/
def AsciiAlnum (c : Char) : Prop := ('a' ≤ c ∧ c ≤ 'z') ∨ ('A' ≤ c ∧ c ≤ 'Z') ∨ ('0' ≤ c ∧ c ≤ '9')

/-- `.ovf` or `.ova` stands in the name after `A`, followed by something that is not a letter or digit -/
def StandsAt (base A ext : Str) : Prop :=
  (ext = ".ovf".toList ∨ ext = ".ova".toList) ∧ ∃ y B, base = A ++ ext ++ y :: B ∧ ¬ AsciiAlnum y

/-- the first such place -/
def FirstInside (base ext : Str) : Prop :=
  ∃ A, StandsAt base A ext ∧ ∀ A' ext', StandsAt base A' ext' → A.length ≤ A'.length

/-- what the name says: its extension; otherwise the first `.ovf` or `.ova` inside -/
def NameSays (base ext : Str) : Prop :=
  HasExtension base ext ∨ ((∀ e, ¬ HasExtension base e) ∧ FirstInside base ext)

end Cot
