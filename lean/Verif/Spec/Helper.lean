import Verif.Model.Helper
/-
Specification vocabulary for helper selection.
-/
namespace Cot

/-- The chosen program is present and at least as new as required. -/
def Usable {W V : Type} (sys : HelperSys W V) (w : W) (c : Str × Option Str) : Prop :=
  sys.found w c.1 = true ∧
    (c.2 = none ∨ ∃ s m v, c.2 = some s ∧ sys.parse s = .ok m ∧ sys.version w c.1 = .ok v ∧ sys.ge v m = true)

/-- Every required version can be parsed. -/
def WellFormed {W V : Type} (sys : HelperSys W V) (choices : List (Str × Option Str)) : Prop :=
  ∀ n s, (n, some s) ∈ choices → ∃ m, sys.parse s = .ok m

/-- Every installed program among the choices reports its version. -/
def VersionsReadable {W V : Type} (sys : HelperSys W V) (w : W) (choices : List (Str × Option Str)) : Prop :=
  ∀ n o, (n, o) ∈ choices → sys.found w n = true → ∃ v, sys.version w n = .ok v

end Cot
