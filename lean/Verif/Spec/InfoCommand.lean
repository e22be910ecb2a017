import Verif.Model.InfoCommand
import Verif.Spec.Commands
/-
Specification for C128: the verbosity that a command line of `cot info` asks for.
-/
namespace Cot

/-- brief with `--brief` (or `-b`), verbose with `--verbose` (or `-v`), normal without any of them -/
def AsksVerbosity (us : List ArgUse) (vb : Verbosity) : Prop :=
  (vb = .brief ↔ withFlag "--brief" us ≠ []) ∧ (vb = .verbose ↔ withFlag "--verbose" us ≠ [])

end Cot
