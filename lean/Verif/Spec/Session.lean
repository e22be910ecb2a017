import Verif.Spec.Commands
/-
Specification for C131: where a command that changes a package writes it.
-/
namespace Cot

/-- where the manual says that the package `p` is written to: to the file given with `--output` (the last one, if there are several), or over
itself -/
def Target (abspath : Str → Str) (us : List ArgUse) (p : Str) : Str :=
  match lastGiven "--output" us with
  | none | some [] => abspath p
  | some x => abspath x

end Cot
