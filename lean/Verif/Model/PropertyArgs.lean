import Verif.Py.Re
import Verif.Model.Utilities
/-
Model of the argument setters of COT/commands/edit_properties.py.
-/
namespace Cot

/-- `[^=+]` -/
def notEqPlus (c : Char) : Bool := c != '=' && c != '+'

/-- edit_properties.py:139, `^([^=+]+)(=.*?)?(\+[^=+]+?)?$` -/
def propertyRe : Re :=
  .cat [.grp 1 (.plus (.cls notEqPlus)), .opt (.grp 2 (.seq (.chr '=') (.starL .dot))),
    .opt (.grp 3 (.seq (.chr '+') (.plusL (.cls notEqPlus)))), .eol]

/-- edit_properties.py:145-147: `match.group(n)[1:] if match.group(n) else None` -/
def groupTail (m : Caps) (n : Nat) : Option Str :=
  match m.group n with
  | none => none
  | some g => if g = [] then none else some (g.drop 1)

/-- edit_properties.py:129-153, one argument of the `properties` setter -/
def parseProperty (prop : Str) : Except Err (Str × Option Str × Option Str) :=
  match reMatch propertyRe prop with
  | none => .error .invalidInput
  | some m => .ok (m.groupD 1, groupTail m 2, groupTail m 3)

end Cot
