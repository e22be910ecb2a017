import Verif.Py.Str
/-
Specification of `key[=value][+type]` arguments.
-/
namespace Cot

/-- neither `=` nor `+` -/
def PlainWord (s : Str) : Prop := s ≠ [] ∧ '=' ∉ s ∧ '+' ∉ s

/-- the text ends with `+type` for some type name -/
def HasTypeSuffix (v : Str) : Prop := ∃ a t, v = a ++ '+' :: t ∧ PlainWord t

/-- `prop` is written as `key`, `key=value`, `key+type` or `key=value+type`.  A trailing `+type` is always
read as the type. -/
inductive IsProperty : Str → Str → Option Str → Option Str → Prop
  | key {k : Str} : PlainWord k → IsProperty k k none none
  | value {k v : Str} : PlainWord k → ¬ HasTypeSuffix v → IsProperty (k ++ '=' :: v) k (some v) none
  | type {k t : Str} : PlainWord k → PlainWord t → IsProperty (k ++ '+' :: t) k none (some t)
  | full {k v t : Str} : PlainWord k → PlainWord t → IsProperty (k ++ '=' :: v ++ '+' :: t) k (some v) (some t)

end Cot
