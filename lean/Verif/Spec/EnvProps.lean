import Verif.Model.EnvProps
import Verif.Spec.DataValidation
/-
Specification vocabulary for environment properties.
-/
namespace Cot

/-- `name(digits)` occurs in the qualifier string after `pre` -/
def QualifierAt (name qual pre digits : Str) : Prop :=
  Digits digits ∧ ∃ post, qual = pre ++ (name ++ '(' :: digits ++ ')' :: post)

/-- The first `name(n)` in the qualifier string is this one. -/
def Declares (name qual : Str) (n : Nat) : Prop :=
  ∃ pre digits, QualifierAt name qual pre digits ∧ digitsVal digits = n ∧
    ∀ pre' digits', QualifierAt name qual pre' digits' → pre.length ≤ pre'.length

/-- The lengths allowed by the qualifiers. -/
def LengthAllowed (qual : Str) (len : Nat) : Prop :=
  (∀ n, Declares "MaxLen".toList qual n → len ≤ n) ∧ (∀ n, Declares "MinLen".toList qual n → n ≤ len)

/-- Words for the two truth values, in any letter case -/
def TrueWord (s : Str) : Prop := lower s ∈ ["true", "1", "t", "y", "yes"].map String.toList
/-- words for false -/
def FalseWord (s : Str) : Prop := lower s ∈ ["false", "0", "f", "n", "no"].map String.toList

/-- A value `w` that may be stored for a property of this type with these qualifiers. -/
def Obeys (ty qual w : Str) : Prop :=
  (ty = "boolean".toList → w = "true".toList ∨ w = "false".toList) ∧ LengthAllowed qual w.length

/-- The value the user gives and the value stored for it. -/
def Converts (ty x w : Str) : Prop :=
  if ty = "boolean".toList then (TrueWord x ∧ w = "true".toList) ∨ (FalseWord x ∧ w = "false".toList) else w = x

/-- `p` is the Property with this key, and there is only one. -/
def PropIs (v : Ver) (vs : Elem) (key : Str) (p : Elem) : Prop :=
  ∃ sec, vs.children.filter (fun e => e.tag = ovfTag v "ProductSection".toList) = [sec] ∧
    sec.children.filter (fun e => e.tag = ovfTag v "Property".toList ∧ e.get (ovfTag v "key".toList) = some key) = [p]

/-- There is no Property with this key. -/
def NoProp (v : Ver) (vs : Elem) (key : Str) : Prop :=
  ∀ sec ∈ vs.children, sec.tag = ovfTag v "ProductSection".toList →
    ∀ p ∈ sec.children, ¬ (p.tag = ovfTag v "Property".toList ∧ p.get (ovfTag v "key".toList) = some key)

/-- At most one ProductSection and at most one Property for each key. -/
def PropsWF (v : Ver) (vs : Elem) : Prop :=
  (vs.children.filter (fun e => e.tag = ovfTag v "ProductSection".toList)).length ≤ 1 ∧
  ∀ key, NoProp v vs key ∨ ∃ p, PropIs v vs key p

/-- the declared type of a Property (empty if none is declared) -/
def typeOf (v : Ver) (p : Elem) : Str := (p.get (ovfTag v "type".toList)).getD []
/-- the qualifiers of a Property -/
def qualOf (v : Ver) (p : Elem) : Str := (p.get (ovfTag v "qualifiers".toList)).getD []

/-- the attribute with the value of a Property -/
def valueAttr : Ver → Str
  | .v0 => ovfTag .v0 "defaultValue".toList
  | v => ovfTag v "value".toList
/-- the attribute that says whether the user may set a Property -/
def confAttr : Ver → Str
  | .v0 => ovfTag .v0 "configurableByUser".toList
  | v => ovfTag v "userConfigurable".toList

/-- Every value in the document obeys the declared type and qualifiers of its property. -/
def AllObey (v : Ver) (vs : Elem) : Prop :=
  ∀ key p w, PropIs v vs key p → p.get (valueAttr v) = some w → Obeys (typeOf v p) (qualOf v p) w

/-- `t` is `s` without its surrounding white space. -/
def Trimmed (s t : Str) : Prop :=
  Padded s t ∧ (∀ c ∈ t.head?, isWs c = false) ∧ (∀ c ∈ t.getLast?, isWs c = false)

/-- The configuration commands in a list of lines: blank lines and lines starting with `!` are no commands;
white space around a command does not belong to it. -/
inductive Commands : List Str → List Str → Prop
  | nil : Commands [] []
  | blank {line lines cmds} (h : Blank line) (r : Commands lines cmds) : Commands (line :: lines) cmds
  | comment {line t lines cmds} (h : Trimmed line ('!' :: t)) (r : Commands lines cmds) : Commands (line :: lines) cmds
  | command {line c t lines cmds} (h : Trimmed line (c :: t)) (hc : c ≠ '!') (r : Commands lines cmds) :
      Commands (line :: lines) ((c :: t) :: cmds)

/-- A property that takes any text: not there yet, or not boolean and without length limits. -/
def TakesText (v : Ver) (vs : Elem) (key : Str) : Prop :=
  NoProp v vs key ∨ ∃ p, PropIs v vs key p ∧ typeOf v p ≠ "boolean".toList ∧ ∀ n, LengthAllowed (qualOf v p) n

/-- `k` is the key numbered `n`: the prefix, a hyphen and the number, zero-padded to four digits. -/
def NumberedKey (lit : Str) (n : Nat) (k : Str) : Prop :=
  ∃ zeros m, k = lit ++ '-' :: (zeros ++ m) ∧ (∀ c ∈ zeros, c = '0') ∧ Digits m ∧ m.head? ≠ some '0' ∧
    digitsVal m = n ∧ (zeros ++ m).length = max 4 m.length

end Cot
