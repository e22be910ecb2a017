import Verif.Spec.Item
/-
Specification: literal text replacement, and the texts for which the placeholders `_EN_`, `_VQ_`, `_RST_` and `_CONN_`
that COT puts in stored names and descriptions cannot be confused with anything else.
-/
namespace Cot

/-- replacement of the leftmost, non-overlapping occurrences of `pat` (at most `n` characters are looked at) -/
def replAux (pat repl : Str) : Nat → Str → Str
  | 0, s => s
  | _ + 1, [] => []
  | n + 1, c :: t =>
    if pat.isPrefixOf (c :: t) then repl ++ replAux pat repl n ((c :: t).drop pat.length)
    else c :: replAux pat repl n t

/-- Python's `s.replace(pat, repl)` for a non-empty pattern -/
def replaceAll (pat repl s : Str) : Str := replAux pat repl s.length s

/-- the names of the placeholders -/
def phNames : List Str := ["EN".toList, "VQ".toList, "RST".toList, "CONN".toList]

/-- characters without a special meaning in regular expressions (letters and digits beyond ASCII included) -/
def plainChar (c : Char) : Bool := c ∉ "\\.^$*+?{}[]|()".toList

/-- A value that may be hidden behind a placeholder: not empty, no underscore, no special character, and not made up of
letters of the placeholder names only. -/
def TameVal (v : Str) : Prop :=
  v ≠ [] ∧ (∀ c ∈ v, plainChar c = true ∧ c ≠ '_') ∧ ∃ c ∈ v, c ∉ "ENVQRSTCO".toList

/-- A name or description that cannot be taken for one with placeholders: no underscore, no placeholder name. -/
def TameText (x : Str) : Prop := '_' ∉ x ∧ ∀ k ∈ phNames, ¬ k <:+: x

/-- `re.sub` replaces a pattern without special characters literally. -/
def LiteralSub (env : Env) : Prop := ∀ pat repl s, pat ≠ [] → (∀ c ∈ pat, plainChar c = true) → '\\' ∉ repl →
  env.reSub pat repl s = .ok (replaceAll pat repl s)

/-- The names and descriptions of an item can be read under every profile and cannot be confused with anything else; nor
can the values that occur in them. -/
structure TameItem (env : Env) (it : Item) : Prop where
  quantity : ∀ p v, Reads (it.tab virtualQuantity) p v → TameVal (env.valStr v)
  subtype : ∀ p v, Reads (it.tab resourceSubType) p v → TameVal (slashJoin env v)
  conn : ∀ p v, Reads (it.tab connection) p v → TameVal (env.valStr v)
  name : ∀ p, it.getValue env (elementName env.ver) (some {p}) = .ok none ∨
    ∃ x, it.getValue env (elementName env.ver) (some {p}) = .ok (some (.str x)) ∧ TameText x ∧ TameVal x
  descr : ∀ p, it.getValue env itemDescription (some {p}) = .ok none ∨
    ∃ x, it.getValue env itemDescription (some {p}) = .ok (some (.str x)) ∧ TameText x ∧ x ≠ []

end Cot
