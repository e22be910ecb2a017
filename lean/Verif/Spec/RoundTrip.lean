import Verif.Spec.Item
import Verif.Model.ItemXml
/-
Specification: which property names and values have an XML representation of their own.
-/
namespace Cot

/-- A property name and value that an Item element can represent faithfully:
* a standard child element with a text value,
* a ResourceSubType list of non-empty, space-free names,
* an XML attribute of the Item (other than the configuration attribute itself),
* a custom child element in one line of XML, which the XML library reproduces exactly. -/
inductive Writable (env : Env) : Str → Val → Prop where
  | child {n s} : n ∈ itemChildren env.ver → n ≠ resourceSubType → Writable env n (.str s)
  | subtype {l} : (∀ w ∈ l, w ≠ [] ∧ ' ' ∉ w) → Writable env resourceSubType (.tup l)
  | attr {a s} : '\n' ∉ a → a ≠ itemConfig env.ver → Writable env (a ++ attribKeySuffix) (.str s)
  | custom {s c} : env.ofXml s = .ok c → env.toXml c = s → stripNs c.tag ∉ itemChildren env.ver →
      '\n' ∉ strip s → hasSub attribKeySuffix (strip s ++ elementKeySuffix) = false →
      hasSub childAttribInfix (strip s ++ elementKeySuffix) = false →
      Writable env (strip s ++ elementKeySuffix) (.str s)

/-- Every stored value of the item is representable. -/
def Representable (env : Env) (it : Item) : Prop := ∀ n v S, (v, S) ∈ it.tab n → Writable env n v

/-- `S` is the profile set stored with some value of some property of the item. -/
def Stored (it : Item) (S : PSet) : Prop := ∃ n t v, (n, t) ∈ it.props ∧ (v, S) ∈ t

end Cot
