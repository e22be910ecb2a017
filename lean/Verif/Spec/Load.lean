import Verif.Spec.Item
import Verif.Model.ItemXml
/-
Specification: what an Item element says.
-/
namespace Cot

/-- the profiles an Item element is for: those of its configuration attribute, or the default -/
def itemProfiles (v : Ver) (e : Elem) : PSet :=
  if splitWs ((e.get (itemConfig v)).getD []) = [] then {none}
  else ((splitWs ((e.get (itemConfig v)).getD [])).map some).toFinset

/-- the value a text stands for: a ResourceSubType is a list of names, everything else a string -/
def denoteText (n t : Str) : Val := if n = resourceSubType then .tup (splitOnChar ' ' t) else .str t

/-- the element has a child named `n` (in any name space) with this value -/
def Says (e : Elem) (n : Str) (v : Val) : Prop :=
  ∃ c ∈ e.children, stripNs c.tag = n ∧ ∃ t, c.text = some t ∧ v = denoteText n t

/-- An ordinary Item element: each standard child occurs at most once and is not empty. -/
structure OrdinaryItem (v : Ver) (e : Elem) : Prop where
  texts : ∀ c ∈ e.children, stripNs c.tag ∈ itemChildren v → ∃ t, c.text = some t ∧ t ≠ []
  once : ∀ n ∈ itemChildren v, (e.children.filter (fun c => stripNs c.tag == n)).length ≤ 1

/-- the text of the InstanceID of an Item element -/
def itemId (v : Ver) (e : Elem) : Option Str :=
  match namespaceForItemTag v e.tag with
  | none => none
  | some ns => match e.children.find? (fun c => c.tag == ns ++ instanceId v) with
    | none => none
    | some c => c.text

end Cot
