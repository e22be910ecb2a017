import Verif.Model.Xml
/-
Specification vocabulary for XML editing.  Only the element type and its accessors are used.
-/
namespace Cot

/-- place of a tag in the schema: its position in `ordering`; tags not listed come after all listed ones -/
def schemaRank (ordering : List Str) (tag : Str) : Nat := ordering.findIdx (· = tag)

/-- children are in schema order -/
def SchemaOrdered (ordering : List Str) (cs : List Elem) : Prop :=
  cs.Pairwise (fun a b => schemaRank ordering a.tag ≤ schemaRank ordering b.tag)

/-- an element with this tag and (at least) these attributes -/
def Matches (tag : Str) (attrib : List (Str × Str)) (e : Elem) : Prop :=
  e.tag = tag ∧ ∀ kv ∈ attrib, e.get kv.1 = some kv.2

/-- absent or whitespace-only text -/
def BlankText : Option Str → Prop
  | none => True
  | some s => ∀ c ∈ s, isWs c = true

mutual
/-- Same document up to layout: same tags, attributes and children; texts and tails are equal or both blank. -/
def SameUpToLayout : Elem → Elem → Prop
  | .mk t a x l cs, .mk t' a' x' l' cs' =>
    t = t' ∧ a = a' ∧ (x = x' ∨ (cs ≠ [] ∧ BlankText x ∧ BlankText x')) ∧ (l = l' ∨ (BlankText l ∧ BlankText l')) ∧
      SameUpToLayoutL cs cs'
/-- pointwise on child lists -/
def SameUpToLayoutL : List Elem → List Elem → Prop
  | [], [] => True
  | e :: r, e' :: r' => SameUpToLayout e e' ∧ SameUpToLayoutL r r'
  | _, _ => False
end

mutual
/-- Same elements: tags, attributes, children, and the text of childless elements. -/
def SameElements : Elem → Elem → Prop
  | .mk t a x _ cs, .mk t' a' x' _ cs' => t = t' ∧ a = a' ∧ (cs = [] → x = x') ∧ SameElementsL cs cs'
/-- pointwise on child lists -/
def SameElementsL : List Elem → List Elem → Prop
  | [], [] => True
  | e :: r, e' :: r' => SameElements e e' ∧ SameElementsL r r'
  | _, _ => False
end

mutual
/-- No mixed content: an element with children has only layout as text, and nothing but layout follows any element. -/
def ElementOnly : Elem → Prop
  | .mk _ _ x l cs => (cs ≠ [] → BlankText x) ∧ BlankText l ∧ ElementOnlyL cs
/-- for child lists -/
def ElementOnlyL : List Elem → Prop
  | [] => True
  | e :: r => ElementOnly e ∧ ElementOnlyL r
end

end Cot
