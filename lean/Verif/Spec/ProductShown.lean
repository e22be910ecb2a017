import Verif.Spec.InfoSections
import Verif.Spec.EditProduct
import Verif.Model.EditProperties
/-
Specification for C124: what edit-product sets is what `cot info` tells of the package that was written.
-/
namespace Cot

/-- In the product sections of the virtual system, the elements of the seven fields hold text only, no other elements. -/
def PlainFields (v : Ver) (vs : Elem) : Prop :=
  ∀ s ∈ vs.children, s.tag = ovfTag v "ProductSection".toList → ∀ c ∈ s.children, ProductTag v c.tag → c.children = []

/-- What the product section states after the request: the text that was given or, if none was, what `vs` states. -/
def StatedAfter (v : Ver) (vs : Elem) (q : ProductReq) (f : Field) (o : Option Str) : Prop :=
  (∃ x, q.field f = some x ∧ o = some x) ∨ (q.field f = none ∧ Stated v vs f o)

/-- Among the lines are, one after the other, those that tell about the property `p`. -/
def ToldProp (v : Ver) (vb : Verbosity) (p : Elem) (lines : List Str) : Prop :=
  ∃ (wide : Bool) (a block b : List Str), lines = a ++ block ++ b ∧ PropRows v vb wide p block

/-- The virtual system with this hardware section in place of its own. -/
def withHardware (v : Ver) (vs hw : Elem) : Elem :=
  updateFirst vs (ovfTag v "VirtualHardwareSection".toList) [] (fun _ => hw)

end Cot
