import Verif.Model.EditProperties
import Verif.Spec.OvfSections
/-
Specification vocabulary for the command edit-product.
-/
namespace Cot

/-- the text given for a field on the command line, if any -/
def ProductReq.field (q : ProductReq) : Field → Option Str
  | .product => q.product
  | .vendor => q.vendor
  | .version => q.version
  | .fullVersion => q.fullVersion
  | .productUrl => q.productUrl
  | .vendorUrl => q.vendorUrl
  | .appUrl => q.appUrl

/-- the tags of the seven product fields -/
def ProductTag (v : Ver) (t : Str) : Prop :=
  t ∈ (["Product", "Vendor", "Version", "FullVersion", "ProductUrl", "VendorUrl", "AppUrl"].map String.toList).map (ovfTag v)

instance (v : Ver) (t : Str) : Decidable (ProductTag v t) := by unfold ProductTag; infer_instance

/-- From the product section `s` to `s'` nothing changed but the class and the fields in `F`: the other attributes,
the fields not in `F` and everything that is no field are the same. -/
def OnlyFields (v : Ver) (F : Field → Prop) (cls : Prop) (s s' : Elem) : Prop :=
  s'.tag = s.tag ∧ s'.text = s.text ∧ s'.tail = s.tail ∧
  (∀ a, a ≠ ovfTag v "class".toList ∨ ¬ cls → s'.get a = s.get a) ∧
  s'.children.filter (fun c => ¬ ProductTag v c.tag) = s.children.filter (fun c => ¬ ProductTag v c.tag) ∧
  ∀ f, ¬ F f → kids s' (fieldTag v f) = kids s (fieldTag v f)

/-- `s` is the product section of the virtual system, or the one made for it if there is none, which has an Info
and nothing else. -/
def BaseSection (v : Ver) (vs s : Elem) : Prop :=
  kids vs (ovfTag v "ProductSection".toList) = [s] ∨
  (kids vs (ovfTag v "ProductSection".toList) = [] ∧
    s = .mk (ovfTag v "ProductSection".toList) [] none none
      [.mk (ovfTag v "Info".toList) [] (some "Product Information".toList) none []])

end Cot
