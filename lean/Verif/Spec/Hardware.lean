import Verif.Spec.Item
import Verif.Model.Hardware
/-
Specification vocabulary for hardware collections.
-/
namespace Cot

/-- The item is of the type with this CIM resource code: that is its one ResourceType. -/
def OfType (it : Item) (code : Str) : Prop := ∃ S, it.tab resourceType = [(.str code, S)]

instance (it : Item) (code : Str) : Decidable (OfType it code) :=
  decidable_of_iff ((it.tab resourceType).map Prod.fst = [.str code]) (by
    unfold OfType
    constructor
    · intro h
      match ht : it.tab resourceType with
      | [] => rw [ht] at h; simp at h
      | [(v, S)] => rw [ht] at h; simp at h; exact ⟨S, by rw [h]⟩
      | _ :: _ :: _ => rw [ht] at h; simp at h
    · rintro ⟨S, h⟩; rw [h]; rfl)

/-- A consistent collection: identifiers are distinct, every item is consistent, and the InstanceID of
each item is the identifier it is filed under. -/
structure HwWF (env : Env) (hw : Hw) : Prop where
  keys : (dkeys hw).Nodup
  items : ∀ id it, (id, it) ∈ hw → ItemWF env it
  ident : ∀ id it, (id, it) ∈ hw → ∀ v S, (v, S) ∈ it.tab (instanceId env.ver) → v = .str id

/-- The item's InstanceID and ResourceType are stored for the same profiles (as they are when every
Item element carries both). -/
def Twin (v : Ver) (it : Item) : Prop :=
  (it.tab (instanceId v)).map Prod.snd = (it.tab resourceType).map Prod.snd

/-- Something is left of the item: it has an identifier or a type, in some profile or by default. -/
def Live (v : Ver) (it : Item) : Prop := it.tab (instanceId v) ≠ [] ∨ it.tab resourceType ≠ []

/-- The number of items of a type that exist under a profile. -/
def countOf (env : Env) (hw : Hw) (code : Str) (p : Prof) : Nat :=
  (hw.filter (fun kv => decide (OfType kv.2 code) && kv.2.hasProfile env p)).length

end Cot
