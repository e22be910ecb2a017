import Verif.Spec.EditHardware
/-
Specification vocabulary: the same hardware.
-/
namespace Cot

/-- The same device: it is written as the same kind of element, and for every property the same values are stored for the same
profiles. -/
def SameItem (a b : Item) : Prop := b.ns = a.ns ∧ ∀ n, b.tab n = a.tab n

/-- The same collection: the same identifiers in the same order, each of the same device. -/
structure SameHw (a b : Hw) : Prop where
  keys : dkeys b = dkeys a
  items : ∀ id it, dget? a id = some it → ∃ it', dget? b id = some it' ∧ SameItem it it'

/-- No two identifiers of the collection are the same number written differently -/
def NoTies (hw : Hw) : Prop := ∀ a ∈ dkeys hw, ∀ b ∈ dkeys hw, NatLe a b → NatLe b a → a = b

end Cot
