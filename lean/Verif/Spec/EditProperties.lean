import Verif.Spec.EnvProps
import Verif.Spec.EditProduct
/-
Specification vocabulary for the command edit-properties.
-/
namespace Cot

/-- the property with this key, if any -/
def PropState (v : Ver) (vs : Elem) (key : Str) : Option Elem → Prop
  | none => NoProp v vs key
  | some p => PropIs v vs key p

/-- the property an entry of the command line is about, before the entry is dealt with: the existing one, or an
empty one with this key -/
def baseProp (v : Ver) (key : Str) : Option Elem → Elem
  | none => .mk (ovfTag v "Property".toList) [(ovfTag v "key".toList, key)] none none []
  | some p => p

/-- One entry of the command line turns the property (if any) into `p'`. -/
structure OneChange (v : Ver) (uc : Option Bool) (e : PropEntry) (o : Option Elem) (p' : Elem) : Prop where
  /-- the type: the one given, else the old one; a new property is a string -/
  type : p'.get (ovfTag v "type".toList) = e.ptype.or (if o = none then some "string".toList
    else (baseProp v e.key o).get (ovfTag v "type".toList))
  /-- whether the user may configure it: as given with the command, else as before -/
  conf : p'.get (confAttr v) =
    (match uc with
     | some true => some "true".toList
     | some false => some "false".toList
     | none => (baseProp v e.key o).get (confAttr v))
  /-- a value that is given is stored as the type demands, and obeys type and qualifiers -/
  given : ∀ x, e.value = some x → ∃ w, p'.get (valueAttr v) = some w ∧ Converts (typeOf v p') x w ∧
    Obeys (typeOf v p') (qualOf v p') w
  /-- with just a type, the old value is converted -/
  retyped : e.value = none → e.ptype ≠ none → ∀ x, (baseProp v e.key o).get (valueAttr v) = some x →
    ∃ w, p'.get (valueAttr v) = some w ∧ Converts (typeOf v p') x w ∧ Obeys (typeOf v p') (qualOf v p') w
  /-- otherwise the value stays -/
  kept : e.value = none → e.ptype = none ∨ (baseProp v e.key o).get (valueAttr v) = none →
    p'.get (valueAttr v) = (baseProp v e.key o).get (valueAttr v)
  /-- all other attributes stay (the key and the qualifiers among them) -/
  attribs : ∀ a, a ≠ ovfTag v "type".toList → a ≠ confAttr v → a ≠ valueAttr v →
    p'.get a = (baseProp v e.key o).get a
  /-- the label: the one given, else as before -/
  label : (∀ l, e.label = some l → TextIs p' (ovfTag v "Label".toList) (some l)) ∧
    (e.label = none → kids p' (ovfTag v "Label".toList) = kids (baseProp v e.key o) (ovfTag v "Label".toList))
  /-- the description: the one given, else as before -/
  desc : (∀ d, e.desc = some d → TextIs p' (ovfTag v "Description".toList) (some d)) ∧
    (e.desc = none → kids p' (ovfTag v "Description".toList) = kids (baseProp v e.key o) (ovfTag v "Description".toList))
  /-- all else in the property stays -/
  rest : p'.tag = (baseProp v e.key o).tag ∧ p'.text = (baseProp v e.key o).text ∧ p'.tail = (baseProp v e.key o).tail ∧
    p'.children.filter (fun c => c.tag ≠ ovfTag v "Label".toList ∧ c.tag ≠ ovfTag v "Description".toList) =
      (baseProp v e.key o).children.filter (fun c => c.tag ≠ ovfTag v "Label".toList ∧ c.tag ≠ ovfTag v "Description".toList)

/-- Entries for one and the same property, one after the other. -/
inductive Changes (v : Ver) (uc : Option Bool) : List PropEntry → Option Elem → Option Elem → Prop
  | nil (o) : Changes v uc [] o o
  | cons {e r o p o'} : OneChange v uc e o p → Changes v uc r (some p) o' → Changes v uc (e :: r) o o'

/-- the keys of the properties in a product section, in order -/
def propKeys (v : Ver) (s : Elem) : List (Option Str) :=
  (kids s (ovfTag v "Property".toList)).map (fun p => p.get (ovfTag v "key".toList))

/-- From `vs` to `vs'` nothing changed but properties in the product section (which is made if it is missing): new
ones may have been added, in this order, after the ones that there were. -/
def OnlyProps (v : Ver) (new : List Str) (vs vs' : Elem) : Prop :=
  SameButKids (ovfTag v "ProductSection".toList) vs vs' ∧
  (vs' = vs ∧ new = [] ∨ ∃ s s', BaseSection v vs s ∧ kids vs' (ovfTag v "ProductSection".toList) = [s'] ∧
    SameButKids (ovfTag v "Property".toList) s s' ∧ propKeys v s' = propKeys v s ++ new.map some)

/-- The entries that the options --properties, --labels and --descriptions stand for: the i-th label and the i-th
description belong to the i-th property. -/
def EntriesOf (q : PropReq) (es : List PropEntry) : Prop :=
  es.length = q.props.length ∧ ∀ (i : Nat) (e : PropEntry), es[i]? = some e →
    q.props[i]? = some (e.key, e.value, e.ptype) ∧ e.label = q.labels[i]? ∧ e.desc = q.descs[i]?

/-- The command is ready to run: labels and descriptions are either not given or as many as properties. -/
def ReadyReq (q : PropReq) : Prop :=
  (q.labels = [] ∨ q.labels.length = q.props.length) ∧ (q.descs = [] ∨ q.descs.length = q.props.length)

/-- An entry can be stored: its value (or, if only a type is given, the old value) has a form the type allows, of a
length the qualifiers allow, and the property has no more than one label and description. -/
def Acceptable (v : Ver) (o : Option Elem) (e : PropEntry) : Prop :=
  (∀ x, e.value = some x ∨ (e.value = none ∧ e.ptype ≠ none ∧ (baseProp v e.key o).get (valueAttr v) = some x) →
    ∃ w, Converts (e.ptype.getD (if o = none then "string".toList else typeOf v (baseProp v e.key o))) x w ∧
      LengthAllowed (qualOf v (baseProp v e.key o)) w.length) ∧
  (kids (baseProp v e.key o) (ovfTag v "Label".toList)).length ≤ 1 ∧
  (kids (baseProp v e.key o) (ovfTag v "Description".toList)).length ≤ 1

/-- the properties in the document, in order, have these keys -/
def KeysAre (v : Ver) (vs : Elem) (K : List Str) : Prop := ∃ s, BaseSection v vs s ∧ propKeys v s = K.map some

/-- an entry that gives a property a value and nothing else -/
def PropEntry.just (key : Str) (value : Option Str) : PropEntry :=
  { key := key, value := value, ptype := none, label := none, desc := none }

end Cot
