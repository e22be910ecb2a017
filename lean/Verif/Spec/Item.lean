import Verif.Model.Item
/-
Specification vocabulary for hardware items: what a profile reads, and well-formedness.
Nothing here uses the model's operations; only the shape of the stored data.
-/
namespace Cot

/-- Profile `p` has the explicitly stored value `v` in the value table `t`. -/
def Explicit (t : Tab) (p : Prof) (v : Val) : Prop := ∃ S, (v, S) ∈ t ∧ p ∈ S

/-- What a profile reads: its explicit value, or else the value stored for the default profile. -/
def Reads (t : Tab) (p : Prof) (v : Val) : Prop :=
  Explicit t p v ∨ ((∀ w, ¬ Explicit t p w) ∧ Explicit t none v)

/-- A consistent value table: values are distinct and non-empty, each is stored for at least one
profile, no profile has two values, and the default profile is never mixed with named ones. -/
structure TabWF (t : Tab) : Prop where
  keys : (dkeys t).Nodup
  truthy : ∀ v S, (v, S) ∈ t → v.truthy = true
  nonempty : ∀ v S, (v, S) ∈ t → S ≠ ∅
  functional : ∀ p v w, Explicit t p v → Explicit t p w → v = w
  dflt : ∀ v S, (v, S) ∈ t → none ∈ S → S = {none}

/-- Is the stored value a tuple of strings (as opposed to a string)? -/
def Val.isTup : Val → Bool
  | .tup _ => true
  | .str _ => false

/-- A consistent item: property names are distinct, each table is consistent, and there is at most
one InstanceID and one ResourceType; exactly ResourceSubType values are tuples. -/
structure ItemWF (env : Env) (it : Item) : Prop where
  names : (dkeys it.props).Nodup
  tabs : ∀ n t, (n, t) ∈ it.props → TabWF t
  oneId : (it.tab (instanceId env.ver)).length ≤ 1
  oneType : (it.tab resourceType).length ≤ 1
  typed : ∀ n v S, (v, S) ∈ it.tab n → (v.isTup = true ↔ n = resourceSubType)

/-- Names whose values are not rewritten by the wildcard mechanism. -/
def Plain (env : Env) (name : Str) : Prop := name ≠ elementName env.ver ∧ name ≠ itemDescription

/-- `val`, as passed by a caller for property `name`, denotes the value `v`: strings denote themselves,
and a ResourceSubType may be given as a list of names. -/
def Denotes (name : Str) (val : InVal) (v : Val) : Prop :=
  (name ≠ resourceSubType ∧ ∃ s, val = .str s ∧ v = .str s) ∨
  (name = resourceSubType ∧ ∃ l, val = .list l ∧ v = .tup l)

/-- The value a new profile inherits: the default value of the property, or its only value. -/
def Inheritable (t : Tab) (v : Val) : Prop := Explicit t none v ∨ ∃ S, t = [(v, S)]

end Cot
