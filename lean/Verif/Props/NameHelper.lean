import Verif.Model.NameHelper
/-
C30: hardware namespaces and Item tags.
-/
namespace Cot

/-- **C30.** Tag-to-namespace and namespace-to-tag are inverse to each other, for every OVF version, tag
and namespace: each is recognised exactly when the other direction gives it back. -/
theorem C30_inverse (v : Ver) (tag ns : Str) :
    namespaceForItemTag v tag = some ns ↔ itemTagForNamespace v ns = .ok tag := by
  have key : ∀ (a b c x y z t n : Str), x ≠ y → x ≠ z → y ≠ z → a ≠ b → a ≠ c → b ≠ c →
      (((if t = a then some x else if t = b then some y else if t = c then some z else none) = some n) ↔
       ((if n = x then Except.ok a else if n = y then .ok b else if n = z then .ok c
          else .error Err.valueUnsupported : Except Err Str) = .ok t)) := by
    intro a b c x y z t n h1 h2 h3 h4 h5 h6
    constructor
    · intro h
      split at h
      · rename_i e; cases h; rw [if_pos rfl, e]
      · split at h
        · rename_i e; cases h; rw [if_neg (Ne.symm h1), if_pos rfl, e]
        · split at h
          · rename_i e; cases h; rw [if_neg (Ne.symm h2), if_neg (Ne.symm h3), if_pos rfl, e]
          · cases h
    · intro h
      split at h
      · rename_i e; cases h; rw [if_pos rfl, e]
      · split at h
        · rename_i e; cases h; rw [if_neg (Ne.symm h4), if_pos rfl, e]
        · split at h
          · rename_i e; cases h; rw [if_neg (Ne.symm h5), if_neg (Ne.symm h6), if_pos rfl, e]
          · cases h
  have key1 : ∀ (a x t n : Str),
      (((if t = a then some x else if t = a then some x else if t = a then some x else none) = some n) ↔
       ((if n = x then Except.ok a else if n = x then .ok a else if n = x then .ok a
          else .error Err.valueUnsupported : Except Err Str) = .ok t)) := by
    intro a x t n
    constructor
    · intro h
      by_cases e : t = a
      · rw [if_pos e] at h; cases h; rw [if_pos rfl, e]
      · simp [e] at h
    · intro h
      by_cases e : n = x
      · rw [if_pos e] at h; cases h; rw [if_pos rfl, e]
      · simp [e] at h
  cases v with
  | v0 => exact key1 _ _ _ _
  | v1 => exact key1 _ _ _ _
  | v2 =>
    exact key (itemTag .v2) (storageItemTag .v2) (ethernetPortItemTag .v2) rasd (sasd .v2) (epasd .v2) tag ns
      (by decide +kernel) (by decide +kernel) (by decide +kernel) (by decide +kernel) (by decide +kernel)
      (by decide +kernel)

/-- the envelope namespaces of OVF 0.x, 1.x and 2.x -/
def envelopeNs : Ver → Str
  | .v0 => "http://www.vmware.com/schema/ovf/1/envelope".toList
  | .v1 => "http://schemas.dmtf.org/ovf/envelope/1".toList
  | .v2 => "http://schemas.dmtf.org/ovf/envelope/2".toList

/-- the local names of hardware items in OVF 0.x, 1.x and 2.x -/
def itemNames : Ver → List Str
  | .v2 => ["Item".toList, "StorageItem".toList, "EthernetPortItem".toList]
  | _ => ["Item".toList]

/-- C30, which tags are recognised: exactly `Item` and, in OVF 2.x, `StorageItem` and
`EthernetPortItem`, each in the envelope namespace of the version. -/
theorem C30_known_tags (v : Ver) (tag : Str) :
    (∃ ns, namespaceForItemTag v tag = some ns) ↔
      ∃ name ∈ itemNames v, tag = "{".toList ++ envelopeNs v ++ "}".toList ++ name := by
  have key : ∀ (a b c x y z t : Str),
      (∃ ns, (if t = a then some x else if t = b then some y else if t = c then some z else none) = some ns) ↔
        (t = a ∨ t = b ∨ t = c) := by
    intro a b c x y z t
    constructor
    · rintro ⟨ns, h⟩
      split at h
      · exact Or.inl ‹_›
      · split at h
        · exact Or.inr (Or.inl ‹_›)
        · split at h
          · exact Or.inr (Or.inr ‹_›)
          · cases h
    · intro h
      by_cases h1 : t = a
      · exact ⟨x, by rw [if_pos h1]⟩
      · by_cases h2 : t = b
        · exact ⟨y, by rw [if_neg h1, if_pos h2]⟩
        · rcases h with h | h | h
          · exact absurd h h1
          · exact absurd h h2
          · exact ⟨z, by rw [if_neg h1, if_neg h2, if_pos h]⟩
  unfold namespaceForItemTag
  rw [key]
  have one : ∀ (n t : Str) (P : Str → Str), (t = P n ∨ t = P n ∨ t = P n) ↔ ∃ name ∈ [n], t = P name := by
    intro n t P
    constructor
    · intro h; exact ⟨n, by simp, by rcases h with h | h | h <;> exact h⟩
    · rintro ⟨m, hm, h⟩
      simp only [List.mem_singleton] at hm
      subst hm
      exact Or.inl h
  have three : ∀ (n m k t : Str) (P : Str → Str), (t = P n ∨ t = P m ∨ t = P k) ↔ ∃ name ∈ [n, m, k], t = P name := by
    intro n m k t P
    constructor
    · rintro (h | h | h)
      · exact ⟨n, by simp, h⟩
      · exact ⟨m, by simp, h⟩
      · exact ⟨k, by simp, h⟩
    · rintro ⟨x, hx, h⟩
      simp only [List.mem_cons, List.not_mem_nil, or_false] at hx
      rcases hx with rfl | rfl | rfl
      · exact Or.inl h
      · exact Or.inr (Or.inl h)
      · exact Or.inr (Or.inr h)
  cases v with
  | v0 => exact one "Item".toList tag (fun n => "{".toList ++ envelopeNs .v0 ++ "}".toList ++ n)
  | v1 => exact one "Item".toList tag (fun n => "{".toList ++ envelopeNs .v1 ++ "}".toList ++ n)
  | v2 =>
    exact three "Item".toList "StorageItem".toList "EthernetPortItem".toList tag
      (fun n => "{".toList ++ envelopeNs .v2 ++ "}".toList ++ n)

/-- C30, the namespace chosen for a resource type always has an Item tag. -/
theorem C30_resource_type_has_tag (v : Ver) (rt : Str) :
    itemTagForNamespace v (namespaceForResourceType v rt) =
      .ok (ovfTag v (if v ≠ .v2 then "Item".toList
        else if rt = "10".toList then "EthernetPortItem".toList
        else if rt = "17".toList ∨ rt = "15".toList then "StorageItem".toList else "Item".toList)) := by
  unfold namespaceForResourceType
  by_cases h1 : rt = "10".toList
  · subst h1
    cases v <;> rfl
  · rw [if_neg h1, if_neg h1]
    by_cases h2 : rt = "17".toList ∨ rt = "15".toList
    · rw [if_pos h2, if_pos h2]
      cases v <;> rfl
    · rw [if_neg h2, if_neg h2]
      cases v <;> rfl

theorem afterLast_append {c : Char} : ∀ (a b : Str), c ∉ b → afterLast c (a ++ c :: b) = some b
  | [], b, h => by
    have hb : ∀ b : Str, c ∉ b → afterLast c b = none := by
      intro b
      induction b with
      | nil => intro _; rfl
      | cons x t ih =>
        intro h
        simp only [List.mem_cons, not_or] at h
        rw [afterLast, ih h.2]
        simp [Ne.symm h.1]
    rw [List.nil_append, afterLast, hb b h]
    simp
  | x :: a, b, h => by rw [List.cons_append, afterLast, afterLast_append a b h]

theorem beforeLast_append {c : Char} : ∀ (a b : Str), c ∉ b → beforeLast c (a ++ c :: b) = some a
  | [], b, h => by
    have hb : ∀ b : Str, c ∉ b → beforeLast c b = none := by
      intro b
      induction b with
      | nil => intro _; rfl
      | cons x t ih =>
        intro h
        simp only [List.mem_cons, not_or] at h
        rw [beforeLast, ih h.2]
        simp [Ne.symm h.1]
    rw [List.nil_append, beforeLast, hb b h]
    simp
  | x :: a, b, h => by rw [List.cons_append, beforeLast, beforeLast_append a b h]

/-- C30, qualified names: `get_ns` and `strip_ns` take a name apart for every namespace and every
local name without `}`; a name without a namespace has none and is its own local name. -/
theorem C30_qualified_names (ns name : Str) (h : '}' ∉ name) :
    getNs ("{".toList ++ ns ++ "}".toList ++ name) = ns ∧ stripNs ("{".toList ++ ns ++ "}".toList ++ name) = name ∧
      (name.head? ≠ some '{' → getNs name = [] ∧ stripNs name = name) := by
  have e : "{".toList ++ ns ++ "}".toList ++ name = '{' :: (ns ++ '}' :: name) := by simp
  refine ⟨?_, ?_, ?_⟩
  · rw [e, getNs, beforeLast_append ns name h]
  · rw [e, stripNs, afterLast_append ns name h]
  · intro hh
    cases name with
    | nil => exact ⟨rfl, rfl⟩
    | cons x t =>
      have hx : x ≠ '{' := by rintro rfl; exact hh rfl
      constructor
      · unfold getNs; split
        · rename_i heq; simp only [List.cons.injEq] at heq; exact absurd heq.1 hx
        · rfl
      · unfold stripNs; split
        · rename_i heq; simp only [List.cons.injEq] at heq; exact absurd heq.1 hx
        · rfl

/-- non-vacuity -/
example : namespaceForItemTag .v2 (storageItemTag .v2) = some (sasd .v2) := by decide +kernel
example : ∃ ns, itemTagForNamespace .v1 ns = .error .valueUnsupported := ⟨[], rfl⟩

end Cot
