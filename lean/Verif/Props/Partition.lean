import Verif.Lemmas.Partition
import Verif.Spec.RoundTrip
import Verif.Props.Item
/-
C07: the profile groups for which Item elements are generated
(COT/vm_description/ovf/item.py:717-759).
-/
namespace Cot

/-- Two profiles are not distinguished by any stored value. -/
def Alike (it : Item) (p q : Prof) : Prop := ∀ S, Stored it S → (p ∈ S ↔ q ∈ S)

/-- The groups are non-empty, pairwise disjoint, cover exactly the profiles mentioned by some value,
and two profiles are in the same group iff no stored value distinguishes them -- for every iteration
order of the sets involved. -/
theorem C07_profile_groups (o : Orders) (it : Item) :
    (∀ g ∈ it.setList o, g ≠ ∅) ∧
    (it.setList o).Pairwise (fun a b => a ∩ b = ∅) ∧
    (∀ p, (∃ g ∈ it.setList o, p ∈ g) ↔ ∃ S, Stored it S ∧ p ∈ S) ∧
    (∀ p q, (∃ g ∈ it.setList o, p ∈ g ∧ q ∈ g) ↔ (∃ S, Stored it S ∧ p ∈ S) ∧ Alike it p q) := by
  have h := setList_classes o it
  have hS : ∀ S, S ∈ it.storedSets ↔ Stored it S := fun S => mem_storedSets
  have hcover : ∀ p, (∃ g ∈ it.setList o, p ∈ g) ↔ ∃ S, Stored it S ∧ p ∈ S := by
    intro p
    rw [h.cover p]
    simp only [hS]
  refine ⟨h.nonempty, h.disjoint, hcover, ?_⟩
  intro p q
  constructor
  · rintro ⟨g, hg, hp, hq⟩
    refine ⟨(hcover p).1 ⟨g, hg, hp⟩, fun S hs => (h.cls g hg p hp q).1 hq S ((hS S).2 hs)⟩
  · rintro ⟨hc, ha⟩
    obtain ⟨g, hg, hp⟩ := (hcover p).2 hc
    exact ⟨g, hg, hp, (h.cls g hg p hp q).2 (fun S hs => ha S ((hS S).1 hs))⟩

/-- Minimality: any list of disjoint groups that separates everything the stored values distinguish
has at least as many groups. -/
theorem C07_profile_groups_minimal (o : Orders) (it : Item) (L : List PSet)
    (hcover : ∀ p, (∃ S, Stored it S ∧ p ∈ S) → ∃ g ∈ L, p ∈ g)
    (hsep : ∀ g ∈ L, ∀ p ∈ g, ∀ q ∈ g, Alike it p q) :
    (it.setList o).length ≤ L.length := by
  have h := setList_classes o it
  obtain ⟨hne, -, hc, hsame⟩ := C07_profile_groups o it
  -- map each class to the position of the group of L containing a representative
  have hrep : ∀ g ∈ it.setList o, ∃ k ∈ L, ∃ p, p ∈ g ∧ p ∈ k := by
    intro g hg
    obtain ⟨p, hp⟩ := Finset.nonempty_iff_ne_empty.2 (hne g hg)
    obtain ⟨k, hk, hpk⟩ := hcover p ((hc p).1 ⟨g, hg, hp⟩)
    exact ⟨k, hk, p, hp, hpk⟩
  choose! f hf hfm using hrep
  have hinj : ∀ g ∈ it.setList o, ∀ g' ∈ it.setList o, f g = f g' → g = g' := by
    intro g hg g' hg' he
    obtain ⟨p, hp, hpk⟩ := hfm g hg
    obtain ⟨q, hq, hqk⟩ := hfm g' hg'
    rw [← he] at hqk
    have ha := hsep _ (hf g hg) p hpk q hqk
    obtain ⟨k, hk, hpk', hqk'⟩ := (hsame p q).2 ⟨(hc p).1 ⟨g, hg, hp⟩, ha⟩
    rw [h.eq_of_mem hg hk hp hpk', h.eq_of_mem hg' hk hq hqk']
  have h1 : (it.setList o).toFinset.card = (it.setList o).length :=
    List.toFinset_card_of_nodup h.nodup
  rw [← h1]
  calc (it.setList o).toFinset.card ≤ L.toFinset.card := by
        refine Finset.card_le_card_of_injOn f ?_ ?_
        · intro g hg
          simp only [List.coe_toFinset, Set.mem_ofPred_eq] at hg ⊢
          exact hf g hg
        · intro g hg g' hg' he
          simp only [List.coe_toFinset, Set.mem_ofPred_eq] at hg hg'
          exact hinj g hg g' hg' he
    _ ≤ L.length := List.toFinset_card_le L

/-- The strings actually returned name exactly these groups (in natural order of the strings), for a
consistent item whose profile names are non-empty and contain no white space. -/
theorem C07_group_strings (o : Orders) (it : Item) (wf : ∀ n t, (n, t) ∈ it.props → TabWF t)
    (hgood : ∀ S, Stored it S → ∀ s, some s ∈ S → GoodName s) :
    ((it.setStrings o).map stringSet).Perm (it.setList o) ∧ (it.setStrings o).Nodup ∧
    (it.setStrings o).Pairwise NatLe := by
  have h := setList_classes o it
  have hd : ∀ S ∈ it.storedSets, none ∈ S → S = {none} := by
    intro S hS hn
    obtain ⟨n, t, v, h1, h2⟩ := mem_storedSets.1 hS
    exact (wf n t h1).dflt v S h2 hn
  have hg' : ∀ S ∈ it.storedSets, ∀ s, some s ∈ S → GoodName s :=
    fun S hS => hgood S (mem_storedSets.1 hS)
  have hp : (it.setStrings o).Perm ((it.setList o).map (setString o)) := naturalSort_perm _
  have hmap : ((it.setList o).map (setString o)).map stringSet = it.setList o := by
    rw [List.map_map]
    conv_rhs => rw [← List.map_id (it.setList o)]
    refine List.map_congr_left ?_
    intro g hg
    exact stringSet_setString o h hd hg' hg
  refine ⟨?_, ?_, naturalSort_sorted _⟩
  · have := hp.map stringSet
    rw [hmap] at this; exact this
  · rw [hp.nodup_iff]
    have : (((it.setList o).map (setString o)).map stringSet).Nodup := by rw [hmap]; exact h.nodup
    exact List.Nodup.of_map _ this

/-- exItem has two groups: the default one and {x} -/
example (o : Orders) : (∃ g ∈ exItem.setList o, pX ∈ g) ∧ (∃ g ∈ exItem.setList o, none ∈ g) ∧
    ¬ (∃ g ∈ exItem.setList o, pX ∈ g ∧ none ∈ g) := by
  obtain ⟨-, -, h3, h4⟩ := C07_profile_groups o exItem
  have hs1 : Stored exItem {none} := ⟨"InstanceID".toList, [(.str "1".toList, {none})], .str "1".toList, by simp [exItem], by simp⟩
  have hs2 : Stored exItem {pX} := ⟨"VirtualQuantity".toList,
    [(.str "1".toList, {none}), (.str "4".toList, {pX})], .str "4".toList, by simp [exItem], by simp⟩
  refine ⟨(h3 pX).2 ⟨{pX}, hs2, by simp⟩, (h3 none).2 ⟨{none}, hs1, by simp⟩, ?_⟩
  rw [h4]
  rintro ⟨-, ha⟩
  have := (ha {none} hs1).2 (by simp)
  simp [pX] at this

/-- and its profile names are writable -/
example : (∀ n t, (n, t) ∈ exItem.props → TabWF t) ∧
    ∀ S, Stored exItem S → ∀ s, some s ∈ S → GoodName s := by
  refine ⟨exItem_wf.tabs, ?_⟩
  rintro S ⟨n, t, v, h1, h2⟩ s hs
  simp only [exItem, List.mem_cons, Prod.mk.injEq, List.not_mem_nil, or_false] at h1
  rcases h1 with ⟨rfl, rfl⟩ | ⟨rfl, rfl⟩ | ⟨rfl, rfl⟩ <;>
    simp only [List.mem_cons, Prod.mk.injEq, List.not_mem_nil, or_false] at h2
  · obtain ⟨-, rfl⟩ := h2; simp at hs
  · obtain ⟨-, rfl⟩ := h2; simp at hs
  · rcases h2 with ⟨-, rfl⟩ | ⟨-, rfl⟩
    · simp at hs
    · simp [pX] at hs; subst hs; decide

end Cot
