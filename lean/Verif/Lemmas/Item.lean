import Verif.Spec.Item
import Verif.Lemmas.Dict
import Mathlib.Data.Finset.Lattice.Basic
import Mathlib.Tactic.Tauto
namespace Cot

/-! ### `tabUnion`, `all_profiles` -/

theorem mem_tabUnion (t : Tab) (p : Prof) : p ∈ tabUnion t ↔ ∃ v, Explicit t p v := by
  induction t with
  | nil => simp [tabUnion, Explicit]
  | cons e t ih =>
    obtain ⟨v, S⟩ := e
    have : tabUnion ((v, S) :: t) = S ∪ tabUnion t := rfl
    rw [this, Finset.mem_union, ih]
    constructor
    · rintro (h | ⟨w, T, hT, hp⟩)
      · exact ⟨v, S, by simp, h⟩
      · exact ⟨w, T, by simp [hT], hp⟩
    · rintro ⟨w, T, hT, hp⟩
      rcases List.mem_cons.1 hT with h | h
      · cases h; exact Or.inl hp
      · exact Or.inr ⟨w, T, h, hp⟩

theorem TabWF.nil : TabWF [] :=
  ⟨by simp [dkeys], by simp, by simp, by rintro p v w ⟨S, h, _⟩; simp at h, by simp⟩

/-! ### collapse: the clean-up done by `validate` -/

/-- the clean-up done by `validate` on one profile set -/
def collapse (S : PSet) : PSet := if none ∈ S ∧ 1 < S.card then {none} else S

theorem collapse_subset (S : PSet) : collapse S ⊆ S := by
  unfold collapse; split
  · rename_i h; simpa using h.1
  · exact Finset.Subset.refl _

theorem mem_collapse (S : PSet) (p : Prof) :
    p ∈ collapse S ↔ p ∈ S ∧ (none ∈ S → p = none) := by
  unfold collapse; split
  · rename_i h
    simp only [Finset.mem_singleton]
    constructor
    · rintro rfl; exact ⟨h.1, fun _ => rfl⟩
    · rintro ⟨_, h2⟩; exact h2 h.1
  · rename_i h
    constructor
    · intro hp
      refine ⟨hp, fun hn => ?_⟩
      by_contra hne
      exact h ⟨hn, Finset.one_lt_card.2 ⟨p, hp, none, hn, hne⟩⟩
    · exact fun h => h.1

theorem collapse_nonempty {S : PSet} (h : S ≠ ∅) : collapse S ≠ ∅ := by
  unfold collapse; split
  · simp
  · exact h

theorem collapse_dflt {S : PSet} (h : none ∈ collapse S) : collapse S = {none} := by
  have hn : none ∈ S := collapse_subset S h
  ext p; rw [mem_collapse]; simp only [Finset.mem_singleton]
  constructor
  · rintro ⟨_, h2⟩; exact h2 hn
  · rintro rfl; exact ⟨hn, fun _ => rfl⟩

theorem collapse_eq_self {S : PSet} (h : none ∈ S → S = {none}) : collapse S = S := by
  unfold collapse; split
  · rename_i h2; exact (h h2.1).symm
  · rfl

/-- the table after validation -/
def collapseTab (t : Tab) : Tab := t.map (fun e => (e.1, collapse e.2))

theorem dkeys_collapseTab (t : Tab) : dkeys (collapseTab t) = dkeys t := by
  simp [collapseTab, dkeys, Function.comp_def]

theorem mem_collapseTab {t : Tab} {v : Val} {S : PSet} :
    (v, S) ∈ collapseTab t ↔ ∃ S0, (v, S0) ∈ t ∧ S = collapse S0 := by
  simp only [collapseTab, List.mem_map, Prod.exists, Prod.mk.injEq]
  constructor
  · rintro ⟨a, b, h, rfl, rfl⟩; exact ⟨b, h, rfl⟩
  · rintro ⟨b, h, rfl⟩; exact ⟨v, b, h, rfl, rfl⟩

/-- `validateTab` succeeds exactly on disjoint tables and then collapses every set. -/
theorem validateTab_eq (t : Tab) : ∀ sofar,
    validateTab t sofar =
      if (∀ e ∈ t, sofar ∩ collapse e.2 = ∅) ∧ t.Pairwise (fun a b => collapse a.2 ∩ collapse b.2 = ∅)
      then .ok (collapseTab t) else .error .runtimeError := by
  induction t with
  | nil => intro sofar; simp [validateTab, collapseTab]
  | cons e t ih =>
    intro sofar
    obtain ⟨v, S⟩ := e
    unfold validateTab
    simp only [ih, show (if none ∈ S ∧ 1 < S.card then {none} else S) = collapse S from rfl]
    simp only [List.mem_cons, forall_eq_or_imp, List.pairwise_cons]
    by_cases h1 : sofar ∩ collapse S = ∅
    · simp only [h1, ne_eq, not_true_eq_false, if_false, true_and]
      have hh : (∀ e ∈ t, (sofar ∪ collapse S) ∩ collapse e.2 = ∅) ↔
          (∀ a ∈ t, sofar ∩ collapse a.2 = ∅) ∧ (∀ a ∈ t, collapse S ∩ collapse a.2 = ∅) := by
        constructor
        · intro h
          constructor
          · intro a ha; have := h a ha
            rw [Finset.union_inter_distrib_right, Finset.union_eq_empty] at this; exact this.1
          · intro a ha; have := h a ha
            rw [Finset.union_inter_distrib_right, Finset.union_eq_empty] at this; exact this.2
        · rintro ⟨h1, h2⟩ a ha
          rw [Finset.union_inter_distrib_right, Finset.union_eq_empty]; exact ⟨h1 a ha, h2 a ha⟩
      by_cases hp : (∀ e ∈ t, (sofar ∪ collapse S) ∩ collapse e.2 = ∅) ∧
          t.Pairwise (fun a b => collapse a.2 ∩ collapse b.2 = ∅)
      · rw [if_pos hp]
        have := hh.1 hp.1
        rw [if_pos ⟨this.1, this.2, hp.2⟩]
        simp [collapseTab]
      · rw [if_neg hp]
        rw [if_neg]
        rintro ⟨ha, hb, hc⟩
        exact hp ⟨hh.2 ⟨ha, hb⟩, hc⟩
    · rw [if_pos h1, if_neg]
      rintro ⟨⟨ha, _⟩, _⟩; exact h1 ha

theorem validateTab_ok {t : Tab} (hk : (dkeys t).Nodup)
    (hf : ∀ p v w, Explicit t p v → Explicit t p w → v = w) :
    validateTab t ∅ = .ok (collapseTab t) := by
  rw [validateTab_eq, if_pos]
  refine ⟨by simp, ?_⟩
  have hp : t.Pairwise (fun a b => a.1 ≠ b.1) := by
    simpa [dkeys, List.Nodup, List.pairwise_map] using hk
  refine List.Pairwise.imp_of_mem ?_ hp
  intro a b ha hb hne
  rw [← Finset.disjoint_iff_inter_eq_empty, Finset.disjoint_left]
  intro p hpa hpb
  exact hne (hf p a.1 b.1 ⟨a.2, ha, collapse_subset _ hpa⟩ ⟨b.2, hb, collapse_subset _ hpb⟩)

theorem validateTab_ok_inv {t t' : Tab} (h : validateTab t ∅ = .ok t') :
    t' = collapseTab t ∧ t.Pairwise (fun a b => collapse a.2 ∩ collapse b.2 = ∅) := by
  rw [validateTab_eq] at h
  split at h
  · rename_i hh; cases h; exact ⟨rfl, hh.2⟩
  · cases h

theorem TabWF.collapse_id {t : Tab} (h : TabWF t) : collapseTab t = t := by
  unfold collapseTab
  conv => rhs; rw [← List.map_id t]
  apply List.map_congr_left
  rintro ⟨v, S⟩ hm
  simp only [id, Prod.mk.injEq, true_and]
  exact collapse_eq_self (h.dflt v S hm)

theorem explicit_collapseTab (t : Tab) (p : Prof) (v : Val) (hk : (dkeys t).Nodup) :
    Explicit (collapseTab t) p v ↔ Explicit t p v ∧ (Explicit t none v → p = none) := by
  constructor
  · rintro ⟨S, hS, hp⟩
    obtain ⟨S0, h0, rfl⟩ := mem_collapseTab.1 hS
    rw [mem_collapse] at hp
    refine ⟨⟨S0, h0, hp.1⟩, ?_⟩
    rintro ⟨S1, h1, hn⟩
    have : S0 = S1 := by
      have a := dget?_of_mem hk h0
      have b := dget?_of_mem hk h1
      rw [a] at b; exact Option.some.inj b
    subst this
    exact hp.2 hn
  · rintro ⟨⟨S0, h0, hp⟩, h2⟩
    refine ⟨collapse S0, mem_collapseTab.2 ⟨S0, h0, rfl⟩, ?_⟩
    rw [mem_collapse]
    exact ⟨hp, fun hn => h2 ⟨S0, h0, hn⟩⟩

/-- Collapsing a table that is consistent up to redundant default sets gives a consistent table. -/
theorem TabWF.of_collapse {t : Tab} (hk : (dkeys t).Nodup)
    (ht : ∀ v S, (v, S) ∈ t → v.truthy = true) (hne : ∀ v S, (v, S) ∈ t → S ≠ ∅)
    (hf : ∀ p v w, Explicit t p v → Explicit t p w → v = w) : TabWF (collapseTab t) where
  keys := by rw [dkeys_collapseTab]; exact hk
  truthy := by
    intro v S h; obtain ⟨S0, h0, rfl⟩ := mem_collapseTab.1 h; exact ht _ _ h0
  nonempty := by
    intro v S h; obtain ⟨S0, h0, rfl⟩ := mem_collapseTab.1 h; exact collapse_nonempty (hne _ _ h0)
  functional := by
    intro p v w h1 h2
    rw [explicit_collapseTab _ _ _ hk] at h1 h2
    exact hf p v w h1.1 h2.1
  dflt := by
    intro v S h hn; obtain ⟨S0, h0, rfl⟩ := mem_collapseTab.1 h; exact collapse_dflt hn

/-! ### the update loop of `_set_existing_property` -/

/-- the new profile set of a stored value `w` -/
def updSet (v : Val) (P : PSet) (w : Val) (S : PSet) : PSet :=
  if w ≠ v then S \ P else if none ∈ S then S else S ∪ P

/-- the table after the loop of `_set_existing_property` -/
def updTab (v : Val) (P : PSet) (t : Tab) : Tab :=
  t.filterMap (fun e => if updSet v P e.1 e.2 = ∅ then none else some (e.1, updSet v P e.1 e.2))

theorem setExistingLoop_overwrite (v : Val) (P : PSet) (t : Tab)
    (hne : ∀ w S, (w, S) ∈ t → S ≠ ∅) :
    ∃ ch, setExistingLoop v P true t = .ok (updTab v P t, ch) ∧ (ch = false → updTab v P t = t) := by
  induction t with
  | nil => exact ⟨false, rfl, fun _ => rfl⟩
  | cons e t ih =>
    obtain ⟨w, S⟩ := e
    obtain ⟨ch, h1, h2⟩ := ih (fun w S h => hne w S (List.mem_cons_of_mem _ h))
    unfold setExistingLoop
    simp only [h1, Bool.not_true, Bool.false_eq_true, false_and, if_false]
    rw [show (if w ≠ v then S \ P else if none ∈ S then S else S ∪ P) = updSet v P w S from rfl]
    have hS : S ≠ ∅ := hne w S (by simp)
    have hu : updTab v P ((w, S) :: t) = if updSet v P w S = ∅ then updTab v P t else
        (w, updSet v P w S) :: updTab v P t := by
      unfold updTab; simp only [List.filterMap_cons]
      by_cases h : updSet v P w S = ∅ <;> simp [h]
    rw [hu]
    by_cases h3 : updSet v P w S = S
    · rw [if_neg (by simpa using h3)]
      rw [h3, if_neg hS]
      exact ⟨ch, rfl, fun h => by rw [h2 h]⟩
    · rw [if_pos h3]
      by_cases h4 : updSet v P w S = ∅
      · rw [if_pos h4, if_pos h4]; exact ⟨true, rfl, fun h => by cases h⟩
      · rw [if_neg h4, if_neg h4]; exact ⟨true, rfl, fun h => by cases h⟩

theorem setExistingLoop_inv (v : Val) (P : PSet) (ow : Bool) (t : Tab) {r : Tab} {ch : Bool}
    (hne : ∀ w S, (w, S) ∈ t → S ≠ ∅) (h : setExistingLoop v P ow t = .ok (r, ch)) :
    r = updTab v P t ∧ (ch = false → r = t) ∧
      (ow = false → ∀ w S, (w, S) ∈ t → S ∩ P = ∅) := by
  induction t generalizing r ch with
  | nil => simp [setExistingLoop] at h; obtain ⟨rfl, rfl⟩ := h; simp [updTab]
  | cons e t ih =>
    obtain ⟨w, S⟩ := e
    unfold setExistingLoop at h
    split at h
    · cases h
    · rename_i hc
      revert h
      cases hl : setExistingLoop v P ow t with
      | error e => intro h; cases h
      | ok x =>
        obtain ⟨t', ch'⟩ := x
        obtain ⟨i1, i2, i3⟩ := ih (fun w S h => hne w S (List.mem_cons_of_mem _ h)) hl
        intro h
        rw [show (if w ≠ v then S \ P else if none ∈ S then S else S ∪ P) = updSet v P w S from rfl] at h
        have hS : S ≠ ∅ := hne w S (by simp)
        have hu : updTab v P ((w, S) :: t) = if updSet v P w S = ∅ then updTab v P t else
            (w, updSet v P w S) :: updTab v P t := by
          unfold updTab; simp only [List.filterMap_cons]
          by_cases h : updSet v P w S = ∅ <;> simp [h]
        have h3' : ow = false → ∀ w' S', (w', S') ∈ (w, S) :: t → S' ∩ P = ∅ := by
          intro how w' S' hm
          rcases List.mem_cons.1 hm with hm | hm
          · cases hm
            by_contra hcon
            exact hc ⟨by simp [how], hcon⟩
          · exact i3 how w' S' hm
        simp only at h
        by_cases h3 : updSet v P w S = S
        · rw [if_neg (by simpa using h3)] at h
          cases h
          refine ⟨?_, ?_, h3'⟩
          · rw [hu, h3, if_neg hS, i1]
          · intro hch; rw [i2 hch]
        · rw [if_pos h3] at h
          by_cases h4 : updSet v P w S = ∅
          · rw [if_pos h4] at h; cases h
            exact ⟨by rw [hu, if_pos h4, i1], (fun h => by cases h), h3'⟩
          · rw [if_neg h4] at h; cases h
            exact ⟨by rw [hu, if_neg h4, i1], (fun h => by cases h), h3'⟩

theorem mem_updTab {v : Val} {P : PSet} {t : Tab} {w : Val} {S' : PSet} :
    (w, S') ∈ updTab v P t ↔ ∃ S, (w, S) ∈ t ∧ S' = updSet v P w S ∧ S' ≠ ∅ := by
  unfold updTab
  simp only [List.mem_filterMap, Prod.exists]
  constructor
  · rintro ⟨a, b, hm, h⟩
    split at h
    · cases h
    · rename_i hne; cases h; exact ⟨b, hm, rfl, hne⟩
  · rintro ⟨S, hm, rfl, hne⟩
    exact ⟨w, S, hm, by rw [if_neg hne]⟩

theorem dkeys_updTab_sublist (v : Val) (P : PSet) (t : Tab) :
    (dkeys (updTab v P t)).Sublist (dkeys t) := by
  induction t with
  | nil => simp [updTab, dkeys]
  | cons e t ih =>
    unfold updTab; simp only [List.filterMap_cons]
    by_cases h : updSet v P e.1 e.2 = ∅
    · rw [if_pos h]; exact ih.cons _
    · rw [if_neg h]; simp only [dkeys, List.map_cons]; exact ih.cons_cons _

/-- the table after `_set_existing_property`, before validation -/
def setTab (v : Val) (P : PSet) (t : Tab) : Tab :=
  if v.truthy ∧ v ∉ dkeys (updTab v P t) then updTab v P t ++ [(v, P)] else updTab v P t

theorem mem_keys_updTab_self {v : Val} {P : PSet} {t : Tab} (hne : ∀ w S, (w, S) ∈ t → S ≠ ∅) :
    v ∈ dkeys (updTab v P t) ↔ v ∈ dkeys t := by
  constructor
  · exact fun h => (dkeys_updTab_sublist v P t).subset h
  · intro h
    obtain ⟨⟨w, S⟩, hm, rfl⟩ := List.mem_map.1 h
    refine List.mem_map.2 ⟨(w, updSet w P w S), mem_updTab.2 ⟨S, hm, rfl, ?_⟩, rfl⟩
    have := hne w S hm
    unfold updSet
    simp only [ne_eq, not_true_eq_false, if_false]
    split
    · exact this
    · intro h2; rw [Finset.union_eq_empty] at h2; exact this h2.1

/-- Explicit entries after setting `v` for `P`. -/
theorem explicit_updTab {v : Val} {P : PSet} {t : Tab} (wf : TabWF t) (p : Prof) (w : Val) :
    Explicit (updTab v P t) p w ↔
      (w ≠ v ∧ p ∉ P ∧ Explicit t p w) ∨
      (w = v ∧ (Explicit t p v ∨ (p ∈ P ∧ v ∈ dkeys t ∧ ¬ Explicit t none v))) := by
  constructor
  · rintro ⟨S', hS', hp⟩
    obtain ⟨S, hm, rfl, hne⟩ := mem_updTab.1 hS'
    unfold updSet at hp
    by_cases hw : w = v
    · right; subst hw
      refine ⟨rfl, ?_⟩
      simp only [ne_eq, not_true_eq_false, if_false] at hp
      split at hp
      · exact Or.inl ⟨S, hm, hp⟩
      · rename_i hn
        rcases Finset.mem_union.1 hp with hp | hp
        · exact Or.inl ⟨S, hm, hp⟩
        · right
          refine ⟨hp, List.mem_map.2 ⟨_, hm, rfl⟩, ?_⟩
          rintro ⟨S1, h1, h2⟩
          have a := dget?_of_mem wf.keys hm
          rw [dget?_of_mem wf.keys h1] at a
          cases a; exact hn h2
    · left
      rw [if_pos hw] at hp
      rw [Finset.mem_sdiff] at hp
      exact ⟨hw, hp.2, S, hm, hp.1⟩
  · rintro (⟨hw, hp, S, hm, hpS⟩ | ⟨rfl, h⟩)
    · have hmem : p ∈ updSet v P w S := by
        unfold updSet; rw [if_pos hw, Finset.mem_sdiff]; exact ⟨hpS, hp⟩
      exact ⟨updSet v P w S, mem_updTab.2 ⟨S, hm, rfl, Finset.ne_empty_of_mem hmem⟩, hmem⟩
    · rcases h with ⟨S, hm, hp⟩ | ⟨hp, hk, hn⟩
      · have hmem : p ∈ updSet w P w S := by
          unfold updSet; simp only [ne_eq, not_true_eq_false, if_false]; split
          · exact hp
          · exact Finset.mem_union_left _ hp
        exact ⟨_, mem_updTab.2 ⟨S, hm, rfl, Finset.ne_empty_of_mem hmem⟩, hmem⟩
      · obtain ⟨⟨w', S⟩, hm, rfl⟩ := List.mem_map.1 hk
        have hnS : none ∉ S := fun h => hn ⟨S, hm, h⟩
        have hmem : p ∈ updSet w' P w' S := by
          unfold updSet; simp only [ne_eq, not_true_eq_false, if_false, if_neg hnS]
          exact Finset.mem_union_right _ hp
        exact ⟨_, mem_updTab.2 ⟨S, hm, rfl, Finset.ne_empty_of_mem hmem⟩, hmem⟩

theorem explicit_append {t u : Tab} {p : Prof} {v : Val} :
    Explicit (t ++ u) p v ↔ Explicit t p v ∨ Explicit u p v := by
  unfold Explicit
  constructor
  · rintro ⟨S, h, hp⟩
    rcases List.mem_append.1 h with h | h
    · exact Or.inl ⟨S, h, hp⟩
    · exact Or.inr ⟨S, h, hp⟩
  · rintro (⟨S, h, hp⟩ | ⟨S, h, hp⟩)
    · exact ⟨S, List.mem_append_left _ h, hp⟩
    · exact ⟨S, List.mem_append_right _ h, hp⟩

theorem explicit_singleton {v w : Val} {P : PSet} {p : Prof} :
    Explicit [(v, P)] p w ↔ w = v ∧ p ∈ P := by
  unfold Explicit
  constructor
  · rintro ⟨S, h, hp⟩; simp at h; obtain ⟨rfl, rfl⟩ := h; exact ⟨rfl, hp⟩
  · rintro ⟨rfl, hp⟩; exact ⟨P, by simp, hp⟩

theorem not_explicit_of_not_key {t : Tab} {v : Val} (h : v ∉ dkeys t) (p : Prof) :
    ¬ Explicit t p v := by
  rintro ⟨S, hm, _⟩; exact h (List.mem_map.2 ⟨_, hm, rfl⟩)

theorem explicit_setTab {v : Val} {P : PSet} {t : Tab} (wf : TabWF t) (hv : v.truthy = true)
    (p : Prof) (w : Val) :
    Explicit (setTab v P t) p w ↔
      (w ≠ v ∧ p ∉ P ∧ Explicit t p w) ∨
      (w = v ∧ (Explicit t p v ∨ (p ∈ P ∧ ¬ Explicit t none v))) := by
  unfold setTab
  by_cases hk : v ∈ dkeys t
  · rw [if_neg (by rw [mem_keys_updTab_self wf.nonempty]; tauto), explicit_updTab wf]
    tauto
  · rw [if_pos (by rw [mem_keys_updTab_self wf.nonempty]; tauto), explicit_append,
      explicit_updTab wf, explicit_singleton]
    have := not_explicit_of_not_key hk
    have h1 := this p
    have h2 := this none
    tauto

theorem setTab_keys {v : Val} {P : PSet} {t : Tab} (wf : TabWF t) : (dkeys (setTab v P t)).Nodup := by
  have hs := wf.keys.sublist (dkeys_updTab_sublist v P t)
  unfold setTab; split
  · rename_i h
    simp only [dkeys, List.map_append, List.map_cons, List.map_nil] at *
    rw [List.nodup_append]
    refine ⟨hs, by simp, ?_⟩
    intro a ha b hb; simp at hb; subst hb; intro heq; subst heq; exact h.2 ha
  · exact hs

theorem setTab_functional {v : Val} {P : PSet} {t : Tab} (wf : TabWF t) (hv : v.truthy = true)
    (p : Prof) (w w' : Val) (h : Explicit (setTab v P t) p w) (h' : Explicit (setTab v P t) p w') :
    w = w' := by
  rw [explicit_setTab wf hv] at h h'
  have f := wf.functional p
  by_cases hw : w = v <;> by_cases hw' : w' = v
  · rw [hw, hw']
  · have a : Explicit t p w' ∧ p ∉ P := by tauto
    have b : Explicit t p v := by tauto
    exact hw ▸ f _ _ b a.1
  · have a : Explicit t p w ∧ p ∉ P := by tauto
    have b : Explicit t p v := by tauto
    exact hw' ▸ f _ _ a.1 b
  · exact f _ _ (by tauto) (by tauto)

theorem setTab_nonempty {v : Val} {P : PSet} {t : Tab} (hP : P ≠ ∅) :
    ∀ w S, (w, S) ∈ setTab v P t → S ≠ ∅ := by
  intro w S h
  unfold setTab at h; split at h
  · rcases List.mem_append.1 h with h | h
    · exact (mem_updTab.1 h).choose_spec.2.2
    · simp at h; obtain ⟨_, rfl⟩ := h; exact hP
  · exact (mem_updTab.1 h).choose_spec.2.2

theorem setTab_truthy {v : Val} {P : PSet} {t : Tab} (wf : TabWF t) :
    ∀ w S, (w, S) ∈ setTab v P t → w.truthy = true := by
  intro w S h
  have key : (w, S) ∈ updTab v P t → w.truthy = true := by
    intro h
    obtain ⟨S0, h0, _⟩ := mem_updTab.1 h
    exact wf.truthy _ _ h0
  unfold setTab at h; split at h
  · rename_i hc
    rcases List.mem_append.1 h with h | h
    · exact key h
    · simp at h; rw [h.1]; exact hc.1
  · exact key h

/-- after `_set_existing_property` with an empty value nothing new is stored -/
theorem explicit_updTab_falsy {v : Val} {P : PSet} {t : Tab} (wf : TabWF t) (hv : v.truthy = false)
    (p : Prof) (w : Val) :
    Explicit (setTab v P t) p w ↔ p ∉ P ∧ Explicit t p w := by
  have hk : v ∉ dkeys t := by
    intro h; obtain ⟨⟨w, S⟩, hm, rfl⟩ := List.mem_map.1 h
    rw [wf.truthy _ _ hm] at hv; cases hv
  unfold setTab
  rw [if_neg (by rw [hv]; simp), explicit_updTab wf]
  have h1 := not_explicit_of_not_key hk p
  by_cases hw : w = v
  · subst hw; tauto
  · tauto

theorem setTab_functional' {v : Val} {P : PSet} {t : Tab} (wf : TabWF t)
    (p : Prof) (w w' : Val) (h : Explicit (setTab v P t) p w) (h' : Explicit (setTab v P t) p w') :
    w = w' := by
  by_cases hv : v.truthy = true
  · exact setTab_functional wf hv p w w' h h'
  · have hv' : v.truthy = false := by simpa using hv
    rw [explicit_updTab_falsy wf hv'] at h h'
    exact wf.functional p w w' h.2 h'.2

theorem TabWF.setTab {v : Val} {P : PSet} {t : Tab} (wf : TabWF t) (hP : P ≠ ∅) :
    TabWF (collapseTab (setTab v P t)) :=
  TabWF.of_collapse (setTab_keys wf) (setTab_truthy wf) (setTab_nonempty hP) (setTab_functional' wf)

theorem TabWF.dflt_alone {t : Tab} (wf : TabWF t) {q : Prof} {u : Val}
    (h : Explicit t none u) (hq : Explicit t q u) : q = none := by
  obtain ⟨S, hm, hn⟩ := h
  obtain ⟨S', hm', hq⟩ := hq
  have a := dget?_of_mem wf.keys hm
  rw [dget?_of_mem wf.keys hm'] at a; cases a
  rw [wf.dflt _ _ hm hn] at hq; simpa using hq

theorem TabWF.reads_functional {t : Tab} (wf : TabWF t) {p : Prof} {v w : Val}
    (h : Reads t p v) (h' : Reads t p w) : v = w := by
  rcases h with h | ⟨h, hd⟩ <;> rcases h' with h' | ⟨h', hd'⟩
  · exact wf.functional _ _ _ h h'
  · exact absurd h (h' _)
  · exact absurd h' (h _)
  · exact wf.functional _ _ _ hd hd'

/-- `Reads` does not see the collapse. -/
theorem reads_collapseTab {t : Tab} (hk : (dkeys t).Nodup)
    (hf : ∀ p v w, Explicit t p v → Explicit t p w → v = w) (p : Prof) (w : Val) :
    Reads (collapseTab t) p w ↔ Reads t p w := by
  unfold Reads
  simp only [explicit_collapseTab _ _ _ hk]
  constructor
  · rintro (⟨h, _⟩ | ⟨h1, h2, _⟩)
    · exact Or.inl h
    · by_cases hp : Explicit t p w
      · exact Or.inl hp
      · refine Or.inr ⟨fun u hu => ?_, h2⟩
        have := h1 u
        rw [not_and_or] at this
        rcases this with h | h
        · exact h hu
        · push Not at h
          have : u = w := hf none _ _ h.1 h2
          subst this; exact hp hu
  · rintro (h | ⟨h1, h2⟩)
    · by_cases hn : Explicit t none w
      · by_cases hp : p = none
        · subst hp; exact Or.inl ⟨hn, fun _ => by trivial⟩
        · refine Or.inr ⟨fun u ⟨hu, hu2⟩ => ?_, hn, fun _ => by trivial⟩
          have : u = w := hf p _ _ hu h
          subst this; exact hp (hu2 hn)
      · exact Or.inl ⟨h, fun h => absurd h hn⟩
    · exact Or.inr ⟨fun u ⟨hu, _⟩ => h1 u hu, h2, fun _ => by trivial⟩

/-- What a profile reads after setting a non-empty value. -/
theorem reads_set_mem {v : Val} {P : PSet} {t : Tab} (wf : TabWF t) (hv : v.truthy = true)
    {p : Prof} (hp : p ∈ P) (w : Val) :
    Reads (collapseTab (setTab v P t)) p w ↔ w = v := by
  rw [reads_collapseTab (setTab_keys wf) (setTab_functional' wf)]
  have key : Reads (setTab v P t) p v := by
    unfold Reads
    simp only [explicit_setTab wf hv]
    by_cases hn : Explicit t none v
    · by_cases he : Explicit t p v
      · exact Or.inl (Or.inr ⟨by trivial, Or.inl he⟩)
      · refine Or.inr ⟨fun u => ?_, Or.inr ⟨by trivial, Or.inl hn⟩⟩
        rintro (⟨_, h, _⟩ | ⟨rfl, h | ⟨_, h⟩⟩)
        · exact h hp
        · exact he h
        · exact h hn
    · exact Or.inl (Or.inr ⟨by trivial, Or.inr ⟨hp, hn⟩⟩)
  constructor
  · intro h
    have wf' := TabWF.setTab (v := v) wf (P := P) (Finset.ne_empty_of_mem hp)
    rw [← reads_collapseTab (setTab_keys wf) (setTab_functional' wf)] at h key
    exact wf'.reads_functional h key
  · rintro rfl; exact key

theorem reads_set_not_mem {v : Val} {P : PSet} {t : Tab} (wf : TabWF t) (hv : v.truthy = true)
    {p : Prof} (hp : p ∉ P) (w : Val) :
    Reads (collapseTab (setTab v P t)) p w ↔
      Explicit t p w ∨ ((∀ u, ¬ Explicit t p u) ∧
        ((none ∈ P ∧ w = v) ∨ (none ∉ P ∧ Explicit t none w))) := by
  rw [reads_collapseTab (setTab_keys wf) (setTab_functional' wf)]
  have e1 : ∀ u, Explicit (setTab v P t) p u ↔ Explicit t p u := by
    intro u; rw [explicit_setTab wf hv]
    by_cases hu : u = v
    · subst hu; tauto
    · tauto
  unfold Reads
  simp only [e1]
  rw [explicit_setTab wf hv]
  by_cases hn : none ∈ P
  · simp only [hn, true_and, not_true_eq_false, false_and, and_false, false_or, or_false]
    have : (Explicit t none v ∨ ¬ Explicit t none v) := Classical.em _
    simp [this]
  · simp only [hn, not_false_eq_true, true_and, false_and, or_false, false_or]
    by_cases hu : w = v
    · subst hu; simp
    · simp [hu]

/-- What a profile reads after clearing the value (setting an empty one) for `P`. -/
theorem reads_clear {v : Val} {P : PSet} {t : Tab} (wf : TabWF t) (hv : v.truthy = false)
    (p : Prof) (w : Val) :
    Reads (collapseTab (setTab v P t)) p w ↔
      (p ∉ P ∧ Explicit t p w) ∨
      ((p ∈ P ∨ ∀ u, ¬ Explicit t p u) ∧ none ∉ P ∧ Explicit t none w) := by
  rw [reads_collapseTab (setTab_keys wf) (setTab_functional' wf)]
  unfold Reads
  simp only [explicit_updTab_falsy wf hv]
  by_cases hp : p ∈ P <;> simp [hp]

/-! ### reading -/

theorem getScan_cover {P : PSet} {w : Val} {S : PSet} : ∀ (t : Tab) (d : Option Val),
    (w, S) ∈ t → P ⊆ S →
    (∀ u T, (u, T) ∈ t → u ≠ w → T ∩ P = ∅) → P ≠ ∅ → (dkeys t).Nodup →
    getScan P t d = some w
  | (u, T) :: t, d, hm, hs, hd, hP, hk => by
    unfold getScan
    have hk' : u ∉ dkeys t ∧ (dkeys t).Nodup := by simpa [dkeys] using hk
    rcases List.mem_cons.1 hm with h | h
    · cases h; rw [if_pos hs]
    · have hne : u ≠ w := by
        rintro rfl; exact hk'.1 (List.mem_map.2 ⟨_, h, rfl⟩)
      have hT := hd u T (by simp) hne
      have ih := fun d => getScan_cover t d h hs (fun u T h => hd u T (List.mem_cons_of_mem _ h)) hP hk'.2
      rw [if_neg, ih, ih]
      · simp [hT]
      · intro hsub
        rw [Finset.inter_eq_right.2 hsub] at hT
        exact hP hT

theorem getScan_conflict {P : PSet} : ∀ (t : Tab) (d : Option Val),
    (∀ u T, (u, T) ∈ t → ¬ P ⊆ T) → (∃ u T, (u, T) ∈ t ∧ none ∉ T ∧ T ∩ P ≠ ∅) →
    getScan P t d = none
  | [], d, _, h => by simp at h
  | (u, T) :: t, d, h1, h2 => by
    unfold getScan
    rw [if_neg (h1 u T (by simp))]
    have h1' : ∀ u T, (u, T) ∈ t → ¬ P ⊆ T := fun u T h => h1 u T (List.mem_cons_of_mem _ h)
    by_cases hT : none ∉ T ∧ T ∩ P ≠ ∅
    · rw [if_neg hT.1, if_pos hT.2]
    · have h2' : ∃ u T, (u, T) ∈ t ∧ none ∉ T ∧ T ∩ P ≠ ∅ := by
        obtain ⟨a, b, hm, hh⟩ := h2
        rcases List.mem_cons.1 hm with h | h
        · cases h; exact absurd hh hT
        · exact ⟨a, b, h, hh⟩
      have ih := fun d => getScan_conflict t d h1' h2'
      by_cases hn : none ∈ T
      · rw [if_pos hn, ih]
      · rw [if_neg hn, ih]; simp

theorem getScan_default {P : PSet} : ∀ (t : Tab) (d : Option Val),
    (∀ u T, (u, T) ∈ t → ¬ P ⊆ T) → (∀ u T, (u, T) ∈ t → none ∉ T → T ∩ P = ∅) →
    (dkeys t).Nodup → (∀ v w, Explicit t none v → Explicit t none w → v = w) →
    (∀ v, Explicit t none v → getScan P t d = some v) ∧
    ((∀ v, ¬ Explicit t none v) → getScan P t d = d)
  | [], d, _, _, _, _ => ⟨by rintro v ⟨S, h, _⟩; simp at h, fun _ => rfl⟩
  | (u, T) :: t, d, h1, h2, hk, hf => by
    unfold getScan
    rw [if_neg (h1 u T (by simp))]
    have hk' : u ∉ dkeys t ∧ (dkeys t).Nodup := by simpa [dkeys] using hk
    have tl : ∀ v, Explicit t none v → Explicit ((u, T) :: t) none v := by
      rintro v ⟨S, h, hs⟩; exact ⟨S, List.mem_cons_of_mem _ h, hs⟩
    have ih := fun d => getScan_default t d (fun u T h => h1 u T (List.mem_cons_of_mem _ h))
      (fun u T h => h2 u T (List.mem_cons_of_mem _ h)) hk'.2
      (fun v w hv hw => hf v w (tl v hv) (tl w hw))
    by_cases hn : none ∈ T
    · rw [if_pos hn]
      have hu : Explicit ((u, T) :: t) none u := ⟨T, by simp, hn⟩
      have hno : ∀ v, ¬ Explicit t none v := by
        intro v hv
        have := hf u v hu (tl v hv)
        subst this
        obtain ⟨S, hm, _⟩ := hv
        exact hk'.1 (List.mem_map.2 ⟨_, hm, rfl⟩)
      constructor
      · intro v hv; rw [(ih _).2 hno, hf u v hu hv]
      · intro h; exact absurd hu (h u)
    · rw [if_neg hn, if_neg (by simpa using h2 u T (by simp) hn)]
      have back : ∀ v, Explicit ((u, T) :: t) none v → Explicit t none v := by
        rintro v ⟨S, h, hs⟩
        rcases List.mem_cons.1 h with h | h
        · cases h; exact absurd hs hn
        · exact ⟨S, h, hs⟩
      exact ⟨fun v hv => (ih d).1 v (back v hv), fun h => (ih d).2 (fun v hv => h v (tl v hv))⟩

theorem getScan_spec {t : Tab} (wf : TabWF t) {P : PSet} (hP : P ≠ ∅) (v : Val) :
    getScan P t none = some v ↔ ∀ p ∈ P, Reads t p v := by
  obtain ⟨p0, hp0⟩ := Finset.nonempty_iff_ne_empty.2 hP
  by_cases h1 : ∃ u T, (u, T) ∈ t ∧ P ⊆ T
  · obtain ⟨u, T, hm, hs⟩ := h1
    have hr : ∀ p ∈ P, Reads t p u := fun p hp => Or.inl ⟨T, hm, hs hp⟩
    rw [getScan_cover t none hm hs _ hP wf.keys]
    · constructor
      · intro h; cases h; exact hr
      · intro h; rw [wf.reads_functional (h p0 hp0) (hr p0 hp0)]
    · intro w U hU hne
      by_contra hcon
      obtain ⟨q, hq⟩ := Finset.nonempty_iff_ne_empty.2 hcon
      rw [Finset.mem_inter] at hq
      exact hne (wf.functional q w u ⟨U, hU, hq.1⟩ ⟨T, hm, hs hq.2⟩)
  · have h1' : ∀ u T, (u, T) ∈ t → ¬ P ⊆ T := by
      intro u T hm hs; exact h1 ⟨u, T, hm, hs⟩
    by_cases h2 : ∃ u T, (u, T) ∈ t ∧ none ∉ T ∧ T ∩ P ≠ ∅
    · rw [getScan_conflict t none h1' h2]
      constructor
      · intro h; cases h
      · intro h
        exfalso
        obtain ⟨u, T, hm, hn, hi⟩ := h2
        obtain ⟨q, hq⟩ := Finset.nonempty_iff_ne_empty.2 hi
        rw [Finset.mem_inter] at hq
        have huv : u = v := wf.reads_functional (Or.inl ⟨T, hm, hq.1⟩) (h q hq.2)
        subst huv
        apply h1' u T hm
        intro p hp
        rcases h p hp with ⟨S, hS, hpS⟩ | ⟨_, S, hS, hnS⟩
        · have a := dget?_of_mem wf.keys hm
          rw [dget?_of_mem wf.keys hS] at a; cases a; exact hpS
        · have a := dget?_of_mem wf.keys hm
          rw [dget?_of_mem wf.keys hS] at a; cases a; exact absurd hnS hn
    · have h2' : ∀ u T, (u, T) ∈ t → none ∉ T → T ∩ P = ∅ := by
        intro u T hm hn; by_contra hc; exact h2 ⟨u, T, hm, hn, hc⟩
      have hd := getScan_default t none h1' h2' wf.keys (wf.functional none)
      have hnex : ∀ p ∈ P, ∀ u, Explicit t p u → p = none := by
        rintro p hp u ⟨T, hm, hpT⟩
        by_cases hn : none ∈ T
        · rw [wf.dflt _ _ hm hn] at hpT; simpa using hpT
        · have := h2' u T hm hn
          exact absurd (Finset.mem_inter.2 ⟨hpT, hp⟩) (by rw [this]; simp)
      constructor
      · intro h
        have hv : Explicit t none v := by
          by_contra hc
          by_cases hex : ∃ w, Explicit t none w
          · obtain ⟨w, hw⟩ := hex
            rw [hd.1 w hw] at h; cases h; exact hc hw
          · rw [hd.2 (by simpa using hex)] at h; cases h
        intro p hp
        by_cases hpn : p = none
        · subst hpn; exact Or.inl hv
        · exact Or.inr ⟨fun u hu => hpn (hnex p hp u hu), hv⟩
      · intro h
        have hv : Explicit t none v := by
          rcases h p0 hp0 with hx | ⟨_, hx⟩
          · have := hnex p0 hp0 v hx; rwa [this] at hx
          · exact hx
        exact hd.1 v hv

end Cot
