import Verif.Lemmas.Package
/-
`set_property` without profiles: the value replaces all others.
-/
namespace Cot

theorem eff_covers {it : Item} {n : Str} {w : Val} {S : PSet} (h : (w, S) ∈ it.tab n) : S ⊆ it.effProfiles n ∅ := by
  unfold Item.effProfiles Item.allProfiles
  unfold Item.tab at h
  rw [if_pos rfl]
  cases hd : dget? it.props n with
  | none => rw [hd] at h; simp at h
  | some t =>
    rw [hd] at h
    simp only [Option.getD_some] at h
    cases t with
    | nil => simp at h
    | cons e t =>
      simp only [Option.getD_some]
      intro q hq
      exact (mem_tabUnion _ _).2 ⟨w, S, h, hq⟩

theorem collapse_eff {P S : PSet} (hsub : S ⊆ P) :
    collapse (if none ∈ S then S else S ∪ P) = collapse P := by
  by_cases h : none ∈ S
  · rw [if_pos h]
    have key : ∀ T : PSet, none ∈ T → collapse T = {none} := by
      intro T hT
      ext q
      rw [mem_collapse, Finset.mem_singleton]
      exact ⟨fun h => h.2 hT, fun h => ⟨h ▸ hT, fun _ => h⟩⟩
    rw [key S h, key P (hsub h)]
  · rw [if_neg h, Finset.union_eq_right.2 hsub]

theorem setProperty_all {env : Env} {it it' : Item} {n s : Str} {ow : Bool}
    (wf : ItemWF env it) (hpl : Plain env n) (hn : n ≠ resourceSubType)
    (h : it.setProperty env n (.str s) ∅ ow = .ok it') :
    ItemWF env it' ∧ (∀ m, m ≠ n → it'.tab m = it.tab m) ∧ (s = [] → it'.tab n = []) ∧
      (s ≠ [] → it'.tab n = [(.str s, collapse (it.effProfiles n ∅))]) := by
  obtain ⟨v, h1, wf', h3, h4, -⟩ := setProperty_spec wf h
  rw [normValue_str hn, addWildcards_plain hpl] at h1
  cases h1
  have tw := wf.tab n
  have hP := effProfiles_ne wf n ∅
  have hup : ∀ w S', (w, S') ∈ updTab (.str s) (it.effProfiles n ∅) (it.tab n) →
      w = .str s ∧ collapse S' = collapse (it.effProfiles n ∅) := by
    intro w S' hm
    obtain ⟨S, hS, hu, hne⟩ := mem_updTab.1 hm
    have hsub := eff_covers hS
    unfold updSet at hu
    by_cases hw : w = .str s
    · rw [if_neg (by simpa using hw)] at hu
      exact ⟨hw, by rw [hu]; exact collapse_eff hsub⟩
    · rw [if_pos hw] at hu
      rw [Finset.sdiff_eq_empty_iff_subset.2 hsub] at hu
      exact absurd hu hne
  refine ⟨wf', h3, ?_, ?_⟩
  · rintro rfl
    rw [h4]
    have hemp : updTab (.str []) (it.effProfiles n ∅) (it.tab n) = [] := by
      refine List.eq_nil_iff_forall_not_mem.2 ?_
      rintro ⟨w, S'⟩ hm
      obtain ⟨rfl, -⟩ := hup w S' hm
      obtain ⟨S, hS, -⟩ := mem_updTab.1 hm
      exact absurd (tw.truthy _ _ hS) (by simp [Val.truthy])
    unfold setTab
    rw [if_neg (by simp [Val.truthy]), hemp]
    rfl
  · intro hs
    have htr : (Val.str s).truthy = true := by
      cases s with
      | nil => exact absurd rfl hs
      | cons c t => rfl
    rw [h4]
    have hall : ∀ e ∈ collapseTab (setTab (.str s) (it.effProfiles n ∅) (it.tab n)),
        e = (Val.str s, collapse (it.effProfiles n ∅)) := by
      rintro ⟨w, S'⟩ hm
      obtain ⟨S0, hm0, rfl⟩ := mem_collapseTab.1 hm
      unfold setTab at hm0
      split at hm0
      · rcases List.mem_append.1 hm0 with hm0 | hm0
        · obtain ⟨rfl, h⟩ := hup _ _ hm0; rw [h]
        · simp at hm0; rw [hm0.1, hm0.2]
      · obtain ⟨rfl, h⟩ := hup _ _ hm0; rw [h]
    have hnd : (dkeys (collapseTab (setTab (.str s) (it.effProfiles n ∅) (it.tab n)))).Nodup := by
      rw [dkeys_collapseTab]; exact setTab_keys tw
    have hne : collapseTab (setTab (.str s) (it.effProfiles n ∅) (it.tab n)) ≠ [] := by
      intro hc
      have : dkeys (setTab (.str s) (it.effProfiles n ∅) (it.tab n)) = [] := by
        rw [← dkeys_collapseTab, hc]; rfl
      unfold setTab at this
      split at this
      · simp [dkeys] at this
      · rename_i hcon
        exact hcon ⟨htr, by rw [this]; simp⟩
    match hl : collapseTab (setTab (.str s) (it.effProfiles n ∅) (it.tab n)), hne, hall, hnd with
    | [], hne, _, _ => exact absurd rfl hne
    | [a], _, hall, _ => rw [hall a (by simp)]
    | a :: b :: r, _, hall, hnd =>
      rw [hall a (by simp), hall b (by simp)] at hnd
      simp [dkeys] at hnd

/-- the same for sub-types, which are kept as lists of words -/
theorem setProperty_words {env : Env} {it it' : Item} {x : InVal} {ws : List Str} {ow : Bool} (wf : ItemWF env it)
    (hnv : normValue env resourceSubType x = .tup ws) (hws : ws ≠ [])
    (h : it.setProperty env resourceSubType x ∅ ow = .ok it') :
    it'.tab resourceSubType = [(.tup ws, collapse (it.effProfiles resourceSubType ∅))] := by
  obtain ⟨v, h1, wf', h3, h4, -⟩ := setProperty_spec wf h
  rw [hnv, addWildcards_plain (by unfold Plain; cases env.ver <;> decide +kernel)] at h1
  cases h1
  have tw := wf.tab resourceSubType
  have htr : (Val.tup ws).truthy = true := by
    cases hx : ws with
    | nil => exact absurd hx hws
    | cons c t => rfl
  have hup : ∀ w S', (w, S') ∈ updTab (.tup ws) (it.effProfiles resourceSubType ∅) (it.tab resourceSubType) →
      w = .tup ws ∧ collapse S' = collapse (it.effProfiles resourceSubType ∅) := by
    intro w S' hm
    obtain ⟨S, hS, hu, hne⟩ := mem_updTab.1 hm
    have hsub := eff_covers hS
    unfold updSet at hu
    by_cases hw : w = .tup ws
    · rw [if_neg (by simpa using hw)] at hu
      exact ⟨hw, by rw [hu]; exact collapse_eff hsub⟩
    · rw [if_pos hw] at hu
      rw [Finset.sdiff_eq_empty_iff_subset.2 hsub] at hu
      exact absurd hu hne
  rw [h4]
  generalize hv : Val.tup ws = v at *
  have hall : ∀ e ∈ collapseTab (setTab v (it.effProfiles resourceSubType ∅) (it.tab resourceSubType)),
      e = (v, collapse (it.effProfiles resourceSubType ∅)) := by
    rintro ⟨w, S'⟩ hm
    obtain ⟨S0, hm0, rfl⟩ := mem_collapseTab.1 hm
    unfold setTab at hm0
    split at hm0
    · rcases List.mem_append.1 hm0 with hm0 | hm0
      · obtain ⟨rfl, h⟩ := hup _ _ hm0; rw [h]
      · simp at hm0; rw [hm0.1, hm0.2]
    · obtain ⟨rfl, h⟩ := hup _ _ hm0; rw [h]
  have hnd : (dkeys (collapseTab (setTab v (it.effProfiles resourceSubType ∅) (it.tab resourceSubType)))).Nodup := by
    rw [dkeys_collapseTab]; exact setTab_keys tw
  have hne : collapseTab (setTab v (it.effProfiles resourceSubType ∅) (it.tab resourceSubType)) ≠ [] := by
    intro hc
    have : dkeys (setTab v (it.effProfiles resourceSubType ∅) (it.tab resourceSubType)) = [] := by
      rw [← dkeys_collapseTab, hc]; rfl
    unfold setTab at this
    split at this
    · simp [dkeys] at this
    · rename_i hcon
      exact hcon ⟨htr, by rw [this]; simp⟩
  match hl : collapseTab (setTab v (it.effProfiles resourceSubType ∅) (it.tab resourceSubType)), hne, hall, hnd with
  | [], hne, _, _ => exact absurd rfl hne
  | [a], _, hall, _ => rw [hall a (by simp)]
  | a :: b :: r, _, hall, hnd =>
    rw [hall a (by simp), hall b (by simp)] at hnd
    simp [dkeys] at hnd

theorem setProperty_subtype {env : Env} {it it' : Item} {s : Str} {ow : Bool} (wf : ItemWF env it) (hs : s ≠ [])
    (h : it.setProperty env resourceSubType (.str s) ∅ ow = .ok it') :
    it'.tab resourceSubType = [(.tup (splitOnChar ' ' s), collapse (it.effProfiles resourceSubType ∅))] :=
  setProperty_words wf (by
    cases s with
    | nil => exact absurd rfl hs
    | cons c t => rfl) (splitOnChar_ne_nil ' ' s) h

end Cot
