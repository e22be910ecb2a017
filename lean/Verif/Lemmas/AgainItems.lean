import Verif.Lemmas.EditRun
import Verif.Spec.AgainHardware
/-
Setting a property that is already set as asked changes nothing.
-/
namespace Cot

/-- the value `v` is already what the profiles `P` have: no other value is stored for them, and if `v` is stored at all it is
stored for them or by default -/
structure SetDone (v : Val) (P : PSet) (t : Tab) : Prop where
  others : ∀ w S, (w, S) ∈ t → w ≠ v → ∀ p ∈ P, p ∉ S
  own : ∀ S, (v, S) ∈ t → none ∈ S ∨ P ⊆ S
  there : v.truthy = true → v ∈ dkeys t

theorem updTab_done {v : Val} {P : PSet} {t : Tab} (hne : ∀ w S, (w, S) ∈ t → S ≠ ∅) (h1 : ∀ w S, (w, S) ∈ t → w ≠ v → ∀ p ∈ P, p ∉ S)
    (h2 : ∀ S, (v, S) ∈ t → none ∈ S ∨ P ⊆ S) : updTab v P t = t := by
  unfold updTab
  conv => rhs; rw [← List.filterMap_some (l := t)]
  apply List.filterMap_congr
  rintro ⟨w, S⟩ hm
  have hu : updSet v P w S = S := by
    unfold updSet
    split
    · rename_i hw
      rw [Finset.sdiff_eq_self_iff_disjoint, Finset.disjoint_right]
      exact fun p hp => h1 w S hm hw p hp
    · rename_i hw
      rw [not_not] at hw; subst hw
      split
      · rfl
      · rename_i hn
        exact Finset.union_eq_left.2 ((h2 S hm).resolve_left hn)
  simp only [hu]
  rw [if_neg (hne w S hm)]

theorem setTab_done {v : Val} {P : PSet} {t : Tab} (wf : TabWF t) (h : SetDone v P t) : collapseTab (setTab v P t) = t := by
  have hu := updTab_done wf.nonempty h.others h.own
  unfold setTab
  rw [hu, if_neg (fun hh => hh.2 (h.there hh.1)), wf.collapse_id]

theorem mem_setTab' {v : Val} {P : PSet} {t : Tab} {w : Val} {S : PSet} (h : (w, S) ∈ setTab v P t) :
    (∃ S0, (w, S0) ∈ t ∧ S = updSet v P w S0) ∨ (w = v ∧ S = P ∧ v ∉ dkeys (updTab v P t) ∧ v.truthy = true) := by
  unfold setTab at h
  split at h
  · rename_i hc
    rcases List.mem_append.1 h with h | h
    · obtain ⟨S0, h0, h1, -⟩ := mem_updTab.1 h; exact Or.inl ⟨S0, h0, h1⟩
    · simp only [List.mem_singleton, Prod.mk.injEq] at h
      exact Or.inr ⟨h.1, h.2, hc.2, hc.1⟩
  · obtain ⟨S0, h0, h1, -⟩ := mem_updTab.1 h; exact Or.inl ⟨S0, h0, h1⟩

theorem collapse_sub {S P : PSet} (h : none ∈ S ∨ P ⊆ S) : none ∈ collapse S ∨ P ⊆ collapse S := by
  by_cases hn : none ∈ S
  · exact Or.inl ((mem_collapse S none).2 ⟨hn, fun _ => rfl⟩)
  · right
    intro p hp
    exact (mem_collapse S p).2 ⟨(h.resolve_left hn) hp, fun h => absurd h hn⟩

theorem setTab_there {v : Val} {P : PSet} {t : Tab} (hv : v.truthy = true) : v ∈ dkeys (setTab v P t) := by
  unfold setTab
  by_cases h : v ∈ dkeys (updTab v P t)
  · rw [if_neg (fun hh => hh.2 h)]; exact h
  · rw [if_pos ⟨hv, h⟩]; simp [dkeys]

theorem setTab_after (v : Val) (P : PSet) (t : Tab) : SetDone v P (collapseTab (setTab v P t)) := by
  refine ⟨?_, ?_, ?_⟩
  · intro w S hm hw p hp hpS
    obtain ⟨S0, h0, rfl⟩ := mem_collapseTab.1 hm
    have hpS' := collapse_subset _ hpS
    rcases mem_setTab' h0 with ⟨S1, h1, rfl⟩ | ⟨rfl, -⟩
    · unfold updSet at hpS'
      rw [if_pos hw] at hpS'
      exact (Finset.mem_sdiff.1 hpS').2 hp
    · exact hw rfl
  · intro S hm
    obtain ⟨S0, h0, rfl⟩ := mem_collapseTab.1 hm
    apply collapse_sub
    rcases mem_setTab' h0 with ⟨S1, h1, rfl⟩ | ⟨-, rfl, -⟩
    · unfold updSet
      simp only [ne_eq, not_true_eq_false, if_false]
      split
      · rename_i hn; exact Or.inl hn
      · exact Or.inr Finset.subset_union_right
    · exact Or.inr (Finset.Subset.refl _)
  · intro hv
    rw [dkeys_collapseTab]
    exact setTab_there hv

/-- setting the same value for further profiles keeps what was done -/
theorem setTab_keeps {v : Val} {P P' : PSet} {t : Tab} (wf : TabWF t) (h : SetDone v P t) : SetDone v P (collapseTab (setTab v P' t)) := by
  refine ⟨?_, ?_, ?_⟩
  · intro w S hm hw p hp hpS
    obtain ⟨S0, h0, rfl⟩ := mem_collapseTab.1 hm
    have hpS' := collapse_subset _ hpS
    rcases mem_setTab' h0 with ⟨S1, h1, rfl⟩ | ⟨rfl, -⟩
    · unfold updSet at hpS'
      rw [if_pos hw] at hpS'
      exact h.others w S1 h1 hw p hp (Finset.mem_sdiff.1 hpS').1
    · exact hw rfl
  · intro S hm
    obtain ⟨S0, h0, rfl⟩ := mem_collapseTab.1 hm
    apply collapse_sub
    rcases mem_setTab' h0 with ⟨S1, h1, rfl⟩ | ⟨-, rfl, hn, hv⟩
    · unfold updSet
      simp only [ne_eq, not_true_eq_false, if_false]
      split
      · rename_i hn; exact Or.inl hn
      · rename_i hn
        exact Or.inr (fun p hp => Finset.mem_union_left _ (((h.own S1 h1).resolve_left hn) hp))
    · exfalso
      apply hn
      exact (mem_keys_updTab_self wf.nonempty).2 (h.there hv)
  · intro hv
    rw [dkeys_collapseTab]
    exact setTab_there hv

/-! ### items -/

/-- the profiles that `set_property` works on, by the table of the property -/
def effT (P : PSet) (t : Tab) : PSet := if P = ∅ then (if t = [] then {none} else tabUnion t) else P

theorem effProfiles_tab (it : Item) (name : Str) (P : PSet) : it.effProfiles name P = effT P (it.tab name) := by
  unfold Item.effProfiles effT
  split
  · unfold Item.allProfiles Item.tab
    cases h : dget? it.props name with
    | none => rfl
    | some t => cases t with
      | nil => rfl
      | cons e t => simp
  · rfl


theorem SameItem.rfl' (a : Item) : SameItem a a := ⟨rfl, fun _ => rfl⟩
theorem SameItem.trans {a b c : Item} (h1 : SameItem a b) (h2 : SameItem b c) : SameItem a c :=
  ⟨h2.1.trans h1.1, fun n => (h2.2 n).trans (h1.2 n)⟩
theorem SameItem.symm {a b : Item} (h : SameItem a b) : SameItem b a := ⟨h.1.symm, fun n => (h.2 n).symm⟩

theorem setProperty_done {env : Env} {it : Item} (wf : ItemWF env it) {name : Str} {val : InVal} {P : PSet}
    (hpl : Plain env name) (hid : name ≠ instanceId env.ver) (hrt : name ≠ resourceType)
    (hd : SetDone (normValue env name val) (effT P (it.tab name)) (it.tab name)) :
    ∃ it', it.setProperty env name val P true = .ok it' ∧ ItemWF env it' ∧ SameItem it it' := by
  obtain ⟨it', h⟩ := setProperty_ok wf val P hpl hid hrt
  obtain ⟨v, hv, wf', k1, k2, -, k4, -⟩ := setProperty_spec wf h
  rw [addWildcards_plain hpl] at hv; cases hv
  refine ⟨it', h, wf', ?_, ?_⟩
  · rw [k4]; unfold Item.updNs; rw [if_neg hrt]
  · intro n
    by_cases hn : n = name
    · subst hn
      rw [k2, effProfiles_tab, setTab_done (wf.tab n) hd]
    · exact k1 n hn

theorem setProperty_tab {env : Env} {it it' : Item} (wf : ItemWF env it) {name : Str} {val : InVal} {P : PSet}
    (hpl : Plain env name) (h : it.setProperty env name val P true = .ok it') :
    ItemWF env it' ∧ (∀ n, n ≠ name → it'.tab n = it.tab n) ∧
      it'.tab name = collapseTab (setTab (normValue env name val) (effT P (it.tab name)) (it.tab name)) := by
  obtain ⟨v, hv, wf', k1, k2, -⟩ := setProperty_spec wf h
  rw [addWildcards_plain hpl] at hv; cases hv
  exact ⟨wf', k1, by rw [k2, effProfiles_tab]⟩

theorem setProperty_after {env : Env} {it it' : Item} (wf : ItemWF env it) {name : Str} {val : InVal} {P : PSet}
    (hpl : Plain env name) (h : it.setProperty env name val P true = .ok it') :
    SetDone (normValue env name val) (effT P (it'.tab name)) (it'.tab name) := by
  obtain ⟨wf', -, k⟩ := setProperty_tab wf hpl h
  have ha := setTab_after (normValue env name val) (effT P (it.tab name)) (it.tab name)
  rw [← k] at ha
  by_cases hP : P = ∅
  · -- without profiles: only this value is left
    subst hP
    have hall : ∀ w S, (w, S) ∈ it'.tab name → w = normValue env name val := by
      intro w S hm
      by_contra hw
      rw [k] at hm
      obtain ⟨S0, h0, rfl⟩ := mem_collapseTab.1 hm
      have hne := (wf'.tab name).nonempty w (collapse S0) (by rw [k]; exact hm)
      rcases mem_setTab' h0 with ⟨S1, h1, rfl⟩ | ⟨rfl, -⟩
      · apply hne
        rw [Finset.eq_empty_iff_forall_notMem]
        intro p hp
        have hp := collapse_subset _ hp
        unfold updSet at hp
        rw [if_pos hw, Finset.mem_sdiff] at hp
        apply hp.2
        unfold effT
        rw [if_pos rfl, if_neg (List.ne_nil_of_mem h1), mem_tabUnion]
        exact ⟨w, S1, h1, hp.1⟩
      · exact hw rfl
    refine ⟨fun w S hm hw => absurd (hall w S hm) hw, ?_, ha.there⟩
    intro S hm
    right
    unfold effT
    rw [if_pos rfl, if_neg (List.ne_nil_of_mem hm)]
    intro p hp
    obtain ⟨w, S', hm', hp'⟩ := (mem_tabUnion _ _).1 hp
    have := hall w S' hm'; subst this
    have e1 := dget?_of_mem (wf'.tab name).keys hm
    rw [dget?_of_mem (wf'.tab name).keys hm'] at e1
    cases e1
    exact hp'
  · have : ∀ t, effT P t = P := fun t => by unfold effT; rw [if_neg hP]
    rw [this] at ha ⊢
    exact ha

/-! ### under each profile -/

theorem effT_one (p : Prof) (t : Tab) : effT {p} t = {p} := by unfold effT; rw [if_neg (by simp)]

theorem setUnder_keeps {env : Env} {name : Str} {val : InVal} (hpl : Plain env name) {P : PSet} : ∀ (L : List Prof) {it it' : Item},
    ItemWF env it → setUnder env name val L it = .ok it' → SetDone (normValue env name val) P (it.tab name) →
    SetDone (normValue env name val) P (it'.tab name)
  | [], it, it', _, h, hd => by cases h; exact hd
  | p :: r, it, it', wf, h, hd => by
    unfold setUnder at h
    split at h
    · split at h
      · cases h
      · rename_i x hx
        obtain ⟨wf', -, k⟩ := setProperty_tab wf hpl hx
        exact setUnder_keeps hpl r wf' h (by rw [k]; exact setTab_keeps (wf.tab name) hd)
    · exact setUnder_keeps hpl r wf h hd

theorem setUnder_after {env : Env} {name : Str} {val : InVal} (hpl : Plain env name) (hid : name ≠ instanceId env.ver) :
    ∀ (L : List Prof) {it it' : Item}, ItemWF env it → setUnder env name val L it = .ok it' →
    ∀ p ∈ L, it.hasProfile env p = true → SetDone (normValue env name val) {p} (it'.tab name)
  | [], it, it', _, _, p, hp, _ => by cases hp
  | a :: r, it, it', wf, h, p, hp, hh => by
    unfold setUnder at h
    split at h
    · split at h
      · cases h
      · rename_i x hx
        obtain ⟨wf', k1, k⟩ := setProperty_tab wf hpl hx
        rcases List.mem_cons.1 hp with rfl | hp
        · refine setUnder_keeps hpl r wf' h ?_
          have := setProperty_after wf hpl hx
          rw [effT_one] at this
          exact this
        · exact setUnder_after hpl hid r wf' h p hp (by rw [hasProfile_congr (k1 _ hid.symm)]; exact hh)
    · rename_i hna
      rcases List.mem_cons.1 hp with rfl | hp
      · exact absurd hh hna
      · exact setUnder_after hpl hid r wf h p hp hh

theorem setUnder_done {env : Env} {name : Str} {val : InVal} (hpl : Plain env name) (hid : name ≠ instanceId env.ver)
    (hrt : name ≠ resourceType) : ∀ (L : List Prof) {it : Item}, ItemWF env it →
    (∀ p ∈ L, it.hasProfile env p = true → SetDone (normValue env name val) {p} (it.tab name)) →
    ∃ it', setUnder env name val L it = .ok it' ∧ ItemWF env it' ∧ SameItem it it'
  | [], it, wf, _ => ⟨it, rfl, wf, SameItem.rfl' it⟩
  | p :: r, it, wf, hd => by
    unfold setUnder
    split
    · rename_i hp
      obtain ⟨x, x1, x2, x3⟩ := setProperty_done wf (val := val) (P := {p}) hpl hid hrt
        (by rw [effT_one]; exact hd p List.mem_cons_self hp)
      rw [x1]
      obtain ⟨y, y1, y2, y3⟩ := setUnder_done hpl hid hrt r (it := x) x2 (by
        intro b hb hh
        rw [hasProfile_congr (x3.2 _)] at hh
        rw [x3.2]
        exact hd b (List.mem_cons_of_mem _ hb) hh)
      exact ⟨y, y1, y2, x3.trans y3⟩
    · exact setUnder_done hpl hid hrt r wf (fun b hb => hd b (List.mem_cons_of_mem _ hb))

/-! ### collections -/

theorem SameHw.rfl' (a : Hw) : SameHw a a := ⟨rfl, fun _ it h => ⟨it, h, SameItem.rfl' it⟩⟩
theorem SameHw.trans {a b c : Hw} (h1 : SameHw a b) (h2 : SameHw b c) : SameHw a c := by
  refine ⟨h2.keys.trans h1.keys, ?_⟩
  intro id it h
  obtain ⟨x, x1, x2⟩ := h1.items id it h
  obtain ⟨y, y1, y2⟩ := h2.items id x x1
  exact ⟨y, y1, x2.trans y2⟩
theorem SameHw.back {a b : Hw} (h : SameHw a b) {id : Str} {it : Item} (hi : dget? b id = some it) :
    ∃ it', dget? a id = some it' ∧ SameItem it' it := by
  obtain ⟨x, hx⟩ := dget?_of_mem_dkeys (h.keys ▸ mem_dkeys_of_dget? hi)
  obtain ⟨y, y1, y2⟩ := h.items id x hx
  rw [hi] at y1; cases y1
  exact ⟨x, hx, y2⟩

theorem typeMatch_same {a b : Item} (h : SameItem a b) (rt : Option Str) : typeMatch b rt = typeMatch a rt := by
  unfold typeMatch Item.getRaw
  rw [h.2]

theorem filterE_congr {α : Type} {f g : α → Except Err Bool} : ∀ (l : List α), (∀ x ∈ l, f x = g x) → filterE f l = filterE g l
  | [], _ => rfl
  | a :: r, h => by
    unfold filterE
    rw [h a List.mem_cons_self, filterE_congr r (fun x hx => h x (List.mem_cons_of_mem _ hx))]

theorem findAllItems_same {env : Env} {a b : Hw} (h : SameHw a b) (rt : Option Str) :
    findAllItems env b rt [] [] = findAllItems env a rt [] [] := by
  unfold findAllItems
  rw [h.keys]
  refine filterE_congr _ ?_
  intro id hid
  obtain ⟨x, hx⟩ := dget?_of_mem_dkeys ((naturalSort_perm (dkeys a)).mem_iff.1 hid)
  obtain ⟨y, y1, y2⟩ := h.items id x hx
  rw [hx, y1]
  show itemMatch env y rt [] [] = itemMatch env x rt [] []
  unfold itemMatch
  rw [typeMatch_same y2]
  rfl

theorem same_dset {env : Env} {hw : Hw} (wf : HwWF env hw) {id : Str} {it it' : Item} (hi : dget? hw id = some it)
    (w : ItemWF env it') (hs : SameItem it it') : SameHw hw (dset hw id it') ∧ HwWF env (dset hw id it') := by
  have hk := mem_dkeys_of_dget? hi
  refine ⟨⟨dkeys_dset_mem hk _, ?_⟩, ?_⟩
  · intro j x hx
    rw [dget?_dset]
    split
    · rename_i hj; subst hj
      rw [hi] at hx; cases hx
      exact ⟨it', rfl, hs⟩
    · exact ⟨x, hx, SameItem.rfl' x⟩
  · refine wf.replace hk w ?_
    rw [hs.2]
    exact wf.ident id it (dget?_mem hi)

/-- what is there of a type already has the value -/
def AllSet (code name : Str) (v : Val) (P : PSet) (hw : Hw) : Prop :=
  ∀ id it, dget? hw id = some it → OfType it code → SetDone v (effT P (it.tab name)) (it.tab name)

theorem AllSet.same {code name : Str} {v : Val} {P : PSet} {a b : Hw} (h : AllSet code name v P a)
    (hs : SameHw a b) : AllSet code name v P b := by
  intro id it hi ht
  obtain ⟨x, x1, x2⟩ := hs.back hi
  rw [x2.2]
  exact h id x x1 ((ofType_congr (x2.2 _) code).1 ht)

theorem AllSet.keep {env : Env} {code name : Str} {v : Val} {P : PSet} {a b : Hw} (h : AllSet code name v P a)
    (k : KeepsTab env code name a b) : AllSet code name v P b := by
  intro id it hi ht
  obtain ⟨x, x1, x2, -, x4⟩ := k.bwd id it hi ht
  rw [x4]
  exact h id x x1 x2

theorem setEach_done {env : Env} {name : Str} {val : InVal} {P : List Prof} (hpl : Plain env name)
    (hid : name ≠ instanceId env.ver) (hrt : name ≠ resourceType) : ∀ (ids : List Str) {hw : Hw}, HwWF env hw →
    (∀ id ∈ ids, ∃ it, dget? hw id = some it ∧
      SetDone (normValue env name val) (effT P.toFinset (it.tab name)) (it.tab name)) →
    ∃ hw', setEach env name val P ids hw = .ok hw' ∧ SameHw hw hw' ∧ HwWF env hw'
  | [], hw, wf, _ => ⟨hw, rfl, SameHw.rfl' hw, wf⟩
  | i :: r, hw, wf, h => by
    obtain ⟨it, g1, g2⟩ := h i List.mem_cons_self
    obtain ⟨it', k1, k2, k3⟩ := setProperty_done (wf.get g1).1 (val := val) (P := P.toFinset) hpl hid hrt g2
    obtain ⟨s1, s2⟩ := same_dset wf g1 k2 k3
    obtain ⟨hw', m1, m2, m3⟩ := setEach_done (val := val) (P := P) hpl hid hrt r s2 (by
      intro j hj
      obtain ⟨x, x1, x2⟩ := h j (List.mem_cons_of_mem _ hj)
      obtain ⟨y, y1, y2⟩ := s1.items j x x1
      exact ⟨y, y1, by rw [y2.2]; exact x2⟩)
    refine ⟨hw', ?_, s1.trans m2, m3⟩
    unfold setEach
    rw [g1]
    simp only [k1]
    exact m1

theorem setValueForAll_done {env : Env} {hw : Hw} {rt name code : Str} {val : InVal} {P : List Prof} {cn : Bool}
    (wf : HwWF env hw) (hc : resourceCode rt = .ok code) (hpl : Plain env name)
    (hid : name ≠ instanceId env.ver) (hrt : name ≠ resourceType)
    (hex : cn = true → ∃ id it, dget? hw id = some it ∧ OfType it code)
    (hd : AllSet code name (normValue env name val) P.toFinset hw) :
    ∃ hw', setValueForAll env hw rt name val P cn = .ok hw' ∧ SameHw hw hw' ∧ HwWF env hw' := by
  obtain ⟨ids, hids⟩ := findAllItems_ok (env := env) (hw := hw) hc
  obtain ⟨-, -, hmem⟩ := typeIds_mem wf hc hids
  unfold setValueForAll
  rw [hids]
  simp only [bind, Except.bind]
  by_cases he : ids = []
  · rw [if_pos he]
    cases cn with
    | false => exact ⟨hw, rfl, SameHw.rfl' hw, wf⟩
    | true =>
      obtain ⟨id, it, h1, h2⟩ := hex rfl
      have := (hmem id).2 ⟨it, h1, h2⟩
      rw [he] at this; cases this
  · rw [if_neg he]
    refine setEach_done hpl hid hrt ids wf ?_
    intro id hi
    obtain ⟨it, h1, h2⟩ := (hmem id).1 hi
    exact ⟨it, h1, hd id it h1 h2⟩

theorem setValueForAll_after {env : Env} {hw hw' : Hw} {rt name code : Str} {val : InVal} {P : List Prof} {cn : Bool}
    (wf : HwWF env hw) (hc : resourceCode rt = .ok code) (hpl : Plain env name)
    (hid : name ≠ instanceId env.ver) (hrt : name ≠ resourceType)
    (h : setValueForAll env hw rt name val P cn = .ok hw') :
    AllSet code name (normValue env name val) P.toFinset hw' ∧
      (cn = true → ∃ id it, dget? hw' id = some it ∧ OfType it code) := by
  by_cases hex : cn = true → ∃ id it, dget? hw id = some it ∧ OfType it code
  · obtain ⟨ed, k⟩ := setValueForAll_edits wf hc hex h
    refine ⟨?_, ?_⟩
    · intro id it' hi ht
      obtain ⟨it, g1, -, -, g4⟩ := ed.back hi
      obtain ⟨x, x1, x2⟩ := k id it g1 ((ofType_congr (g4 _ hrt.symm) code).1 ht)
      rw [hi] at x1; cases x1
      exact setProperty_after (wf.get g1).1 hpl x2
    · intro hcn
      obtain ⟨id, it, g1, g2⟩ := hex hcn
      obtain ⟨x, x1, -, -, x4⟩ := ed.items id it g1
      exact ⟨id, x, x1, (ofType_congr (x4 _ hrt.symm) code).2 g2⟩
  · rw [Classical.not_imp] at hex
    obtain ⟨rfl, hex⟩ := hex
    obtain ⟨id, it0, it, hf, rfl, k1, k2, k3, k4, k5, -, -⟩ := setValueForAll_creates wf hc hid hrt hex h
    have hself : dget? (dset hw id it) id = some it := by rw [dget?_dset, if_pos rfl]
    refine ⟨?_, fun _ => ⟨id, it, hself, _, k5⟩⟩
    intro j x hx ht
    rw [dget?_dset] at hx
    split at hx
    · cases hx; exact setProperty_after k2 hpl k1
    · exact absurd ⟨j, x, hx, ht⟩ hex

/-! ### values in order -/

/-- each device of the list has, under the profiles, the value that is meant for it -/
def ListSet (env : Env) (name : Str) (dflt : InVal) (L : List Prof) (hw : Hw) (ids : List Str) (vs : List InVal) : Prop :=
  ∀ (i : Nat) (h : i < ids.length), ∃ it, dget? hw ids[i] = some it ∧
    ∀ p ∈ L, it.hasProfile env p = true → SetDone (normValue env name (vs[i]?.getD dflt)) {p} (it.tab name)

theorem setValuesLoop_done {env : Env} {name : Str} {dflt : InVal} {L : List Prof} (hpl : Plain env name)
    (hid : name ≠ instanceId env.ver) (hrt : name ≠ resourceType) : ∀ (ids : List Str) (vs : List InVal) {hw : Hw}, HwWF env hw →
    ListSet env name dflt L hw ids vs →
    ∃ hw', setValuesLoop env name dflt L ids vs hw = .ok hw' ∧ SameHw hw hw' ∧ HwWF env hw'
  | [], vs, hw, wf, _ => ⟨hw, rfl, SameHw.rfl' hw, wf⟩
  | i :: r, vs, hw, wf, h => by
    obtain ⟨it, g1, g2⟩ := h 0 (by simp)
    simp only [List.getElem_cons_zero] at g1
    have e0 : vs.head?.getD dflt = vs[0]?.getD dflt := by cases vs <;> rfl
    obtain ⟨it', k1, k2, k3⟩ := setUnder_done (val := vs[0]?.getD dflt) hpl hid hrt L (wf.get g1).1 g2
    obtain ⟨s1, s2⟩ := same_dset wf g1 k2 k3
    obtain ⟨hw', m1, m2, m3⟩ := setValuesLoop_done (dflt := dflt) (L := L) hpl hid hrt r vs.tail s2 (by
      intro j hj
      obtain ⟨x, x1, x2⟩ := h (j + 1) (by simpa using hj)
      simp only [List.getElem_cons_succ] at x1
      obtain ⟨y, y1, y2⟩ := s1.items _ x x1
      refine ⟨y, y1, ?_⟩
      intro p hp hh
      rw [hasProfile_congr (y2.2 _)] at hh
      rw [y2.2]
      have := x2 p hp hh
      rw [show vs[j + 1]? = vs.tail[j]? by cases vs <;> simp] at this
      exact this)
    refine ⟨hw', ?_, s1.trans m2, m3⟩
    unfold setValuesLoop
    rw [g1]
    simp only [e0, k1]
    exact m1

/-- in `hw`, each device of the type has the value that is meant for it -/
def InOrderSet (env : Env) (rt name : Str) (dflt : InVal) (L : List Prof) (vs : List InVal) (hw : Hw) : Prop :=
  ∃ ids, findAllItems env hw (some rt) [] [] = .ok ids ∧ ListSet env name dflt L hw ids vs

theorem InOrderSet.same {env : Env} {rt name : Str} {dflt : InVal} {L : List Prof} {vs : List InVal} {a b : Hw}
    (h : InOrderSet env rt name dflt L vs a) (hs : SameHw a b) : InOrderSet env rt name dflt L vs b := by
  obtain ⟨ids, h1, h2⟩ := h
  refine ⟨ids, by rw [findAllItems_same hs]; exact h1, ?_⟩
  intro i hi
  obtain ⟨x, x1, x2⟩ := h2 i hi
  obtain ⟨y, y1, y2⟩ := hs.items _ x x1
  refine ⟨y, y1, ?_⟩
  intro p hp hh
  rw [hasProfile_congr (y2.2 _)] at hh
  rw [y2.2]
  exact x2 p hp hh

theorem setItemValues_done {env : Env} {hw : Hw} {rt name : Str} {vs : List InVal} {dflt : InVal} {profiles : Option (List Prof)}
    (wf : HwWF env hw) (hpl : Plain env name) (hid : name ≠ instanceId env.ver) (hrt : name ≠ resourceType)
    (hd : InOrderSet env rt name dflt (profiles.getD (env.configProfiles.map some ++ [none])) vs hw) :
    ∃ hw', setItemValues env hw rt name vs profiles dflt = .ok hw' ∧ SameHw hw hw' ∧ HwWF env hw' := by
  obtain ⟨ids, h1, h2⟩ := hd
  unfold setItemValues
  simp only [h1, bind, Except.bind]
  exact setValuesLoop_done hpl hid hrt ids vs wf h2

theorem setItemValues_after {env : Env} {hw hw' : Hw} {rt name code : Str} {vs : List InVal} {dflt : InVal}
    {profiles : Option (List Prof)} (wf : HwWF env hw) (hc : resourceCode rt = .ok code) (hpl : Plain env name)
    (hid : name ≠ instanceId env.ver)
    (h : setItemValues env hw rt name vs profiles dflt = .ok hw') :
    ∃ ids, findAllItems env hw (some rt) [] [] = .ok ids ∧
      ListSet env name dflt (profiles.getD (env.configProfiles.map some ++ [none])) hw' ids vs := by
  unfold setItemValues at h
  obtain ⟨ids, hids, h⟩ := bind_ok_inv h
  obtain ⟨hnd, -, hmem⟩ := typeIds_mem wf hc hids
  obtain ⟨k1, k2, k3⟩ := setValuesLoop_spec ids vs hnd h
  refine ⟨ids, hids, ?_⟩
  intro i hi
  obtain ⟨it, it', g1, g2, g3⟩ := k3 i hi
  refine ⟨it', g2, ?_⟩
  intro p hp hh
  have w := (wf.get g1).1
  rw [hasProfile_congr ((setUnder_spec hid hpl _ w g3).2.1 _ hid.symm)] at hh
  exact setUnder_after hpl hid _ w g3 p hp hh

theorem sorted_unique : ∀ {l l' : List Str}, l.Pairwise NatLe → l'.Pairwise NatLe → l.Nodup → l'.Nodup →
    (∀ a ∈ l, ∀ b ∈ l, NatLe a b → NatLe b a → a = b) → (∀ x, x ∈ l ↔ x ∈ l') → l = l' := by
  intro l l' h1 h2 n1 n2 ht hm
  refine List.Perm.eq_of_pairwise ?_ h1 h2 ((List.perm_ext_iff_of_nodup n1 n2).2 hm)
  intro a b ha hb h3 h4
  exact ht a ha b ((hm b).2 hb) h3 h4

/-- the devices of a type are found in the same order -/
theorem KeepsTab.found {env : Env} {rt code name : Str} {a b : Hw} (k : KeepsTab env code name a b) (wa : HwWF env a)
    (wb : HwWF env b) (hc : resourceCode rt = .ok code) (ht : NoTies b) :
    findAllItems env b (some rt) [] [] = findAllItems env a (some rt) [] [] := by
  obtain ⟨i1, h1⟩ := findAllItems_ok (env := env) (hw := a) hc
  obtain ⟨i2, h2⟩ := findAllItems_ok (env := env) (hw := b) hc
  obtain ⟨n1, s1, m1⟩ := typeIds_mem wa hc h1
  obtain ⟨n2, s2, m2⟩ := typeIds_mem wb hc h2
  rw [h1, h2]
  congr 1
  refine sorted_unique s2 s1 n2 n1 ?_ ?_
  · intro x hx y hy
    obtain ⟨u, u1, -⟩ := (m2 x).1 hx
    obtain ⟨v, v1, -⟩ := (m2 y).1 hy
    exact ht x (mem_dkeys_of_dget? u1) y (mem_dkeys_of_dget? v1)
  · intro x
    rw [m1, m2]
    constructor
    · rintro ⟨it, h1, h2⟩
      obtain ⟨y, y1, y2, -⟩ := k.bwd x it h1 h2
      exact ⟨y, y1, y2⟩
    · rintro ⟨it, h1, h2⟩
      obtain ⟨y, y1, y2, -⟩ := k.fwd x it h1 h2
      exact ⟨y, y1, y2⟩

theorem ListSet.keep {env : Env} {name code : Str} {dflt : InVal} {L : List Prof} {a b : Hw} {ids : List Str} {vs : List InVal}
    (h : ListSet env name dflt L a ids vs) (k : KeepsTab env code name a b)
    (hids : ∀ id ∈ ids, ∃ it, dget? a id = some it ∧ OfType it code) : ListSet env name dflt L b ids vs := by
  intro i hi
  obtain ⟨it, h1, h2⟩ := h i hi
  obtain ⟨x, x1, x2⟩ := hids _ (List.getElem_mem hi)
  rw [h1] at x1; cases x1
  obtain ⟨y, y1, y2, y3, y4⟩ := k.fwd _ it h1 x2
  refine ⟨y, y1, ?_⟩
  intro p hp hh
  rw [hasProfile_congr y3] at hh
  rw [y4]
  exact h2 p hp hh

/-! ### counts -/

theorem foldl_congr_mem {α β : Type} {f g : β → α → β} : ∀ (l : List α) (b : β), (∀ x ∈ l, ∀ b, f b x = g b x) →
    l.foldl f b = l.foldl g b
  | [], _, _ => rfl
  | a :: r, b, h => by
    rw [List.foldl_cons, List.foldl_cons, h a List.mem_cons_self]
    exact foldl_congr_mem r _ (fun x hx => h x (List.mem_cons_of_mem _ hx))

theorem itemCounts_congr {env : Env} {a b : Hw} {rt : Str} {L : List Prof}
    (hf : findAllItems env b (some rt) [] [] = findAllItems env a (some rt) [] [])
    (hh : ∀ ids, findAllItems env a (some rt) [] [] = .ok ids → ∀ id ∈ ids, ∃ it it', dget? a id = some it ∧
      dget? b id = some it' ∧ it'.tab (instanceId env.ver) = it.tab (instanceId env.ver)) :
    itemCounts env b rt L = itemCounts env a rt L := by
  unfold itemCounts
  rw [hf]
  cases hi : findAllItems env a (some rt) [] [] with
  | error e => rfl
  | ok ids =>
    simp only
    congr 1
    refine foldl_congr_mem ids _ ?_
    intro id hid d
    obtain ⟨it, it', h1, h2, h3⟩ := hh ids hi id hid
    rw [h1, h2]
    simp only
    unfold countItem
    refine foldl_congr_mem _ _ ?_
    intro p _ d
    rw [hasProfile_congr h3]

theorem itemCounts_same {env : Env} {a b : Hw} {rt code : Str} {L : List Prof} (hc : resourceCode rt = .ok code)
    (wf : HwWF env a) (h : SameHw a b) : itemCounts env b rt L = itemCounts env a rt L := by
  refine itemCounts_congr (findAllItems_same h _) ?_
  intro ids hi id hid
  obtain ⟨it, h1, -⟩ := ((typeIds_mem wf hc hi).2.2 id).1 hid
  obtain ⟨x, x1, x2⟩ := h.items id it h1
  exact ⟨it, x, h1, x1, x2.2 _⟩

theorem KeepsTab.itemCounts {env : Env} {rt code name : Str} {a b : Hw} (k : KeepsTab env code name a b) (wa : HwWF env a)
    (wb : HwWF env b) (hc : resourceCode rt = .ok code) (ht : NoTies b) (L : List Prof) :
    itemCounts env b rt L = itemCounts env a rt L := by
  refine itemCounts_congr (k.found wa wb hc ht) ?_
  intro ids hi id hid
  obtain ⟨it, h1, h2⟩ := ((typeIds_mem wa hc hi).2.2 id).1 hid
  obtain ⟨x, x1, -, x3, -⟩ := k.fwd id it h1 h2
  exact ⟨it, x, h1, x1, x3⟩

theorem profLoop_stay {env : Env} {count : Nat} {it : Item} {cd : Prof → Nat} : ∀ (L : List Prof) {seen : Prof → Nat}, L.Nodup →
    (∀ p ∈ L, (it.hasProfile env p = true → seen p < count) ∧ count ≤ cd p) →
    ∃ seen', profLoop env count L (it, cd, seen) = .ok (it, cd, seen') ∧
      ∀ q, seen' q = if q ∈ L ∧ it.hasProfile env q = true then seen q + 1 else seen q
  | [], seen, _, _ => ⟨seen, rfl, by simp⟩
  | p :: r, seen, hnd, hh => by
    have hnd' := List.nodup_cons.1 hnd
    obtain ⟨g1, g2⟩ := hh p List.mem_cons_self
    unfold profLoop
    by_cases hp : it.hasProfile env p = true
    · rw [if_pos hp, if_neg (by have := g1 hp; omega)]
      have hb : ∀ q, q ≠ p → bump seen p q = seen q := by intro q hq; unfold bump; rw [if_neg hq]
      obtain ⟨seen', e1, e2⟩ := profLoop_stay r (seen := bump seen p) hnd'.2 (fun q hq => by
        rw [hb q (fun e => hnd'.1 (e ▸ hq))]; exact hh q (List.mem_cons_of_mem _ hq))
      refine ⟨seen', e1, ?_⟩
      intro q
      rw [e2 q]
      by_cases hqp : q = p
      · subst hqp; simp [hnd'.1, bump, hp]
      · rw [hb q hqp]; simp [hqp]
    · rw [if_neg hp, if_neg (by omega)]
      obtain ⟨seen', e1, e2⟩ := profLoop_stay r (seen := seen) hnd'.2 (fun q hq => hh q (List.mem_cons_of_mem _ hq))
      refine ⟨seen', e1, ?_⟩
      intro q
      rw [e2 q]
      by_cases hqp : q = p
      · subst hqp; simp [hp]
      · simp [hqp]

theorem existingLoop_stay {env : Env} {count : Nat} {L : List Prof} (hL : L.Nodup) {hw : Hw} {cd : Prof → Nat} :
    ∀ (ids : List Str) {seen : Prof → Nat}, (∀ id ∈ ids, ∃ it, dget? hw id = some it) →
    (∀ p ∈ L, cd p = count ∧ seen p + numHas env hw p ids = count) →
    ∃ seen', existingLoop env count L ids hw cd seen = .ok (hw, cd, seen') ∧ ∀ p ∈ L, seen' p = count
  | [], seen, _, hc => ⟨seen, rfl, fun p hp => by have := (hc p hp).2; simpa [numHas] using this⟩
  | id :: r, seen, hi, hc => by
    obtain ⟨it, hit⟩ := hi id List.mem_cons_self
    have hn : ∀ p ∈ L, it.hasProfile env p = true → seen p < count := by
      intro p hp hh
      have := (hc p hp).2
      rw [numHas_cons, hasAt_some hit, hh] at this
      simp at this
      omega
    obtain ⟨s1, e1, e2⟩ := profLoop_stay (env := env) (count := count) (it := it) (cd := cd) L (seen := seen) hL
      (fun p hp => ⟨hn p hp, by rw [(hc p hp).1]⟩)
    obtain ⟨s2, f1, f2⟩ := existingLoop_stay (env := env) hL (hw := hw) (cd := cd) r (seen := s1)
      (fun j hj => hi j (List.mem_cons_of_mem _ hj)) (by
        intro p hp
        refine ⟨(hc p hp).1, ?_⟩
        have := (hc p hp).2
        rw [numHas_cons, hasAt_some hit] at this
        rw [e2 p]
        by_cases hh : it.hasProfile env p = true
        · rw [if_pos ⟨hp, hh⟩]; simp [hh] at this; omega
        · rw [if_neg (fun x => hh x.2)]; simp [hh] at this; omega)
    refine ⟨s2, ?_, f2⟩
    unfold existingLoop
    rw [hit]
    simp only [e1]
    rw [dset_self hit]
    exact f1

theorem itemsToAdd_zero {count : Nat} : ∀ (L : List Prof) {seen : Prof → Nat}, (∀ p ∈ L, seen p = count) →
    itemsToAdd count L seen = 0 := by
  intro L seen h
  unfold itemsToAdd
  induction L with
  | nil => rfl
  | cons p r ih =>
    rw [List.foldl_cons, if_neg (by rw [h p List.mem_cons_self]; omega)]
    exact ih (fun x hx => h x (List.mem_cons_of_mem _ hx))

theorem allProfilesIfEmpty_again (env : Env) (P : List Prof) :
    allProfilesIfEmpty env (allProfilesIfEmpty env P) = allProfilesIfEmpty env P := by
  unfold allProfilesIfEmpty
  by_cases h : P = []
  · rw [if_pos h, if_neg (by simp)]
  · rw [if_neg h, if_neg h]

/-- where every profile has the number of devices already, nothing is added or removed -/
theorem setItemCount_done {env : Env} {nicName : Nat → Str} {hw : Hw} {rt code : Str} {count : Nat} {P : List Prof}
    (wf : HwWF env hw) (hc : resourceCode rt = .ok code) (hnd : (allProfilesIfEmpty env P).Nodup)
    (h : ∀ p ∈ allProfilesIfEmpty env P, countOf env hw code p = count) :
    setItemCount env nicName hw rt count P = .ok hw := by
  obtain ⟨ids, hids⟩ := findAllItems_ok (env := env) (hw := hw) hc
  obtain ⟨n1, -, m1⟩ := typeIds_mem wf hc hids
  have hcd : ∃ cd, itemCounts env hw rt (allProfilesIfEmpty env P) = .ok cd := by
    unfold itemCounts; rw [hids]; exact ⟨_, rfl⟩
  obtain ⟨cd, hcd⟩ := hcd
  have hcnt : ∀ p ∈ allProfilesIfEmpty env P, cd p = count ∧ numHas env hw p ids = count := by
    intro p hp
    have e1 := itemCounts_countOf wf hc (by rw [allProfilesIfEmpty_again]; exact hnd) hcd
      (p := p) (by rw [allProfilesIfEmpty_again]; exact hp)
    have e2 := itemCounts_inv hcd hids (by rw [allProfilesIfEmpty_again]; exact hnd)
      (p := p) (by rw [allProfilesIfEmpty_again]; exact hp)
    rw [h p hp] at e1
    exact ⟨e1, by omega⟩
  obtain ⟨seen', e1, e2⟩ := existingLoop_stay (env := env) hnd (hw := hw) (cd := cd) (count := count) ids (seen := fun _ => 0)
    (fun id hi => by obtain ⟨it, h1, -⟩ := (m1 id).1 hi; exact ⟨it, h1⟩)
    (fun p hp => ⟨(hcnt p hp).1, by have := (hcnt p hp).2; omega⟩)
  unfold setItemCount
  simp only [hcd, hids, e1, bind, Except.bind]
  rw [itemsToAdd_zero _ e2]
  rfl

end Cot
