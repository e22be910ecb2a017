import Verif.Lemmas.Item
namespace Cot

/-! ### item level: validate -/

theorem validateProps_ok {ps : List (Str × Tab)}
    (h : ∀ n t, (n, t) ∈ ps → validateTab t ∅ = .ok (collapseTab t)) :
    validateProps ps = .ok (ps.map (fun nt => (nt.1, collapseTab nt.2))) := by
  induction ps with
  | nil => rfl
  | cons e r ih =>
    obtain ⟨n, t⟩ := e
    unfold validateProps
    rw [h n t (by simp), ih (fun n t hm => h n t (List.mem_cons_of_mem _ hm))]
    rfl

theorem validateProps_ok_inv {ps ps' : List (Str × Tab)} (h : validateProps ps = .ok ps') :
    ps' = ps.map (fun nt => (nt.1, collapseTab nt.2)) ∧
    ∀ n t, (n, t) ∈ ps → t.Pairwise (fun a b => collapse a.2 ∩ collapse b.2 = ∅) := by
  induction ps generalizing ps' with
  | nil => simp [validateProps] at h; subst h; simp
  | cons e r ih =>
    obtain ⟨n, t⟩ := e
    unfold validateProps at h
    revert h
    cases h1 : validateTab t ∅ with
    | error e => intro h; cases h
    | ok t' =>
      cases h2 : validateProps r with
      | error e => intro h; cases h
      | ok r' =>
        intro h; cases h
        obtain ⟨rfl, hp⟩ := validateTab_ok_inv h1
        obtain ⟨rfl, hr⟩ := ih h2
        refine ⟨rfl, ?_⟩
        intro n' t'' hm
        rcases List.mem_cons.1 hm with hm | hm
        · cases hm; exact hp
        · exact hr _ _ hm

theorem dget?_map_snd {ν μ : Type} (f : ν → μ) (d : List (Str × ν)) (x : Str) :
    dget? (d.map (fun e => (e.1, f e.2))) x = (dget? d x).map f := by
  induction d with
  | nil => rfl
  | cons e d ih =>
    simp only [List.map_cons, dget?]
    split
    · rfl
    · exact ih

theorem dkeys_map_snd {ν μ : Type} (f : ν → μ) (d : List (Str × ν)) :
    dkeys (d.map (fun e => (e.1, f e.2))) = dkeys d := by
  simp [dkeys, Function.comp_def]

theorem Item.tab_map (f : Tab → Tab) (hf : f [] = []) (ps : List (Str × Tab)) (ns : Str) (m : Bool)
    (n : Str) : (Item.mk (ps.map (fun e => (e.1, f e.2))) ns m).tab n = f ((Item.mk ps ns m).tab n) := by
  unfold Item.tab
  simp only [dget?_map_snd]
  cases dget? ps n <;> simp [hf]

theorem collapseTab_nil : collapseTab [] = [] := rfl

theorem ItemWF.tab {env : Env} {it : Item} (wf : ItemWF env it) (n : Str) : TabWF (it.tab n) := by
  unfold Item.tab
  cases h : dget? it.props n with
  | none => exact TabWF.nil
  | some t => exact wf.tabs n t (dget?_mem h)

theorem validateProps_id {ps : List (Str × Tab)} (h : ∀ n t, (n, t) ∈ ps → TabWF t) :
    validateProps ps = .ok ps := by
  rw [validateProps_ok (fun n t hm => validateTab_ok (h n t hm).keys (h n t hm).functional)]
  congr 1
  conv => rhs; rw [← List.map_id ps]
  apply List.map_congr_left
  rintro ⟨n, t⟩ hm
  simp [(h n t hm).collapse_id]

theorem ItemWF.validate {env : Env} {it : Item} (wf : ItemWF env it) : it.validate env = .ok it := by
  unfold Item.validate
  rw [if_neg (by have := wf.oneId; omega), if_neg (by have := wf.oneType; omega),
    validateProps_id wf.tabs]

theorem ItemWF.empty (env : Env) : ItemWF env emptyItem :=
  ⟨by simp [emptyItem, dkeys], by simp [emptyItem], by simp [emptyItem, Item.tab],
   by simp [emptyItem, Item.tab], by simp [emptyItem, Item.tab]⟩

/-- validating an item all of whose tables collapse to consistent ones -/
theorem validate_collapse {env : Env} {it it' : Item} (h : it.validate env = .ok it')
    (hn : (dkeys it.props).Nodup) (ht : ∀ n t, (n, t) ∈ it.props → TabWF (collapseTab t))
    (hty : ∀ n v S, (v, S) ∈ it.tab n → (v.isTup = true ↔ n = resourceSubType)) :
    ItemWF env it' ∧ (∀ n, it'.tab n = collapseTab (it.tab n)) ∧ it'.ns = it.ns ∧
      it'.modified = it.modified ∧ dkeys it'.props = dkeys it.props := by
  unfold Item.validate at h
  split at h
  · cases h
  · rename_i h1
    split at h
    · cases h
    · rename_i h2
      revert h
      cases hv : validateProps it.props with
      | error e => intro h; cases h
      | ok ps =>
        intro h; cases h
        obtain ⟨rfl, _⟩ := validateProps_ok_inv hv
        have htab : ∀ n, ({ it with props := it.props.map (fun nt => (nt.1, collapseTab nt.2)) } : Item).tab n
            = collapseTab (it.tab n) := fun n => Item.tab_map collapseTab rfl it.props _ _ n
        refine ⟨⟨?_, ?_, ?_, ?_, ?_⟩, htab, rfl, rfl, dkeys_map_snd _ _⟩
        · rw [dkeys_map_snd]; exact hn
        · intro n t hm
          obtain ⟨⟨a, b⟩, hab, heq⟩ := List.mem_map.1 hm
          cases heq; exact ht _ _ hab
        · rw [htab]; simp only [collapseTab, List.length_map]; omega
        · rw [htab]; simp only [collapseTab, List.length_map]; omega
        · intro n v S hm
          rw [htab] at hm
          obtain ⟨S0, h0, _⟩ := mem_collapseTab.1 hm
          exact hty n v S0 h0

theorem validate_ok_of {env : Env} {it : Item}
    (h1 : (it.tab (instanceId env.ver)).length ≤ 1) (h2 : (it.tab resourceType).length ≤ 1)
    (ht : ∀ n t, (n, t) ∈ it.props → validateTab t ∅ = .ok (collapseTab t)) :
    it.validate env = .ok { it with props := it.props.map (fun nt => (nt.1, collapseTab nt.2)) } := by
  unfold Item.validate
  rw [if_neg (by omega), if_neg (by omega), validateProps_ok ht]

theorem validateTab_ok_of_collapse {t : Tab} (wf : TabWF (collapseTab t)) :
    validateTab t ∅ = .ok (collapseTab t) := by
  rw [validateTab_eq, if_pos]
  refine ⟨by simp, ?_⟩
  have hk := wf.keys
  rw [dkeys_collapseTab] at hk
  have hp : t.Pairwise (fun a b => a.1 ≠ b.1) := by
    simpa [dkeys, List.Nodup, List.pairwise_map] using hk
  refine List.Pairwise.imp_of_mem ?_ hp
  intro a b ha hb hne
  rw [← Finset.disjoint_iff_inter_eq_empty, Finset.disjoint_left]
  intro p hpa hpb
  exact hne (wf.functional p a.1 b.1 ⟨_, mem_collapseTab.2 ⟨_, ha, rfl⟩, hpa⟩
    ⟨_, mem_collapseTab.2 ⟨_, hb, rfl⟩, hpb⟩)

/-! ### item level: set_property -/

theorem effProfiles_ne {env : Env} {it : Item} (wf : ItemWF env it) (name : Str) (P : PSet) :
    it.effProfiles name P ≠ ∅ := by
  unfold Item.effProfiles
  split
  · unfold Item.allProfiles
    cases h : dget? it.props name with
    | none => simp
    | some t =>
      cases t with
      | nil => simp
      | cons e t =>
        obtain ⟨v, S⟩ := e
        simp only [Option.getD_some]
        have hS := (wf.tabs name _ (dget?_mem h)).nonempty v S (by simp)
        intro hu
        apply hS
        have : tabUnion ((v, S) :: t) = S ∪ tabUnion t := rfl
        rw [this, Finset.union_eq_empty] at hu
        exact hu.1
  · assumption

theorem tab_dset_self {it : Item} (name : Str) (t : Tab) (ns : Str) (m : Bool) :
    (Item.mk (dset it.props name t) ns m).tab name = t := by
  simp [Item.tab, dget?_dset]

theorem tab_dset_ne {it : Item} {name n : Str} (t : Tab) (ns : Str) (m : Bool) (h : n ≠ name) :
    (Item.mk (dset it.props name t) ns m).tab n = it.tab n := by
  unfold Item.tab
  rw [dget?_dset, if_neg (by simpa using fun h' => h h'.symm)]

theorem tab_ddel {it : Item} (name n : Str) (ns : Str) (m : Bool) :
    (Item.mk (ddel it.props name) ns m).tab n = if n = name then [] else it.tab n := by
  unfold Item.tab
  rw [dget?_ddel]
  by_cases h : n = name
  · subst h; simp
  · simp [h, Ne.symm h]

theorem updNs_props (env : Env) (it : Item) (n : Str) (v : Val) : (it.updNs env n v).props = it.props := by
  unfold Item.updNs; split <;> rfl

theorem updNs_tab (env : Env) (it : Item) (n : Str) (v : Val) (m : Str) :
    (it.updNs env n v).tab m = it.tab m := by
  unfold Item.tab; rw [updNs_props]

theorem updNs_wf {env : Env} {it : Item} (wf : ItemWF env it) (n : Str) (v : Val) :
    ItemWF env (it.updNs env n v) :=
  ⟨by rw [updNs_props]; exact wf.names, by rw [updNs_props]; exact wf.tabs,
   by rw [updNs_tab]; exact wf.oneId, by rw [updNs_tab]; exact wf.oneType,
   by intro n v S; rw [updNs_tab]; exact wf.typed n v S⟩

theorem updNs_eff (env : Env) (it : Item) (n : Str) (v : Val) (m : Str) (P : PSet) :
    (it.updNs env n v).effProfiles m P = it.effProfiles m P := by
  unfold Item.effProfiles Item.allProfiles; rw [updNs_props]

theorem setTab_nil (v : Val) (P : PSet) : setTab v P [] = if v.truthy then [(v, P)] else [] := by
  unfold setTab updTab; simp [dkeys]

/-- what `storeProperty` leaves, up to the clean-up done by the following `validate` -/
theorem storeProperty_spec {env : Env} {it it' : Item} (wf : ItemWF env it) {name : Str} {v : Val}
    {P : PSet} {ow : Bool} (hP : P ≠ ∅) (h : it.storeProperty name v P ow = .ok it') :
    (dkeys it'.props).Nodup ∧
    (∀ n t, (n, t) ∈ it'.props → TabWF (collapseTab t)) ∧
    (∀ n, n ≠ name → it'.tab n = it.tab n) ∧
    collapseTab (it'.tab name) = collapseTab (setTab v P (it.tab name)) ∧
    it'.ns = it.ns ∧
    (it.modified = true → it'.modified = true) ∧
    (it'.modified = false → it' = it) ∧
    (ow = false → ∀ w S, (w, S) ∈ it.tab name → S ∩ P = ∅) := by
  unfold Item.storeProperty at h
  cases hg : dget? it.props name with
  | none =>
    rw [hg] at h
    have htab : it.tab name = [] := by simp [Item.tab, hg]
    simp only [Except.ok.injEq] at h
    have hmem0 : ∀ n t, (n, t) ∈ it.props → TabWF (collapseTab t) := fun n t hm => by
      rw [(wf.tabs n t hm).collapse_id]; exact wf.tabs n t hm
    unfold Item.setNew at h
    by_cases hv : v.truthy = true
    · rw [if_neg (by simp [hv])] at h
      subst h
      have hS : (if none ∈ P then {none} else P : PSet) ≠ ∅ := by split <;> simp_all
      have hc : collapse (if none ∈ P then {none} else P) = collapse P := by
        ext q; simp only [mem_collapse]; split
        · rename_i hn; simp only [Finset.mem_singleton]
          constructor
          · rintro ⟨rfl, _⟩; exact ⟨hn, fun _ => rfl⟩
          · rintro ⟨_, h⟩; exact ⟨h hn, fun _ => h hn⟩
        · rfl
      refine ⟨nodup_dset wf.names, ?_, ?_, ?_, rfl, fun _ => rfl, (fun h => by cases h), ?_⟩
      · intro n t hm
        rcases mem_dset hm with hh | hh
        swap
        · exact hmem0 n t hh
        · cases hh
          apply TabWF.of_collapse
          · simp [dkeys]
          · intro w S hm; simp at hm; rw [hm.1]; exact hv
          · intro w S hm; simp at hm; rw [hm.2]; exact hS
          · intro p a b ha hb
            rw [explicit_singleton] at ha hb; rw [ha.1, hb.1]
      · intro n hn; exact tab_dset_ne _ _ _ hn
      · rw [tab_dset_self, htab, setTab_nil, if_pos hv]
        simp only [collapseTab, List.map_cons, List.map_nil, hc]
      · rw [htab]; simp
    · rw [if_pos (by simp [hv])] at h
      subst h
      refine ⟨wf.names, hmem0, fun _ _ => rfl, ?_, rfl, fun h => h, fun _ => rfl, ?_⟩
      · rw [htab, setTab_nil, if_neg hv]
      · rw [htab]; simp
  | some t =>
    rw [hg] at h
    have htab : it.tab name = t := by simp [Item.tab, hg]
    have wft : TabWF t := by rw [← htab]; exact wf.tab name
    have hmem0 : ∀ n t, (n, t) ∈ it.props → TabWF (collapseTab t) := fun n t hm => by
      rw [(wf.tabs n t hm).collapse_id]; exact wf.tabs n t hm
    simp only [setExisting] at h
    cases hl : setExistingLoop v P ow t with
    | error e => rw [hl] at h; cases h
    | ok x =>
      obtain ⟨r, ch⟩ := x
      obtain ⟨rfl, hch, how⟩ := setExistingLoop_inv v P ow t wft.nonempty hl
      rw [hl] at h
      simp only at h
      by_cases hc : v.truthy ∧ v ∉ dkeys (updTab v P t)
      · rw [if_pos hc] at h
        simp only [Except.ok.injEq] at h
        subst h
        have hs : setTab v P t = updTab v P t ++ [(v, P)] := by unfold setTab; rw [if_pos hc]
        refine ⟨nodup_dset wf.names, ?_, fun n hn => tab_dset_ne _ _ _ hn, ?_, rfl, ?_, ?_, ?_⟩
        · intro n t' hm
          rcases mem_dset hm with hh | hh
          swap
          · exact hmem0 _ _ hh
          · cases hh; rw [← hs]; exact wft.setTab hP
        · rw [tab_dset_self, htab, hs]
        · intro _; simp
        · intro h; simp at h
        · rw [htab]; exact how
      · rw [if_neg hc] at h
        have hs : setTab v P t = updTab v P t := by unfold setTab; rw [if_neg hc]
        by_cases he : updTab v P t = []
        · rw [if_pos he] at h
          simp only [Except.ok.injEq] at h
          subst h
          refine ⟨nodup_ddel wf.names, ?_, ?_, ?_, rfl, ?_, ?_, ?_⟩
          · intro n t' hm; exact hmem0 n t' (mem_ddel hm)
          · intro n hn; rw [tab_ddel, if_neg hn]
          · rw [tab_ddel, if_pos rfl, htab, hs, he]
          · intro _; simp
          · intro h; simp at h
          · rw [htab]; exact how
        · rw [if_neg he] at h
          simp only [Except.ok.injEq] at h
          subst h
          refine ⟨nodup_dset wf.names, ?_, fun n hn => tab_dset_ne _ _ _ hn, ?_, rfl, ?_, ?_, ?_⟩
          · intro n t' hm
            rcases mem_dset hm with hh | hh
            swap
            · exact hmem0 _ _ hh
            · cases hh; rw [← hs]; exact wft.setTab hP
          · rw [tab_dset_self, htab, hs]
          · intro h; simp [h]
          · intro h
            simp only [Bool.or_eq_false_iff] at h
            have hid := hch h.2
            rw [hid, dset_self hg, h.1, h.2]
            cases it
            simp_all
          · rw [htab]; exact how

theorem mem_setTab {v : Val} {P : PSet} {t : Tab} {w : Val} {S : PSet} (h : (w, S) ∈ setTab v P t) :
    w = v ∨ ∃ S0, (w, S0) ∈ t := by
  have key : (w, S) ∈ updTab v P t → w = v ∨ ∃ S0, (w, S0) ∈ t := by
    intro h
    obtain ⟨S0, h0, _⟩ := mem_updTab.1 h
    exact Or.inr ⟨S0, h0⟩
  unfold setTab at h; split at h
  · rcases List.mem_append.1 h with h | h
    · exact key h
    · simp at h; exact Or.inl h.1
  · exact key h

theorem normValue_isTup (env : Env) (name : Str) (v : InVal) :
    (normValue env name v).isTup = true ↔ name = resourceSubType := by
  unfold normValue
  split
  · rename_i h; subst h
    split <;> simp [Val.isTup]
  · rename_i h
    split <;> simp [Val.isTup, h]

theorem elementName_ne_rst (v : Ver) : elementName v ≠ resourceSubType := by
  cases v <;> decide

theorem itemDescription_ne_rst : itemDescription ≠ resourceSubType := by decide

theorem addWildcards_plain {env : Env} {it : Item} {name : Str} (h : Plain env name) (v : Val)
    (P : PSet) : it.addWildcards env name v P = .ok v := by
  unfold Item.addWildcards
  rw [if_neg (by rintro (h' | h') <;> simp_all [Plain])]

theorem bind_ok_inv {α β : Type} {x : Except Err α} {f : α → Except Err β} {b : β}
    (h : (x >>= f) = .ok b) : ∃ a, x = .ok a ∧ f a = .ok b := by
  cases x with
  | error e => cases h
  | ok a => exact ⟨a, rfl, h⟩

theorem addWildcards_isTup {env : Env} {it : Item} {name : Str} {v w : Val} {P : PSet}
    (hv : v.isTup = true ↔ name = resourceSubType)
    (h : it.addWildcards env name v P = .ok w) : w.isTup = true ↔ name = resourceSubType := by
  by_cases hp : Plain env name
  · rw [addWildcards_plain hp] at h; cases h; exact hv
  · have hn : name = elementName env.ver ∨ name = itemDescription := by
      unfold Plain at hp; tauto
    have hne : name ≠ resourceSubType := by
      rcases hn with h | h
      · rw [h]; exact elementName_ne_rst _
      · rw [h]; exact itemDescription_ne_rst
    suffices hw : ∃ s, w = .str s by obtain ⟨s, rfl⟩ := hw; simp [Val.isTup, hne]
    unfold Item.addWildcards at h
    rw [if_pos hn] at h
    split at h
    · obtain ⟨_, _, h⟩ := bind_ok_inv h
      obtain ⟨_, _, h⟩ := bind_ok_inv h
      obtain ⟨_, _, h⟩ := bind_ok_inv h
      obtain ⟨_, _, h⟩ := bind_ok_inv h
      obtain ⟨_, _, h⟩ := bind_ok_inv h
      obtain ⟨_, _, h⟩ := bind_ok_inv h
      obtain ⟨_, _, h⟩ := bind_ok_inv h
      obtain ⟨s, _, h⟩ := bind_ok_inv h
      cases h; exact ⟨s, rfl⟩
    · obtain ⟨_, _, h⟩ := bind_ok_inv h
      obtain ⟨_, _, h⟩ := bind_ok_inv h
      obtain ⟨_, _, h⟩ := bind_ok_inv h
      obtain ⟨_, _, h⟩ := bind_ok_inv h
      obtain ⟨_, _, h⟩ := bind_ok_inv h
      obtain ⟨s, _, h⟩ := bind_ok_inv h
      cases h; exact ⟨s, rfl⟩

theorem mem_of_collapse_eq {a b : Tab} (h : collapseTab a = collapseTab b) {v : Val} {S : PSet}
    (hm : (v, S) ∈ a) : ∃ S', (v, S') ∈ b := by
  have : (v, collapse S) ∈ collapseTab b := by rw [← h]; exact mem_collapseTab.2 ⟨S, hm, rfl⟩
  obtain ⟨S0, h0, _⟩ := mem_collapseTab.1 this
  exact ⟨S0, h0⟩

/-- What a successful `set_property` does to a consistent item. -/
theorem setProperty_spec {env : Env} {it it' : Item} (wf : ItemWF env it) {name : Str} {val : InVal}
    {P : PSet} {ow : Bool} (h : it.setProperty env name val P ow = .ok it') :
    ∃ v, (it.updNs env name (normValue env name val)).addWildcards env name
        (normValue env name val) (it.effProfiles name P) = .ok v ∧
      ItemWF env it' ∧
      (∀ n, n ≠ name → it'.tab n = it.tab n) ∧
      it'.tab name = collapseTab (setTab v (it.effProfiles name P) (it.tab name)) ∧
      (ow = false → ∀ w S, (w, S) ∈ it.tab name → S ∩ it.effProfiles name P = ∅) ∧
      it'.ns = (it.updNs env name (normValue env name val)).ns ∧
      (it.modified = true → it'.modified = true) := by
  unfold Item.setProperty at h
  simp only at h
  rw [updNs_eff] at h
  obtain ⟨v, hv, h⟩ := bind_ok_inv h
  obtain ⟨it1, hs, h⟩ := bind_ok_inv h
  have wf0 := updNs_wf wf name (normValue env name val)
  have hP := effProfiles_ne wf name P
  obtain ⟨k1, k2, k3, k4, k5, k6, k7, k8⟩ := storeProperty_spec wf0 hP hs
  simp only [updNs_tab] at k3 k4 k8
  refine ⟨v, hv, ?_⟩
  have hvt := addWildcards_isTup (normValue_isTup env name val) hv
  have hty : ∀ n w S, (w, S) ∈ it1.tab n → (w.isTup = true ↔ n = resourceSubType) := by
    intro n w S hm
    by_cases hn : n = name
    · subst hn
      obtain ⟨S', hm'⟩ := mem_of_collapse_eq k4 hm
      rcases mem_setTab hm' with rfl | ⟨S0, h0⟩
      · exact hvt
      · exact wf.typed _ _ _ h0
    · rw [k3 n hn] at hm; exact wf.typed _ _ _ hm
  have hupm : (it.updNs env name (normValue env name val)).modified = it.modified := by
    unfold Item.updNs; split <;> rfl
  cases hm : it1.modified with
  | true =>
    rw [hm, if_pos rfl] at h
    obtain ⟨w1, w2, w3, w4, _⟩ := validate_collapse h k1 k2 hty
    refine ⟨w1, ?_, ?_, k8, by rw [w3, k5], fun _ => by rw [w4, hm]⟩
    · intro n hn; rw [w2, k3 n hn, (wf.tab n).collapse_id]
    · rw [w2, k4]
  | false =>
    rw [hm] at h
    simp only [Bool.false_eq_true, if_false, Except.ok.injEq] at h
    have heq := k7 hm
    subst h
    subst heq
    refine ⟨wf0, ?_, ?_, k8, rfl, ?_⟩
    · intro n _; rw [updNs_tab]
    · rw [← k4]; rw [updNs_tab, (wf.tab name).collapse_id]
    · rw [hupm]; exact id

theorem storeProperty_ok {env : Env} {it : Item} (wf : ItemWF env it) {name : Str} {v : Val}
    {P : PSet} : ∃ it', it.storeProperty name v P true = .ok it' := by
  unfold Item.storeProperty
  cases hg : dget? it.props name with
  | none => exact ⟨_, rfl⟩
  | some t =>
    have wft : TabWF t := wf.tabs _ _ (dget?_mem hg)
    obtain ⟨ch, h1, _⟩ := setExistingLoop_overwrite v P t wft.nonempty
    simp only [setExisting, h1]
    split
    · rename_i h; split at h <;> [cases h; split at h <;> cases h]
    · exact ⟨_, rfl⟩
    · exact ⟨_, rfl⟩

/-- `set_property` with overwrite always succeeds on an ordinary property. -/
theorem setProperty_ok {env : Env} {it : Item} (wf : ItemWF env it) {name : Str} (val : InVal)
    (P : PSet) (hpl : Plain env name) (hid : name ≠ instanceId env.ver) (hrt : name ≠ resourceType) :
    ∃ it', it.setProperty env name val P true = .ok it' := by
  have wf0 := updNs_wf wf name (normValue env name val)
  obtain ⟨it1, h1⟩ := storeProperty_ok wf0 (name := name) (v := normValue env name val)
    (P := it.effProfiles name P)
  have hP := effProfiles_ne wf name P
  obtain ⟨k1, k2, k3, k4, k5, k6, k7, k8⟩ := storeProperty_spec wf0 hP h1
  unfold Item.setProperty
  simp only [updNs_eff]
  rw [addWildcards_plain hpl]
  simp only [bind, Except.bind, h1]
  split
  · refine ⟨_, validate_ok_of ?_ ?_ ?_⟩
    · rw [k3 _ hid.symm, updNs_tab]; exact wf.oneId
    · rw [k3 _ hrt.symm, updNs_tab]; exact wf.oneType
    · intro n t hm
      exact validateTab_ok_of_collapse (k2 n t hm)
  · exact ⟨_, rfl⟩

/-! ### remove_profile -/

theorem tabUnion_append (a b : Tab) : tabUnion (a ++ b) = tabUnion a ∪ tabUnion b := by
  induction a with
  | nil => simp [tabUnion]
  | cons e a ih =>
    have : tabUnion (e :: a ++ b) = e.2 ∪ tabUnion (a ++ b) := rfl
    rw [this, ih, ← Finset.union_assoc]; rfl

theorem tabUnion_cons (e : Val × PSet) (a : Tab) : tabUnion (e :: a) = e.2 ∪ tabUnion a := rfl

theorem removeLoop_keys (p : Prof) (cfg : PSet) (split : Bool) : ∀ (rest done : Tab),
    (dkeys (removeLoop p cfg split done rest)).Sublist (dkeys (done ++ rest))
  | [], done => by simp [removeLoop]
  | (v, S) :: rest, done => by
    unfold removeLoop
    simp only
    split
    all_goals split
    all_goals
      first
      | (refine (removeLoop_keys p cfg split rest done).trans ?_
         simp only [dkeys, List.map_append, List.map_cons]
         exact List.Sublist.append_left (List.sublist_cons_self _ _) _)
      | (refine (removeLoop_keys p cfg split rest _).trans ?_
         simp [dkeys])

theorem removeLoop_A (p : Prof) (cfg : PSet) (split : Bool) : ∀ (rest done : Tab),
    (∀ v S, (v, S) ∈ rest → none ∉ S) → ∀ w T,
    ((w, T) ∈ removeLoop p cfg split done rest ↔
      (w, T) ∈ done ∨ ∃ S, (w, S) ∈ rest ∧ T = S \ {p} ∧ T ≠ ∅)
  | [], done, _, w, T => by simp [removeLoop]
  | (v, S) :: rest, done, h, w, T => by
    have hn : none ∉ S := h v S (by simp)
    have h' : ∀ v S, (v, S) ∈ rest → none ∉ S := fun v S hm => h v S (List.mem_cons_of_mem _ hm)
    unfold removeLoop
    simp only
    have : ¬ (none ∈ S \ {p} ∧ split = true) := fun h => hn (Finset.mem_sdiff.1 h.1).1
    rw [if_neg this]
    by_cases he : S \ {p} = ∅
    · rw [if_pos he, removeLoop_A p cfg split rest done h']
      constructor
      · rintro (h | ⟨S0, h1, h2⟩)
        · exact Or.inl h
        · exact Or.inr ⟨S0, List.mem_cons_of_mem _ h1, h2⟩
      · rintro (h | ⟨S0, h1, h2, h3⟩)
        · exact Or.inl h
        · rcases List.mem_cons.1 h1 with h1 | h1
          · cases h1; exact absurd he (h2 ▸ h3)
          · exact Or.inr ⟨S0, h1, h2, h3⟩
    · rw [if_neg he, removeLoop_A p cfg split rest _ h']
      constructor
      · rintro (h | ⟨S0, h1, h2⟩)
        · rcases List.mem_append.1 h with h | h
          · exact Or.inl h
          · simp at h; obtain ⟨rfl, rfl⟩ := h
            exact Or.inr ⟨S, by simp, rfl, he⟩
        · exact Or.inr ⟨S0, List.mem_cons_of_mem _ h1, h2⟩
      · rintro (h | ⟨S0, h1, h2, h3⟩)
        · exact Or.inl (List.mem_append_left _ h)
        · rcases List.mem_cons.1 h1 with h1 | h1
          · cases h1; subst h2; exact Or.inl (List.mem_append_right _ (by simp))
          · exact Or.inr ⟨S0, h1, h2, h3⟩

/-- the profile set `remove_profile` leaves for a value stored for `S`, when `V` are the profiles
with an explicit value -/
def remSet (p : Prof) (cfg : PSet) (split : Bool) (V S : PSet) : PSet :=
  if none ∈ S \ {p} ∧ split = true then (((S \ {p} ∪ cfg) \ {none}) \ {p}) \ V else S \ {p}

theorem removeLoop_B (p : Prof) (cfg : PSet) (split : Bool) (V : PSet) : ∀ (rest done : Tab),
    rest.Pairwise (fun a b => none ∈ a.2 → none ∉ b.2) →
    (∀ q, q ≠ p → (q ∈ V ↔ q ∈ tabUnion (done ++ rest.filter (fun e => none ∉ e.2)))) → ∀ w T,
    ((w, T) ∈ removeLoop p cfg split done rest ↔
      (w, T) ∈ done ∨ ∃ S, (w, S) ∈ rest ∧ T = remSet p cfg split V S ∧ T ≠ ∅)
  | [], done, _, _, w, T => by simp [removeLoop]
  | (v, S) :: rest, done, hp, hV, w, T => by
    rw [List.pairwise_cons] at hp
    by_cases hn : none ∈ S
    · -- the default entry: nothing after it is default
      have h' : ∀ v S, (v, S) ∈ rest → none ∉ S := fun v S hm => hp.1 (v, S) hm hn
      have hfil : rest.filter (fun e => none ∉ e.2) = rest := by
        rw [List.filter_eq_self]; rintro ⟨a, b⟩ hm; simpa using h' a b hm
      have hS : (if none ∈ S \ {p} ∧ split = true then
          (((S \ {p} ∪ cfg) \ {none}) \ {p}) \ tabUnion (done ++ rest) else S \ {p}) =
          remSet p cfg split V S := by
        unfold remSet
        split
        · ext q
          have := hV q
          simp only [List.filter_cons, hn, not_true_eq_false, decide_false, hfil,
            Bool.false_eq_true, if_false] at this
          simp only [Finset.mem_sdiff, Finset.mem_singleton]
          by_cases hq : q = p
          · simp [hq]
          · rw [this hq]
        · rfl
      unfold removeLoop
      simp only
      rw [hS]
      have hrest : ∀ w T, (∃ S, (w, S) ∈ rest ∧ T = remSet p cfg split V S ∧ T ≠ ∅) ↔
          (∃ S, (w, S) ∈ rest ∧ T = S \ {p} ∧ T ≠ ∅) := by
        intro w T
        constructor
        all_goals
          rintro ⟨S0, h1, h2, h3⟩
          have : remSet p cfg split V S0 = S0 \ {p} := by
            unfold remSet; rw [if_neg]; intro hh
            exact h' _ _ h1 (Finset.mem_sdiff.1 hh.1).1
        · exact ⟨S0, h1, by rw [h2, this], h3⟩
        · exact ⟨S0, h1, by rw [h2, this], h3⟩
      by_cases he : remSet p cfg split V S = ∅
      · rw [if_pos he, removeLoop_A p cfg split rest done h', ← hrest]
        constructor
        · rintro (h | ⟨S0, h1, h2⟩)
          · exact Or.inl h
          · exact Or.inr ⟨S0, List.mem_cons_of_mem _ h1, h2⟩
        · rintro (h | ⟨S0, h1, h2, h3⟩)
          · exact Or.inl h
          · rcases List.mem_cons.1 h1 with h1 | h1
            · cases h1; exact absurd he (h2 ▸ h3)
            · exact Or.inr ⟨S0, h1, h2, h3⟩
      · rw [if_neg he, removeLoop_A p cfg split rest _ h', ← hrest]
        constructor
        · rintro (h | ⟨S0, h1, h2⟩)
          · rcases List.mem_append.1 h with h | h
            · exact Or.inl h
            · simp at h; obtain ⟨rfl, rfl⟩ := h
              exact Or.inr ⟨S, by simp, rfl, he⟩
          · exact Or.inr ⟨S0, List.mem_cons_of_mem _ h1, h2⟩
        · rintro (h | ⟨S0, h1, h2, h3⟩)
          · exact Or.inl (List.mem_append_left _ h)
          · rcases List.mem_cons.1 h1 with h1 | h1
            · cases h1; subst h2; exact Or.inl (List.mem_append_right _ (by simp))
            · exact Or.inr ⟨S0, h1, h2, h3⟩
    · have hS : remSet p cfg split V S = S \ {p} := by
        unfold remSet; rw [if_neg]; intro hh; exact hn (Finset.mem_sdiff.1 hh.1).1
      have hV' : ∀ d, (∀ q, q ≠ p → (q ∈ tabUnion d ↔ q ∈ tabUnion done ∨ q ∈ S)) →
          ∀ q, q ≠ p → (q ∈ V ↔ q ∈ tabUnion (d ++ rest.filter (fun e => none ∉ e.2))) := by
        intro d hd q hq
        rw [hV q hq]
        simp only [List.filter_cons, hn, not_false_eq_true, decide_true, if_true, tabUnion_append,
          tabUnion_cons, Finset.mem_union, hd q hq]
        tauto
      unfold removeLoop
      simp only
      have hno : ¬ (none ∈ S \ {p} ∧ split = true) := fun h => hn (Finset.mem_sdiff.1 h.1).1
      rw [if_neg hno]
      by_cases he : S \ {p} = ∅
      · rw [if_pos he, removeLoop_B p cfg split V rest done hp.2 (hV' done ?_)]
        · constructor
          · rintro (h | ⟨S0, h1, h2⟩)
            · exact Or.inl h
            · exact Or.inr ⟨S0, List.mem_cons_of_mem _ h1, h2⟩
          · rintro (h | ⟨S0, h1, h2, h3⟩)
            · exact Or.inl h
            · rcases List.mem_cons.1 h1 with h1 | h1
              · cases h1; rw [hS] at h2; exact absurd he (h2 ▸ h3)
              · exact Or.inr ⟨S0, h1, h2, h3⟩
        · intro q hq
          have : q ∉ S := by
            intro hqS
            have : q ∈ S \ {p} := by simp [hqS, hq]
            rw [he] at this; simp at this
          tauto
      · rw [if_neg he, removeLoop_B p cfg split V rest _ hp.2 (hV' _ ?_)]
        · constructor
          · rintro (h | ⟨S0, h1, h2⟩)
            · rcases List.mem_append.1 h with h | h
              · exact Or.inl h
              · simp at h; obtain ⟨rfl, rfl⟩ := h
                exact Or.inr ⟨S, by simp, hS.symm, he⟩
            · exact Or.inr ⟨S0, List.mem_cons_of_mem _ h1, h2⟩
          · rintro (h | ⟨S0, h1, h2, h3⟩)
            · exact Or.inl (List.mem_append_left _ h)
            · rcases List.mem_cons.1 h1 with h1 | h1
              · cases h1; rw [hS] at h2; subst h2; exact Or.inl (List.mem_append_right _ (by simp))
              · exact Or.inr ⟨S0, h1, h2, h3⟩
        · intro q hq
          rw [tabUnion_append, tabUnion_cons]
          simp [tabUnion, hq]

theorem TabWF.one_default {t : Tab} (wf : TabWF t) :
    t.Pairwise (fun a b => none ∈ a.2 → none ∉ b.2) := by
  have hp : t.Pairwise (fun a b => a.1 ≠ b.1) := by
    simpa [dkeys, List.Nodup, List.pairwise_map] using wf.keys
  refine List.Pairwise.imp_of_mem ?_ hp
  intro a b ha hb hne h1 h2
  exact hne (wf.functional none _ _ ⟨_, ha, h1⟩ ⟨_, hb, h2⟩)

theorem mem_removeLoop {p : Prof} {cfg : PSet} {split : Bool} {t : Tab} (wf : TabWF t) (w : Val)
    (T : PSet) : (w, T) ∈ removeLoop p cfg split [] t ↔
      ∃ S, (w, S) ∈ t ∧
        T = remSet p cfg split (tabUnion (t.filter (fun e => none ∉ e.2))) S ∧ T ≠ ∅ := by
  rw [removeLoop_B p cfg split (tabUnion (t.filter (fun e => none ∉ e.2))) t [] wf.one_default
    (by intro q _; simp)]
  simp

/-- Explicit entries after the loop of `remove_profile`. -/
theorem explicit_removeLoop {p : Prof} {cfg : PSet} {split : Bool} {t : Tab} (wf : TabWF t)
    (q : Prof) (w : Val) :
    Explicit (removeLoop p cfg split [] t) q w ↔
      q ≠ p ∧ ((Explicit t q w ∧ (q = none → split = false)) ∨
        (split = true ∧ p ≠ none ∧ q ≠ none ∧ q ∈ cfg ∧ Explicit t none w ∧
          ∀ u, ¬ Explicit t q u)) := by
  have hV : ∀ q, q ≠ none → (q ∈ tabUnion (t.filter (fun e => none ∉ e.2)) ↔ ∃ u, Explicit t q u) := by
    intro q hq
    rw [mem_tabUnion]
    constructor
    · rintro ⟨u, S, hm, hs⟩; exact ⟨u, S, (List.mem_filter.1 hm).1, hs⟩
    · rintro ⟨u, S, hm, hs⟩
      refine ⟨u, S, List.mem_filter.2 ⟨hm, ?_⟩, hs⟩
      simp only [decide_eq_true_eq]
      intro hn; rw [wf.dflt _ _ hm hn] at hs; exact hq (by simpa using hs)
  constructor
  · rintro ⟨T, hm, hq⟩
    rw [mem_removeLoop wf] at hm
    obtain ⟨S, hS, rfl, _⟩ := hm
    unfold remSet at hq
    split at hq
    · rename_i hc
      simp only [Finset.mem_sdiff, Finset.mem_singleton, Finset.mem_union] at hq hc
      obtain ⟨⟨⟨h1, h2⟩, h3⟩, h4⟩ := hq
      have hSn := wf.dflt _ _ hS hc.1.1
      refine ⟨h3, Or.inr ⟨hc.2, fun h => hc.1.2 h.symm, h2, ?_, ⟨S, hS, hc.1.1⟩, ?_⟩⟩
      · rcases h1 with h1 | h1
        · rw [hSn] at h1; exact absurd (by simpa using h1.1) h2
        · exact h1
      · intro u hu; exact h4 ((hV q h2).2 ⟨u, hu⟩)
    · rename_i hc
      simp only [Finset.mem_sdiff, Finset.mem_singleton] at hq hc
      refine ⟨hq.2, Or.inl ⟨⟨S, hS, hq.1⟩, ?_⟩⟩
      rintro rfl
      by_contra hs
      exact hc ⟨⟨hq.1, hq.2⟩, by simpa using hs⟩
  · rintro ⟨hqp, ⟨⟨S, hS, hq⟩, hn⟩ | ⟨hs, hp, hqn, hcfg, ⟨S, hS, hSn⟩, hnex⟩⟩
    · have hmem : q ∈ remSet p cfg split (tabUnion (t.filter (fun e => none ∉ e.2))) S := by
        unfold remSet
        rw [if_neg]
        · simp [hq, hqp]
        · rintro ⟨h1, h2⟩
          have hSn := (Finset.mem_sdiff.1 h1).1
          rw [wf.dflt _ _ hS hSn] at hq
          have := hn (by simpa using hq)
          rw [this] at h2; cases h2
      exact ⟨_, (mem_removeLoop wf _ _).2 ⟨S, hS, rfl, Finset.ne_empty_of_mem hmem⟩, hmem⟩
    · have hmem : q ∈ remSet p cfg split (tabUnion (t.filter (fun e => none ∉ e.2))) S := by
        unfold remSet
        rw [if_pos ⟨by simp [hSn, Ne.symm hp], hs⟩]
        simp only [Finset.mem_sdiff, Finset.mem_singleton, Finset.mem_union]
        exact ⟨⟨⟨Or.inr hcfg, hqn⟩, hqp⟩, fun h => ((hV q hqn).1 h).elim (fun u hu => hnex u hu)⟩
      exact ⟨_, (mem_removeLoop wf _ _).2 ⟨S, hS, rfl, Finset.ne_empty_of_mem hmem⟩, hmem⟩

theorem TabWF.removeLoop {p : Prof} {cfg : PSet} {split : Bool} {t : Tab} (wf : TabWF t) :
    TabWF (removeLoop p cfg split [] t) where
  keys := by
    have := removeLoop_keys p cfg split t []
    simp only [List.nil_append] at this
    exact wf.keys.sublist this
  truthy := by
    intro v S h; obtain ⟨S0, h0, _⟩ := (mem_removeLoop wf _ _).1 h; exact wf.truthy _ _ h0
  nonempty := by
    intro v S h; obtain ⟨S0, _, _, h0⟩ := (mem_removeLoop wf _ _).1 h; exact h0
  functional := by
    intro q v w h1 h2
    rw [explicit_removeLoop wf] at h1 h2
    obtain ⟨_, ⟨a, _⟩ | ⟨_, _, _, _, a, b⟩⟩ := h1 <;> obtain ⟨_, ⟨a', _⟩ | ⟨_, _, _, _, a', b'⟩⟩ := h2
    · exact wf.functional _ _ _ a a'
    · exact absurd a (b' _)
    · exact absurd a' (b _)
    · exact wf.functional _ _ _ a a'
  dflt := by
    intro v S h hn
    obtain ⟨S0, h0, rfl, _⟩ := (mem_removeLoop wf _ _).1 h
    unfold remSet at hn ⊢
    split at hn
    · simp at hn
    · rename_i hc
      rw [if_neg hc]
      have := (Finset.mem_sdiff.1 hn)
      have h1 := wf.dflt _ _ h0 this.1
      rw [h1]
      ext q; simp only [Finset.mem_sdiff, Finset.mem_singleton]
      constructor
      · exact fun h => h.1
      · rintro rfl; exact ⟨rfl, by simpa using this.2⟩

theorem ItemWF.removed {env : Env} {it : Item} (wf : ItemWF env it) (p : Prof) (split : Bool) (m : Bool) :
    ItemWF env ⟨it.props.map (fun nt => (nt.1, removeLoop p env.cfgSet split [] nt.2)), it.ns, m⟩ := by
  have htab : ∀ n, (Item.mk (it.props.map (fun nt => (nt.1, Cot.removeLoop p env.cfgSet split [] nt.2)))
      it.ns m).tab n = Cot.removeLoop p env.cfgSet split [] (it.tab n) :=
    fun n => Item.tab_map (Cot.removeLoop p env.cfgSet split []) rfl it.props it.ns m n
  have hlen : ∀ n, (Cot.removeLoop p env.cfgSet split [] (it.tab n)).length ≤ (it.tab n).length := by
    intro n
    have := (removeLoop_keys p env.cfgSet split (it.tab n) []).length_le
    simpa [dkeys] using this
  refine ⟨?_, ?_, ?_, ?_, ?_⟩
  · rw [dkeys_map_snd]; exact wf.names
  · intro n t hm
    obtain ⟨⟨a, b⟩, hab, heq⟩ := List.mem_map.1 hm
    cases heq; exact (wf.tabs _ _ hab).removeLoop
  · rw [htab]; exact (hlen _).trans wf.oneId
  · rw [htab]; exact (hlen _).trans wf.oneType
  · intro n v S hm
    rw [htab] at hm
    obtain ⟨S0, h0, _⟩ := (mem_removeLoop (wf.tab n) _ _).1 hm
    exact wf.typed _ _ _ h0

/-- `remove_profile` always succeeds on a consistent item. -/
theorem removeProfile_spec {env : Env} {it : Item} (wf : ItemWF env it) (p : Prof) (split : Bool) :
    ∃ it', it.removeProfile env p split = .ok it' ∧ ItemWF env it' ∧
      (it.hasProfile env p = false → it' = it) ∧
      (it.hasProfile env p = true → ∀ n, it'.tab n = removeLoop p env.cfgSet split [] (it.tab n)) := by
  unfold Item.removeProfile
  by_cases h : it.hasProfile env p = true
  · rw [if_pos h]
    have wf' := wf.removed p split true
    refine ⟨_, wf'.validate, wf', ?_, ?_⟩
    · intro h'; rw [h] at h'; cases h'
    · intro _ n
      exact Item.tab_map (removeLoop p env.cfgSet split []) rfl it.props it.ns true n
  · rw [if_neg h]
    exact ⟨it, rfl, wf, fun _ => rfl, fun h' => absurd h' h⟩

end Cot
