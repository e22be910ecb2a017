import Verif.Lemmas.EditTrace
import Verif.Lemmas.EditProfiles
/-
What the steps of edit-hardware achieve, and that later steps keep it.
-/
namespace Cot

/-! ### devices of a type with one of their properties, kept -/

/-- the devices of a type are the same, as far as their existence, their profiles and one property go -/
structure KeepsTab (env : Env) (code name : Str) (a b : Hw) : Prop where
  fwd : ∀ id it, dget? a id = some it → OfType it code → ∃ it', dget? b id = some it' ∧ OfType it' code ∧
    it'.tab (instanceId env.ver) = it.tab (instanceId env.ver) ∧ it'.tab name = it.tab name
  bwd : ∀ id it', dget? b id = some it' → OfType it' code → ∃ it, dget? a id = some it ∧ OfType it code ∧
    it'.tab (instanceId env.ver) = it.tab (instanceId env.ver) ∧ it'.tab name = it.tab name

theorem KeepsTab.refl (env : Env) (code name : Str) (a : Hw) : KeepsTab env code name a a :=
  ⟨fun _ it h ht => ⟨it, h, ht, rfl, rfl⟩, fun _ it h ht => ⟨it, h, ht, rfl, rfl⟩⟩

theorem KeepsTab.trans {env : Env} {code name : Str} {a b c : Hw} (h1 : KeepsTab env code name a b)
    (h2 : KeepsTab env code name b c) : KeepsTab env code name a c := by
  refine ⟨?_, ?_⟩
  · intro id it h ht
    obtain ⟨x, g1, g2, g3, g4⟩ := h1.fwd id it h ht
    obtain ⟨y, k1, k2, k3, k4⟩ := h2.fwd id x g1 g2
    exact ⟨y, k1, k2, k3.trans g3, k4.trans g4⟩
  · intro id it h ht
    obtain ⟨x, g1, g2, g3, g4⟩ := h2.bwd id it h ht
    obtain ⟨y, k1, k2, k3, k4⟩ := h1.bwd id x g1 g2
    exact ⟨y, k1, k2, g3.trans k3, g4.trans k4⟩

theorem ofType_unique {it : Item} {c d : Str} (h1 : OfType it c) (h2 : OfType it d) : c = d := by
  obtain ⟨S, h1⟩ := h1
  obtain ⟨T, h2⟩ := h2
  rw [h1] at h2
  simp only [List.cons.injEq, Prod.mk.injEq, Val.str.injEq, and_true] at h2
  exact h2.1

theorem SameExcept.keeps {env : Env} {codes : List Str} {a b : Hw} (h : SameExcept env.ver codes a b) {code : Str}
    (hc : code ∉ codes) (name : Str) : KeepsTab env code name a b := by
  have hn : ∀ it : Item, OfType it code → ∀ c ∈ codes, ¬ OfType it c := by
    intro it ht c hcc hto
    exact hc (ofType_unique ht hto ▸ hcc)
  refine ⟨fun id it hi ht => ⟨it, h.1 id it hi (hn it ht), ht, rfl, rfl⟩, fun id it hi ht => ⟨it, ?_, ht, rfl, rfl⟩⟩
  refine h.2 id it hi (Or.inr ?_) (hn it ht)
  obtain ⟨S, hS⟩ := ht
  rw [hS]; simp

theorem Edits.keeps {env : Env} {code name : Str} {a b : Hw} (h : Edits env code name a b)
    (h1 : name ≠ instanceId env.ver) (h2 : name ≠ resourceType) {c m : Str} (hm : m ≠ name) : KeepsTab env c m a b := by
  refine ⟨?_, ?_⟩
  · intro id it hi ht
    obtain ⟨it', g1, -, -, g4⟩ := h.items id it hi
    exact ⟨it', g1, (ofType_congr (g4 _ h2.symm) c).2 ht, g4 _ h1.symm, g4 _ hm⟩
  · intro id it hi ht
    obtain ⟨it', g1, -, -, g4⟩ := h.back hi
    exact ⟨it', g1, (ofType_congr (g4 _ h2.symm) c).1 ht, g4 _ h1.symm, g4 _ hm⟩

theorem getValue_tab {env : Env} {it it' : Item} {n : Str} (hp : Plain env n) (h : it'.tab n = it.tab n) (P : Option PSet) :
    it'.getValue env n P = it.getValue env n P := by
  rw [getValue_plain hp, getValue_plain hp]
  unfold Item.getRaw
  rw [h]

theorem Everywhere.keep {env : Env} {code name : Str} {v : Val} {P : List Prof} {a b : Hw} (hp : Plain env name)
    (h : Everywhere env code name v P a) (k : KeepsTab env code name a b) : Everywhere env code name v P b := by
  intro id it hi ht
  obtain ⟨x, g1, g2, -, g4⟩ := k.bwd id it hi ht
  have := h id x g1 g2
  simp only [getValue_tab hp g4]
  exact this

theorem InOrder.keep {env : Env} {code name : Str} {vs : List Str} {rest : Str} {L : List Prof} {a b : Hw}
    (hp : Plain env name) (h : InOrder env code name vs rest L a) (k : KeepsTab env code name a b) :
    InOrder env code name vs rest L b := by
  obtain ⟨ids, h1, h2, h3, h4⟩ := h
  refine ⟨ids, h1, h2, ?_, ?_⟩
  · intro id
    rw [h3]
    constructor
    · rintro ⟨it, hi, ht⟩
      obtain ⟨x, g1, g2, -⟩ := k.fwd id it hi ht
      exact ⟨x, g1, g2⟩
    · rintro ⟨it, hi, ht⟩
      obtain ⟨x, g1, g2, -⟩ := k.bwd id it hi ht
      exact ⟨x, g1, g2⟩
  · intro i hi
    obtain ⟨it, g1, g2⟩ := h4 i hi
    obtain ⟨it0, z1, z2⟩ := (h3 ids[i]).1 (List.getElem_mem hi)
    rw [g1] at z1; cases z1
    obtain ⟨x, k1, k2, k3, k4⟩ := k.fwd _ it g1 z2
    refine ⟨x, k1, ?_⟩
    intro p hpL hh hne
    rw [hasProfile_congr k3] at hh
    rw [getValue_tab hp k4]
    exact g2 p hpL hh hne

theorem ReplacedAll.keep {env : Env} {code name : Str} {v : Val} {a b a' b' : Hw} (hp : Plain env name)
    (h : ReplacedAll env code name v a b) (k : KeepsTab env code name a' a) (k' : KeepsTab env code name b b')
    (hb : ∀ id it, dget? a id = some it → OfType it code → ∃ it', dget? b id = some it' ∧ OfType it' code) :
    ReplacedAll env code name v a' b' := by
  intro id it hi ht p w hw
  obtain ⟨x, g1, g2, -, g4⟩ := k.fwd id it hi ht
  obtain ⟨y, y1, y2⟩ := h id x g1 g2 p w (by rw [getValue_tab hp g4]; exact hw)
  obtain ⟨y', y1', ht'⟩ := hb id x g1 g2
  rw [y1] at y1'; cases y1'
  obtain ⟨z, k1, k2, -, k4⟩ := k'.fwd id y y1 ht'
  exact ⟨z, k1, by rw [getValue_tab hp k4]; exact y2⟩

/-! ### set_value_for_all_items -/

theorem reads_one {v : Val} {S : PSet} {p : Prof} {w : Val} (h : Reads [(v, S)] p w) : w = v := by
  unfold Reads Explicit at h
  simp at h
  tauto

/-- what `set_property` without profiles leaves -/
theorem setProperty_alone {env : Env} {it it' : Item} {n : Str} {val : InVal} {v : Val} (wf : ItemWF env it)
    (hpl : Plain env n) (hd : Denotes n val v) (hv : v.truthy = true)
    (h : it.setProperty env n val ∅ true = .ok it') : it'.tab n = [(v, collapse (it.effProfiles n ∅))] := by
  rcases hd with ⟨hn, s, rfl, rfl⟩ | ⟨rfl, l, rfl, rfl⟩
  · refine (setProperty_all wf hpl hn h).2.2.2 ?_
    rintro rfl; simp [Val.truthy] at hv
  · refine setProperty_words wf rfl ?_ h
    rintro rfl; simp [Val.truthy] at hv

theorem alone_reads {env : Env} {it it' : Item} {n : Str} {v : Val} (wf : ItemWF env it) (wf' : ItemWF env it')
    (hpl : Plain env n) (h : it'.tab n = [(v, collapse (it.effProfiles n ∅))]) :
    (∃ p, it'.getValue env n (some {p}) = .ok (some v)) ∧
    (∀ p w, it'.getValue env n (some {p}) = .ok (some w) → w = v) ∧
    (∀ p w, it.getValue env n (some {p}) = .ok (some w) → it'.getValue env n (some {p}) = .ok (some v)) := by
  have hc : collapse (it.effProfiles n ∅) ≠ ∅ := by
    have h1 := effProfiles_ne wf n ∅
    intro hc
    by_cases hn : none ∈ it.effProfiles n ∅
    · have : (none : Prof) ∈ collapse (it.effProfiles n ∅) := by rw [mem_collapse]; exact ⟨hn, fun _ => rfl⟩
      rw [hc] at this; simp at this
    · obtain ⟨x, hx⟩ := Finset.nonempty_iff_ne_empty.2 h1
      have : x ∈ collapse (it.effProfiles n ∅) := by rw [mem_collapse]; exact ⟨hx, fun hh => absurd hh hn⟩
      rw [hc] at this; simp at this
  have hg : ∀ p, it'.getValue env n (some {p}) = .ok (some v) ↔ Reads (it'.tab n) p v := by
    intro p
    rw [getValue_plain hpl, Except.ok.injEq, getRaw_single wf']
  refine ⟨?_, ?_, ?_⟩
  · obtain ⟨x, hx⟩ := Finset.nonempty_iff_ne_empty.2 hc
    refine ⟨x, (hg x).2 ?_⟩
    rw [h]
    exact Or.inl ⟨_, by simp, hx⟩
  · intro p w hw
    rw [getValue_plain hpl, Except.ok.injEq, getRaw_single wf', h] at hw
    exact reads_one hw
  · intro p w hw
    rw [getValue_plain hpl, Except.ok.injEq, getRaw_single wf] at hw
    rw [hg, h]
    have key : ∀ x, (∃ w, Explicit (it.tab n) x w) → x ∈ it.effProfiles n ∅ := by
      rintro x ⟨w, S, hS, hx⟩
      exact eff_covers hS hx
    by_cases hnn : none ∈ it.effProfiles n ∅
    · have hn : (none : Prof) ∈ collapse (it.effProfiles n ∅) := by rw [mem_collapse]; exact ⟨hnn, fun _ => rfl⟩
      by_cases hp : p = none
      · subst hp; exact Or.inl ⟨_, by simp, hn⟩
      · refine Or.inr ⟨?_, ⟨_, by simp, hn⟩⟩
        rintro u ⟨S, hS, hu⟩
        simp only [List.mem_singleton, Prod.mk.injEq] at hS
        obtain ⟨rfl, rfl⟩ := hS
        rw [mem_collapse] at hu
        exact hp (hu.2 hnn)
    · have hp : p ∈ it.effProfiles n ∅ := by
        rcases hw with hw | ⟨-, hw⟩
        · exact key p ⟨w, hw⟩
        · exact absurd (key none ⟨w, hw⟩) hnn
      exact Or.inl ⟨_, List.mem_singleton_self _, by rw [mem_collapse]; exact ⟨hp, fun hh => absurd hh hnn⟩⟩

theorem setProperty_named {env : Env} {it it' : Item} {n : Str} {val : InVal} {v : Val} {P : PSet} (wf : ItemWF env it)
    (hpl : Plain env n) (hd : Denotes n val v) (hv : v.truthy = true) (h : it.setProperty env n val P true = .ok it')
    {p : Prof} (hp : p ∈ P) : it'.getValue env n (some {p}) = .ok (some v) := by
  obtain ⟨u, h1, wf', -, h4, -⟩ := setProperty_spec wf h
  have hu : u = v := by
    rcases hd with ⟨hn, s, rfl, rfl⟩ | ⟨rfl, l, rfl, rfl⟩
    · rw [normValue_str hn, addWildcards_plain hpl] at h1; cases h1; rfl
    · have : normValue env resourceSubType (.list l) = .tup l := rfl
      rw [this, addWildcards_plain hpl] at h1; cases h1; rfl
  subst hu
  rw [effProfiles_of_ne _ _ (by rintro rfl; simp at hp)] at h4
  rw [getValue_plain hpl, Except.ok.injEq, getRaw_single wf', h4, reads_set_mem (wf.tab n) hv hp]

theorem everywhere_item {env : Env} {it it' : Item} {n : Str} {val : InVal} {v : Val} {P : List Prof} (wf : ItemWF env it)
    (hpl : Plain env n) (hd : Denotes n val v) (hv : v.truthy = true)
    (h : it.setProperty env n val P.toFinset true = .ok it') :
    (∀ p ∈ P, it'.getValue env n (some {p}) = .ok (some v)) ∧
    (P = [] → (∃ p, it'.getValue env n (some {p}) = .ok (some v)) ∧
      (∀ p w, it'.getValue env n (some {p}) = .ok (some w) → w = v) ∧
      (∀ p w, it.getValue env n (some {p}) = .ok (some w) → it'.getValue env n (some {p}) = .ok (some v))) := by
  refine ⟨fun p hp => setProperty_named wf hpl hd hv h (by simpa using hp), ?_⟩
  rintro rfl
  obtain ⟨_, _, wf', _⟩ := setProperty_spec wf h
  exact alone_reads wf wf' hpl (setProperty_alone wf hpl hd hv h)

theorem setValueForAll_everywhere {env : Env} {hw hw' : Hw} {rt name code : Str} {val : InVal} {v : Val} {P : List Prof}
    {cn : Bool} (wf : HwWF env hw) (hc : resourceCode rt = .ok code) (hpl : Plain env name) (hd : Denotes name val v)
    (hv : v.truthy = true) (hid : name ≠ instanceId env.ver) (hrt : name ≠ resourceType)
    (h : setValueForAll env hw rt name val P cn = .ok hw') :
    Everywhere env code name v P hw' ∧ (P = [] → ReplacedAll env code name v hw hw') ∧
    (∀ id it, dget? hw id = some it → OfType it code → ∃ it', dget? hw' id = some it' ∧ OfType it' code) ∧
    (cn = true → ∃ id it, dget? hw' id = some it ∧ OfType it code) := by
  by_cases hex : cn = true → ∃ id it, dget? hw id = some it ∧ OfType it code
  · obtain ⟨e, k⟩ := setValueForAll_edits wf hc hex h
    have hfwd : ∀ id it, dget? hw id = some it → OfType it code → ∃ it', dget? hw' id = some it' ∧ OfType it' code := by
      intro id it hi ht
      obtain ⟨it', g1, -, -, g4⟩ := e.items id it hi
      exact ⟨it', g1, (ofType_congr (g4 _ hrt.symm) code).2 ht⟩
    refine ⟨?_, ?_, hfwd, ?_⟩
    · intro id it' hi ht
      obtain ⟨it, g1, -, -, g4⟩ := e.back hi
      obtain ⟨it2, k1, k2⟩ := k id it g1 ((ofType_congr (g4 _ hrt.symm) code).1 ht)
      rw [hi] at k1; cases k1
      obtain ⟨a, b⟩ := everywhere_item (wf.get g1).1 hpl hd hv k2
      exact ⟨a, fun hP => ⟨(b hP).1, (b hP).2.1⟩⟩
    · intro hP id it hi ht p w hw
      obtain ⟨it2, k1, k2⟩ := k id it hi ht
      obtain ⟨a, b⟩ := everywhere_item (wf.get hi).1 hpl hd hv k2
      exact ⟨it2, k1, (b hP).2.2 p w hw⟩
    · intro hcn
      obtain ⟨id, it, hi, ht⟩ := hex hcn
      obtain ⟨it', g⟩ := hfwd id it hi ht
      exact ⟨id, it', g⟩
  · have hcn : cn = true := by
      by_contra hh; exact hex (fun h => absurd h hh)
    subst hcn
    have hex' : ¬ ∃ id it, dget? hw id = some it ∧ OfType it code := fun hh => hex (fun _ => hh)
    obtain ⟨id, it0, it, g1, rfl, g3, g4, g5, -, g7, -⟩ := setValueForAll_creates wf hc hid hrt hex' h
    have hget : dget? (dset hw id it) id = some it := by rw [dget?_dset, if_pos rfl]
    refine ⟨?_, ?_, ?_, fun _ => ⟨id, it, hget, _, g7⟩⟩
    · intro i x hi ht
      rw [dget?_dset] at hi
      split at hi
      · cases hi
        obtain ⟨a, b⟩ := everywhere_item g4 hpl hd hv g3
        exact ⟨a, fun hP => ⟨(b hP).1, (b hP).2.1⟩⟩
      · exact absurd ⟨i, x, hi, ht⟩ hex'
    · intro _ i x hi ht
      exact absurd ⟨i, x, hi, ht⟩ hex'
    · intro i x hi ht
      exact absurd ⟨i, x, hi, ht⟩ hex'

/-! ### set_item_values_per_profile -/

theorem setItemValues_inOrder {env : Env} {hw hw' : Hw} {rt name code : Str} {vs : List Str} {rest : Str}
    {profiles : Option (List Prof)} (wf : HwWF env hw) (hc : resourceCode rt = .ok code) (hpl : Plain env name)
    (hid : name ≠ instanceId env.ver) (hrt : name ≠ resourceType) (hrs : name ≠ resourceSubType)
    (h : setItemValues env hw rt name (vs.map InVal.str) profiles (.str rest) = .ok hw') :
    InOrder env code name vs rest (profiles.getD (env.configProfiles.map some ++ [none])) hw' := by
  have e := setItemValues_edits wf hc h
  obtain ⟨-, -, -, ids, k1, k2, k3, k4⟩ := C14_set_item_values wf hc hpl hid
    (L := profiles.getD (env.configProfiles.map some ++ [none])) (by cases profiles <;> rfl) h
  refine ⟨ids, k1, k2, ?_, ?_⟩
  · intro id
    rw [k3]
    constructor
    · rintro ⟨it, hi, ht⟩
      obtain ⟨it', g1, -, -, g4⟩ := e.items id it hi
      exact ⟨it', g1, (ofType_congr (g4 _ hrt.symm) code).2 ht⟩
    · rintro ⟨it, hi, ht⟩
      obtain ⟨it', g1, -, -, g4⟩ := e.back hi
      exact ⟨it', g1, (ofType_congr (g4 _ hrt.symm) code).1 ht⟩
  · intro i hi
    obtain ⟨it, it', g1, g2, g3, g4⟩ := k4 i hi
    refine ⟨it', g2, ?_⟩
    intro p hp hh hne
    have hval : (vs.map InVal.str)[i]?.getD (InVal.str rest) = .str (vs[i]?.getD rest) := by
      rw [List.getElem?_map]
      cases vs[i]? <;> rfl
    refine (g4 (.str (vs[i]?.getD rest)) (Or.inl ⟨hrs, _, hval, rfl⟩) ?_).1 p hp ?_
    · cases hx : vs[i]?.getD rest with
      | nil => exact absurd hx hne
      | cons a b => rfl
    · rw [← hasProfile_congr (g3 _ hid.symm)]; exact hh

/-! ### later steps keep what earlier ones achieved -/

theorem KeepsTab.count {env : Env} {code name : Str} {a b : Hw} (k : KeepsTab env code name a b)
    (ha : (dkeys a).Nodup) (hb : (dkeys b).Nodup) (p : Prof) : countOf env b code p = countOf env a code p := by
  have hlist : ∀ (l : Hw), (dkeys l).Nodup →
      ((l.filter (fun kv => decide (OfType kv.2 code) && kv.2.hasProfile env p)).map Prod.fst).Nodup ∧
      ∀ id, id ∈ (l.filter (fun kv => decide (OfType kv.2 code) && kv.2.hasProfile env p)).map Prod.fst ↔
        ∃ it, dget? l id = some it ∧ OfType it code ∧ it.hasProfile env p = true := by
    intro l hl
    refine ⟨?_, ?_⟩
    · exact List.Sublist.nodup (List.Sublist.map _ List.filter_sublist) hl
    · intro id
      simp only [List.mem_map, List.mem_filter, Bool.and_eq_true, decide_eq_true_eq]
      constructor
      · rintro ⟨kv, ⟨h1, h2, h3⟩, rfl⟩
        exact ⟨kv.2, dget?_of_mem hl h1, h2, h3⟩
      · rintro ⟨it, h1, h2, h3⟩
        exact ⟨(id, it), ⟨dget?_mem h1, h2, h3⟩, rfl⟩
  obtain ⟨a1, a2⟩ := hlist a ha
  obtain ⟨b1, b2⟩ := hlist b hb
  have hp : ((b.filter (fun kv => decide (OfType kv.2 code) && kv.2.hasProfile env p)).map Prod.fst).Perm
      ((a.filter (fun kv => decide (OfType kv.2 code) && kv.2.hasProfile env p)).map Prod.fst) := by
    rw [List.perm_ext_iff_of_nodup b1 a1]
    intro id
    rw [a2, b2]
    constructor
    · rintro ⟨it, h1, h2, h3⟩
      obtain ⟨x, g1, g2, g3, -⟩ := k.bwd id it h1 h2
      exact ⟨x, g1, g2, by rw [← hasProfile_congr g3]; exact h3⟩
    · rintro ⟨it, h1, h2, h3⟩
      obtain ⟨x, g1, g2, g3, -⟩ := k.fwd id it h1 h2
      exact ⟨x, g1, g2, by rw [hasProfile_congr g3]; exact h3⟩
  have := hp.length_eq
  simpa [countOf] using this

/-- the property that a step edits (and it edits no other) -/
def stepName (v : Ver) (i : Nat) : Option Str :=
  match i with
  | 3 => some resourceSubType | 4 => some address | 5 => some connection | 6 => some (elementName v)
  | 8 => some address | 9 => some resourceSubType | 10 => some resourceSubType | _ => none

variable {c : EhCtx} {q q' : EhReq} {env : Env} {s s' : EhSt} {h : Nat → Hw}

theorem EhTrace.keepsStep (t : EhTrace c q q' env s s' h) (hve : env.ver = c.env.ver) (wf : ∀ i ≤ 11, HwWF env (h i))
    (se : ∀ i < 11, SameExcept env.ver (stepCodes i) (h i) (h (i+1))) {i : Nat} (hi : i < 11) {code name : Str}
    (hc : code ∉ stepCodes i ∨ ∃ m, stepName env.ver i = some m ∧ name ≠ m) : KeepsTab env code name (h i) (h (i+1)) := by
  rcases hc with hc | ⟨m, hm, hne⟩
  · exact (se i hi).keeps hc name
  · match i, hi, hm with
    | 3, _, hm =>
      cases hm
      cases hq : q.nicTypes with
      | none => show KeepsTab env code name (h 3) (h 4); rw [t.typesN hq]; exact KeepsTab.refl _ _ _ _
      | some l =>
        obtain ⟨l', -, -, k⟩ := t.types l hq
        exact (setValueForAll_edits (wf 3 (by omega)) code_eth (by simp) k).1.keeps (rst_iid _) rst_rt hne
    | 4, _, hm =>
      cases hm
      cases hq : q.macs with
      | none => show KeepsTab env code name (h 4) (h 5); rw [t.macsN hq]; exact KeepsTab.refl _ _ _ _
      | some l => exact (setNicValues_edits (wf 4 (by omega)) (t.macs l hq)).keeps (addr_iid _) addr_rt hne
    | 5, _, hm =>
      cases hm
      obtain ⟨d, ex, ns, f1, f2, f3, f4, f5, f6⟩ := t.nets
      generalize hef : effNetworks q' (maxCount d (allProfilesIfEmpty env q.profList)) ex = ef at f5 f6
      cases ef with
      | none => show KeepsTab env code name (h 5) (h 6); rw [(f5 rfl).1]; exact KeepsTab.refl _ _ _ _
      | some l => exact (setNicValues_edits (wf 5 (by omega)) (f6 l rfl).2).keeps (conn_iid _) conn_rt hne
    | 6, _, hm =>
      cases hm
      cases hq : q.nicNames with
      | none => show KeepsTab env code name (h 6) (h 7); rw [t.namesN hq]; exact KeepsTab.refl _ _ _ _
      | some l =>
        obtain ⟨d, -, k⟩ := t.names l hq
        rw [← hve] at k
        exact (setItemValues_edits (wf 6 (by omega)) code_eth k).keeps (en_iid _) (en_rt _) hne
    | 8, _, hm =>
      cases hm
      cases hq : q.serialConn with
      | none => show KeepsTab env code name (h 8) (h 9); rw [t.connN hq]; exact KeepsTab.refl _ _ _ _
      | some l => exact (setItemValues_edits (wf 8 (by omega)) code_serial (t.conn l hq).1).keeps (addr_iid _) addr_rt hne
    | 9, _, hm =>
      cases hm
      cases hq : q.scsi with
      | none => show KeepsTab env code name (h 9) (h 10); rw [t.scsiN hq]; exact KeepsTab.refl _ _ _ _
      | some l =>
        exact (setValueForAll_edits (wf 9 (by omega)) code_scsi (by simp) (t.scsi l hq)).1.keeps (rst_iid _) rst_rt hne
    | 10, _, hm =>
      cases hm
      cases hq : q.ide with
      | none => show KeepsTab env code name (h 10) (h 11); rw [t.ideN hq]; exact KeepsTab.refl _ _ _ _
      | some l =>
        exact (setValueForAll_edits (wf 10 (by omega)) code_ide (by simp) (t.ide l hq)).1.keeps (rst_iid _) rst_rt hne
    | 0, _, hm => cases hm
    | 1, _, hm => cases hm
    | 2, _, hm => cases hm
    | 7, _, hm => cases hm
    | n + 11, hh, _ => omega

/-- from one point to a later one -/
theorem EhTrace.keeps (t : EhTrace c q q' env s s' h) (hve : env.ver = c.env.ver) (wf : ∀ i ≤ 11, HwWF env (h i))
    (se : ∀ i < 11, SameExcept env.ver (stepCodes i) (h i) (h (i+1))) {a b : Nat} (hab : a ≤ b) (hb : b ≤ 11)
    {code name : Str}
    (hc : ∀ i, a ≤ i → i < b → code ∉ stepCodes i ∨ ∃ m, stepName env.ver i = some m ∧ name ≠ m) :
    KeepsTab env code name (h a) (h b) := by
  induction b, hab using Nat.le_induction with
  | base => exact KeepsTab.refl _ _ _ _
  | succ n hn ih =>
    exact (ih (by omega) (fun i h1 h2 => hc i h1 (by omega))).trans (t.keepsStep hve wf se (by omega) (hc n hn (by omega)))

/-! ### isolation -/

theorem EhTrace.isolated (t : EhTrace c q q' env s s' h) (wf : HwWF env s.hw)
    {P : List Str} (hP : q.profiles = some P) (hne : P ≠ []) {x : Str} (hx : x ∈ env.configProfiles) (hxP : x ∉ P) :
    HwSame env x s.hw s'.hw := by
  have e1 : q.profList = P.map some := by unfold EhReq.profList; rw [hP]; rfl
  have e2 : q.profOpt = some (P.map some) := by unfold EhReq.profOpt; rw [hP]; rfl
  have p1 : P.map some ≠ ([] : List Prof) := by simpa using hne
  have p2 : (none : Prof) ∉ P.map some := by simp
  have p3 : some x ∉ P.map some := by simpa using hxP
  have nicv : ∀ {a b : Hw} {name : Str} {vs : List Str}, ItemsWF env a → setNicValues env a name vs (some (P.map some)) = .ok b →
      ItemsWF env b ∧ HwSame env x a b := by
    intro a b name vs wfa hh
    unfold setNicValues at hh
    split at hh
    · cases hh
    · exact setItemValues_same hx p2 p3 wfa hh
  have stay : ∀ {a b : Hw}, ItemsWF env a → b = a → ItemsWF env b ∧ HwSame env x a b := by
    rintro a b wfa rfl; exact ⟨wfa, HwSame.refl _ _ _⟩
  have w0 : ItemsWF env (h 0) := by rw [t.first]; exact wf.itemsWF
  have s1 : ItemsWF env (h 1) ∧ HwSame env x (h 0) (h 1) := by
    cases hq : q.cpus with
    | none => exact stay w0 (t.cpuN hq)
    | some n => have k := t.cpu n hq; rw [e1] at k; exact setValueForAll_same hx p1 p2 p3 w0 k
  have s2 : ItemsWF env (h 2) ∧ HwSame env x (h 1) (h 2) := by
    cases hq : q.memory with
    | none => exact stay s1.1 (t.memN hq)
    | some n =>
      obtain ⟨hw1, k1, k2⟩ := t.mem n hq
      rw [e1] at k1 k2
      have a := setValueForAll_same hx p1 p2 p3 s1.1 k1
      have b := setValueForAll_same hx p1 p2 p3 a.1 k2
      exact ⟨b.1, a.2.trans hx b.2⟩
  have s3 : ItemsWF env (h 3) ∧ HwSame env x (h 2) (h 3) := by
    cases hq : q.nics with
    | none => exact stay s2.1 (t.nicsN hq)
    | some n => have k := (t.nics n hq).1; rw [e1] at k; exact setItemCount_same hx p1 p2 p3 s2.1 k
  have s4 : ItemsWF env (h 4) ∧ HwSame env x (h 3) (h 4) := by
    cases hq : q.nicTypes with
    | none => exact stay s3.1 (t.typesN hq)
    | some n => obtain ⟨l', -, -, k⟩ := t.types n hq; rw [e1] at k; exact setValueForAll_same hx p1 p2 p3 s3.1 k
  have s5 : ItemsWF env (h 5) ∧ HwSame env x (h 4) (h 5) := by
    cases hq : q.macs with
    | none => exact stay s4.1 (t.macsN hq)
    | some n => have k := t.macs n hq; rw [e2] at k; exact nicv s4.1 k
  have s6 : ItemsWF env (h 6) ∧ HwSame env x (h 5) (h 6) := by
    obtain ⟨d, ex, ns, f1, f2, f3, f4, f5, f6⟩ := t.nets
    generalize hef : effNetworks q' (maxCount d (allProfilesIfEmpty env q.profList)) ex = ef at f5 f6
    cases ef with
    | none => exact stay s5.1 (f5 rfl).1
    | some l => have k := (f6 l rfl).2; rw [e2] at k; exact nicv s5.1 k
  have s7 : ItemsWF env (h 7) ∧ HwSame env x (h 6) (h 7) := by
    cases hq : q.nicNames with
    | none => exact stay s6.1 (t.namesN hq)
    | some n => obtain ⟨d, -, k⟩ := t.names n hq; rw [e2] at k; exact setItemValues_same hx p2 p3 s6.1 k
  have s8 : ItemsWF env (h 8) ∧ HwSame env x (h 7) (h 8) := by
    cases hq : q.serialPorts with
    | none => exact stay s7.1 (t.serialN hq)
    | some n => have k := (t.serial n hq).1; rw [e1] at k; exact setItemCount_same hx p1 p2 p3 s7.1 k
  have s9 : ItemsWF env (h 9) ∧ HwSame env x (h 8) (h 9) := by
    cases hq : q.serialConn with
    | none => exact stay s8.1 (t.connN hq)
    | some n => have k := (t.conn n hq).1; rw [e2] at k; exact setItemValues_same hx p2 p3 s8.1 k
  have s10 : ItemsWF env (h 10) ∧ HwSame env x (h 9) (h 10) := by
    cases hq : q.scsi with
    | none => exact stay s9.1 (t.scsiN hq)
    | some n => have k := t.scsi n hq; rw [e1] at k; exact setValueForAll_same hx p1 p2 p3 s9.1 k
  have s11 : ItemsWF env (h 11) ∧ HwSame env x (h 10) (h 11) := by
    cases hq : q.ide with
    | none => exact stay s10.1 (t.ideN hq)
    | some n => have k := t.ide n hq; rw [e1] at k; exact setValueForAll_same hx p1 p2 p3 s10.1 k
  rw [← t.first, ← t.last]
  exact (((((((((s1.2.trans hx s2.2).trans hx s3.2).trans hx s4.2).trans hx s5.2).trans hx s6.2).trans hx s7.2).trans hx
    s8.2).trans hx s9.2).trans hx s10.2).trans hx s11.2

end Cot
