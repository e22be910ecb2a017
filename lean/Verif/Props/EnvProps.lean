import Verif.Lemmas.EnvProps
import Verif.Lemmas.DataValidation
/-
C42, C43: environment properties.
-/
namespace Cot

theorem filter_matches {cs : List Elem} {t : Str} {a : List (Str × Str)} {p : Elem → Bool}
    (h : ∀ e, p e = true ↔ Matches t a e) : cs.filter p = cs.filter (fun e => e.tag == t && attribMatch e a) := by
  congr 1
  funext e
  rw [Bool.eq_iff_iff, h, matches_iff]

theorem matches_nil {t : Str} {e : Elem} : Matches t [] e ↔ e.tag = t := by
  unfold Matches
  exact ⟨fun h => h.1, fun h => ⟨h, fun kv hkv => absurd hkv (List.not_mem_nil)⟩⟩

theorem matches_one {t k x : Str} {e : Elem} : Matches t [(k, x)] e ↔ e.tag = t ∧ e.get k = some x := by
  unfold Matches
  constructor
  · intro h
    exact ⟨h.1, h.2 (k, x) (List.mem_singleton.2 rfl)⟩
  · rintro ⟨h1, h2⟩
    refine ⟨h1, fun kv hkv => ?_⟩
    rw [List.mem_singleton.1 hkv]
    exact h2

theorem productSection_eq {v : Ver} (hv : v ≠ .v0) : productSection v = ovfTag v "ProductSection".toList := by
  cases v <;> first | exact absurd rfl hv | rfl

theorem sectionAttrib_nil {v : Ver} (hv : v ≠ .v0) (n : Str) : sectionAttrib v n = [] := by
  cases v <;> first | exact absurd rfl hv | rfl

theorem sections_eq {v : Ver} (hv : v ≠ .v0) (vs : Elem) :
    vs.children.filter (fun e => e.tag = ovfTag v "ProductSection".toList) = findAllChildren vs (productSection v) [] := by
  unfold findAllChildren
  rw [productSection_eq hv]
  exact filter_matches (fun e => by rw [matches_nil, decide_eq_true_iff])

theorem props_eq (v : Ver) (sec : Elem) (key : Str) :
    sec.children.filter (fun e => e.tag = ovfTag v "Property".toList ∧ e.get (ovfTag v "key".toList) = some key) =
      findAllChildren sec (propertyTag v) [(propKey v, key)] := by
  unfold findAllChildren
  exact filter_matches (fun e => by rw [matches_one, decide_eq_true_iff]; rfl)

theorem propIs_iff {v : Ver} (hv : v ≠ .v0) {vs : Elem} {key : Str} {p : Elem} :
    PropIs v vs key p ↔ ∃ sec, findAllChildren vs (productSection v) [] = [sec] ∧
      findAllChildren sec (propertyTag v) [(propKey v, key)] = [p] := by
  unfold PropIs
  simp only [sections_eq hv, props_eq]

theorem noProp_iff {v : Ver} (hv : v ≠ .v0) {vs : Elem} {key : Str} :
    NoProp v vs key ↔ ∀ sec ∈ findAllChildren vs (productSection v) [],
      findAllChildren sec (propertyTag v) [(propKey v, key)] = [] := by
  unfold NoProp
  constructor
  · intro h sec hs
    obtain ⟨h1, h2⟩ := mem_findAllChildren.1 hs
    rw [← props_eq, List.filter_eq_nil_iff]
    intro p hp
    rw [decide_eq_true_iff]
    exact h sec h1 (h2.1.trans (productSection_eq hv)) p hp
  · intro h sec h1 h2 p hp
    have := h sec (mem_findAllChildren.2 ⟨h1, by rw [productSection_eq hv]; exact h2, by simp⟩)
    rw [← props_eq, List.filter_eq_nil_iff] at this
    have := this p hp
    rwa [decide_eq_true_iff] at this

/-- The two states of a document with respect to one key. -/
theorem wf_cases {v : Ver} (hv : v ≠ .v0) {vs : Elem} (h : PropsWF v vs) (key : Str) :
    (findAllChildren vs (productSection v) [] = [] ∧ NoProp v vs key) ∨
    (∃ sec, findAllChildren vs (productSection v) [] = [sec] ∧
      ((findAllChildren sec (propertyTag v) [(propKey v, key)] = [] ∧ NoProp v vs key) ∨
       (∃ p, findAllChildren sec (propertyTag v) [(propKey v, key)] = [p] ∧ PropIs v vs key p))) := by
  obtain ⟨h1, h2⟩ := h
  rw [sections_eq hv] at h1
  match hs : findAllChildren vs (productSection v) [] with
  | [] => exact Or.inl ⟨rfl, (noProp_iff hv).2 (by rw [hs]; simp)⟩
  | [sec] =>
    refine Or.inr ⟨sec, rfl, ?_⟩
    rcases h2 key with h | ⟨p, h⟩
    · exact Or.inl ⟨(noProp_iff hv).1 h sec (by rw [hs]; simp), h⟩
    · right
      obtain ⟨sec', e1, e2⟩ := (propIs_iff hv).1 h
      rw [hs] at e1
      cases e1
      exact ⟨p, e2, h⟩
  | a :: b :: r => rw [hs] at h1; simp at h1

theorem get_of_noProp {v : Ver} (hv : v ≠ .v0) {vs : Elem} (h : PropsWF v vs) {key : Str} (hn : NoProp v vs key) :
    getPropertyValue v vs key = .ok none := by
  unfold getPropertyValue
  rw [if_neg hv, sectionAttrib_nil hv]
  rcases wf_cases hv h key with ⟨h1, -⟩ | ⟨sec, h1, ⟨h2, -⟩ | ⟨p, h2, h3⟩⟩
  · rw [findChild_none.2 h1]
  · rw [findChild_some.2 h1]; simp only; rw [findChild_none.2 h2]
  · have := (noProp_iff hv).1 hn sec (by rw [h1]; simp)
    rw [h2] at this; cases this

theorem get_of_propIs {v : Ver} (hv : v ≠ .v0) {vs : Elem} {key : Str} {p : Elem} (hp : PropIs v vs key p) :
    getPropertyValue v vs key = .ok (p.get (propValue v)) := by
  obtain ⟨sec, h1, h2⟩ := (propIs_iff hv).1 hp
  unfold getPropertyValue
  rw [if_neg hv, sectionAttrib_nil hv, findChild_some.2 h1]
  simp only
  rw [findChild_some.2 h2]

/-- The effect of `set_property_value` on the document: one Property is edited or added. -/
theorem setPropertyValue_shape {v : Ver} (hv : v ≠ .v0) {vs : Elem} (h : PropsWF v vs) (key : Str) (value : Option Str)
    (uc : Option Bool) (ptype label desc : Option Str) :
    ∃ p ty, (PropIs v vs key p ∧ ty = ptype ∨
        NoProp v vs key ∧ p = (Elem.new (propertyTag v)).set (propKey v) key ∧ ty = newType ptype) ∧
      (setPropertyValue v vs key value uc ptype label desc).1 = (editProp v p value uc ty label desc).1 ∧
      PropIs v (setPropertyValue v vs key value uc ptype label desc).2 key (editProp v p value uc ty label desc).2 ∧
      (∀ k, k ≠ key → ∀ q, PropIs v (setPropertyValue v vs key value uc ptype label desc).2 k q ↔ PropIs v vs k q) ∧
      (∀ k, k ≠ key → (NoProp v (setPropertyValue v vs key value uc ptype label desc).2 k ↔ NoProp v vs k)) ∧
      PropsWF v (setPropertyValue v vs key value uc ptype label desc).2 := by
  -- the document with its section
  have hens : ∃ vs1 sec, ensureSection v vs (productSection v) [] "Product Information".toList = .ok vs1 ∧
      findAllChildren vs1 (productSection v) [] = [sec] ∧
      (∀ k q, findAllChildren sec (propertyTag v) [(propKey v, k)] = [q] ↔ PropIs v vs k q) ∧
      (∀ k, findAllChildren sec (propertyTag v) [(propKey v, k)] = [] ↔ NoProp v vs k) := by
    rcases wf_cases hv h key with ⟨h1, -⟩ | ⟨sec, h1, -⟩
    · have hm : Matches (productSection v) [] (newSection v (productSection v) [] "Product Information".toList) :=
        ⟨rfl, by simp⟩
      refine ⟨_, _, ensureSection_none h1, findAll_insert h1 hm, ?_⟩
      have hempty : ∀ k, findAllChildren (newSection v (productSection v) [] "Product Information".toList)
          (propertyTag v) [(propKey v, k)] = [] := by
        intro k
        unfold findAllChildren newSection
        rw [setChildren_children]
        apply filter_none
        intro y hy hm
        simp only [List.mem_singleton] at hy
        subst hy
        exact absurd (ovfTag_inj.1 (show ovfTag v "Info".toList = ovfTag v "Property".toList from hm.1)) (by decide)
      constructor
      · intro k q
        rw [hempty, propIs_iff hv, h1]
        simp
      · intro k
        rw [hempty, noProp_iff hv, h1]
        simp
    · refine ⟨vs, sec, ensureSection_some h1, h1, ?_, ?_⟩
      · intro k q
        rw [propIs_iff hv, h1]
        simp
      · intro k
        rw [noProp_iff hv, h1]
        simp
  obtain ⟨vs1, sec, e1, e2, hP, hN⟩ := hens
  unfold setPropertyValue
  rw [if_neg hv, sectionAttrib_nil hv, e1]
  simp only
  rw [findChild_some.2 e2]
  simp only
  -- a general closing step: the section is replaced by `f sec`
  have close : ∀ (f : Elem → Elem) (q : Elem), (f sec).tag = sec.tag →
      findAllChildren (f sec) (propertyTag v) [(propKey v, key)] = [q] →
      (∀ k, k ≠ key → findAllChildren (f sec) (propertyTag v) [(propKey v, k)] =
        findAllChildren sec (propertyTag v) [(propKey v, k)]) →
      PropIs v (updateFirst vs1 (productSection v) [] f) key q ∧
      (∀ k, k ≠ key → ∀ q, PropIs v (updateFirst vs1 (productSection v) [] f) k q ↔ PropIs v vs k q) ∧
      (∀ k, k ≠ key → (NoProp v (updateFirst vs1 (productSection v) [] f) k ↔ NoProp v vs k)) ∧
      PropsWF v (updateFirst vs1 (productSection v) [] f) := by
    intro f q ht hq hk
    have hm : Matches (productSection v) [] (f sec) := by
      refine ⟨?_, by simp⟩
      rw [ht]
      have : sec ∈ findAllChildren vs1 (productSection v) [] := by rw [e2]; simp
      exact (mem_findAllChildren.1 this).2.1
    have e3 := findAll_updateFirst e2 hm
    have c1 : PropIs v (updateFirst vs1 (productSection v) [] f) key q := (propIs_iff hv).2 ⟨f sec, e3, hq⟩
    have c2 : ∀ k, k ≠ key → ∀ q, PropIs v (updateFirst vs1 (productSection v) [] f) k q ↔ PropIs v vs k q := by
      intro k hne q
      rw [propIs_iff hv, e3, ← hP]
      simp [hk k hne]
    have c3 : ∀ k, k ≠ key → (NoProp v (updateFirst vs1 (productSection v) [] f) k ↔ NoProp v vs k) := by
      intro k hne
      rw [noProp_iff hv, e3, ← hN]
      simp [hk k hne]
    refine ⟨c1, c2, c3, ?_, ?_⟩
    · rw [sections_eq hv, e3]; simp
    · intro k
      by_cases hne : k = key
      · subst hne; exact Or.inr ⟨q, c1⟩
      · rcases h.2 k with hh | ⟨q', hh⟩
        · exact Or.inl ((c3 k hne).2 hh)
        · exact Or.inr ⟨q', (c2 k hne q').2 hh⟩
  rcases wf_cases hv h key with ⟨-, hn⟩ | ⟨_, -, ⟨-, hn⟩ | ⟨p, -, hp⟩⟩
  case' inr.inr =>
    have hp2 := (hP key p).2 hp
    rw [findChild_some.2 hp2]
    simp only
    refine ⟨p, ptype, Or.inl ⟨hp, rfl⟩, rfl, ?_⟩
    obtain ⟨s1, s2, -⟩ := editProp_spec v p value uc ptype label desc
    have hpm : Matches (propertyTag v) [(propKey v, key)] p := by
      have : p ∈ findAllChildren sec (propertyTag v) [(propKey v, key)] := by rw [hp2]; simp
      exact (mem_findAllChildren.1 this).2
    have hpk : p.get (propKey v) = some key := hpm.2 (propKey v, key) (by simp)
    apply close
    · exact updateFirst_tag _ _ _ _
    · apply findAll_updateFirst hp2
      refine ⟨s1.trans hpm.1, ?_⟩
      intro kv hkv
      simp only [List.mem_singleton] at hkv
      subst hkv
      exact s2.trans hpk
    · intro k hne
      apply findAll_updateFirst_other hp2
      · intro hm
        have := hm.2 (propKey v, k) (by simp)
        rw [hpk] at this
        exact hne (Option.some.inj this).symm
      · intro hm
        have := hm.2 (propKey v, k) (by simp)
        simp only at this
        rw [s2, hpk] at this
        exact hne (Option.some.inj this).symm
  all_goals
    have hn2 := (hN key).2 hn
    rw [findChild_none.2 hn2]
    simp only
    refine ⟨_, newType ptype, Or.inr ⟨hn, rfl, rfl⟩, rfl, ?_⟩
    obtain ⟨s1, s2, -⟩ := editProp_spec v ((Elem.new (propertyTag v)).set (propKey v) key) value uc (newType ptype) label desc
    have hpk : ((Elem.new (propertyTag v)).set (propKey v) key).get (propKey v) = some key := by
      rw [set_get, if_pos rfl]
    apply close
    · exact setChildren_tag _ _
    · apply findAll_append hn2
      refine ⟨s1.trans (set_tag _ _ _), ?_⟩
      intro kv hkv
      simp only [List.mem_singleton] at hkv
      subst hkv
      exact s2.trans hpk
    · intro k hne
      apply findAll_append_other
      intro hm
      have := hm.2 (propKey v, k) (by simp)
      simp only at this
      rw [s2, hpk] at this
      exact hne (Option.some.inj this).symm

/-! ### C42 -/

theorem propIs_unique {v : Ver} {vs : Elem} {key : Str} {p q : Elem} (h : PropIs v vs key p) (h' : PropIs v vs key q) : p = q := by
  obtain ⟨s, e1, e2⟩ := h
  obtain ⟨s', e1', e2'⟩ := h'
  rw [e1] at e1'
  cases e1'
  rw [e2] at e2'
  cases e2'
  rfl

theorem get_other {v : Ver} (hv : v ≠ .v0) {vs vs' : Elem} (h : PropsWF v vs) (h' : PropsWF v vs') {k : Str}
    (h1 : ∀ q, PropIs v vs' k q ↔ PropIs v vs k q) (h2 : NoProp v vs' k ↔ NoProp v vs k) :
    getPropertyValue v vs' k = getPropertyValue v vs k := by
  rcases h.2 k with hn | ⟨p, hp⟩
  · rw [get_of_noProp hv h hn, get_of_noProp hv h' (h2.2 hn)]
  · rw [get_of_propIs hv hp, get_of_propIs hv ((h1 p).2 hp)]

theorem new_get (v : Ver) (key k : Str) (h : k ≠ propKey v) : ((Elem.new (propertyTag v)).set (propKey v) key).get k = none := by
  rw [set_get, if_neg (Ne.symm h)]; rfl

/-- **C42 (stored values).** After a successful `set_property_value`, reading the property gives exactly the
value returned; it is what the declared type makes of the given value and obeys the declared type and length
qualifiers.  If only a type is given, an existing value is brought into line with it; without value and type
the value stays.  No other property changes. -/
theorem C42_set {v : Ver} (hv : v ≠ .v0) {vs vs' : Elem} (h : PropsWF v vs) (key : Str) (value : Option Str)
    (uc : Option Bool) (ptype label desc : Option Str) {o : Option Str}
    (hs : setPropertyValue v vs key value uc ptype label desc = (.ok o, vs')) :
    PropsWF v vs' ∧
    (∃ p, PropIs v vs' key p ∧ (∀ t, ptype = some t → typeOf v p = t) ∧
      (∀ x, value = some x → ∃ w, o = some w ∧ getPropertyValue v vs' key = .ok (some w) ∧
        Converts (typeOf v p) x w ∧ Obeys (typeOf v p) (qualOf v p) w) ∧
      (value = none → ptype ≠ none → getPropertyValue v vs' key = .ok o ∧
        (∀ w, o = some w → Obeys (typeOf v p) (qualOf v p) w)) ∧
      (value = none → ptype = none → getPropertyValue v vs' key = getPropertyValue v vs key)) ∧
    (∀ k, k ≠ key → getPropertyValue v vs' k = getPropertyValue v vs k) := by
  obtain ⟨p, ty, hcase, e1, e2, e3, e4, e5⟩ := setPropertyValue_shape hv h key value uc ptype label desc
  rw [hs] at e1 e2 e3 e4 e5
  simp only at e1 e2 e3 e4 e5
  obtain ⟨s1, s2, s3, s4, s5, s6, s7, s8, s9, s10, s11, s12⟩ := editProp_spec v p value uc ty label desc
  obtain ⟨n1, n2, n3, n4, n5, n6, n7, n8, n9⟩ := prop_names v
  obtain ⟨t1, t2⟩ := s7 o e1.symm
  generalize hq : (editProp v p value uc ty label desc).2 = q at *
  have hT : typeOf v q = (ty.or (p.get (propType v))).getD [] := by rw [← s4]; rfl
  have hQ : qualOf v q = (p.get (propQual v)).getD [] := by rw [← s3]; rfl
  have hg := get_of_propIs hv e2
  refine ⟨e5, ⟨q, e2, ?_, ?_, ?_, ?_⟩, fun k hk => get_other hv h e5 (e3 k hk) (e4 k hk)⟩
  · intro t ht
    rw [hT]
    rcases hcase with ⟨-, rfl⟩ | ⟨-, -, rfl⟩ <;> simp [ht, newType]
  · intro x hx
    obtain ⟨w, a1, a2, a3, a4⟩ := t2 x (by unfold valueToSet; rw [hx])
    rw [← hT] at a3
    rw [← hQ] at a4
    exact ⟨w, a1, by rw [hg, a2], a3, converts_obeys a3 a4⟩
  · intro hval hpt
    have hty : ty ≠ none := by
      rcases hcase with ⟨-, rfl⟩ | ⟨-, -, rfl⟩
      · exact hpt
      · cases ptype <;> simp [newType]
    have hvs : valueToSet v p value ty = p.get (propValue v) := by
      unfold valueToSet; rw [hval]
      cases ty with
      | none => exact absurd rfl hty
      | some t => rfl
    cases hpv : p.get (propValue v) with
    | none =>
      obtain ⟨a1, a2⟩ := t1 (hvs.trans hpv)
      rw [hg, a2, hpv, a1]
      exact ⟨rfl, by simp⟩
    | some x =>
      obtain ⟨w, a1, a2, a3, a4⟩ := t2 x (hvs.trans hpv)
      rw [← hT] at a3
      rw [← hQ] at a4
      rw [hg, a2, a1]
      refine ⟨rfl, fun w' hw' => ?_⟩
      cases hw'
      exact converts_obeys a3 a4
  · intro hval hpt
    rcases hcase with ⟨hp, rfl⟩ | ⟨hn, rfl, rfl⟩
    · have hvs : valueToSet v p value ty = none := by unfold valueToSet; rw [hval, hpt]
      rw [hg, (t1 hvs).2, get_of_propIs hv hp]
    · have hvs : valueToSet v ((Elem.new (propertyTag v)).set (propKey v) key) value (newType ptype) = none := by
        unfold valueToSet newType
        rw [hval, hpt]
        exact new_get v key _ (Ne.symm n1)
      rw [hg, (t1 hvs).2, new_get v key _ (Ne.symm n1), get_of_noProp hv h hn]

/-- **C42 (refused values).** If `set_property_value` refuses a value (ValueUnsupportedError), every property
still has the value it had. -/
theorem C42_refused {v : Ver} (hv : v ≠ .v0) {vs vs' : Elem} (h : PropsWF v vs) (key : Str) (value : Option Str)
    (uc : Option Bool) (ptype label desc : Option Str)
    (hs : setPropertyValue v vs key value uc ptype label desc = (.error .valueUnsupported, vs')) :
    ∀ k, getPropertyValue v vs' k = getPropertyValue v vs k := by
  obtain ⟨p, ty, hcase, e1, e2, e3, e4, e5⟩ := setPropertyValue_shape hv h key value uc ptype label desc
  rw [hs] at e1 e2 e3 e4 e5
  simp only at e1 e2 e3 e4 e5
  obtain ⟨s1, s2, s3, s4, s5, s6, s7, s8, s9, s10, s11, s12⟩ := editProp_spec v p value uc ty label desc
  obtain ⟨n1, n2, n3, n4, n5, n6, n7, n8, n9⟩ := prop_names v
  have hg := get_of_propIs hv e2
  have h6 := s6 e1.symm
  intro k
  by_cases hk : k = key
  · subst hk
    rw [hg, h6]
    rcases hcase with ⟨hp, rfl⟩ | ⟨hn, rfl, rfl⟩
    · rw [get_of_propIs hv hp]
    · rw [new_get v k _ (Ne.symm n1), get_of_noProp hv h hn]
  · exact get_other hv h e5 (e3 k hk) (e4 k hk)

/-- **C42 (what is accepted).** A value for an existing property is accepted exactly if it has a form the
(new or declared) type allows whose length the qualifiers allow; otherwise ValueUnsupportedError is raised. -/
theorem C42_accepts {v : Ver} (hv : v ≠ .v0) {vs p : Elem} (h : PropsWF v vs) (key x : Str) (hp : PropIs v vs key p)
    (uc : Option Bool) (ptype : Option Str) :
    (∀ w, Converts (ptype.getD (typeOf v p)) x w → LengthAllowed (qualOf v p) w.length →
      (setPropertyValue v vs key (some x) uc ptype none none).1 = .ok (some w)) ∧
    ((¬ ∃ w, Converts (ptype.getD (typeOf v p)) x w ∧ LengthAllowed (qualOf v p) w.length) →
      (setPropertyValue v vs key (some x) uc ptype none none).1 = .error .valueUnsupported) := by
  obtain ⟨p', ty, hcase, e1, e2, e3, e4, e5⟩ := setPropertyValue_shape hv h key (some x) uc ptype none none
  have hcase' : p' = p ∧ ty = ptype := by
    rcases hcase with ⟨hp', rfl⟩ | ⟨hn, -, -⟩
    · exact ⟨propIs_unique hp' hp, rfl⟩
    · have h1 := get_of_noProp hv h hn
      obtain ⟨sec, a1, a2⟩ := (propIs_iff hv).1 hp
      have := (noProp_iff hv).1 hn sec (by rw [a1]; simp)
      rw [a2] at this
      cases this
  obtain ⟨rfl, rfl⟩ := hcase'
  obtain ⟨s1, s2, s3, s4, s5, s6, s7, s8, s9, s10, s11, s12⟩ := editProp_spec v p' (some x) uc ty none none
  rw [e1]
  have hT : (ty.or (p'.get (propType v))).getD [] = ty.getD (typeOf v p') := by
    cases ty <;> rfl
  rw [hT] at s8 s9
  constructor
  · intro w hc hl
    rcases s8 x w rfl hc hl with h | h
    · exact h
    · exact absurd h (s10 rfl rfl)
  · intro hno
    exact s9 x rfl (fun w hw => hno ⟨w, hw⟩)

/-- One call of `set_property_value` that either does not change the declared type or succeeds. -/
def SetStep (v : Ver) (vs vs' : Elem) : Prop :=
  ∃ key value uc ptype label desc, (setPropertyValue v vs key value uc ptype label desc).2 = vs' ∧
    (ptype = none ∨ ∃ o, (setPropertyValue v vs key value uc ptype label desc).1 = .ok o)

/-- any number of such calls -/
inductive SetSteps (v : Ver) : Elem → Elem → Prop
  | refl (vs) : SetSteps v vs vs
  | step {a b c} : SetSteps v a b → SetStep v b c → SetSteps v a c

theorem setStep_obey {v : Ver} (hv : v ≠ .v0) {vs vs' : Elem} (h : PropsWF v vs) (ho : AllObey v vs) (hs : SetStep v vs vs') :
    PropsWF v vs' ∧ AllObey v vs' := by
  obtain ⟨key, value, uc, ptype, label, desc, rfl, hcond⟩ := hs
  obtain ⟨p, ty, hcase, e1, e2, e3, e4, e5⟩ := setPropertyValue_shape hv h key value uc ptype label desc
  refine ⟨e5, ?_⟩
  obtain ⟨s1, s2, s3, s4, s5, s6, s7, s8, s9, s10, s11, s12⟩ := editProp_spec v p value uc ty label desc
  obtain ⟨n1, n2, n3, n4, n5, n6, n7, n8, n9⟩ := prop_names v
  intro k q w hq hw
  by_cases hk : k = key
  · subst hk
    have := propIs_unique hq e2
    subst this
    have hT : typeOf v (editProp v p value uc ty label desc).2 = (ty.or (p.get (propType v))).getD [] := by rw [← s4]; rfl
    have hQ : qualOf v (editProp v p value uc ty label desc).2 = (p.get (propQual v)).getD [] := by rw [← s3]; rfl
    rw [hT, hQ]
    -- the old value, if it stays, obeys
    have hold : p.get (propValue v) = some w → ty = none → Obeys ((ty.or (p.get (propType v))).getD []) ((p.get (propQual v)).getD []) w := by
      intro h1 h2
      subst h2
      rcases hcase with ⟨hp, -⟩ | ⟨-, rfl, -⟩
      · exact ho k p w hp h1
      · rw [new_get v k _ (Ne.symm n1)] at h1; cases h1
    cases hvs : valueToSet v p value ty with
    | none =>
      have h1 : p.get (propValue v) = some w := by rw [← s11 hvs]; exact hw
      cases hty : ty with
      | none => rw [← hty]; exact hold h1 hty
      | some t =>
        exfalso
        unfold valueToSet at hvs
        rw [hty] at hvs
        cases value with
        | none => simp only at hvs; rw [h1] at hvs; cases hvs
        | some x => cases hvs
    | some x =>
      by_cases herr : (editProp v p value uc ty label desc).1 = .error .valueUnsupported
      · have h1 : p.get (propValue v) = some w := by rw [← s6 herr]; exact hw
        rcases hcond with hpt | ⟨o, hok⟩
        · rcases hcase with ⟨hp, hty⟩ | ⟨-, rfl, -⟩
          · exact hold h1 (hty.trans hpt)
          · rw [new_get v k _ (Ne.symm n1)] at h1; cases h1
        · rw [e1, herr] at hok; cases hok
      · obtain ⟨w', a1, a2, a3⟩ := s12 x hvs herr
        have : w' = w := by
          have h2 : (editProp v p value uc ty label desc).2.get (propValue v) = some w := hw
          rw [a1] at h2; exact Option.some.inj h2
        subst this
        exact converts_obeys a2 a3
  · exact ho k q w ((e3 k hk q).1 hq) hw

/-- **C42 (histories).** If all values obey their declared types and qualifiers, they still do after any
sequence of calls of `set_property_value`, successful or not, in which a call that changes the type succeeds. -/
theorem C42_history_partial {v : Ver} (hv : v ≠ .v0) {vs vs' : Elem} (h : PropsWF v vs) (ho : AllObey v vs)
    (hs : SetSteps v vs vs') : PropsWF v vs' ∧ AllObey v vs' := by
  induction hs with
  | refl => exact ⟨h, ho⟩
  | step _ hstep ih => exact setStep_obey hv ih.1 ih.2 hstep

/-- a VirtualSystem with one property, "login" = "abc", of type string -/
def exVs : Elem :=
  .mk (virtualSystemTag .v1) [] none none
    [.mk (ovfTag .v1 "ProductSection".toList) [] none none
      [.mk (ovfTag .v1 "Info".toList) [] (some "Product Information".toList) none [],
       .mk (ovfTag .v1 "Property".toList)
        [(ovfTag .v1 "key".toList, "login".toList), (ovfTag .v1 "type".toList, "string".toList),
         (ovfTag .v1 "qualifiers".toList, "MinLen(2) MaxLen(4)".toList), (ovfTag .v1 "value".toList, "abc".toList)] none none []]]

/-- The full statement of C42 fails for a refused change of type: the new type is stored although the
existing value is not a value of it. -/
theorem C42_type_kept_fails :
    (setPropertyValue .v1 exVs "login".toList none none (some "boolean".toList) none none).1 = .error .valueUnsupported ∧
    (findAllChildren ((findAllChildren (setPropertyValue .v1 exVs "login".toList none none (some "boolean".toList) none none).2
        (productSection .v1) []).headD (.new [])) (propertyTag .v1) []).map
      (fun p => (p.get (propType .v1), p.get (propValue .v1))) = [(some "boolean".toList, some "abc".toList)] := by
  constructor
  · rfl
  · decide +kernel

end Cot
