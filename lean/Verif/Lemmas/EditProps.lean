import Verif.Props.EnvProps
import Verif.Props.EditProduct
import Verif.Spec.EditProperties
/-
Lemmas about single steps of edit-properties.
-/
namespace Cot

theorem setOrMake_kids {p q : Elem} {t x : Str} {o : List Str} (h : setOrMakeChild p t (some x) [] o = .ok q) :
    (kids p t).length ≤ 1 := by
  unfold setOrMakeChild findChild at h
  rw [findAll_nil] at h
  match hk : kids p t with
  | [] => simp
  | [_] => simp
  | a :: b :: r => rw [hk] at h; simp at h

theorem childOpt_spec {p q : Elem} {t : Str} {x : Option Str} (h : childOpt p t x = .ok q) :
    SameButKids t p q ∧ (∀ l, x = some l → TextIs q t (some l)) ∧ (x = none → q = p) := by
  cases x with
  | none => cases h; exact ⟨sameButKids_refl _ _, by simp, fun _ => rfl⟩
  | some l =>
    obtain ⟨p', c, h1, h2, h3, h4, h5, -⟩ := setText_spec (x := l) (o := []) (setOrMake_kids h)
    have : setOrMakeChild p t (some l) [] [] = .ok q := h
    rw [this] at h1
    cases h1
    exact ⟨h2, fun l' hl' => (by cases hl'; exact h5), by simp⟩

theorem childOpt_ok {p : Elem} {t : Str} (x : Option Str) (h : (kids p t).length ≤ 1) : ∃ q, childOpt p t x = .ok q := by
  cases x with
  | none => exact ⟨p, rfl⟩
  | some l =>
    obtain ⟨p', c, h1, -⟩ := setText_spec (x := l) (o := []) h
    exact ⟨p', h1⟩

theorem label_ne_desc (v : Ver) : propLabel v ≠ propDesc v := by
  intro h; exact absurd (ovfTag_inj.1 h) (by decide)

/-- the effect of setting label and description -/
theorem labelProp_spec {v : Ver} {p p' : Elem} {label desc r o : Option Str} (h : labelProp v p label desc r = (.ok o, p')) :
    o = r ∧ p'.tag = p.tag ∧ p'.text = p.text ∧ p'.tail = p.tail ∧ (∀ a, p'.get a = p.get a) ∧
    (∀ l, label = some l → TextIs p' (propLabel v) (some l)) ∧ (label = none → kids p' (propLabel v) = kids p (propLabel v)) ∧
    (∀ d, desc = some d → TextIs p' (propDesc v) (some d)) ∧ (desc = none → kids p' (propDesc v) = kids p (propDesc v)) ∧
    p'.children.filter (fun c => c.tag ≠ propLabel v ∧ c.tag ≠ propDesc v) =
      p.children.filter (fun c => c.tag ≠ propLabel v ∧ c.tag ≠ propDesc v) := by
  unfold labelProp at h
  cases h1 : childOpt p (propLabel v) label with
  | error e => rw [h1] at h; cases h
  | ok p1 =>
    rw [h1] at h
    simp only at h
    cases h2 : childOpt p1 (propDesc v) desc with
    | error e => rw [h2] at h; cases h
    | ok p2 =>
      rw [h2] at h
      cases h
      obtain ⟨a1, a2, a3⟩ := childOpt_spec h1
      obtain ⟨b1, b2, b3⟩ := childOpt_spec h2
      have hk : kids p' (propLabel v) = kids p1 (propLabel v) := b1.kids (label_ne_desc v)
      refine ⟨rfl, b1.1.trans a1.1, b1.2.2.1.trans a1.2.2.1, b1.2.2.2.1.trans a1.2.2.2.1,
        fun a => (b1.get a).trans (a1.get a), ?_, ?_, b2, ?_, ?_⟩
      · intro l hl
        have := a2 l hl
        unfold TextIs at this ⊢
        rw [hk]; exact this
      · intro hl; rw [hk, a3 hl]
      · intro hd; rw [b3 hd]; exact a1.kids (Ne.symm (label_ne_desc v))
      · have e1 : ∀ l : List Elem, l.filter (fun c => decide (c.tag ≠ propLabel v ∧ c.tag ≠ propDesc v)) =
            (l.filter (fun c => decide (c.tag ≠ propDesc v))).filter (fun c => decide (c.tag ≠ propLabel v)) := by
          intro l; rw [List.filter_filter]; congr 1; funext c; simp
        have e2 : ∀ l : List Elem, l.filter (fun c => decide (c.tag ≠ propLabel v ∧ c.tag ≠ propDesc v)) =
            (l.filter (fun c => decide (c.tag ≠ propLabel v))).filter (fun c => decide (c.tag ≠ propDesc v)) := by
          intro l; rw [List.filter_filter]; congr 1; funext c; simp [Bool.and_comm]
        rw [e1, b1.2.2.2.2, ← e1, e2, a1.2.2.2.2, ← e2]

theorem setOpt_rest (e : Elem) (n : Str) (x : Option Str) :
    (setOpt e n x).text = e.text ∧ (setOpt e n x).tail = e.tail ∧ (setOpt e n x).children = e.children := by
  cases x with
  | none => exact ⟨rfl, rfl, rfl⟩
  | some s => exact ⟨set_text' _ _ _, set_tail' _ _ _, set_children _ _ _⟩

/-- everything about a successful edit of a Property element -/
theorem editProp_change {v : Ver} {p p' : Elem} {value : Option Str} {uc : Option Bool} {ptype label desc o : Option Str}
    (h : editProp v p value uc ptype label desc = (.ok o, p')) :
    p'.tag = p.tag ∧ p'.text = p.text ∧ p'.tail = p.tail ∧
    p'.get (propType v) = ptype.or (p.get (propType v)) ∧
    p'.get (propUserConf v) = (uc.map boolStr).or (p.get (propUserConf v)) ∧
    (∀ a, a ≠ propType v → a ≠ propUserConf v → a ≠ propValue v → p'.get a = p.get a) ∧
    (∀ x, valueToSet v p value ptype = some x → ∃ w, p'.get (propValue v) = some w ∧ Converts (typeOf v p') x w ∧
      LengthAllowed (qualOf v p') w.length) ∧
    (valueToSet v p value ptype = none → p'.get (propValue v) = p.get (propValue v)) ∧
    (∀ l, label = some l → TextIs p' (propLabel v) (some l)) ∧ (label = none → kids p' (propLabel v) = kids p (propLabel v)) ∧
    (∀ d, desc = some d → TextIs p' (propDesc v) (some d)) ∧ (desc = none → kids p' (propDesc v) = kids p (propDesc v)) ∧
    p'.children.filter (fun c => c.tag ≠ propLabel v ∧ c.tag ≠ propDesc v) =
      p.children.filter (fun c => c.tag ≠ propLabel v ∧ c.tag ≠ propDesc v) := by
  obtain ⟨n1, n2, n3, n4, n5, n6, n7, n8, n9⟩ := prop_names v
  obtain ⟨s1, s2, s3, s4, s5, s6, s7, s8, s9, s10, s11, s12⟩ := editProp_spec v p value uc ptype label desc
  rw [h] at s1 s2 s3 s4 s5 s6 s7 s8 s9 s10 s11 s12
  simp only at s1 s2 s3 s4 s7 s11
  obtain ⟨t1, t2⟩ := s7 o rfl
  -- the element on which label and description are set
  have hex : ∃ q, labelProp v q label desc o = (.ok o, p') ∧ q.text = p.text ∧ q.tail = p.tail ∧ q.children = p.children ∧
      (∀ a, a ≠ propType v → a ≠ propValue v → q.get a = (setOpt p (propUserConf v) (uc.map boolStr)).get a) := by
    obtain ⟨r1, r2, r3⟩ := setOpt_rest p (propUserConf v) (uc.map boolStr)
    obtain ⟨q1, q2, q3⟩ := setOpt_rest (setOpt p (propUserConf v) (uc.map boolStr)) (propType v) ptype
    unfold editProp at h
    simp only at h
    split at h
    · obtain ⟨l1, -⟩ := labelProp_spec h
      refine ⟨_, l1 ▸ h, q1.trans r1, q2.trans r2, q3.trans r3, ?_⟩
      intro a ha _
      rw [setOpt_get, if_neg (Ne.symm ha)]
    · split at h
      · cases h
      · obtain ⟨l1, -⟩ := labelProp_spec h
        refine ⟨_, by rw [l1] at h ⊢; exact h, (set_text' _ _ _).trans (q1.trans r1), (set_tail' _ _ _).trans (q2.trans r2),
          (set_children _ _ _).trans (q3.trans r3), ?_⟩
        intro a ha hb
        rw [set_get, if_neg (Ne.symm hb), setOpt_get, if_neg (Ne.symm ha)]
  obtain ⟨q, hq, q1, q2, q3, q4⟩ := hex
  obtain ⟨-, l1, l2, l3, l4, l5, l6, l7, l8, l9⟩ := labelProp_spec hq
  have hkq : ∀ t, kids q t = kids p t := fun t => by unfold kids; rw [q3]
  have hT : typeOf v p' = (ptype.or (p.get (propType v))).getD [] := by rw [← s4]; rfl
  have hQ : qualOf v p' = (p.get (propQual v)).getD [] := by rw [← s3]; rfl
  refine ⟨s1, l2.trans q1, l3.trans q2, s4, ?_, ?_, ?_, ?_, l5, ?_, l7, ?_, by rw [l9, q3]⟩
  · rw [l4, q4 _ (Ne.symm n9) (Ne.symm n5), setOpt_get, if_pos rfl]
  · intro a h1 h2 h3
    rw [l4, q4 _ h1 h3, setOpt_get, if_neg (Ne.symm h2)]
  · intro x hx
    obtain ⟨w, a1, a2, a3, a4⟩ := t2 x hx
    exact ⟨w, a2, by rw [hT]; exact a3, by rw [hQ]; exact a4⟩
  · intro hx; exact (t1 hx).2
  · intro hl; rw [l6 hl, hkq]
  · intro hd; rw [l8 hd, hkq]

/-- an entry that can be stored is stored -/
theorem editProp_succeeds {v : Ver} {p : Elem} {value : Option Str} {uc : Option Bool} {ptype label desc : Option Str}
    (hval : ∀ x, valueToSet v p value ptype = some x → ∃ w, Converts ((ptype.or (p.get (propType v))).getD []) x w ∧
      LengthAllowed ((p.get (propQual v)).getD []) w.length)
    (hl : (kids p (propLabel v)).length ≤ 1) (hd : (kids p (propDesc v)).length ≤ 1) :
    ∃ o, (editProp v p value uc ptype label desc).1 = .ok o := by
  obtain ⟨n1, n2, n3, n4, n5, n6, n7, n8, n9⟩ := prop_names v
  have hlab : ∀ q r, q.children = p.children → (labelProp v q label desc r).1 = .ok r := by
    intro q r hq
    have hkq : ∀ t, kids q t = kids p t := fun t => by unfold kids; rw [hq]
    obtain ⟨q1, e1⟩ := childOpt_ok (p := q) (t := propLabel v) label (by rw [hkq]; exact hl)
    obtain ⟨a1, -, -⟩ := childOpt_spec e1
    obtain ⟨q2, e2⟩ := childOpt_ok (p := q1) (t := propDesc v) desc
      (by rw [a1.kids (Ne.symm (label_ne_desc v)), hkq]; exact hd)
    unfold labelProp
    rw [e1]; simp only; rw [e2]
  obtain ⟨r1, r2, r3⟩ := setOpt_rest p (propUserConf v) (uc.map boolStr)
  obtain ⟨q1, q2, q3⟩ := setOpt_rest (setOpt p (propUserConf v) (uc.map boolStr)) (propType v) ptype
  have g : ∀ k, k ≠ propType v → k ≠ propUserConf v →
      (setOpt (setOpt p (propUserConf v) (uc.map boolStr)) (propType v) ptype).get k = p.get k := by
    intro k h1 h2
    rw [setOpt_get, if_neg (Ne.symm h1), setOpt_get, if_neg (Ne.symm h2)]
  have gt : (setOpt (setOpt p (propUserConf v) (uc.map boolStr)) (propType v) ptype).get (propType v) =
      ptype.or (p.get (propType v)) := by
    rw [setOpt_get, if_pos rfl, setOpt_get, if_neg (Ne.symm n9)]
  unfold editProp
  simp only
  generalize hp1 : setOpt (setOpt p (propUserConf v) (uc.map boolStr)) (propType v) ptype = p1 at *
  have hv' : valueToSet v p1 value ptype = valueToSet v p value ptype := by
    unfold valueToSet; rw [g _ n4 n5]
  rw [hv']
  cases hvs : valueToSet v p value ptype with
  | none => exact ⟨none, hlab _ _ (q3.trans r3)⟩
  | some x =>
    obtain ⟨w, h1, h2⟩ := hval x hvs
    rw [← gt] at h1
    rw [← g _ n7 n8] at h2
    simp only
    rw [propValidate_iff.1.2 ⟨h1, h2⟩]
    exact ⟨some w, hlab _ _ ((set_children _ _ _).trans (q3.trans r3))⟩

theorem baseProp_new (v : Ver) (key : Str) : (Elem.new (propertyTag v)).set (propKey v) key = baseProp v key none := rfl

/-- The effect of `set_property_value` for one entry, as specified. -/
theorem set_change {v : Ver} (hv : v ≠ .v0) {vs vs' : Elem} (h : PropsWF v vs) (e : PropEntry) (uc : Option Bool) {r : Option Str}
    (hs : setPropertyValue v vs e.key e.value uc e.ptype e.label e.desc = (.ok r, vs')) :
    PropsWF v vs' ∧ (∃ o p', PropState v vs e.key o ∧ PropState v vs' e.key (some p') ∧ OneChange v uc e o p') ∧
    (∀ k, k ≠ e.key → ∀ o, PropState v vs' k o ↔ PropState v vs k o) := by
  obtain ⟨p, ty, hcase, e1, e2, e3, e4, e5⟩ := setPropertyValue_shape hv h e.key e.value uc e.ptype e.label e.desc
  rw [hs] at e1 e2 e3 e4 e5
  simp only at e1 e2 e3 e4 e5
  obtain ⟨n1, n2, n3, n4, n5, n6, n7, n8, n9⟩ := prop_names v
  cases hp' : editProp v p e.value uc ty e.label e.desc with
  | mk a p' =>
  rw [hp'] at e1 e2
  simp only at e1 e2
  subst e1
  obtain ⟨c1, c2, c3, c4, c5, c6, c7, c8, c9, c10, c11, c12, c13⟩ := editProp_change hp'
  have hobey : ∀ {x w}, Converts (typeOf v p') x w → LengthAllowed (qualOf v p') w.length → Obeys (typeOf v p') (qualOf v p') w :=
    fun a b => converts_obeys a b
  refine ⟨e5, ?_, ?_⟩
  · rcases hcase with ⟨hp, rfl⟩ | ⟨hn, rfl, rfl⟩
    · refine ⟨some p, p', hp, e2, ?_⟩
      refine ⟨?_, ?_, ?_, ?_, ?_, c6, ⟨c9, c10⟩, ⟨c11, c12⟩, ⟨c1, c2, c3, c13⟩⟩
      · rw [if_neg (by simp)]; exact c4
      · refine c5.trans ?_
        rcases uc with _ | _ | _ <;> rfl
      · intro x hx
        obtain ⟨w, a1, a2, a3⟩ := c7 x (by unfold valueToSet; rw [hx])
        exact ⟨w, a1, a2, hobey a2 a3⟩
      · intro hx ht x hv0
        obtain ⟨w, a1, a2, a3⟩ := c7 x (by
          unfold valueToSet; rw [hx]
          cases hty : e.ptype with
          | none => exact absurd hty ht
          | some t => exact hv0)
        exact ⟨w, a1, a2, hobey a2 a3⟩
      · intro hx ht
        apply c8
        unfold valueToSet; rw [hx]
        rcases ht with ht | ht
        · rw [ht]
        · cases hty : e.ptype with
          | none => rfl
          | some t => exact ht
    · refine ⟨none, p', hn, e2, ?_⟩
      rw [baseProp_new] at *
      have hbv : (baseProp v e.key none).get (propValue v) = none := by
        rw [← baseProp_new]; exact new_get v e.key _ (Ne.symm n1)
      have hbt : (baseProp v e.key none).get (propType v) = none := by
        rw [← baseProp_new]; exact new_get v e.key _ (Ne.symm n2)
      refine ⟨?_, ?_, ?_, ?_, ?_, c6, ⟨c9, c10⟩, ⟨c11, c12⟩, ⟨c1, c2, c3, c13⟩⟩
      · rw [hbt] at c4
        refine c4.trans ?_
        cases e.ptype <;> rfl
      · refine c5.trans ?_
        rcases uc with _ | _ | _ <;> rfl
      · intro x hx
        obtain ⟨w, a1, a2, a3⟩ := c7 x (by unfold valueToSet; rw [hx])
        exact ⟨w, a1, a2, hobey a2 a3⟩
      · intro hx ht x hv0
        have : (baseProp v e.key none).get (propValue v) = some x := hv0
        rw [hbv] at this; cases this
      · intro hx ht
        apply c8
        unfold valueToSet; rw [hx]
        cases newType e.ptype with
        | none => rfl
        | some t => exact hbv
  · intro k hk o
    cases o with
    | none => exact e4 k hk
    | some q => exact e3 k hk q

/-! ### what else is in the document -/

theorem kids_productSection {v : Ver} (hv : v ≠ .v0) (vs : Elem) :
    findAllChildren vs (productSection v) [] = kids vs (ovfTag v "ProductSection".toList) := by
  rw [findAll_nil, productSection_eq hv]

theorem findAll_key (s : Elem) (t a x : Str) : findAllChildren s t [(a, x)] = named s t a x := by
  rw [findAll_named]

theorem propState_section {v : Ver} (hv : v ≠ .v0) {vs s : Elem} (hb : BaseSection v vs s) (key : Str) :
    (NoProp v vs key ↔ named s (propertyTag v) (propKey v) key = []) ∧
    ∀ p, PropIs v vs key p ↔ named s (propertyTag v) (propKey v) key = [p] := by
  simp only [noProp_iff hv, propIs_iff hv, kids_productSection hv, findAll_key]
  rcases hb with a | ⟨a, rfl⟩
  · rw [a]; simp
  · rw [a]
    have : named (Elem.mk (ovfTag v "ProductSection".toList) [] none none
        [.mk (ovfTag v "Info".toList) [] (some "Product Information".toList) none []]) (propertyTag v) (propKey v) key = [] := by
      unfold named
      rw [List.filter_eq_nil_iff]
      intro c hc
      have hc' : c ∈ [Elem.mk (ovfTag v "Info".toList) [] (some "Product Information".toList) none []] := hc
      rw [List.mem_singleton] at hc'
      subst hc'
      rw [decide_eq_true_iff]
      rintro ⟨h1, -⟩
      exact absurd (ovfTag_inj.1 (show ovfTag v "Info".toList = ovfTag v "Property".toList from h1)) (by decide)
    rw [this]; simp

theorem updateFirst_const {p s : Elem} {t : Str} {f : Elem → Elem} (h : kids p t = [s]) :
    updateFirst p t [] f = updateFirst p t [] (fun _ => f s) := by
  have h' : findAllChildren p t [] = [s] := by rw [findAll_nil]; exact h
  obtain ⟨pre, post, e, h1, h2, h3⟩ := filter_one_split h'
  unfold updateFirst
  rw [e, mapFirst_split h2 h1, mapFirst_split h2 h1]

theorem ensure_base' {v : Ver} {vs : Elem} (h : (kids vs (ovfTag v "ProductSection".toList)).length ≤ 1) :
    ∃ vs1 s, ensureSection v vs (ovfTag v "ProductSection".toList) [] "Product Information".toList = .ok vs1 ∧
      kids vs1 (ovfTag v "ProductSection".toList) = [s] ∧ SameButKids (ovfTag v "ProductSection".toList) vs vs1 ∧
      BaseSection v vs s := by
  obtain ⟨vs1, s, e1, e2, e3, e4⟩ := ensure_spec (v := v) "Product Information".toList h
  refine ⟨vs1, s, e1, e2, e3, ?_⟩
  rcases e4 with ⟨a, -⟩ | ⟨a, b⟩
  · exact Or.inl a
  · exact Or.inr ⟨a, b.trans (newSection_base v)⟩

theorem wf_section {v : Ver} {vs : Elem} (h : PropsWF v vs) : (kids vs (ovfTag v "ProductSection".toList)).length ≤ 1 := h.1

/-- What `set_property_value` leaves alone: all but the product section, and in it all but the properties; the order
of the properties stays and a new one comes last. -/
theorem setPropertyValue_frame {v : Ver} (hv : v ≠ .v0) {vs : Elem} (h : PropsWF v vs) (key : Str) (value : Option Str)
    (uc : Option Bool) (ptype label desc : Option Str) :
    ∃ new, (NoProp v vs key ∧ new = [key] ∨ (∃ p, PropIs v vs key p) ∧ new = []) ∧
      OnlyProps v new vs (setPropertyValue v vs key value uc ptype label desc).2 := by
  obtain ⟨vs1, s, e1, e2, e3, e4⟩ := ensure_base' (wf_section h)
  have hst : s.tag = ovfTag v "ProductSection".toList := kids_tag (by rw [e2]; simp)
  obtain ⟨hN, hP⟩ := propState_section hv e4 key
  unfold setPropertyValue
  rw [if_neg hv, sectionAttrib_nil hv, productSection_eq hv, e1]
  simp only
  rw [findChild_kids e2]
  simp only
  rcases h.2 key with hn | ⟨p, hp⟩
  · refine ⟨[key], Or.inl ⟨hn, rfl⟩, ?_⟩
    rw [findChild_none.2 ((findAll_key _ _ _ _).trans (hN.1 hn))]
    simp only
    obtain ⟨s1, s2, -⟩ := editProp_spec v ((Elem.new (propertyTag v)).set (propKey v) key) value uc (newType ptype) label desc
    generalize (editProp v ((Elem.new (propertyTag v)).set (propKey v) key) value uc (newType ptype) label desc).2 = q at *
    obtain ⟨a1, a2, a3, a4⟩ := named_append (s := s) (n := q) (t := propertyTag v) (a := propKey v) (x := key) (hN.1 hn)
      (s1.trans (set_tag _ _ _)) (s2.trans (by rw [set_get, if_pos rfl]))
    have hu := updateFirst_spec e2 (s' := s.setChildren (s.children ++ [q])) ((setChildren_tag _ _).trans hst)
    have hfun : updateFirst vs1 (ovfTag v "ProductSection".toList) [] (fun s => s.setChildren (s.children ++ [q])) =
        updateFirst vs1 (ovfTag v "ProductSection".toList) [] (fun _ => s.setChildren (s.children ++ [q])) :=
      updateFirst_const e2
    rw [hfun]
    refine ⟨e3.trans hu.2, Or.inr ⟨s, _, e4, hu.1, a3, ?_⟩⟩
    unfold propKeys
    have a4' : kids (s.setChildren (s.children ++ [q])) (ovfTag v "Property".toList) = kids s (ovfTag v "Property".toList) ++ [q] := a4
    rw [a4', List.map_append]
    have : q.get (ovfTag v "key".toList) = some key := s2.trans (by rw [set_get, if_pos rfl])
    rw [List.map_cons, List.map_nil, this]; rfl
  · refine ⟨[], Or.inr ⟨⟨p, hp⟩, rfl⟩, ?_⟩
    have hnm := (hP p).1 hp
    rw [findChild_some.2 ((findAll_key _ _ _ _).trans hnm)]
    simp only
    have hpm : p ∈ named s (propertyTag v) (propKey v) key := by rw [hnm]; simp
    have hpm' : p.tag = propertyTag v ∧ p.get (propKey v) = some key := by
      have := (List.mem_filter.1 hpm).2
      simpa using this
    obtain ⟨s1, s2, -⟩ := editProp_spec v p value uc ptype label desc
    generalize (editProp v p value uc ptype label desc).2 = q at *
    obtain ⟨a1, a2, a3, a4⟩ := named_update (s := s) (n := p) (n' := q) (t := propertyTag v) (a := propKey v) (x := key) hnm
      (s1.trans hpm'.1) (s2.trans hpm'.2)
    have hu := updateFirst_spec e2 (s' := updateFirst s (propertyTag v) [(propKey v, key)] (fun _ => q))
      ((updateFirst_tag _ _ _ _).trans hst)
    have hfun : updateFirst vs1 (ovfTag v "ProductSection".toList) []
          (fun s => updateFirst s (propertyTag v) [(propKey v, key)] (fun _ => q)) =
        updateFirst vs1 (ovfTag v "ProductSection".toList) []
          (fun _ => updateFirst s (propertyTag v) [(propKey v, key)] (fun _ => q)) :=
      updateFirst_const (f := fun s => updateFirst s (propertyTag v) [(propKey v, key)] (fun _ => q)) e2
    rw [hfun]
    refine ⟨e3.trans hu.2, Or.inr ⟨s, _, e4, hu.1, a3, ?_⟩⟩
    unfold propKeys
    rw [List.map_nil, List.append_nil]
    exact a4 (fun p => p.get (ovfTag v "key".toList)) s2

theorem OnlyProps.trans {v : Ver} {n m : List Str} {a b c : Elem} (h : OnlyProps v n a b) (h' : OnlyProps v m b c) :
    OnlyProps v (n ++ m) a c := by
  refine ⟨h.1.trans h'.1, ?_⟩
  rcases h.2 with ⟨rfl, rfl⟩ | ⟨s, s', h1, h2, h3, h4⟩
  · exact h'.2
  · right
    rcases h'.2 with ⟨rfl, rfl⟩ | ⟨t, t', g1, g2, g3, g4⟩
    · exact ⟨s, s', h1, h2, h3, by simpa using h4⟩
    · rcases g1 with g1 | ⟨g1, -⟩
      · rw [h2] at g1
        cases g1
        exact ⟨s, t', h1, g2, h3.trans g3, by rw [g4, h4]; simp⟩
      · rw [h2] at g1; cases g1

end Cot
