import Verif.Props.EditProduct
import Verif.Props.EditProperties
import Verif.Lemmas.ItemOps
/-
C117: running the same edit-product or edit-properties command again changes nothing.
-/
namespace Cot

/-! ### elements -/

theorem set_self {e : Elem} {k x : Str} (h : e.get k = some x) : e.set k x = e := by
  cases e with
  | mk t a y l c => show Elem.mk t (dset a k x) y l c = _; rw [dset_self (show dget? a k = some x from h)]

theorem setText_self {e : Elem} {x : Option Str} (h : e.text = x) : e.setText x = e := by
  cases e with
  | mk t a y l c => subst h; rfl

theorem setChildren_self {e : Elem} : e.setChildren e.children = e := by cases e; rfl

theorem mapFirst_self {p : Elem → Bool} {f : Elem → Elem} : ∀ {cs : List Elem}, (∀ e ∈ cs, p e = true → f e = e) → mapFirst p f cs = cs
  | [], _ => rfl
  | e :: r, h => by
    unfold mapFirst
    split
    · rename_i hp; rw [h e (by simp) hp]
    · rw [mapFirst_self (fun x hx => h x (by simp [hx]))]

/-- replacing the only match by itself changes nothing -/
theorem updateFirst_self {p s : Elem} {t : Str} {a : List (Str × Str)} (h : findAllChildren p t a = [s]) :
    updateFirst p t a (fun _ => s) = p := by
  unfold updateFirst
  rw [mapFirst_self, setChildren_self]
  intro e he hm
  have : e ∈ findAllChildren p t a := List.mem_filter.2 ⟨he, hm⟩
  rw [h, List.mem_singleton] at this
  exact this.symm

theorem setOrMakeChild_self {p c : Elem} {t x : Str} {o : List Str} (h : kids p t = [c]) (hx : c.text = some x) :
    setOrMakeChild p t (some x) [] o = .ok p := by
  unfold setOrMakeChild
  rw [findChild_kids h]
  simp only
  rw [mapFirst_self, setChildren_self]
  intro e he hm
  have : e ∈ findAllChildren p t [] := List.mem_filter.2 ⟨he, hm⟩
  rw [findAll_nil, h, List.mem_singleton] at this
  subst this
  exact setText_self hx

theorem setOrMakeChild_atMostOne {p p' : Elem} {t : Str} {x : Option Str} {o : List Str} (h : setOrMakeChild p t x [] o = .ok p') :
    (kids p t).length ≤ 1 := by
  unfold setOrMakeChild findChild at h
  rw [findAll_nil] at h
  match hk : kids p t with
  | [] => simp
  | [_] => simp
  | _ :: _ :: _ => rw [hk] at h; cases h

/-- what setting the text of a child does, from its success -/
theorem setOrMakeChild_after {p p' : Elem} {t x : Str} (h : setOrMakeChild p t (some x) [] [] = .ok p') :
    SameButKids t p p' ∧ ∃ c, kids p' t = [c] ∧ c.text = some x := by
  obtain ⟨p2, c, h1, h2, h3, h4, -⟩ := setText_spec (x := x) (o := []) (setOrMakeChild_atMostOne h)
  rw [h] at h1
  cases h1
  exact ⟨h2, c, h3, h4⟩

/-! ### sections -/

/-- after `_ensure_section` there is exactly one such section -/
theorem ensureSection_one {v : Ver} {p p' : Elem} {t : Str} {a : List (Str × Str)} {info : Str}
    (ha : ∀ kv ∈ a, dget? a kv.1 = some kv.2) (h : ensureSection v p t a info = .ok p') :
    ∃ s, findAllChildren p' t a = [s] ∧ ((findAllChildren p t a = [s] ∧ p' = p) ∨
      (findAllChildren p t a = [] ∧ s = newSection v t a info)) := by
  match hk : findAllChildren p t a with
  | [] =>
    rw [ensureSection_none hk] at h
    cases h
    exact ⟨_, findAll_insert hk ⟨rfl, fun kv hkv => ha kv hkv⟩, Or.inr ⟨rfl, rfl⟩⟩
  | [s] =>
    rw [ensureSection_some hk] at h
    cases h
    exact ⟨s, hk, Or.inl ⟨rfl, rfl⟩⟩
  | x :: y :: r =>
    unfold ensureSection findChild at h
    rw [hk] at h
    cases h

theorem sectionAttrib_get (v : Ver) (n : Str) : ∀ kv ∈ sectionAttrib v n, dget? (sectionAttrib v n) kv.1 = some kv.2 := by
  intro kv hkv
  cases v with
  | v0 =>
    have := List.mem_singleton.1 hkv
    subst this
    simp [sectionAttrib, dget?]
  | v1 => cases hkv
  | v2 => cases hkv

/-! ### edit-product -/

/-- the product section of the document -/
def TheProduct (v : Ver) (vs s : Elem) : Prop :=
  findAllChildren vs (sectionTag v "ProductSection".toList) (sectionAttrib v "ProductSection".toList) = [s]

/-- the field has this text already, as far as it is given -/
def FieldSet (v : Ver) (s : Elem) (f : Field) (x : Option Str) : Prop :=
  ∀ y, x = some y → ∃ c, kids s (fieldTag v f) = [c] ∧ c.text = some y

/-- the class is this one already, if one is given -/
def ClassSet (v : Ver) (s : Elem) (x : Option Str) : Prop := ∀ y, x = some y → s.get (productClassAttr v) = some y

theorem prodSec_of {v : Ver} {vs s : Elem} (h : TheProduct v vs s) : prodSec v vs = .ok (some s) := findChild_some.2 h

theorem product_updated {v : Ver} {vs s s' : Elem} (h : TheProduct v vs s) (ht : s'.tag = s.tag) (hg : ∀ kv ∈ sectionAttrib v "ProductSection".toList, s'.get kv.1 = s.get kv.1) :
    TheProduct v (updateFirst vs (sectionTag v "ProductSection".toList) (sectionAttrib v "ProductSection".toList) (fun _ => s')) s' := by
  apply findAll_updateFirst h
  have hm : Matches (sectionTag v "ProductSection".toList) (sectionAttrib v "ProductSection".toList) s := by
    have : s ∈ findAllChildren vs (sectionTag v "ProductSection".toList) (sectionAttrib v "ProductSection".toList) := by
      rw [show _ = [s] from h]; simp
    exact (mem_findAllChildren.1 this).2
  refine ⟨ht.trans hm.1, fun kv hkv => ?_⟩
  rw [hg kv hkv]
  exact hm.2 kv hkv

theorem setField_again {v : Ver} {vs s : Elem} {f : Field} {x : Option Str} (h : TheProduct v vs s) (hf : FieldSet v s f x) :
    setFieldOpt v f x vs = .ok vs := by
  cases x with
  | none => rfl
  | some y =>
    obtain ⟨c, h1, h2⟩ := hf y rfl
    unfold setFieldOpt
    simp only
    unfold setField
    rw [ensureSection_some h]
    simp only
    rw [prodSec_of h]
    simp only
    rw [setOrMakeChild_self h1 h2]
    simp only
    rw [updateFirst_self h]

/-- what one step of edit-product leaves: the fields set before stay, the class stays, and the field is set -/
theorem setField_leaves {v : Ver} {vs vs' : Elem} {f : Field} {x : Option Str} (h : setFieldOpt v f x vs = .ok vs') :
    (x = none ∧ vs' = vs) ∨ (x ≠ none ∧ ∃ s', TheProduct v vs' s' ∧ FieldSet v s' f x ∧
      ∀ s, TheProduct v vs s → (∀ g y, g ≠ f → FieldSet v s g y → FieldSet v s' g y) ∧ (∀ y, ClassSet v s y → ClassSet v s' y)) := by
  cases x with
  | none => cases h; exact Or.inl ⟨rfl, rfl⟩
  | some y =>
    right
    refine ⟨by simp, ?_⟩
    unfold setFieldOpt at h
    simp only at h
    unfold setField at h
    split at h
    · cases h
    · rename_i vs1 he
      obtain ⟨s, hs, hcase⟩ := ensureSection_one (sectionAttrib_get v _) he
      have hs : TheProduct v vs1 s := hs
      rw [prodSec_of hs] at h
      simp only at h
      split at h
      · cases h
      · rename_i s' hset
        cases h
        obtain ⟨hsame, c, hc1, hc2⟩ := setOrMakeChild_after hset
        refine ⟨s', product_updated hs hsame.1 (fun kv _ => hsame.get kv.1), ?_, ?_⟩
        · intro y' hy'
          cases hy'
          exact ⟨c, hc1, hc2⟩
        · intro s0 hs0
          have : s0 = s := by
            rcases hcase with ⟨h1, -⟩ | ⟨h1, -⟩
            · rw [show _ = [s0] from hs0] at h1; cases h1; rfl
            · rw [show _ = [s0] from hs0] at h1; cases h1
          subst this
          refine ⟨?_, ?_⟩
          · intro g z hg hz w hw
            obtain ⟨d, d1, d2⟩ := hz w hw
            refine ⟨d, ?_, d2⟩
            rw [hsame.kids (fun hh => hg (fieldTag_inj hh)), d1]
          · intro z hz w hw
            rw [hsame.get]; exact hz w hw

theorem classAttr_not_section (v : Ver) : ∀ kv ∈ sectionAttrib v "ProductSection".toList, productClassAttr v ≠ kv.1 := by
  intro kv hkv
  cases v with
  | v0 =>
    have := List.mem_singleton.1 hkv
    subst this
    intro hh
    exact absurd (congrArg List.length hh) (by decide +kernel)
  | v1 => cases hkv
  | v2 => cases hkv

theorem setClass_leaves {v : Ver} {vs vs' : Elem} {x : Option Str} (h : setClassOpt v x vs = .ok vs') :
    (x = none ∧ vs' = vs) ∨ (x ≠ none ∧ ∃ s', TheProduct v vs' s' ∧ ClassSet v s' x) := by
  cases x with
  | none => cases h; exact Or.inl ⟨rfl, rfl⟩
  | some c =>
    right
    refine ⟨by simp, ?_⟩
    unfold setClassOpt at h
    simp only at h
    unfold setProductClass at h
    split at h
    · cases h
    · rename_i old hold
      split at h
      · rename_i heq
        cases h
        subst heq
        unfold getProductClass at hold
        split at hold
        · cases hold
        · cases hold
        · rename_i s hs
          refine ⟨s, findChild_some.1 hs, ?_⟩
          intro y hy
          cases hy
          injection hold
      · split at h
        · cases h
        · rename_i vs1 he
          obtain ⟨s, hs, -⟩ := ensureSection_one (sectionAttrib_get v _) he
          have hs : TheProduct v vs1 s := hs
          rw [prodSec_of hs] at h
          simp only at h
          cases h
          refine ⟨_, product_updated hs (set_tag _ _ _) ?_, ?_⟩
          · intro kv hkv
            rw [set_get, if_neg (classAttr_not_section v kv hkv)]
          · intro y hy
            cases hy
            rw [set_get, if_pos rfl]

theorem setClass_again {v : Ver} {vs s : Elem} {x : Option Str} (h : TheProduct v vs s) (hc : ClassSet v s x) :
    setClassOpt v x vs = .ok vs := by
  cases x with
  | none => rfl
  | some c =>
    unfold setClassOpt
    simp only
    unfold setProductClass getProductClass
    rw [prodSec_of h]
    simp only
    rw [hc c rfl, if_pos rfl]

/-- **C117 (edit-product).** Running a successful edit-product command again succeeds and changes nothing at all. -/
theorem C117_product {v : Ver} {q : ProductReq} {vs vs' : Elem} (h : editProduct v q vs = .ok vs') : editProduct v q vs' = .ok vs' := by
  unfold editProduct at h ⊢
  split at h
  · cases h
  · rename_i hr
    rw [if_neg hr]
    obtain ⟨v0, h0, h⟩ := bind_ok_inv h
    obtain ⟨v1, h1, h⟩ := bind_ok_inv h
    obtain ⟨v2, h2, h⟩ := bind_ok_inv h
    obtain ⟨v3, h3, h⟩ := bind_ok_inv h
    obtain ⟨v4, h4, h⟩ := bind_ok_inv h
    obtain ⟨v5, h5, h⟩ := bind_ok_inv h
    obtain ⟨v6, h6, h7⟩ := bind_ok_inv h
    -- what has been set so far is there, and if anything was given there is a section
    let Done : Elem → Option Str → List (Field × Option Str) → Prop := fun vs c l =>
      ((c = none ∧ ∀ a ∈ l, a.2 = none) ∨ ∃ s, TheProduct v vs s ∧ ClassSet v s c ∧ ∀ a ∈ l, FieldSet v s a.1 a.2)
    have step : ∀ {a b : Elem} {c : Option Str} {l : List (Field × Option Str)} {f : Field} {x : Option Str},
        (∀ g ∈ l, g.1 ≠ f) → Done a c l → setFieldOpt v f x a = .ok b → Done b c ((f, x) :: l) := by
      intro a b c l f x hne hd hs
      rcases setField_leaves hs with ⟨rfl, rfl⟩ | ⟨hx, s', p1, p2, p3⟩
      · rcases hd with ⟨d1, d2⟩ | ⟨s, d1, d2, d3⟩
        · refine Or.inl ⟨d1, ?_⟩
          intro g hg
          rcases List.mem_cons.1 hg with rfl | hg
          · rfl
          · exact d2 g hg
        · refine Or.inr ⟨s, d1, d2, ?_⟩
          intro g hg
          rcases List.mem_cons.1 hg with rfl | hg
          · intro y hy; cases hy
          · exact d3 g hg
      · right
        refine ⟨s', p1, ?_, ?_⟩
        · rcases hd with ⟨rfl, d2⟩ | ⟨s, d1, d2, d3⟩
          · intro y hy; cases hy
          · exact (p3 s d1).2 _ d2
        · intro g hg
          rcases List.mem_cons.1 hg with rfl | hg
          · exact p2
          · rcases hd with ⟨rfl, d2⟩ | ⟨s, d1, d2, d3⟩
            · intro y hy; rw [d2 g hg] at hy; cases hy
            · exact (p3 s d1).1 _ _ (hne g hg) (d3 g hg)
    have d0 : Done v0 q.cls [] := by
      rcases setClass_leaves h0 with ⟨hc, -⟩ | ⟨-, s', p1, p2⟩
      · exact Or.inl ⟨hc, by simp⟩
      · exact Or.inr ⟨s', p1, p2, by simp⟩
    have d1 := step (by simp) d0 h1
    have d2 := step (by simp) d1 h2
    have d3 := step (by simp) d2 h3
    have d4 := step (by simp) d3 h4
    have d5 := step (by simp) d4 h5
    have d6 := step (by simp) d5 h6
    have d7 := step (by simp) d6 h7
    have hfix : setClassOpt v q.cls vs' = .ok vs' ∧ ∀ a ∈ [(Field.appUrl, q.appUrl), (.vendorUrl, q.vendorUrl), (.productUrl, q.productUrl),
        (.fullVersion, q.fullVersion), (.version, q.version), (.vendor, q.vendor), (.product, q.product)],
        setFieldOpt v a.1 a.2 vs' = .ok vs' := by
      rcases d7 with ⟨a1, a2⟩ | ⟨s, a1, a2, a3⟩
      · refine ⟨by rw [a1]; rfl, ?_⟩
        intro a ha
        rw [a2 a ha]; rfl
      · exact ⟨setClass_again a1 a2, fun a ha => setField_again a1 (a3 a ha)⟩
    obtain ⟨g0, g⟩ := hfix
    have g1 := g (.product, q.product) (by simp)
    have g2 := g (.vendor, q.vendor) (by simp)
    have g3 := g (.version, q.version) (by simp)
    have g4 := g (.fullVersion, q.fullVersion) (by simp)
    have g5 := g (.productUrl, q.productUrl) (by simp)
    have g6 := g (.vendorUrl, q.vendorUrl) (by simp)
    have g7 := g (.appUrl, q.appUrl) (by simp)
    simp only at g1 g2 g3 g4 g5 g6 g7
    simp only [bind, Except.bind, g0, g1, g2, g3, g4, g5, g6, g7]

/-! ### edit-properties -/

theorem childOpt_after {p p' : Elem} {t : Str} {x : Option Str} (h : childOpt p t x = .ok p') :
    childOpt p' t x = .ok p' ∧ (∀ k, p'.get k = p.get k) ∧ ∀ t', t' ≠ t → kids p' t' = kids p t' := by
  cases x with
  | none => cases h; exact ⟨rfl, fun _ => rfl, fun _ _ => rfl⟩
  | some y =>
    obtain ⟨h1, c, h2, h3⟩ := setOrMakeChild_after h
    exact ⟨setOrMakeChild_self h2 h3, h1.get, fun t' ht => h1.kids ht⟩

theorem childOpt_other {p p' : Elem} {t : Str} {x : Option Str} (h : childOpt p t x = .ok p) (hk : kids p' t = kids p t) :
    childOpt p' t x = .ok p' := by
  cases x with
  | none => rfl
  | some y =>
    obtain ⟨-, c, h2, h3⟩ := setOrMakeChild_after h
    exact setOrMakeChild_self (by rw [hk, h2]) h3

theorem labelProp_again {v : Ver} {a q : Elem} {l d r o : Option Str} (h : labelProp v a l d r = (.ok o, q)) :
    o = r ∧ (∀ k, q.get k = a.get k) ∧ ∀ r', labelProp v q l d r' = (.ok r', q) := by
  unfold labelProp at h
  split at h
  · cases h
  · rename_i p1 h1
    split at h
    · cases h
    · rename_i p2 h2
      cases h
      obtain ⟨a1, a2, -⟩ := childOpt_after h1
      obtain ⟨b1, b2, b3⟩ := childOpt_after h2
      refine ⟨rfl, fun k => (b2 k).trans (a2 k), ?_⟩
      intro r'
      have hne : propLabel v ≠ propDesc v := fun hh => absurd (ovfTag_inj.1 hh) (by decide)
      have c1 := childOpt_other a1 (b3 _ hne)
      unfold labelProp
      rw [c1]
      simp only
      rw [b1]

theorem setOpt_self {e : Elem} {k : Str} {x : Option Str} (h : ∀ y, x = some y → e.get k = some y) : setOpt e k x = e := by
  cases x with
  | none => rfl
  | some y => exact set_self (h y rfl)

theorem convert_again {ty x w : Str} (h : convertForType ty x = .ok w) : convertForType ty w = .ok w := by
  unfold convertForType at h ⊢
  split at h
  · rename_i ht
    rw [if_pos ht]
    split at h
    · cases h; rfl
    · split at h
      · cases h; rfl
      · cases h
  · rename_i ht
    rw [if_neg ht]

theorem validate_again {v : Ver} {p : Elem} {x w : Str} (h : validateForProperty v p x = .ok w) : validateForProperty v p w = .ok w := by
  unfold validateForProperty at h ⊢
  split at h
  · cases h
  · rename_i w' hw
    split at h
    · cases h
    · rename_i hq
      cases h
      rw [convert_again hw]
      simp only
      rw [hq]

theorem validate_same {v : Ver} {p q : Elem} (h1 : q.get (propType v) = p.get (propType v)) (h2 : q.get (propQual v) = p.get (propQual v))
    (x : Str) : validateForProperty v q x = validateForProperty v p x := by
  unfold validateForProperty
  rw [h1, h2]

/-- the same change to a property, once more -/
theorem editProp_again {v : Ver} {p q : Elem} {value : Option Str} {uc : Option Bool} {ty ptype label desc o : Option Str}
    (hty : ty = ptype ∨ (ty = newType ptype ∧ p.get (propValue v) = none))
    (h : editProp v p value uc ty label desc = (.ok o, q)) : editProp v q value uc ptype label desc = (.ok o, q) := by
  obtain ⟨n1, n2, n3, n4, n5, n6, n7, n8, n9⟩ := prop_names v
  have hpt : ∀ t, ptype = some t → ty = some t := by
    intro t ht
    rcases hty with rfl | ⟨rfl, -⟩
    · exact ht
    · rw [ht]; rfl
  unfold editProp at h
  simp only at h
  generalize hp1 : setOpt (setOpt p (propUserConf v) (uc.map boolStr)) (propType v) ty = p1 at h
  have huc : ∀ y, uc.map boolStr = some y → p1.get (propUserConf v) = some y := by
    intro y hy
    rw [← hp1, setOpt_get, if_neg n9, setOpt_get, if_pos rfl, hy]; rfl
  have htt : ∀ y, ptype = some y → p1.get (propType v) = some y := by
    intro y hy
    rw [← hp1, setOpt_get, if_pos rfl, hpt y hy]; rfl
  have hval : p1.get (propValue v) = p.get (propValue v) := by
    rw [← hp1, setOpt_get, if_neg (Ne.symm n4), setOpt_get, if_neg (Ne.symm n5)]
  -- once the attributes are there, setting them again does nothing
  have hfix : ∀ q' : Elem, q'.get (propUserConf v) = p1.get (propUserConf v) → q'.get (propType v) = p1.get (propType v) →
      setOpt (setOpt q' (propUserConf v) (uc.map boolStr)) (propType v) ptype = q' := by
    intro q' e1 e2
    have e3 := setOpt_self (e := q') (k := propUserConf v) (x := uc.map boolStr) (fun y hy => by rw [e1]; exact huc y hy)
    rw [e3]
    exact setOpt_self (fun y hy => by rw [e2]; exact htt y hy)
  split at h
  · rename_i hnone
    obtain ⟨rfl, hg, hl⟩ := labelProp_again h
    have hq := hfix q (hg _) (hg _)
    unfold editProp
    simp only
    rw [hq]
    have : valueToSet v q value ptype = none := by
      unfold valueToSet at hnone ⊢
      cases value with
      | some x => cases hnone
      | none =>
        cases hp : ptype with
        | none => rfl
        | some t =>
          rw [hpt t hp] at hnone
          simp only at hnone ⊢
          rw [hg]; exact hnone
    rw [this]
    exact hl none
  · rename_i x hsome
    split at h
    · cases h
    · rename_i w hw
      obtain ⟨rfl, hg, hl⟩ := labelProp_again h
      have gT : q.get (propType v) = p1.get (propType v) := by rw [hg, set_get, if_neg n4]
      have gU : q.get (propUserConf v) = p1.get (propUserConf v) := by rw [hg, set_get, if_neg n5]
      have gQ : q.get (propQual v) = p1.get (propQual v) := by rw [hg, set_get, if_neg (Ne.symm n6)]
      have gV : q.get (propValue v) = some w := by rw [hg, set_get, if_pos rfl]
      have hq := hfix q gU gT
      have hx : ∃ x', valueToSet v q value ptype = some x' ∧ validateForProperty v q x' = .ok w := by
        unfold valueToSet at hsome ⊢
        cases value with
        | some y =>
          cases hsome
          exact ⟨x, rfl, by rw [validate_same gT gQ]; exact hw⟩
        | none =>
          cases hp : ptype with
          | some t => exact ⟨w, gV, by rw [validate_same gT gQ]; exact validate_again hw⟩
          | none =>
            exfalso
            simp only at hsome
            rcases hty with rfl | ⟨rfl, hn⟩
            · rw [hp] at hsome; cases hsome
            · rw [hp] at hsome
              simp only [newType] at hsome
              rw [hval, hn] at hsome
              cases hsome
      obtain ⟨x', hx1, hx2⟩ := hx
      unfold editProp
      simp only
      rw [hq, hx1]
      simp only
      rw [hx2]
      simp only
      rw [set_self gV]
      exact hl (some w)

/-- the property is as this entry demands -/
def EntryMet (v : Ver) (uc : Option Bool) (vs : Elem) (e : PropEntry) : Prop :=
  ∃ p o, PropIs v vs e.key p ∧ editProp v p e.value uc e.ptype e.label e.desc = (.ok o, p)

theorem set_met {v : Ver} (hv : v ≠ .v0) {uc : Option Bool} {vs : Elem} {e : PropEntry} (h : EntryMet v uc vs e) :
    ∃ o, setPropertyValue v vs e.key e.value uc e.ptype e.label e.desc = (.ok o, vs) := by
  obtain ⟨p, o, hp, he⟩ := h
  obtain ⟨sec, h1, h2⟩ := (propIs_iff hv).1 hp
  refine ⟨o, ?_⟩
  unfold setPropertyValue
  rw [if_neg hv, sectionAttrib_nil hv, ensureSection_some h1]
  simp only
  rw [findChild_some.2 h1]
  simp only
  rw [findChild_some.2 h2]
  simp only
  rw [he]
  simp only
  have : updateFirst vs (productSection v) [] (fun s => updateFirst s (propertyTag v) [(propKey v, e.key)] (fun _ => p)) = vs := by
    unfold updateFirst
    rw [mapFirst_self, setChildren_self]
    intro x hx hm
    have : x ∈ findAllChildren vs (productSection v) [] := List.mem_filter.2 ⟨hx, hm⟩
    rw [h1, List.mem_singleton] at this
    subst this
    exact updateFirst_self h2
  rw [this]

theorem meets_entry {v : Ver} (hv : v ≠ .v0) {uc : Option Bool} {vs vs' : Elem} {e : PropEntry} {o : Option Str} (h : PropsWF v vs)
    (hs : setPropertyValue v vs e.key e.value uc e.ptype e.label e.desc = (.ok o, vs')) :
    PropsWF v vs' ∧ EntryMet v uc vs' e ∧ (∀ k, k ≠ e.key → ∀ q, PropIs v vs' k q ↔ PropIs v vs k q) := by
  obtain ⟨p, ty, hcase, e1, e2, e3, e4, e5⟩ := setPropertyValue_shape hv h e.key e.value uc e.ptype e.label e.desc
  rw [hs] at e1 e2 e3 e4 e5
  refine ⟨e5, ⟨_, o, e2, editProp_again (p := p) (ty := ty) ?_ ?_⟩, e3⟩
  · rcases hcase with ⟨-, h1⟩ | ⟨-, h1, h2⟩
    · exact Or.inl h1
    · refine Or.inr ⟨h2, ?_⟩
      rw [h1]
      exact new_get v e.key _ (Ne.symm (prop_names v).1)
  · exact Prod.ext e1.symm rfl

theorem met_other {v : Ver} {uc : Option Bool} {vs vs' : Elem} {e : PropEntry} (h : ∀ q, PropIs v vs' e.key q ↔ PropIs v vs e.key q)
    (hm : EntryMet v uc vs e) : EntryMet v uc vs' e := by
  obtain ⟨p, o, hp, he⟩ := hm
  exact ⟨p, o, (h p).2 hp, he⟩

theorem propLoop_meets {v : Ver} (hv : v ≠ .v0) {ask : Str → Bool} {uc : Option Bool} :
    ∀ {es : List PropEntry} {vs vs' : Elem}, PropsWF v vs → (es.map PropEntry.key).Nodup → propLoop v ask uc es vs = .ok vs' →
      PropsWF v vs' ∧ (∀ e ∈ es, EntryMet v uc vs' e) ∧
      (∀ k, k ∉ es.map PropEntry.key → ∀ q, PropIs v vs' k q ↔ PropIs v vs k q) ∧
      (∀ k, getPropertyValue v vs' k = .ok none → getPropertyValue v vs k = .ok none) := by
  intro es
  induction es with
  | nil =>
    intro vs vs' h _ hl
    cases hl
    exact ⟨h, by simp, fun _ _ _ => Iff.rfl, fun _ h => h⟩
  | cons e r ih =>
    intro vs vs' h hnd hl
    obtain ⟨cur, o, vs1, -, -, hs, hl'⟩ := propLoop_cons hl
    obtain ⟨w1, m1, k1⟩ := meets_entry hv h hs
    rw [List.map_cons, List.nodup_cons] at hnd
    obtain ⟨w2, m2, k2, g2⟩ := ih w1 hnd.2 hl'
    refine ⟨w2, ?_, ?_, ?_⟩
    · intro x hx
      rcases List.mem_cons.1 hx with rfl | hx
      · exact met_other (k2 _ hnd.1) m1
      · exact m2 x hx
    · intro k hk q
      rw [List.map_cons, List.mem_cons, not_or] at hk
      rw [k2 k hk.2 q, k1 k hk.1 q]
    · intro k hg
      exact set_none hv h e uc hs k (g2 k hg)

theorem propLoop_met {v : Ver} (hv : v ≠ .v0) {ask : Str → Bool} {uc : Option Bool} {vs : Elem} (h : PropsWF v vs) :
    ∀ {es : List PropEntry}, (∀ e ∈ es, EntryMet v uc vs e) →
      (∀ e ∈ es, getPropertyValue v vs e.key = .ok none → ask e.key = true) → propLoop v ask uc es vs = .ok vs := by
  intro es
  induction es with
  | nil => intro _ _; rfl
  | cons e r ih =>
    intro hm hask
    obtain ⟨o, hs⟩ := set_met hv (hm e (by simp))
    obtain ⟨st, hst⟩ := propState_exists h e.key
    have hg := get_of_state hv h hst
    unfold propLoop
    rw [hg]
    simp only
    rw [if_neg, hs]
    · exact ih (fun x hx => hm x (by simp [hx])) (fun x hx => hask x (by simp [hx]))
    · rintro ⟨h1, h2⟩
      rw [hask e (by simp) (by rw [hg, h1])] at h2
      cases h2

/-! the configuration file -/

/-- the entry that a line of the configuration file stands for -/
def lineEntry (lit : Str) (n : Nat) (line : Str) : PropEntry := ⟨configKey lit n, some (strip line), none, none, none⟩

theorem configLoop_meets {v : Ver} (hv : v ≠ .v0) (lit : Str) (uc : Option Bool) : ∀ (lines : List Str) (n : Nat) {vs vs' : Elem},
    PropsWF v vs → configLoop v lit uc n lines vs = (.ok (), vs') →
      ∃ es : List PropEntry, PropsWF v vs' ∧ (∀ e ∈ es, ∃ m, n < m ∧ e.key = configKey lit m) ∧ (∀ e ∈ es, EntryMet v uc vs' e) ∧
        (∀ k, (∀ m, n < m → k ≠ configKey lit m) → ∀ q, PropIs v vs' k q ↔ PropIs v vs k q) ∧
        ∀ vs2, (∀ e ∈ es, EntryMet v uc vs2 e) → configLoop v lit uc n lines vs2 = (.ok (), vs2)
  | [], n, vs, vs', h, hl => by
    cases hl
    exact ⟨[], h, by simp, by simp, fun _ _ _ => Iff.rfl, fun _ _ => rfl⟩
  | line :: r, n, vs, vs', h, hl => by
    unfold configLoop at hl
    split at hl
    · rename_i hskip
      obtain ⟨es, a1, a2, a3, a4, a5⟩ := configLoop_meets hv lit uc r n h hl
      refine ⟨es, a1, a2, a3, a4, ?_⟩
      intro vs2 hm
      unfold configLoop
      rw [if_pos hskip]
      exact a5 vs2 hm
    · rename_i hskip
      split at hl
      · cases hl
      · rename_i o vs1 hs
        have hs' : setPropertyValue v vs (lineEntry lit (n + 1) line).key (lineEntry lit (n + 1) line).value uc
            (lineEntry lit (n + 1) line).ptype (lineEntry lit (n + 1) line).label (lineEntry lit (n + 1) line).desc = (.ok o, vs1) := hs
        obtain ⟨w1, m1, k1⟩ := meets_entry hv h hs'
        obtain ⟨es, a1, a2, a3, a4, a5⟩ := configLoop_meets hv lit uc r (n + 1) w1 hl
        refine ⟨lineEntry lit (n + 1) line :: es, a1, ?_, ?_, ?_, ?_⟩
        · intro e he
          rcases List.mem_cons.1 he with rfl | he
          · exact ⟨n + 1, by omega, rfl⟩
          · obtain ⟨m, hm, hk⟩ := a2 e he
            exact ⟨m, by omega, hk⟩
        · intro e he
          rcases List.mem_cons.1 he with rfl | he
          · refine met_other (a4 _ ?_) m1
            intro m hm hk
            have := configKey_inj (lit := lit) hk
            omega
          · exact a3 e he
        · intro k hk q
          rw [a4 k (fun m hm => hk m (by omega)) q]
          exact k1 k (hk (n + 1) (by omega)) q
        · intro vs2 hm
          obtain ⟨o2, ho2⟩ := set_met hv (hm _ List.mem_cons_self)
          unfold configLoop
          rw [if_neg hskip]
          have ho2' : setPropertyValue v vs2 (configKey lit (n + 1)) (some (strip line)) uc none none none = (.ok o2, vs2) := ho2
          rw [ho2']
          exact a5 vs2 (fun e he => hm e (List.mem_cons_of_mem _ he))

/-- changes of properties do not change the platform -/
theorem onlyProps_class {v : Ver} (hv : v ≠ .v0) {vs vs' : Elem} {new : List Str} (h : OnlyProps v new vs vs') :
    getProductClass v vs' = getProductClass v vs := by
  obtain ⟨-, ⟨rfl, -⟩ | ⟨s, s', hb, h1, h2, -⟩⟩ := h
  · rfl
  · unfold getProductClass prodSec
    rw [section_tag hv, section_attrib hv, findChild_kids h1]
    rcases hb with hb | ⟨hb, rfl⟩
    · rw [findChild_kids hb]
      simp only
      rw [h2.get]
    · rw [findChild_no_kids hb]
      simp only
      rw [h2.get]
      rfl

theorem entriesFrom_keys (q : PropReq) : ∀ (l : List (Str × Option Str × Option Str)) (n : Nat),
    (entriesFrom q n l).map PropEntry.key = l.map Prod.fst
  | [], _ => rfl
  | p :: r, n => by simp [entriesFrom, entriesFrom_keys q r]

/-- **C117 (edit-properties).** Running a successful edit-properties command with options again, with the same answers, succeeds
and changes nothing at all, if it names no property twice (neither on the command line, nor there and in the configuration
file). -/
theorem C117_properties {v : Ver} (hv : v ≠ .v0) {ask : Str → Bool} {force force' : Bool} {inp inp' : List Str} {q : PropReq}
    {vs vs' : Elem} {hws hws' : Option Elem} (h : PropsWF v vs) (hq : q.config ≠ none ∨ q.props ≠ [] ∨ q.transports ≠ [])
    (hone : (q.props.map Prod.fst).Nodup)
    (hconf : ∀ lines plat lit n k, q.config = some lines → platformOf v vs = .ok plat → ConfigPrefix plat lit → 0 < n →
      NumberedKey lit n k → k ∉ q.props.map Prod.fst)
    (hr : editProperties v ask force inp q vs hws = some (.ok (vs', hws'))) :
    editProperties v ask force' inp' q vs' hws' = some (.ok (vs', hws')) := by
  obtain ⟨hready, vs1, h1, h2, h3⟩ := editProperties_inv hq hr
  have ha := configStep_iff h1
  obtain ⟨w1, new1, f1⟩ := afterConfig_only hv h ha
  have hnd : ((entriesFrom q 0 q.props).map PropEntry.key).Nodup := by rw [entriesFrom_keys]; exact hone
  obtain ⟨w2, m2, k2, g2⟩ := propLoop_meets hv w1 hnd h2
  obtain ⟨new2, f2, -⟩ := propLoop_only hv w1 h2
  have hclass : getProductClass v vs' = getProductClass v vs := (onlyProps_class hv f2).trans (onlyProps_class hv f1)
  have hplat : platformOf v vs' = platformOf v vs := by unfold platformOf; rw [hclass]
  have c1 : configStep v q.uc q.config vs' = .ok vs' := by
    rcases ha with ⟨hn, -⟩ | ⟨lines, plat, hl, hp, hf⟩
    · rw [hn]; rfl
    · unfold configStep
      rw [hl]
      simp only
      rw [hplat, hp]
      simp only
      unfold configFileToProperties at hf ⊢
      split at hf
      · cases hf
      · rename_i lit hlit
        obtain ⟨es, -, a2, a3, -, a5⟩ := configLoop_meets hv lit q.uc lines 0 h hf
        rw [a5 vs']
        intro e he
        obtain ⟨m, hm, hk⟩ := a2 e he
        refine met_other (k2 _ ?_) (a3 e he)
        rw [entriesFrom_keys]
        exact hconf lines plat lit m _ hl hp (literalCli_iff.1 hlit) hm ((numberedKey_iff hm).2 hk)
  have c2 : propLoop v ask q.uc (entriesFrom q 0 q.props) vs' = .ok vs' := by
    refine propLoop_met hv w2 m2 ?_
    intro e he hg
    exact propLoop_consent hv w1 h2 e he (g2 _ hg)
  have c3 : transportStep v hws' q.transports = .ok hws' := by
    unfold transportStep at h3 ⊢
    split at h3
    · rename_i ht; cases h3; rw [if_pos ht]
    · rename_i ht
      rw [if_neg ht]
      split at h3
      · cases h3
      · rename_i hw hset
        cases h3
        have hset' : setTransports v (some hw) q.transports = .ok hw := by
          cases v with
          | v0 => exact absurd rfl hv
          | v1 | v2 =>
            cases hws with
            | none => cases hset
            | some w =>
              simp only [setTransports, Except.ok.injEq] at hset ⊢
              rw [← hset, set_self]
              rw [set_get, if_pos rfl]
        rw [hset']
  unfold editProperties
  rw [if_neg (by rw [hready]; simp), c1]
  simp only
  rw [c2]
  simp only
  rw [c3]
  simp only
  rw [if_neg]
  rintro ⟨a, b, c⟩
  rcases hq with hq | hq | hq
  · exact hq (Option.isNone_iff_eq_none.1 a)
  · exact hq b
  · exact hq c

/-! ### Cases and findings -/

/-- the example commands of C83 and C84, twice -/
example : ∃ vs', editProduct .v1 exProdReq exProdVs = .ok vs' ∧ editProduct .v1 exProdReq vs' = .ok vs' :=
  ⟨_, rfl, C117_product (vs := exProdVs) rfl⟩

example : ∃ r, editProperties .v1 (fun k => k = "ssh".toList) false [] exPropReq exVs (some exHws) = some (.ok r) ∧
    editProperties .v1 (fun k => k = "ssh".toList) false [] exPropReq r.1 r.2 = some (.ok r) :=
  ⟨_, rfl, C117_properties (force := false) (inp := []) (vs := exVs) (hws := some exHws) (q := exPropReq) (by simp) exVs_wf' (Or.inr (Or.inl (by simp [exPropReq]))) (by decide)
    (by intro lines plat lit n k hl; cases hl) rfl⟩

/-- **C117 (limits).** A command that names a property twice can be refused when it is run again: first a text is stored, then the
property becomes a boolean, and the second time the text is not allowed any more. -/
theorem C117_twice_fails :
    let q : PropReq := { props := [("ssh".toList, some "maybe".toList, none), ("ssh".toList, some "yes".toList, some "boolean".toList)] }
    ∃ vs', editProperties .v1 (fun _ => true) false [] q exVs none = some (.ok (vs', none)) ∧
      editProperties .v1 (fun _ => true) false [] q vs' none = some (.error .valueUnsupported) :=
  ⟨_, rfl, rfl⟩

end Cot
