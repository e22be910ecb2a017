import Verif.Props.OvfSections
import Verif.Spec.EditProduct
/-
C83: edit-product.
-/
namespace Cot

theorem productTag_iff {v : Ver} {t : Str} : ProductTag v t ↔ ∃ f, t = fieldTag v f := by
  unfold ProductTag
  simp only [List.map_cons, List.map_nil, List.mem_cons, List.not_mem_nil, or_false]
  constructor
  · rintro (h | h | h | h | h | h | h)
    · exact ⟨.product, h⟩
    · exact ⟨.vendor, h⟩
    · exact ⟨.version, h⟩
    · exact ⟨.fullVersion, h⟩
    · exact ⟨.productUrl, h⟩
    · exact ⟨.vendorUrl, h⟩
    · exact ⟨.appUrl, h⟩
  · rintro ⟨f, rfl⟩
    cases f <;> simp [fieldTag]

theorem newSection_base (v : Ver) : newSection v (ovfTag v "ProductSection".toList) [] "Product Information".toList =
    .mk (ovfTag v "ProductSection".toList) [] none none
      [.mk (ovfTag v "Info".toList) [] (some "Product Information".toList) none []] := rfl

/-- One step: nothing at all, or a change of the product section within the given fields. -/
def ProductStep (v : Ver) (F : Field → Prop) (cls : Prop) (vs vs' : Elem) : Prop :=
  SameButKids (ovfTag v "ProductSection".toList) vs vs' ∧
  (vs' = vs ∨ ∃ s s', BaseSection v vs s ∧ kids vs' (ovfTag v "ProductSection".toList) = [s'] ∧ OnlyFields v F cls s s')

theorem OnlyFields.mono {v : Ver} {F G : Field → Prop} {c d : Prop} {s s' : Elem} (h : OnlyFields v F c s s')
    (hF : ∀ f, F f → G f) (hc : c → d) : OnlyFields v G d s s' :=
  ⟨h.1, h.2.1, h.2.2.1, fun a ha => h.2.2.2.1 a (ha.imp_right (fun x y => x (hc y))), h.2.2.2.2.1,
    fun f hf => h.2.2.2.2.2 f (fun x => hf (hF f x))⟩

theorem OnlyFields.trans {v : Ver} {F : Field → Prop} {c : Prop} {s s' s'' : Elem} (h : OnlyFields v F c s s')
    (h' : OnlyFields v F c s' s'') : OnlyFields v F c s s'' :=
  ⟨h'.1.trans h.1, h'.2.1.trans h.2.1, h'.2.2.1.trans h.2.2.1, fun a ha => (h'.2.2.2.1 a ha).trans (h.2.2.2.1 a ha),
    h'.2.2.2.2.1.trans h.2.2.2.2.1, fun f hf => (h'.2.2.2.2.2 f hf).trans (h.2.2.2.2.2 f hf)⟩

theorem ProductStep.mono {v : Ver} {F G : Field → Prop} {c d : Prop} {vs vs' : Elem} (h : ProductStep v F c vs vs')
    (hF : ∀ f, F f → G f) (hc : c → d) : ProductStep v G d vs vs' := by
  refine ⟨h.1, h.2.imp_right ?_⟩
  rintro ⟨s, s', h1, h2, h3⟩
  exact ⟨s, s', h1, h2, h3.mono hF hc⟩

theorem ProductStep.trans {v : Ver} {F : Field → Prop} {c : Prop} {a b d : Elem} (h : ProductStep v F c a b)
    (h' : ProductStep v F c b d) : ProductStep v F c a d := by
  refine ⟨h.1.trans h'.1, ?_⟩
  rcases h.2 with rfl | ⟨s, s', h1, h2, h3⟩
  · exact h'.2
  · rcases h'.2 with rfl | ⟨t, t', g1, g2, g3⟩
    · exact Or.inr ⟨s, s', h1, h2, h3⟩
    · rcases g1 with g1 | ⟨g1, -⟩
      · rw [h2] at g1
        cases g1
        exact Or.inr ⟨s, t', h1, g2, h3.trans g3⟩
      · rw [h2] at g1; cases g1

theorem ProductStep.refl (v : Ver) (F : Field → Prop) (c : Prop) (vs : Elem) : ProductStep v F c vs vs :=
  ⟨sameButKids_refl _ _, Or.inl rfl⟩

theorem base_wf {v : Ver} {vs s : Elem} (h : ProductWF v vs) (hb : BaseSection v vs s) (g : Field) :
    (kids s (fieldTag v g)).length ≤ 1 := by
  rcases hb with a | ⟨-, rfl⟩
  · exact h.2 s (by rw [a]; simp) g _ (fieldTag_iff.2 rfl)
  · rw [← newSection_base, newSection_kids (Ne.symm (fieldTag_ne_info v g))]; simp

theorem getField_base {v : Ver} (hv : v ≠ .v0) {vs s : Elem} (hb : BaseSection v vs s) (g : Field) :
    getField v vs g = .ok (findText s (fieldTag v g)) := by
  rcases hb with a | ⟨a, rfl⟩
  · exact getField_of hv a g
  · rw [getField_none hv a, ← newSection_base]
    unfold findText
    rw [findFirst_eq, newSection_kids (Ne.symm (fieldTag_ne_info v g))]; rfl

theorem getClass_base {v : Ver} (hv : v ≠ .v0) {vs s : Elem} (hb : BaseSection v vs s) :
    getProductClass v vs = .ok (s.get (ovfTag v "class".toList)) := by
  unfold getProductClass prodSec
  rw [section_tag hv, section_attrib hv]
  rcases hb with a | ⟨a, rfl⟩
  · rw [findChild_kids a]; rfl
  · rw [findChild_no_kids a]; rfl

/-- What reads the same before and after a step. -/
theorem ProductStep.same {v : Ver} (hv : v ≠ .v0) {F : Field → Prop} {c : Prop} {vs vs' : Elem} (h : ProductStep v F c vs vs') :
    (∀ g, ¬ F g → getField v vs' g = getField v vs g) ∧ (¬ c → getProductClass v vs' = getProductClass v vs) := by
  rcases h.2 with rfl | ⟨s, s', h1, h2, h3⟩
  · exact ⟨fun _ _ => rfl, fun _ => rfl⟩
  · constructor
    · intro g hg
      rw [getField_of hv h2, getField_base hv h1]
      unfold findText
      rw [findFirst_eq, findFirst_eq, h3.2.2.2.2.2 g hg]
    · intro hc
      rw [getClass_base hv (Or.inl h2), getClass_base hv h1, h3.2.2.2.1 _ (Or.inr hc)]

theorem ensure_base {v : Ver} {vs : Elem} (h : ProductWF v vs) :
    ∃ vs1 s, ensureSection v vs (ovfTag v "ProductSection".toList) [] "Product Information".toList = .ok vs1 ∧
      kids vs1 (ovfTag v "ProductSection".toList) = [s] ∧ SameButKids (ovfTag v "ProductSection".toList) vs vs1 ∧
      BaseSection v vs s := by
  obtain ⟨vs1, s, e1, e2, e3, e4⟩ := ensure_spec (v := v) "Product Information".toList h.1
  refine ⟨vs1, s, e1, e2, e3, ?_⟩
  rcases e4 with ⟨a, -⟩ | ⟨a, b⟩
  · exact Or.inl a
  · exact Or.inr ⟨a, b.trans (newSection_base v)⟩

theorem wf_of_section {v : Ver} {vs s : Elem} (h : kids vs (ovfTag v "ProductSection".toList) = [s])
    (h1 : ∀ g, (kids s (fieldTag v g)).length ≤ 1) : ProductWF v vs := by
  refine ⟨by rw [h]; simp, ?_⟩
  intro s0 hs0 g t ht
  rw [h, List.mem_singleton] at hs0
  subst hs0
  rw [fieldTag_iff.1 ht]
  exact h1 g

theorem setField_step {v : Ver} (hv : v ≠ .v0) {vs : Elem} (h : ProductWF v vs) (f : Field) (x : Str) :
    ∃ vs', setField v vs f x = .ok vs' ∧ ProductWF v vs' ∧ getField v vs' f = .ok (some x) ∧
      ProductStep v (fun g => g = f) False vs vs' := by
  obtain ⟨vs1, s, e1, e2, e3, e4⟩ := ensure_base h
  obtain ⟨s', c, f1, f2, f3, f4, f5, -⟩ := setText_spec (x := x) (o := []) (base_wf h e4 f)
  have hst : s.tag = ovfTag v "ProductSection".toList := kids_tag (by rw [e2]; simp)
  have u := updateFirst_spec e2 (s' := s') (f2.1.trans hst)
  have hother : ∀ g, g ≠ f → kids s' (fieldTag v g) = kids s (fieldTag v g) := fun g hg =>
    f2.kids (fun hh => hg (fieldTag_inj hh))
  refine ⟨updateFirst vs1 (ovfTag v "ProductSection".toList) [] (fun _ => s'), ?_, ?_, ?_, e3.trans u.2,
    Or.inr ⟨s, s', e4, u.1, f2.1, f2.2.2.1, f2.2.2.2.1, fun a _ => f2.get a, ?_, hother⟩⟩
  · unfold setField prodSec
    rw [section_tag hv, section_attrib hv, e1]
    simp only
    rw [findChild_kids e2]
    simp only
    rw [f1]
  · apply wf_of_section u.1
    intro g
    by_cases hg : g = f
    · subst hg; rw [f3]; simp
    · rw [hother g hg]; exact base_wf h e4 g
  · rw [getField_of hv u.1, textIs_findText f5]
  · have : ∀ l : List Elem, l.filter (fun c => decide ¬ ProductTag v c.tag) =
        (l.filter (fun c => decide (c.tag ≠ fieldTag v f))).filter (fun c => decide ¬ ProductTag v c.tag) := by
      intro l
      rw [List.filter_filter]
      congr 1
      funext c
      by_cases hc : c.tag = fieldTag v f
      · simp [hc, productTag_iff.2 ⟨f, rfl⟩]
      · simp [hc]
    rw [this, this s.children, f2.2.2.2.2]

theorem set_text' (e : Elem) (k x : Str) : (e.set k x).text = e.text := by cases e; rfl
theorem set_tail' (e : Elem) (k x : Str) : (e.set k x).tail = e.tail := by cases e; rfl

theorem setClass_step {v : Ver} (hv : v ≠ .v0) {vs : Elem} (h : ProductWF v vs) (c : Str) :
    ∃ vs', setProductClass v vs c = .ok vs' ∧ ProductWF v vs' ∧ getProductClass v vs' = .ok (some c) ∧
      ProductStep v (fun _ => False) True vs vs' := by
  obtain ⟨vs1, s, e1, e2, e3, e4⟩ := ensure_base h
  unfold setProductClass
  rw [getClass_base hv e4]
  simp only
  by_cases hc : s.get (ovfTag v "class".toList) = some c
  · rw [if_pos hc]
    exact ⟨vs, rfl, h, by rw [getClass_base hv e4, hc], ProductStep.refl _ _ _ _⟩
  · rw [if_neg hc]
    have hst : s.tag = ovfTag v "ProductSection".toList := kids_tag (by rw [e2]; simp)
    have u := updateFirst_spec e2 (s' := s.set (productClassAttr v) c) ((set_tag _ _ _).trans hst)
    have hk : ∀ t, kids (s.set (productClassAttr v) c) t = kids s t := fun t => by
      unfold kids; rw [set_children]
    refine ⟨updateFirst vs1 (ovfTag v "ProductSection".toList) [] (fun _ => s.set (productClassAttr v) c), ?_, ?_, ?_,
      e3.trans u.2, Or.inr ⟨s, _, e4, u.1, set_tag _ _ _, set_text' _ _ _, set_tail' _ _ _, ?_, ?_, fun f _ => hk _⟩⟩
    · unfold prodSec
      rw [section_tag hv, section_attrib hv, e1]
      simp only
      rw [findChild_kids e2]
    · apply wf_of_section u.1
      intro g
      rw [hk]; exact base_wf h e4 g
    · rw [getClass_base hv (Or.inl u.1)]
      unfold productClassAttr
      rw [set_get, if_pos rfl]
    · rintro a (ha | ha)
      · unfold productClassAttr
        rw [set_get, if_neg (Ne.symm ha)]
      · exact absurd trivial ha
    · rw [set_children]

theorem setFieldOpt_step {v : Ver} (hv : v ≠ .v0) {vs : Elem} (h : ProductWF v vs) (f : Field) (x : Option Str) :
    ∃ vs', setFieldOpt v f x vs = .ok vs' ∧ ProductWF v vs' ∧
      getField v vs' f = (match x with | some y => .ok (some y) | none => getField v vs f) ∧
      ProductStep v (fun g => g = f ∧ x ≠ none) False vs vs' := by
  cases x with
  | none => exact ⟨vs, rfl, h, rfl, ProductStep.refl _ _ _ _⟩
  | some y =>
    obtain ⟨vs', h1, h2, h3, h4⟩ := setField_step hv h f y
    exact ⟨vs', h1, h2, h3, h4.mono (fun g hg => ⟨hg, by simp⟩) id⟩

theorem setClassOpt_step {v : Ver} (hv : v ≠ .v0) {vs : Elem} (h : ProductWF v vs) (x : Option Str) :
    ∃ vs', setClassOpt v x vs = .ok vs' ∧ ProductWF v vs' ∧
      getProductClass v vs' = (match x with | some y => .ok (some y) | none => getProductClass v vs) ∧
      ProductStep v (fun _ => False) (x ≠ none) vs vs' := by
  cases x with
  | none => exact ⟨vs, rfl, h, rfl, ProductStep.refl _ _ _ _⟩
  | some y =>
    obtain ⟨vs', h1, h2, h3, h4⟩ := setClass_step hv h y
    exact ⟨vs', h1, h2, h3, h4.mono (fun _ => id) (fun _ => by simp)⟩

theorem productReady_iff {q : ProductReq} : productReady q = true ↔
    (∃ c, q.cls = some c ∧ c ≠ []) ∨ ∃ f x, q.field f = some x ∧ x ≠ [] := by
  have ht : ∀ o : Option Str, truthy o = true ↔ ∃ x, o = some x ∧ x ≠ [] := by
    intro o; cases o <;> simp [truthy]
  unfold productReady
  simp only [Bool.or_eq_true, ht]
  constructor
  · rintro (((((((h | h) | h) | h) | h) | h) | h) | h)
    · exact Or.inl h
    · exact Or.inr ⟨.product, h⟩
    · exact Or.inr ⟨.vendor, h⟩
    · exact Or.inr ⟨.version, h⟩
    · exact Or.inr ⟨.fullVersion, h⟩
    · exact Or.inr ⟨.productUrl, h⟩
    · exact Or.inr ⟨.vendorUrl, h⟩
    · exact Or.inr ⟨.appUrl, h⟩
  · rintro (h | ⟨f, h⟩)
    · simp only [h, true_or]
    · cases f <;> (simp only [ProductReq.field] at h; simp only [h, true_or, or_true])

/-- **C83.** edit-product with at least one non-empty text gives the product class and each of the seven fields the
text given for it; those not given read as before.  The platform follows the class.  Nothing else in the product
section and nothing outside of it changes; a missing product section is made. -/
theorem C83_edit_product {v : Ver} (hv : v ≠ .v0) {vs : Elem} (h : ProductWF v vs) (q : ProductReq)
    (hq : (∃ c, q.cls = some c ∧ c ≠ []) ∨ ∃ f x, q.field f = some x ∧ x ≠ []) :
    ∃ vs', editProduct v q vs = .ok vs' ∧ ProductWF v vs' ∧
      (∀ f, getField v vs' f = (match q.field f with | some x => .ok (some x) | none => getField v vs f)) ∧
      getProductClass v vs' = (match q.cls with | some c => .ok (some c) | none => getProductClass v vs) ∧
      platformOf v vs' = (match q.cls with | some c => .ok (forProductString (some c)) | none => platformOf v vs) ∧
      SameButKids (ovfTag v "ProductSection".toList) vs vs' ∧
      (vs' = vs ∨ ∃ s s', BaseSection v vs s ∧ kids vs' (ovfTag v "ProductSection".toList) = [s'] ∧
        OnlyFields v (fun f => q.field f ≠ none) (q.cls ≠ none) s s') := by
  obtain ⟨v0, a0, w0, g0, s0⟩ := setClassOpt_step hv h q.cls
  obtain ⟨v1, a1, w1, g1, s1⟩ := setFieldOpt_step hv w0 .product q.product
  obtain ⟨v2, a2, w2, g2, s2⟩ := setFieldOpt_step hv w1 .vendor q.vendor
  obtain ⟨v3, a3, w3, g3, s3⟩ := setFieldOpt_step hv w2 .version q.version
  obtain ⟨v4, a4, w4, g4, s4⟩ := setFieldOpt_step hv w3 .fullVersion q.fullVersion
  obtain ⟨v5, a5, w5, g5, s5⟩ := setFieldOpt_step hv w4 .productUrl q.productUrl
  obtain ⟨v6, a6, w6, g6, s6⟩ := setFieldOpt_step hv w5 .vendorUrl q.vendorUrl
  obtain ⟨v7, a7, w7, g7, s7⟩ := setFieldOpt_step hv w6 .appUrl q.appUrl
  have hfin : editProduct v q vs = .ok v7 := by
    unfold editProduct
    rw [if_neg (by rw [productReady_iff.2 hq]; simp)]
    simp only [a0, a1, a2, a3, a4, a5, a6, a7, bind, Except.bind]
  have hs : ProductStep v (fun f => q.field f ≠ none) (q.cls ≠ none) vs v7 := by
    refine (s0.mono (fun _ => False.elim) id).trans ?_
    refine (s1.mono ?_ False.elim).trans ?_
    · rintro g ⟨rfl, hx⟩; exact hx
    refine (s2.mono ?_ False.elim).trans ?_
    · rintro g ⟨rfl, hx⟩; exact hx
    refine (s3.mono ?_ False.elim).trans ?_
    · rintro g ⟨rfl, hx⟩; exact hx
    refine (s4.mono ?_ False.elim).trans ?_
    · rintro g ⟨rfl, hx⟩; exact hx
    refine (s5.mono ?_ False.elim).trans ?_
    · rintro g ⟨rfl, hx⟩; exact hx
    refine (s6.mono ?_ False.elim).trans (s7.mono ?_ False.elim)
    · rintro g ⟨rfl, hx⟩; exact hx
    · rintro g ⟨rfl, hx⟩; exact hx
  have t0 := s0.same hv
  have t1 := s1.same hv
  have t2 := s2.same hv
  have t3 := s3.same hv
  have t4 := s4.same hv
  have t5 := s5.same hv
  have t6 := s6.same hv
  have t7 := s7.same hv
  have hc : getProductClass v v7 = (match q.cls with | some c => .ok (some c) | none => getProductClass v vs) := by
    rw [t7.2 id, t6.2 id, t5.2 id, t4.2 id, t3.2 id, t2.2 id, t1.2 id, g0]
  refine ⟨v7, hfin, w7, ?_, hc, ?_, hs.1, hs.2⟩
  · intro f
    cases f with
    | product =>
      simp only [ProductReq.field]
      rw [t7.1 .product (by simp), t6.1 .product (by simp), t5.1 .product (by simp), t4.1 .product (by simp),
        t3.1 .product (by simp), t2.1 .product (by simp), g1, t0.1 .product id]
    | vendor =>
      simp only [ProductReq.field]
      rw [t7.1 .vendor (by simp), t6.1 .vendor (by simp), t5.1 .vendor (by simp), t4.1 .vendor (by simp),
        t3.1 .vendor (by simp), g2, t1.1 .vendor (by simp), t0.1 .vendor id]
    | version =>
      simp only [ProductReq.field]
      rw [t7.1 .version (by simp), t6.1 .version (by simp), t5.1 .version (by simp), t4.1 .version (by simp),
        g3, t2.1 .version (by simp), t1.1 .version (by simp), t0.1 .version id]
    | fullVersion =>
      simp only [ProductReq.field]
      rw [t7.1 .fullVersion (by simp), t6.1 .fullVersion (by simp), t5.1 .fullVersion (by simp),
        g4, t3.1 .fullVersion (by simp), t2.1 .fullVersion (by simp), t1.1 .fullVersion (by simp), t0.1 .fullVersion id]
    | productUrl =>
      simp only [ProductReq.field]
      rw [t7.1 .productUrl (by simp), t6.1 .productUrl (by simp), g5, t4.1 .productUrl (by simp),
        t3.1 .productUrl (by simp), t2.1 .productUrl (by simp), t1.1 .productUrl (by simp), t0.1 .productUrl id]
    | vendorUrl =>
      simp only [ProductReq.field]
      rw [t7.1 .vendorUrl (by simp), g6, t5.1 .vendorUrl (by simp), t4.1 .vendorUrl (by simp),
        t3.1 .vendorUrl (by simp), t2.1 .vendorUrl (by simp), t1.1 .vendorUrl (by simp), t0.1 .vendorUrl id]
    | appUrl =>
      simp only [ProductReq.field]
      rw [g7, t6.1 .appUrl (by simp), t5.1 .appUrl (by simp), t4.1 .appUrl (by simp),
        t3.1 .appUrl (by simp), t2.1 .appUrl (by simp), t1.1 .appUrl (by simp), t0.1 .appUrl id]
  · unfold platformOf
    rw [hc]
    cases q.cls <;> rfl

/-- **C83 (refused).** Without a non-empty text the command refuses to run. -/
theorem C83_refused {v : Ver} {vs : Elem} (q : ProductReq)
    (hq : ∀ o, o = q.cls ∨ (∃ f, o = q.field f) → o = none ∨ o = some []) : editProduct v q vs = .error .invalidInput := by
  unfold editProduct
  rw [if_pos]
  rw [← Bool.not_eq_true, productReady_iff]
  rintro (⟨c, h1, h2⟩ | ⟨f, x, h1, h2⟩)
  · rcases hq _ (Or.inl rfl) with h | h <;> rw [h1] at h <;> cases h
    exact h2 rfl
  · rcases hq _ (Or.inr ⟨f, rfl⟩) with h | h <;> rw [h1] at h <;> cases h
    exact h2 rfl

/-- a virtual system with a product section of class com.cisco.iosv, with a vendor, a version and a property -/
def exProdVs : Elem :=
  .mk (virtualSystemTag .v1) [] none none
    [.mk (ovfTag .v1 "ProductSection".toList) [(ovfTag .v1 "class".toList, "com.cisco.iosv".toList)] none none
      [.mk (ovfTag .v1 "Info".toList) [] (some "Product Information".toList) none [],
       .mk (ovfTag .v1 "Vendor".toList) [] (some "Cisco".toList) none [],
       .mk (ovfTag .v1 "Version".toList) [] (some "1".toList) none [],
       .mk (ovfTag .v1 "Property".toList) [(ovfTag .v1 "key".toList, "login".toList)] none none []]]

/-- a request that sets the class and the version -/
def exProdReq : ProductReq := { cls := some "com.cisco.csr1000v".toList, version := some "2".toList }

theorem exProdVs_wf : ProductWF .v1 exProdVs := by
  refine ⟨by decide +kernel, ?_⟩
  have : ∀ f : Field, ∀ s ∈ kids exProdVs (ovfTag .v1 "ProductSection".toList), (kids s (fieldTag .v1 f)).length ≤ 1 := by
    intro f; cases f <;> decide +kernel
  intro s hs f t ht
  rw [fieldTag_iff.1 ht]
  exact this f s hs

example : ProductWF .v1 exProdVs ∧ (∃ c, exProdReq.cls = some c ∧ c ≠ []) ∧
    platformOf .v1 exProdVs = .ok .iosv ∧
    (∃ vs', editProduct .v1 exProdReq exProdVs = .ok vs' ∧ platformOf .v1 vs' = .ok .csr ∧
      getField .v1 vs' .version = .ok (some "2".toList) ∧ getField .v1 vs' .vendor = .ok (some "Cisco".toList)) :=
  ⟨exProdVs_wf, ⟨_, rfl, by decide⟩, rfl, _, rfl, rfl, rfl, rfl⟩

/-- A text that is asked to become empty is not changed if it is the only one given: the command refuses to run,
as if nothing had been asked for. -/
theorem C83_clear_fails : ¬ ∀ (vs : Elem) (q : ProductReq), ProductWF .v1 vs → (∃ f x, q.field f = some x) →
    ∃ vs', editProduct .v1 q vs = .ok vs' := by
  intro h
  obtain ⟨vs', h⟩ := h exProdVs { vendor := some [] } exProdVs_wf ⟨.vendor, [], rfl⟩
  rw [C83_refused _ (by
    rintro o (rfl | ⟨f, rfl⟩)
    · exact Or.inl rfl
    · cases f <;> first | exact Or.inl rfl | exact Or.inr rfl)] at h
  cases h

end Cot
