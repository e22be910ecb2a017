import Verif.Spec.ProductShown
import Verif.Props.EditProduct
import Verif.Props.XmlReopen
import Verif.Props.InfoSections
/-
C124: what edit-product sets is what `cot info` tells of the package that was written.
-/
namespace Cot

theorem mem_mapFirst {p : Elem → Bool} {f : Elem → Elem} {c : Elem} : ∀ {l : List Elem}, c ∈ mapFirst p f l →
    c ∈ l ∨ ∃ e ∈ l, p e = true ∧ c = f e
  | [], h => by cases h
  | a :: r, h => by
    unfold mapFirst at h
    split at h
    · rename_i hp
      rcases List.mem_cons.1 h with rfl | h
      · exact Or.inr ⟨a, List.mem_cons_self .., hp, rfl⟩
      · exact Or.inl (List.mem_cons_of_mem _ h)
    · rcases List.mem_cons.1 h with rfl | h
      · exact Or.inl (List.mem_cons_self ..)
      · rcases mem_mapFirst h with h | ⟨e, h1, h2⟩
        · exact Or.inl (List.mem_cons_of_mem _ h)
        · exact Or.inr ⟨e, List.mem_cons_of_mem _ h1, h2⟩

/-- setting a text gives no child new children -/
theorem leaf_setOrMake {Q : Str → Prop} {p p' : Elem} {t x : Str} (hp : ∀ c ∈ p.children, Q c.tag → c.children = [])
    (h : setOrMakeChild p t (some x) [] [] = .ok p') : ∀ c ∈ p'.children, Q c.tag → c.children = [] := by
  unfold setOrMakeChild at h
  split at h
  · cases h
  · cases h
    rw [addChild_nil]
    intro c hc hq
    cases p with
    | mk a b d e f =>
      simp only [Elem.setChildren, Elem.children, List.mem_append, List.mem_singleton] at hc hp
      rcases hc with hc | rfl
      · exact hp c hc hq
      · rfl
  · cases h
    intro c hc hq
    cases p with
    | mk a b d e f =>
      simp only [Elem.setChildren, Elem.children] at hc hp
      rcases mem_mapFirst hc with hc | ⟨e, he, -, rfl⟩
      · exact hp c hc hq
      · cases e with
        | mk => exact hp _ he hq

theorem plain_ensure {v : Ver} {vs vs1 : Elem} (hp : PlainFields v vs)
    (h : ensureSection v vs (ovfTag v "ProductSection".toList) [] "Product Information".toList = .ok vs1) : PlainFields v vs1 := by
  unfold ensureSection at h
  split at h
  · cases h
  · cases h; exact hp
  · split at h
    · cases h
    · rename_i s hs
      cases h
      have hl := leaf_setOrMake (Q := fun t => ProductTag v t) (p := Elem.new (ovfTag v "ProductSection".toList) [])
        (by intro c hc; cases hc) hs
      intro s0 hs0 htag
      cases vs with
      | mk a b d e f =>
        simp only [Elem.setChildren, Elem.children] at hs0
        obtain ⟨pre, post, e1, e2⟩ := insertBeforeTag_split (virtualSystemTag v) s f
        rw [e2] at hs0
        have hm : s0 = s ∨ s0 ∈ f := by
          rw [e1]
          simp only [List.mem_append, List.mem_cons] at hs0 ⊢
          tauto
        rcases hm with rfl | hm
        · exact hl
        · exact hp s0 hm htag

theorem plain_update {v : Ver} {vs s s' : Elem} (hp : PlainFields v vs) (hs : kids vs (ovfTag v "ProductSection".toList) = [s])
    (hs' : (∀ c ∈ s.children, ProductTag v c.tag → c.children = []) → ∀ c ∈ s'.children, ProductTag v c.tag → c.children = []) :
    PlainFields v (updateFirst vs (ovfTag v "ProductSection".toList) [] (fun _ => s')) := by
  have hm : s ∈ kids vs (ovfTag v "ProductSection".toList) := by rw [hs]; simp
  have h1 := hs' (hp s (List.mem_of_mem_filter hm) (kids_tag hm))
  intro s0 h0 ht
  unfold updateFirst at h0
  cases vs with
  | mk a b d e f =>
    simp only [Elem.setChildren, Elem.children] at h0
    rcases mem_mapFirst h0 with h0 | ⟨e, -, -, rfl⟩
    · exact hp s0 h0 ht
    · exact h1

theorem plain_setField {v : Ver} (hv : v ≠ .v0) {vs vs' : Elem} (hw : ProductWF v vs) (hp : PlainFields v vs) {f : Field} {x : Str}
    (h : setField v vs f x = .ok vs') : PlainFields v vs' := by
  obtain ⟨vs1, s, e1, e2, -, -⟩ := ensure_base hw
  unfold setField prodSec at h
  rw [section_tag hv, section_attrib hv, e1] at h
  simp only at h
  rw [findChild_kids e2] at h
  simp only at h
  split at h
  · cases h
  · rename_i s' hs'
    cases h
    exact plain_update (plain_ensure hp e1) e2 (fun hl => leaf_setOrMake (Q := fun t => ProductTag v t) hl hs')

theorem plain_setClass {v : Ver} (hv : v ≠ .v0) {vs vs' : Elem} (hw : ProductWF v vs) (hp : PlainFields v vs) {c : Str}
    (h : setProductClass v vs c = .ok vs') : PlainFields v vs' := by
  obtain ⟨vs1, s, e1, e2, -, -⟩ := ensure_base hw
  unfold setProductClass at h
  split at h
  · cases h
  · split at h
    · cases h; exact hp
    · unfold prodSec at h
      rw [section_tag hv, section_attrib hv, e1] at h
      simp only at h
      rw [findChild_kids e2] at h
      cases h
      exact plain_update (plain_ensure hp e1) e2 (fun hl => by rw [set_children]; exact hl)

theorem plain_setFieldOpt {v : Ver} (hv : v ≠ .v0) {vs vs' : Elem} {f : Field} {x : Option Str}
    (h : setFieldOpt v f x vs = .ok vs') (hw : ProductWF v vs ∧ PlainFields v vs) : ProductWF v vs' ∧ PlainFields v vs' := by
  obtain ⟨vs2, e1, e2, -⟩ := setFieldOpt_step hv hw.1 f x
  rw [e1] at h; cases h
  refine ⟨e2, ?_⟩
  cases x with
  | none => cases e1; exact hw.2
  | some y => exact plain_setField hv hw.1 hw.2 e1

/-- edit-product adds no elements within the fields -/
theorem plain_editProduct {v : Ver} (hv : v ≠ .v0) {vs vs' : Elem} (hw : ProductWF v vs) (hp : PlainFields v vs) {q : ProductReq}
    (h : editProduct v q vs = .ok vs') : PlainFields v vs' := by
  unfold editProduct at h
  split at h
  · cases h
  · obtain ⟨v0, a0, h⟩ := bind_ok_inv h
    obtain ⟨v1, a1, h⟩ := bind_ok_inv h
    obtain ⟨v2, a2, h⟩ := bind_ok_inv h
    obtain ⟨v3, a3, h⟩ := bind_ok_inv h
    obtain ⟨v4, a4, h⟩ := bind_ok_inv h
    obtain ⟨v5, a5, h⟩ := bind_ok_inv h
    obtain ⟨v6, a6, h⟩ := bind_ok_inv h
    have p0 : ProductWF v v0 ∧ PlainFields v v0 := by
      obtain ⟨vs2, e1, e2, -⟩ := setClassOpt_step hv hw q.cls
      rw [e1] at a0; cases a0
      refine ⟨e2, ?_⟩
      cases hq : q.cls with
      | none => rw [hq] at e1; cases e1; exact hp
      | some y => rw [hq] at e1; exact plain_setClass hv hw hp e1
    exact (plain_setFieldOpt hv h (plain_setFieldOpt hv a6 (plain_setFieldOpt hv a5 (plain_setFieldOpt hv a4 (plain_setFieldOpt hv a3
      (plain_setFieldOpt hv a2 (plain_setFieldOpt hv a1 p0))))))).2

/-! ### Through the text -/

theorem findText_same {a b : Elem} (h : SameContent a b) {t : Str} (hl : ∀ c ∈ a.children, c.tag = t → c.children = []) :
    findText b t = findText a t := by
  have hk := h.facts.2.2.2.forall₂
  unfold findText findFirst
  rcases forall₂_find? (R := SameContent) (p := fun c => c.tag == t) (fun x y hxy => by rw [hxy.facts.1]) hk with
    ⟨h1, h2⟩ | ⟨x, y, h1, h2, h3⟩
  · rw [h1, h2]
  · rw [h1, h2]
    have ht : x.tag = t := by simpa using List.find?_some h1
    simp only [Option.map_some]
    rw [h3.facts.2.2.1 (hl x (List.mem_of_find?_eq_some h1) ht), asRead_getD]

theorem getField_same {v : Ver} (hv : v ≠ .v0) {a b : Elem} (h : SameContent a b) (hp : PlainFields v a) {f : Field} {o : Option Str}
    (ho : getField v a f = .ok o) : getField v b f = .ok o := by
  unfold getField prodSec at ho ⊢
  rw [section_tag hv, section_attrib hv] at ho ⊢
  split at ho
  · cases ho
  · rename_i hn
    obtain ⟨y, h1, h2⟩ := findChild_same h hn
    cases y with
    | none => rw [h1]; exact ho
    | some y => simp [SameOption] at h2
  · rename_i s hn
    obtain ⟨y, h1, h2⟩ := findChild_same h hn
    cases y with
    | none => simp [SameOption] at h2
    | some y =>
      rw [h1]
      have hm : s ∈ kids a (ovfTag v "ProductSection".toList) := by
        have := findChild_some.1 hn
        rw [findAll_nil] at this
        rw [this]; simp
      simp only
      rw [findText_same h2 (fun c hc ht => hp s (List.mem_of_mem_filter hm) (kids_tag hm) c hc (productTag_iff.2 ⟨f, ht⟩))]
      exact ho

theorem getClass_same {v : Ver} (hv : v ≠ .v0) {a b : Elem} (h : SameContent a b) {o : Option Str}
    (ho : getProductClass v a = .ok o) : getProductClass v b = .ok o := by
  unfold getProductClass prodSec at ho ⊢
  rw [section_tag hv, section_attrib hv] at ho ⊢
  split at ho
  · cases ho
  · rename_i hn
    obtain ⟨y, h1, h2⟩ := findChild_same h hn
    cases y with
    | none => rw [h1]; exact ho
    | some y => simp [SameOption] at h2
  · rename_i s hn
    obtain ⟨y, h1, h2⟩ := findChild_same h hn
    cases y with
    | none => simp [SameOption] at h2
    | some y =>
      rw [h1]
      have h2 : SameContent s y := h2
      simp only
      rw [← ho]
      unfold Elem.get
      rw [h2.facts.2.1]

theorem stated_unique {v : Ver} {vs : Elem} {f : Field} {o o' : Option Str} (h : Stated v vs f o) (h' : Stated v vs f o') : o = o' := by
  rcases h with ⟨a, rfl⟩ | ⟨s, a, rfl⟩ <;> rcases h' with ⟨b, rfl⟩ | ⟨s', b, rfl⟩
  · rfl
  · rw [a] at b; cases b
  · rw [a] at b; cases b
  · rw [a] at b; cases b; rfl

theorem sectionsOf_kids {v : Ver} (hv : v ≠ .v0) (vs : Elem) (n : Str) : sectionsOf v vs n = kids vs (ovfTag v n) := by
  have := findAll_nil vs (ovfTag v n)
  unfold findAllChildren at this
  unfold sectionsOf
  rw [section_tag hv, section_attrib hv]
  exact this

theorem getClass_kids {v : Ver} (hv : v ≠ .v0) {a b : Elem}
    (h : kids a (ovfTag v "ProductSection".toList) = kids b (ovfTag v "ProductSection".toList)) : getProductClass v a = getProductClass v b := by
  unfold getProductClass prodSec findChild
  rw [section_tag hv, section_attrib hv, findAll_nil, findAll_nil, h]

theorem plain_kids {v : Ver} {a b : Elem}
    (h : kids b (ovfTag v "ProductSection".toList) = kids a (ovfTag v "ProductSection".toList)) (hp : PlainFields v a) : PlainFields v b := by
  intro s hs ht
  have : s ∈ kids b (ovfTag v "ProductSection".toList) := List.mem_filter.2 ⟨hs, decide_eq_true ht⟩
  rw [h] at this
  exact hp s (List.mem_of_mem_filter this) ht

/-- **C124.** In a package of OVF 1.x or 2.x with at most one product section, each field at most once and without elements in
it, edit-product with at least one non-empty text succeeds.  When the package is saved, and XML can hold what is saved, then it
is written without error, and what was written can be read and opened, and has the product class that was given (or else the one
before).  `cot info` then tells, of each field it shows, the text that was given or, if none was, the one that was there before,
or that there is none. -/
theorem C124_product_partial {root : Elem} {parts : Parts} (hopen : openDescriptor root = .ok parts) (hv0 : parts.version ≠ .v0)
    (hp : ProductWF parts.version parts.system) (hl : PlainFields parts.version parts.system) (q : ProductReq)
    (hq : (∃ c, q.cls = some c ∧ c ≠ []) ∨ ∃ f x, q.field f = some x ∧ x ≠ []) :
    ∃ sys1 parts1, editProduct parts.version q parts.system = .ok sys1 ∧
      openDescriptor (putSystem parts.version root sys1) = .ok parts1 ∧ parts1.hardware = parts.hardware ∧
      ∀ c o capOf hw files root' files' py reg, c.env.ver = parts.version →
        saveTree c o capOf (putSystem parts.version root sys1) parts1 hw files = .ok (root', files') →
        GoodPrefixes reg → XmlWritable py root' → (∀ ch ∈ root'.tail.getD [], xmlWs ch = true) →
        ∃ s t parts2, writeXml py reg root' = .ok s ∧ parseXml s = some t ∧ openDescriptor t = .ok parts2 ∧
          parts2.version = parts.version ∧
          getProductClass parts.version parts2.system =
            (match q.cls with | some k => .ok (some k) | none => getProductClass parts.version parts.system) ∧
          ∀ (w : InfoWorld) (vm : InfoVM) (vb : Verbosity), 0 < w.width → vm.env.ver = parts2.version → vm.vs = parts2.system →
            ∃ (lines : List Str) (st : Field → Option Str), infoProduct w vm vb = .ok lines ∧
              (∀ f ∈ shownFields vb, StatedAfter parts.version parts.system q f (st f)) ∧
              ((∀ f ∈ shownFields vb, ∀ x, st f = some x → x = []) → lines = []) ∧
              ((∃ f ∈ shownFields vb, ∃ x, st f = some x ∧ x ≠ []) → lines.flatMap splitWs = productWords vb st) := by
  obtain ⟨env, o1, o2, o3, o4, o5, o6, o7, o8⟩ := (open_kids hv0).1 hopen
  obtain ⟨sys1, e1, e2, e3, e4, -, e5, -⟩ := C83_edit_product hv0 hp q hq
  have hpl := plain_editProduct hv0 hp hl e1
  have hvs : virtualSystemTag parts.version = ovfTag parts.version "VirtualSystem".toList := by
    cases hpv : parts.version <;> first | rfl | exact absurd hpv hv0
  obtain ⟨w1, w2⟩ := updateFirst_spec (s' := sys1) o2 (e5.1.trans (kids_tag (by rw [o2]; simp)))
  have hput : putSystem parts.version root sys1 = updateFirst root (ovfTag parts.version "VirtualSystem".toList) [] (fun _ => sys1) := by
    unfold putSystem; rw [hvs, section_attrib hv0]
  rw [← hput] at w1 w2
  obtain ⟨n1, n2, n3, n4, n5, n6, n7, n8⟩ : (ovfTag parts.version "References".toList ≠ ovfTag parts.version "VirtualSystem".toList) ∧
      (ovfTag parts.version "DiskSection".toList ≠ ovfTag parts.version "VirtualSystem".toList) ∧
      (ovfTag parts.version "NetworkSection".toList ≠ ovfTag parts.version "VirtualSystem".toList) ∧
      (ovfTag parts.version "DeploymentOptionSection".toList ≠ ovfTag parts.version "VirtualSystem".toList) ∧
      (ovfTag parts.version "VirtualHardwareSection".toList ≠ ovfTag parts.version "ProductSection".toList) ∧
      (ovfTag parts.version "AnnotationSection".toList ≠ ovfTag parts.version "ProductSection".toList) ∧
      (ovfTag parts.version "ProductSection".toList ≠ ovfTag parts.version "VirtualHardwareSection".toList) ∧
      (ovfTag parts.version "AnnotationSection".toList ≠ ovfTag parts.version "VirtualHardwareSection".toList) := by
    cases parts.version <;> decide +kernel
  obtain ⟨po, hpo⟩ : ∃ po : Option Elem, kids sys1 (ovfTag parts.version "ProductSection".toList) = po.toList := by
    have := e2.1
    cases hk : kids sys1 (ovfTag parts.version "ProductSection".toList) with
    | nil => exact ⟨none, rfl⟩
    | cons a r =>
      rw [hk] at this
      cases r with
      | nil => exact ⟨some a, rfl⟩
      | cons => simp at this
  have hopen1 : openDescriptor (putSystem parts.version root sys1) = .ok { parts with system := sys1, product := po } := by
    refine (open_kids (p := { parts with system := sys1, product := po }) hv0).2
      ⟨?_, (w2.kids n1).trans o1, w1, (e5.kids n5).trans o3, (w2.kids n2).trans o4, (w2.kids n3).trans o5, (w2.kids n4).trans o6, hpo,
       (e5.kids n6).trans o8⟩
    unfold IsEnvelope at env ⊢
    rw [w2.1]; exact env
  refine ⟨sys1, _, e1, hopen1, rfl, ?_⟩
  intro c o capOf hw files root' files' py reg hv h hreg hwr htl
  obtain ⟨s, t, p1, p2, p3⟩ := C119_saved_partial hreg hwr htl
  obtain ⟨parts', h1, h2, -, -, -, -, h3, -⟩ := C115_reopen hopen1 hv hv0 h
  obtain ⟨parts2, f1, f2, -, -, -, -, f3, -⟩ := C119_opens p3 h1
  have hk : kids parts'.system (ovfTag parts.version "ProductSection".toList) = kids sys1 (ovfTag parts.version "ProductSection".toList) := h3.kids n7
  have hpl' : PlainFields parts.version parts'.system := plain_kids hk hpl
  have hver : parts2.version = parts.version := f2.trans h2
  have hlen : ∀ f, ∃ o, getField parts.version parts.system f = .ok o := fun f => by
    apply getField_total
    rw [sectionsOf_kids hv0]
    exact hp.1
  have hget : ∀ f o, getField parts.version sys1 f = .ok o → getField parts.version parts2.system f = .ok o := fun f o ho =>
    getField_same hv0 f3 hpl' ((getField_kids hv0 hk f).trans ho)
  have hcls : getProductClass parts.version parts2.system =
      (match q.cls with | some k => .ok (some k) | none => getProductClass parts.version parts.system) := by
    have hx : ∃ o, getProductClass parts.version sys1 = .ok o := by
      rw [e4]
      cases q.cls with
      | some k => exact ⟨_, rfl⟩
      | none =>
        obtain ⟨-, s0, -, -, -, hb⟩ := ensure_base hp
        exact ⟨_, getClass_base hv0 hb⟩
    obtain ⟨o0, ho⟩ := hx
    have h9 := getClass_same hv0 f3 ((getClass_kids hv0 hk).trans ho)
    rw [h9, ← ho, e4]
    cases q.cls <;> rfl
  refine ⟨s, t, parts2, p1, p2, f1, hver, hcls, ?_⟩
  intro w vm vb hwid hver2 hvm
  obtain ⟨env2, -, -, -, -, -, -, q7, q8⟩ := (open_kids (p := parts2) (by rw [hver]; exact hv0)).1 f1
  rw [hver] at hver2 q7 q8
  have hl1 : (sectionsOf vm.env.ver vm.vs "ProductSection".toList).length ≤ 1 := by
    rw [hver2, hvm, sectionsOf_kids hv0, q7]; cases parts2.product <;> simp
  have hl2 : (sectionsOf vm.env.ver vm.vs "AnnotationSection".toList).length ≤ 1 := by
    rw [hver2, hvm, sectionsOf_kids hv0, q8]; cases parts2.annotation <;> simp
  obtain ⟨lines, hlines⟩ := (C91_completes_partial vb hwid hl1 hl2).1
  obtain ⟨st, g1, g2, g3⟩ := C91_product hlines
  refine ⟨lines, st, hlines, ?_, g2, g3⟩
  intro f hf
  have hst := g1 f hf
  rw [hver2, hvm] at hst
  unfold StatedAfter
  cases hqf : q.field f with
  | some x =>
    have := hget f (some x) (by rw [e3, hqf])
    exact Or.inl ⟨x, rfl, stated_unique hst (getField_stated this)⟩
  | none =>
    obtain ⟨o0, ho⟩ := hlen f
    have := hget f o0 (by rw [e3, hqf]; exact ho)
    refine Or.inr ⟨rfl, ?_⟩
    rw [stated_unique hst (getField_stated this)]
    exact getField_stated ho

/-! ### Cases -/

/-- a request that names the vendor, the class and the version -/
def exShownReq : ProductReq := { cls := some "com.cisco.csr1000v".toList, vendor := some "Cisco & Co".toList, version := some "2".toList }

/-- the hardware of the descriptor -/
def exShownHw : Elem := exHwSec [exCpuElem none "1", exNicElem "net"]

/-- a descriptor with this virtual system -/
def exShownWith (sys : Elem) : Elem :=
  .mk (ovfTag .v1 "Envelope".toList) [] none none
    [.mk (ovfTag .v1 "References".toList) [] none none [exFileE "vmdk".toList "d.vmdk".toList "1".toList],
     .mk (ovfTag .v1 "DiskSection".toList) [] none none [exDiskE "vmdisk1".toList "vmdk".toList "7".toList],
     .mk (ovfTag .v1 "NetworkSection".toList) [] none none
       [.mk (ovfTag .v1 "Network".toList) [(ovfTag .v1 "name".toList, "net".toList)] none none []],
     sys]

/-- its virtual system before the request: the product section tells the product -/
def exShownSys : Elem := .mk (ovfTag .v1 "VirtualSystem".toList) [] none none
  [exShownHw, .mk (ovfTag .v1 "ProductSection".toList) [] none none [exText (fieldTag .v1 .product) "P Q".toList]]

/-- and after it -/
def exShownSys' : Elem := .mk (ovfTag .v1 "VirtualSystem".toList) [] none none
  [exShownHw, .mk (ovfTag .v1 "ProductSection".toList) [(ovfTag .v1 "class".toList, "com.cisco.csr1000v".toList)] none none
    [exText (fieldTag .v1 .product) "P Q".toList, exText (fieldTag .v1 .vendor) "Cisco & Co".toList, exText (fieldTag .v1 .version) "2".toList]]

theorem exShown_edit : editProduct .v1 exShownReq exShownSys = .ok exShownSys' := rfl

theorem exShown_put : putSystem .v1 (exShownWith exShownSys) exShownSys' = exShownWith exShownSys' := rfl

/-- the parts of the descriptor with this virtual system -/
def exShownParts (sys : Elem) (p : Option Elem) : Parts :=
  ⟨.v1, .mk (ovfTag .v1 "References".toList) [] none none [exFileE "vmdk".toList "d.vmdk".toList "1".toList],
   some (.mk (ovfTag .v1 "DiskSection".toList) [] none none [exDiskE "vmdisk1".toList "vmdk".toList "7".toList]),
   some (.mk (ovfTag .v1 "NetworkSection".toList) [] none none
       [.mk (ovfTag .v1 "Network".toList) [(ovfTag .v1 "name".toList, "net".toList)] none none []]),
   none, sys, p, none, exShownHw⟩

theorem exShown_open : openDescriptor (exShownWith exShownSys) = .ok (exShownParts exShownSys
    (some (.mk (ovfTag .v1 "ProductSection".toList) [] none none [exText (fieldTag .v1 .product) "P Q".toList]))) := rfl

theorem exShown_open' : openDescriptor (exShownWith exShownSys') = .ok (exShownParts exShownSys'
    (some (.mk (ovfTag .v1 "ProductSection".toList) [(ovfTag .v1 "class".toList, "com.cisco.csr1000v".toList)] none none
    [exText (fieldTag .v1 .product) "P Q".toList, exText (fieldTag .v1 .vendor) "Cisco & Co".toList, exText (fieldTag .v1 .version) "2".toList]))) := rfl

theorem exShown_load : ∃ hw, loadHardware exEnv exShownHw = .ok hw ∧ ∀ o p,
    (saveTree exCtx o exCap (exShownWith exShownSys') (exShownParts exShownSys' p) hw exWholeFiles).map Prod.fst = .ok (exShownWith exShownSys') :=
  ⟨_, rfl, fun _ _ => rfl⟩

theorem exShown_plain : PlainFields .v1 exShownSys := by
  intro s hs ht c hc _
  simp only [exShownSys, Elem.children, List.mem_cons, List.not_mem_nil, or_false] at hs
  rcases hs with rfl | rfl
  · exact absurd ht (by decide +kernel)
  · simp only [Elem.children, List.mem_singleton] at hc
    subst hc; rfl

theorem exShown_wf : ProductWF .v1 exShownSys := by
  refine ⟨by decide +kernel, ?_⟩
  have : ∀ f : Field, ∀ s ∈ kids exShownSys (ovfTag .v1 "ProductSection".toList), (kids s (fieldTag .v1 f)).length ≤ 1 := by
    intro f; cases f <;> decide +kernel
  intro s hs f t ht
  rw [fieldTag_iff.1 ht]
  exact this f s hs

/-- the request, from the descriptor before it to what is told after it was written and read again -/
example (py : EtVer) (o : Orders) : ∃ hw files' s t parts2, loadHardware exEnv exShownHw = .ok hw ∧
    editProduct .v1 exShownReq exShownSys = .ok exShownSys' ∧
    (∃ p, saveTree exCtx o exCap (exShownWith exShownSys') (exShownParts exShownSys' p) hw exWholeFiles = .ok (exShownWith exShownSys', files')) ∧
    writeXml py etDefault (exShownWith exShownSys') = .ok s ∧ parseXml s = some t ∧ openDescriptor t = .ok parts2 ∧
    getProductClass .v1 parts2.system = .ok (some "com.cisco.csr1000v".toList) ∧
    ∀ (w : InfoWorld) (vm : InfoVM), 0 < w.width → vm.env.ver = parts2.version → vm.vs = parts2.system →
      ∃ lines, infoProduct w vm .brief = .ok lines ∧ lines.flatMap splitWs =
        ["Product:", "P", "Q", "Vendor:", "Cisco", "&", "Co", "Version:", "2"].map String.toList := by
  obtain ⟨hw, hload, hsave⟩ := exShown_load
  obtain ⟨sys1, parts1, e1, e2, -, e3⟩ := C124_product_partial exShown_open (by decide) exShown_wf exShown_plain exShownReq
    (Or.inl ⟨_, rfl, by decide⟩)
  have e1' : sys1 = exShownSys' := Except.ok.inj (e1.symm.trans exShown_edit)
  subst e1'
  have hput : putSystem (exShownParts exShownSys
    (some (.mk (ovfTag .v1 "ProductSection".toList) [] none none [exText (fieldTag .v1 .product) "P Q".toList]))).version
      (exShownWith exShownSys) exShownSys' = exShownWith exShownSys' := exShown_put
  rw [hput] at e2 e3
  have e2' := Except.ok.inj (e2.symm.trans exShown_open')
  subst e2'
  have hs := hsave o (some (.mk (ovfTag .v1 "ProductSection".toList) [(ovfTag .v1 "class".toList, "com.cisco.csr1000v".toList)] none none
    [exText (fieldTag .v1 .product) "P Q".toList, exText (fieldTag .v1 .vendor) "Cisco & Co".toList, exText (fieldTag .v1 .version) "2".toList]))
  cases hr : saveTree exCtx o exCap (exShownWith exShownSys') (exShownParts exShownSys'
    (some (.mk (ovfTag .v1 "ProductSection".toList) [(ovfTag .v1 "class".toList, "com.cisco.csr1000v".toList)] none none
    [exText (fieldTag .v1 .product) "P Q".toList, exText (fieldTag .v1 .vendor) "Cisco & Co".toList, exText (fieldTag .v1 .version) "2".toList]))) hw exWholeFiles with
  | error e => rw [hr] at hs; cases hs
  | ok r =>
    obtain ⟨root', files'⟩ := r
    rw [hr] at hs
    have hs' : root' = exShownWith exShownSys' := Except.ok.inj hs
    subst hs'
    obtain ⟨s, t, parts2, f1, f2, f3, f4, f5, f6⟩ := e3 exCtx o exCap hw exWholeFiles _ files' py etDefault rfl hr etDefault_good
      (writableB_sound _ (by decide +kernel)) (by simp [exShownWith, Elem.tail])
    refine ⟨hw, files', s, t, parts2, hload, exShown_edit, ⟨_, hr⟩, f1, f2, f3, f5, ?_⟩
    intro w vm h1 h2 h3
    obtain ⟨lines, st, g1, g2, -, g4⟩ := f6 w vm .brief h1 h2 h3
    refine ⟨lines, g1, ?_⟩
    have p1 : st .vendor = some "Cisco & Co".toList := by
      rcases g2 .vendor (by decide) with ⟨x, hx, hy⟩ | ⟨hx, -⟩
      · cases hx; exact hy
      · cases hx
    have p2 : st .version = some "2".toList := by
      rcases g2 .version (by decide) with ⟨x, hx, hy⟩ | ⟨hx, -⟩
      · cases hx; exact hy
      · cases hx
    have p3 : st .product = some "P Q".toList := by
      rcases g2 .product (by decide) with ⟨x, hx, -⟩ | ⟨-, hx⟩
      · cases hx
      · exact stated_unique hx (getField_stated (show getField .v1 exShownSys .product = .ok (some "P Q".toList) from rfl))
    rw [g4 ⟨.vendor, by decide, _, p1, by decide⟩]
    unfold productWords
    rw [p1, p2, p3]
    simp only [if_true]
    decide +kernel

end Cot
