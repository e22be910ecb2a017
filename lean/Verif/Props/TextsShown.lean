import Verif.Props.VariantsShown
import Verif.Props.ProductShown
/-
C124, texts: `cot info` tells the annotation and the licences of the package that was saved.
-/
namespace Cot

/-- the sections of the virtual system, other than the hardware, that saving, writing and reading lead to -/
theorem saved_sections {c : Ctx} {o : Orders} {capOf : Str → Except Err Nat} {root root' : Elem} {parts : Parts} {hw : Hw}
    {files files' : List (Str × FRef)} {py : EtVer} {reg : List (Str × Str)} (hopen : openDescriptor root = .ok parts)
    (hv : c.env.ver = parts.version) (hv0 : parts.version ≠ .v0)
    (h : saveTree c o capOf root parts hw files = .ok (root', files')) (hreg : GoodPrefixes reg) (hx : XmlWritable py root')
    (ht : ∀ c ∈ root'.tail.getD [], xmlWs c = true) :
    ∃ s t parts2, writeXml py reg root' = .ok s ∧ parseXml s = some t ∧ openDescriptor t = .ok parts2 ∧
      ∀ tag, tag ≠ ovfTag parts.version "VirtualHardwareSection".toList →
        List.Forall₂ SameContent (kids parts.system tag) (kids parts2.system tag) := by
  obtain ⟨s, t, h1, h2, h3⟩ := C119_saved_partial (py := py) hreg hx ht
  obtain ⟨parts', g1, -, -, -, -, -, g2, -⟩ := C115_reopen hopen hv hv0 h
  obtain ⟨parts2, k1, -, -, -, -, -, k2, -⟩ := C119_opens h3 g1
  exact ⟨s, t, parts2, h1, h2, k1, fun tag htag => by rw [← SameButKids.kids g2 htag]; exact kids_same k2 tag⟩

/-- **C124 (licences).** Of a package that was saved, `cot info` tells the licences that it had before, in order. -/
theorem C124_licences_partial {c : Ctx} {o : Orders} {capOf : Str → Except Err Nat} {root root' : Elem} {parts : Parts} {hw : Hw}
    {files files' : List (Str × FRef)} {py : EtVer} {reg : List (Str × Str)} (hopen : openDescriptor root = .ok parts)
    (hv : c.env.ver = parts.version) (hv0 : parts.version ≠ .v0)
    (h : saveTree c o capOf root parts hw files = .ok (root', files')) (hreg : GoodPrefixes reg) (hx : XmlWritable py root')
    (ht : ∀ c ∈ root'.tail.getD [], xmlWs c = true)
    (hd : ∀ e ∈ sectionsOf parts.version parts.system "EulaSection".toList, ∀ x ∈ e.children, x.children = []) :
    ∃ s t parts2, writeXml py reg root' = .ok s ∧ parseXml s = some t ∧ openDescriptor t = .ok parts2 ∧
      ∀ (w : InfoWorld) (vm : InfoVM) (vb : Verbosity) (lines : List Str), vm.env = c.env → vm.vs = parts2.system →
        infoEula w vm vb = .ok lines →
        (licences parts.version parts.system = [] ∧ lines = []) ∨
        (licences parts.version parts.system ≠ [] ∧ ∃ (head : Str) (blocks : List (List Str)), lines = head :: blocks.flatten ∧
          splitWs head = splitWs "End User License Agreement(s):".toList ∧
          List.Forall₂ (fun e b => b.flatMap splitWs = licenceWords parts.version vb e) (licences parts.version parts.system) blocks) := by
  obtain ⟨s, t, parts2, h1, h2, h3, hk⟩ := saved_sections (py := py) hopen hv hv0 h hreg hx ht
  refine ⟨s, t, parts2, h1, h2, h3, ?_⟩
  intro w vm vb lines e1 e2 hl
  have hlic := C91_licences hl
  rw [e1, e2, hv] at hlic
  have hk := hk (ovfTag parts.version "EulaSection".toList) (by cases parts.version <;> decide +kernel)
  rw [← sectionsOf_kids hv0, ← sectionsOf_kids hv0] at hk
  have key : ∀ {l m : List Elem}, List.Forall₂ SameContent l m → (∀ e ∈ l, ∀ x ∈ e.children, x.children = []) →
      List.Forall₂ (fun a b => ∀ tag, firstText b tag = firstText a tag) l m := by
    intro l m hlm
    induction hlm with
    | nil => intro _; exact .nil
    | cons hs _ ih =>
      intro hch
      exact .cons (fun tag => firstText_same hs tag (fun x hx => hch _ (List.mem_cons_self ..) x (List.mem_filter.1 hx).1))
        (ih (fun e he => hch e (List.mem_cons_of_mem _ he)))
  have hf : List.Forall₂ (fun a b => ∀ tag, firstText b tag = firstText a tag) (licences parts.version parts.system)
      (licences parts.version parts2.system) := by
    unfold licences
    refine forall₂_filter (R := fun a b => ∀ tag, firstText b tag = firstText a tag) (fun x y hxy => by rw [hxy]) (key hk hd)
  rcases hlic with ⟨q1, q2⟩ | ⟨q1, head, blocks, q2, q3, q4⟩
  · rw [q1] at hf
    exact Or.inl ⟨List.forall₂_nil_right_iff.1 hf, q2⟩
  · refine Or.inr ⟨fun hc => ?_, head, blocks, q2, q3, ?_⟩
    · rw [hc] at hf
      exact q1 (List.forall₂_nil_left_iff.1 hf)
    · have comp : ∀ {l m : List Elem} {bs : List (List Str)}, List.Forall₂ (fun a b => ∀ tag, firstText b tag = firstText a tag) l m →
          List.Forall₂ (fun e b => b.flatMap splitWs = licenceWords parts.version vb e) m bs →
          List.Forall₂ (fun e b => b.flatMap splitWs = licenceWords parts.version vb e) l bs := by
        intro l m bs hlm
        induction hlm generalizing bs with
        | nil => intro hb; cases hb; exact .nil
        | cons hs _ ih =>
          intro hb
          cases hb with
          | cons hb1 hb2 =>
            refine .cons ?_ (ih hb2)
            rw [hb1]
            unfold licenceWords
            rw [hs, hs]
      exact comp hf q4

/-- **C124 (annotation).** Of a package that was saved, `cot info` tells the annotation that it had before. -/
theorem C124_annotation_partial {c : Ctx} {o : Orders} {capOf : Str → Except Err Nat} {root root' : Elem} {parts : Parts} {hw : Hw}
    {files files' : List (Str × FRef)} {py : EtVer} {reg : List (Str × Str)} (hopen : openDescriptor root = .ok parts)
    (hv : c.env.ver = parts.version) (hv0 : parts.version ≠ .v0)
    (h : saveTree c o capOf root parts hw files = .ok (root', files')) (hreg : GoodPrefixes reg) (hx : XmlWritable py root')
    (ht : ∀ c ∈ root'.tail.getD [], xmlWs c = true)
    (hd : ∀ e ∈ sectionsOf parts.version parts.system "AnnotationSection".toList, ∀ x ∈ e.children, x.children = []) :
    ∃ s t parts2, writeXml py reg root' = .ok s ∧ parseXml s = some t ∧ openDescriptor t = .ok parts2 ∧
      ∀ (w : InfoWorld) (vm : InfoVM) (lines : List Str), vm.env = c.env → vm.vs = parts2.system → infoAnnotation w vm = .ok lines →
        ((∀ x, IsAnnotation parts.version parts.system x → x = []) → lines.flatMap splitWs = []) ∧
        (∀ x, x ≠ [] → IsAnnotation parts.version parts.system x →
          (¬ StartsBlank x → lines.flatMap splitWs = "Annotation:".toList :: splitWs x) ∧
          (StartsBlank x → lines.flatMap splitWs = splitWs x)) := by
  obtain ⟨s, t, parts2, h1, h2, h3, hk⟩ := saved_sections (py := py) hopen hv hv0 h hreg hx ht
  refine ⟨s, t, parts2, h1, h2, h3, ?_⟩
  intro w vm lines e1 e2 hl
  have hann := C91_annotation hl
  rw [e1, e2, hv] at hann
  have hk := hk (ovfTag parts.version "AnnotationSection".toList) (by cases parts.version <;> decide +kernel)
  rw [← sectionsOf_kids hv0, ← sectionsOf_kids hv0] at hk
  have hiff : ∀ x, IsAnnotation parts.version parts2.system x ↔ x ≠ [] ∧ IsAnnotation parts.version parts.system x := by
    intro x
    unfold IsAnnotation
    have hkid : ∀ (e : Elem), e.children.filter (fun c => c.tag == ovfTag parts.version "Annotation".toList) =
        kids e (ovfTag parts.version "Annotation".toList) := fun e => List.filter_congr (fun y _ => beq_eq_decide ..)
    constructor
    · rintro ⟨s2, a2, r2, q1, q2, q3⟩
      rw [q1] at hk
      rw [hkid] at q2
      obtain ⟨s1, l, hs, hr, hl'⟩ := List.forall₂_cons_right_iff.1 hk
      have hr := List.forall₂_nil_right_iff.1 hr
      subst hr
      have ha := kids_same hs (ovfTag parts.version "Annotation".toList)
      rw [q2] at ha
      obtain ⟨a1, r1, ha1, -, hr1⟩ := List.forall₂_cons_right_iff.1 ha
      have hc : a1.children = [] := hd s1 (by rw [hl']; exact List.mem_singleton.2 rfl) a1
        (List.mem_filter.1 (show a1 ∈ kids s1 _ by rw [hr1]; exact List.mem_cons_self ..)).1
      have htx := ha1.facts.2.2.1 hc
      rw [q3] at htx
      unfold asRead at htx
      split at htx
      · cases htx
      · rename_i hne
        refine ⟨fun hx => hne (by rw [← htx, hx]; rfl), s1, a1, r1, hl', by rw [hkid]; exact hr1, htx.symm⟩
    · rintro ⟨hx, s1, a1, r1, q1, q2, q3⟩
      rw [q1] at hk
      rw [hkid] at q2
      obtain ⟨s2, l, hs, hr, hl'⟩ := List.forall₂_cons_left_iff.1 hk
      have hr := List.forall₂_nil_left_iff.1 hr
      subst hr
      have ha := kids_same hs (ovfTag parts.version "Annotation".toList)
      rw [q2] at ha
      obtain ⟨a2, r2, ha2, -, hr2⟩ := List.forall₂_cons_left_iff.1 ha
      have hc : a1.children = [] := hd s1 (by rw [q1]; exact List.mem_singleton.2 rfl) a1
        (List.mem_filter.1 (show a1 ∈ kids s1 _ by rw [q2]; exact List.mem_cons_self ..)).1
      have htx := ha2.facts.2.2.1 hc
      rw [q3] at htx
      unfold asRead at htx
      rw [if_neg (by simpa using hx)] at htx
      exact ⟨s2, a2, r2, hl', by rw [hkid]; exact hr2, htx⟩
  have huniq : ∀ x y, IsAnnotation parts.version parts.system x → IsAnnotation parts.version parts.system y → x = y := by
    rintro x y ⟨s1, a1, r1, q1, q2, q3⟩ ⟨s2, a2, r2, p1, p2, p3⟩
    rw [q1] at p1
    cases p1
    rw [q2] at p2
    cases p2
    rw [q3] at p3
    exact Option.some.inj p3
  rcases hann with ⟨q1, rfl⟩ | ⟨x, q1, q2, q3⟩
  · exact ⟨fun _ => rfl, fun x hx ha => absurd ((hiff x).2 ⟨hx, ha⟩) (q1 x)⟩
  · obtain ⟨hx, ha⟩ := (hiff x).1 q1
    refine ⟨fun hn => absurd (hn x ha) hx, fun y _ hy => ?_⟩
    rw [← huniq x y ha hy]
    exact ⟨q2, q3⟩

/-! ### Cases -/

/-- a virtual system with an annotation and a licence -/
def exTextSys : Elem := .mk (ovfTag .v1 "VirtualSystem".toList) [] none none
  [exShownHw,
   .mk (ovfTag .v1 "AnnotationSection".toList) [] none none [exText (ovfTag .v1 "Annotation".toList) "for use & study".toList],
   .mk (ovfTag .v1 "EulaSection".toList) [] none none
     [exText (infoTag .v1) "Terms".toList, exText (ovfTag .v1 "License".toList) "do as you like".toList]]

theorem exText_load : ∃ hw, loadHardware exEnv exShownHw = .ok hw ∧ ∀ o p a,
    (saveTree exCtx o exCap (exShownWith exTextSys) { exShownParts exTextSys p with annotation := a } hw exWholeFiles).map Prod.fst =
      .ok (exShownWith exTextSys) := ⟨_, rfl, fun _ _ _ => rfl⟩

theorem exText_saved : ∃ hw parts, openDescriptor (exShownWith exTextSys) = .ok parts ∧ parts.system = exTextSys ∧ parts.version = .v1 ∧
    ∀ o, ∃ files', saveTree exCtx o exCap (exShownWith exTextSys) parts hw exWholeFiles = .ok (exShownWith exTextSys, files') := by
  obtain ⟨hw, -, h⟩ := exText_load
  have hop : ∃ a, openDescriptor (exShownWith exTextSys) = .ok { exShownParts exTextSys none with annotation := a } := ⟨_, rfl⟩
  obtain ⟨a, ha⟩ := hop
  refine ⟨hw, _, ha, rfl, rfl, fun o => ?_⟩
  have := h o none a
  cases hs : saveTree exCtx o exCap (exShownWith exTextSys) { exShownParts exTextSys none with annotation := a } hw exWholeFiles with
  | error e => rw [hs] at this; cases this
  | ok r =>
    rw [hs] at this
    exact ⟨r.2, by rw [← Except.ok.inj this]⟩

/-- both are told of the saved package -/
example (o : Orders) (py : EtVer) : ∃ s t parts2, writeXml py etDefault (exShownWith exTextSys) = .ok s ∧ parseXml s = some t ∧
    openDescriptor t = .ok parts2 ∧ ∀ (w : InfoWorld) (vm : InfoVM) (a e : List Str), vm.env = exEnv → vm.vs = parts2.system →
      infoAnnotation w vm = .ok a → infoEula w vm .verbose = .ok e →
      a.flatMap splitWs = "Annotation:".toList :: splitWs "for use & study".toList ∧
      ∃ head block, e = head :: block ∧ block.flatMap splitWs = splitWs "Terms".toList ++ splitWs "do as you like".toList := by
  obtain ⟨hw, parts, h1, h2, h3, h4⟩ := exText_saved
  obtain ⟨files', hs⟩ := h4 o
  have hw1 : XmlWritable py (exShownWith exTextSys) := writableB_sound _ (by decide +kernel)
  have htl : ∀ c ∈ (exShownWith exTextSys).tail.getD [], xmlWs c = true := by simp [exShownWith, Elem.tail]
  obtain ⟨s, t, parts2, k1, k2, k3, k4⟩ := C124_licences_partial (py := py) h1 h3.symm (by rw [h3]; decide) hs etDefault_good hw1 htl
    (by rw [h2, h3]; exact of_decide_eq_true (by decide +kernel))
  obtain ⟨s', t', parts2', l1, l2, l3, l4⟩ := C124_annotation_partial (py := py) h1 h3.symm (by rw [h3]; decide) hs etDefault_good hw1 htl
    (by rw [h2, h3]; exact of_decide_eq_true (by decide +kernel))
  rw [k1] at l1
  cases l1
  rw [k2] at l2
  cases l2
  rw [k3] at l3
  cases l3
  refine ⟨s, t, parts2, k1, k2, k3, ?_⟩
  intro w vm a e e1 e2 ha he
  have hL := k4 w vm .verbose e e1 e2 he
  have hA := (l4 w vm a e1 e2 ha).2
  rw [h2, h3] at hL hA
  refine ⟨(hA "for use & study".toList (by decide) ⟨_, _, [], rfl, rfl, rfl⟩).1 ?_, ?_⟩
  · intro hc
    exact absurd (hc 'f' (by decide +kernel)) (by decide +kernel)
  · have hl : licences .v1 exTextSys = [.mk (ovfTag .v1 "EulaSection".toList) [] none none
     [exText (infoTag .v1) "Terms".toList, exText (ovfTag .v1 "License".toList) "do as you like".toList]] := by rfl
    rw [hl] at hL
    rcases hL with ⟨hc, -⟩ | ⟨-, head, blocks, rfl, -, hb⟩
    · cases hc
    · cases hb with
      | cons hb hr =>
        cases hr
        refine ⟨head, _, rfl, ?_⟩
        rw [List.flatten_cons, List.flatten_nil, List.append_nil, hb]
        rfl

end Cot
