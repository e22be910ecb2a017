import Verif.Spec.InfoSections
import Verif.Props.InfoFiles
/-
C91: what `cot info` tells about the product, the annotation, the licences and the kinds of hardware.
-/
namespace Cot

theorem wrapLine_words {width : Int} {i s l : Str} {ls : List Str} (hi : i = [] ∨ ∃ a c, i = a ++ [c] ∧ isWs c = true)
    (hs : ∀ c ∈ s, isWs c = true) (h : wrapLine width i s l = .ok ls) :
    ls.flatMap splitWs = if splitWs l = [] then [] else splitWs i ++ splitWs l := by
  unfold wrapLine at h
  split at h
  · rename_i e; subst e; cases h; simp [splitWs_nil]
  · exact textWrap_words hi hs h

theorem indent_ends {i : Str} (h : ∀ c ∈ i, isWs c = true) : i = [] ∨ ∃ a c, i = a ++ [c] ∧ isWs c = true := by
  rcases List.eq_nil_or_concat i with rfl | ⟨a, c, rfl⟩
  · exact Or.inl rfl
  · exact Or.inr ⟨a, c, by simp, h c (by simp)⟩

theorem wrapLine_blank {width : Int} {i s l : Str} {ls : List Str} (hi : ∀ c ∈ i, isWs c = true)
    (hs : ∀ c ∈ s, isWs c = true) (h : wrapLine width i s l = .ok ls) : ls.flatMap splitWs = splitWs l := by
  rw [wrapLine_words (indent_ends hi) hs h, splitWs_blank hi]
  split
  · rename_i e; rw [e]
  · simp

theorem textWrap_blank {width : Int} {i s l : Str} {ls : List Str} (hi : ∀ c ∈ i, isWs c = true)
    (hs : ∀ c ∈ s, isWs c = true) (h : textWrap width i s l = .ok ls) : ls.flatMap splitWs = splitWs l := by
  rw [textWrap_words (indent_ends hi) hs h, splitWs_blank hi]
  split
  · rename_i e; rw [e]
  · simp

theorem wrapLines_words {width : Int} {s : Str} (hs : ∀ c ∈ s, isWs c = true) : ∀ (lines : List Str) {ls : List Str},
    wrapLines width s s lines = .ok ls → ls.flatMap splitWs = lines.flatMap splitWs := by
  intro lines
  induction lines with
  | nil => intro ls h; cases h; rfl
  | cons l r ih =>
    intro ls h
    unfold wrapLines at h
    obtain ⟨x, h1, h⟩ := bind_ok_inv h
    obtain ⟨y, h2, h⟩ := bind_ok_inv h
    cases h
    rw [List.flatMap_append, wrapLine_blank hs hs h1, ih h2, List.flatMap_cons]

theorem wrapLines_total {width : Int} (hw : 0 < width) : ∀ (lines : List Str) (i s : Str),
    ∃ ls, wrapLines width i s lines = .ok ls := by
  intro lines
  induction lines with
  | nil => intro i s; exact ⟨[], rfl⟩
  | cons l r ih =>
    intro i s
    obtain ⟨y, h2⟩ := ih s s
    obtain ⟨x, h1⟩ : ∃ x, wrapLine width i s l = .ok x := by
      unfold wrapLine
      split
      · exact ⟨_, rfl⟩
      · exact textWrap_total hw _ _ _
    exact ⟨x ++ y, by unfold wrapLines; simp only [h1, h2, bind, Except.bind]⟩

/-! ### Product -/

theorem findText_childText (e : Elem) (tag : Str) : findText e tag = childText e tag := by
  unfold findText findFirst childText
  rw [List.head?_filter]

theorem textOf_firstText (e : Elem) (tag : Str) : textOf e tag = firstText e tag := by
  unfold textOf firstText childText findFirst
  rw [List.head?_filter]
  cases List.find? (fun c => c.tag == tag) e.children <;> rfl

theorem getField_stated {v : Ver} {vs : Elem} {f : Field} {o : Option Str} (h : getField v vs f = .ok o) :
    Stated v vs f o := by
  unfold getField at h
  split at h
  · cases h
  · rename_i hp
    cases h
    exact Or.inl ⟨findChild_none.1 hp, rfl⟩
  · rename_i s hp
    cases h
    exact Or.inr ⟨s, findChild_some.1 hp, findText_childText _ _⟩

theorem given?_iff (o : Option Str) : given? o = true ↔ ∃ t, o = some t ∧ t ≠ [] := by
  cases o with
  | none => simp [given?]
  | some s => simp [given?]

theorem productLine {width : Int} {label t : Str} {ls : List Str}
    (h : textWrap width [] "          ".toList (label ++ t) = .ok ls) : ls.flatMap splitWs = splitWs (label ++ t) :=
  textWrap_blank (by simp) (by decide) h

theorem splitWs_label {l : Str} {ws : List Str} (h1 : splitWs l = ws) (h2 : l.getLast? = some ' ') (t : Str) :
    splitWs (l ++ t) = ws ++ splitWs t := by
  obtain ⟨a, rfl⟩ := List.getLast?_eq_some_iff.1 h2
  rw [splitWs_append (Or.inl ⟨a, ' ', rfl, isWs_space⟩), h1]

theorem productLoop_words {w : InfoWorld} {vm : InfoVM} {vb : Verbosity} {st : Field → Option Str}
    (hst : ∀ f, f ≠ .appUrl → getField vm.env.ver vm.vs f = .ok (st f)) : ∀ {T : List (Str × Field × Str × Bool)},
    (∀ x ∈ T, x.2.1 ≠ .appUrl) → ∀ {ls : List Str}, productLoop w vm vb T = .ok ls →
    ls.flatMap splitWs = T.flatMap (fun x => if vb = .brief ∧ x.2.2.2 = true then []
      else splitWs (x.1 ++ (st x.2.1).getD x.2.2.1)) := by
  intro T
  induction T with
  | nil => intro _ ls h; cases h; rfl
  | cons x r ih =>
    obtain ⟨label, f, dflt, vo⟩ := x
    intro hT ls h
    have hr := fun {ls} => ih (fun y hy => hT y (by simp [hy])) (ls := ls)
    unfold productLoop at h
    split at h
    · rename_i hc
      rw [hr h, List.flatMap_cons, if_pos hc]
      rfl
    · rename_i hc
      obtain ⟨o, h1, h⟩ := bind_ok_inv h
      obtain ⟨l1, h2, h⟩ := bind_ok_inv h
      obtain ⟨l2, h3, h⟩ := bind_ok_inv h
      cases h
      have := hst f (hT (label, f, dflt, vo) (by simp))
      rw [this] at h1
      cases h1
      rw [List.flatMap_append, List.flatMap_cons, if_neg hc, hr h3, productLine h2]

/-- **C91 (product).** Nothing is told if none of the fields to be shown is stated; else for product, vendor and version
(and unless `--brief`, their addresses and the full version) what is stated, or that it is not. -/
theorem C91_product {w : InfoWorld} {vm : InfoVM} {vb : Verbosity} {lines : List Str}
    (h : infoProduct w vm vb = .ok lines) : ∃ st : Field → Option Str,
      (∀ f ∈ shownFields vb, Stated vm.env.ver vm.vs f (st f)) ∧
      ((∀ f ∈ shownFields vb, ∀ t, st f = some t → t = []) → lines = []) ∧
      ((∃ f ∈ shownFields vb, ∃ t, st f = some t ∧ t ≠ []) → lines.flatMap splitWs = productWords vb st) := by
  unfold infoProduct at h
  obtain ⟨a, ha, h⟩ := bind_ok_inv h
  obtain ⟨b, hb, h⟩ := bind_ok_inv h
  obtain ⟨c, hc, h⟩ := bind_ok_inv h
  obtain ⟨d, hd, h⟩ := bind_ok_inv h
  obtain ⟨e, he, h⟩ := bind_ok_inv h
  obtain ⟨f, hf, h⟩ := bind_ok_inv h
  let st : Field → Option Str := fun
    | .product => a | .vendor => b | .version => c | .productUrl => d | .vendorUrl => e | .fullVersion => f
    | .appUrl => none
  have hcond : (!(given? a || given? b || given? c) && (decide (vb = .brief) || !(given? d || given? e || given? f))) = true ↔
      ∀ f ∈ shownFields vb, ∀ t, st f = some t → t = [] := by
    have hg : ∀ o : Option Str, given? o = false ↔ ∀ t, o = some t → t = [] := by
      intro o
      rw [← Bool.not_eq_true, given?_iff]
      simp
    unfold shownFields
    by_cases hv : vb = .brief
    · simp [hv, st, hg]; tauto
    · simp [hv, st, hg]; tauto
  refine ⟨st, ?_, ?_, ?_⟩
  · intro x _
    cases x
    · exact getField_stated ha
    · exact getField_stated hb
    · exact getField_stated hc
    · exact getField_stated hf
    · exact getField_stated hd
    · exact getField_stated he
    · rename_i hx
      unfold shownFields at hx
      split at hx <;> simp at hx
  · intro hn
    rw [if_pos (hcond.2 hn)] at h
    cases h
    rfl
  · intro hs
    rw [if_neg (by
      rw [hcond]
      intro hn
      obtain ⟨x, hx, t, ht, hne⟩ := hs
      exact hne (hn x hx t ht))] at h
    have hst : ∀ f, f ≠ .appUrl → getField vm.env.ver vm.vs f = .ok (st f) := by
      intro x hx
      cases x
      · exact ha
      · exact hb
      · exact hc
      · exact hf
      · exact hd
      · exact he
      · exact absurd rfl hx
    rw [productLoop_words hst (by decide) h]
    have h0 : ∀ t : Str, splitWs ("          ".toList ++ t) = splitWs t := fun t => splitWs_blank_append (by decide) t
    have h1 : ∀ t : Str, splitWs ("Product:  ".toList ++ t) = "Product:".toList :: splitWs t := fun t => splitWs_label (ws := ["Product:".toList]) (by decide) (by decide) t
    have h2 : ∀ t : Str, splitWs ("Vendor:   ".toList ++ t) = "Vendor:".toList :: splitWs t := fun t => splitWs_label (ws := ["Vendor:".toList]) (by decide) (by decide) t
    have h3 : ∀ t : Str, splitWs ("Version:  ".toList ++ t) = "Version:".toList :: splitWs t := fun t => splitWs_label (ws := ["Version:".toList]) (by decide) (by decide) t
    unfold productWords productTable
    by_cases hv : vb = .brief
    · rw [List.flatMap_cons, if_neg (fun x => absurd x.2 (by decide)), List.flatMap_cons, if_pos ⟨hv, rfl⟩,
        List.flatMap_cons, if_neg (fun x => absurd x.2 (by decide)), List.flatMap_cons, if_pos ⟨hv, rfl⟩,
        List.flatMap_cons, if_neg (fun x => absurd x.2 (by decide)), List.flatMap_cons, if_pos ⟨hv, rfl⟩, List.flatMap_nil,
        h1, h2, h3]
      simp only [if_pos hv, List.append_assoc, List.cons_append, List.nil_append, List.append_nil]
    · rw [List.flatMap_cons, if_neg (fun x => hv x.1), List.flatMap_cons, if_neg (fun x => hv x.1),
        List.flatMap_cons, if_neg (fun x => hv x.1), List.flatMap_cons, if_neg (fun x => hv x.1),
        List.flatMap_cons, if_neg (fun x => hv x.1), List.flatMap_cons, if_neg (fun x => hv x.1), List.flatMap_nil,
        h1, h2, h3, h0, h0, h0]
      simp only [if_neg hv, List.append_assoc, List.cons_append, List.append_nil]

/-! ### Annotation -/

theorem splitLinesAux_head : ∀ (t cur : Str) {l : Str} {r : List Str}, splitLinesAux t cur = l :: r →
    l = cur ++ t.takeWhile (fun c => !isLineEnd c) := by
  intro t cur
  fun_induction splitLinesAux t cur with
  | case1 => intro l r h; cases h
  | case2 cur hc => intro l r h; simp at h; simp [h.1]
  | case3 cur t ih =>
    intro l r h
    have : isLineEnd '\r' = true := by decide
    simp at h
    simp [this, h.1]
  | case4 cur c t hne hl ih =>
    intro l r h
    simp at h
    simp [hl, h.1]
  | case5 cur c t hne hl ih =>
    intro l r h
    rw [ih h]
    simp [hl]

/-- **C91 (annotation).** If there is an annotation, all its words are told, after the label `Annotation:` unless its
first line is blank. -/
theorem C91_annotation {w : InfoWorld} {vm : InfoVM} {lines : List Str} (h : infoAnnotation w vm = .ok lines) :
    ((∀ t, ¬ IsAnnotation vm.env.ver vm.vs t) ∧ lines = []) ∨
    ∃ t, IsAnnotation vm.env.ver vm.vs t ∧
      (¬ StartsBlank t → lines.flatMap splitWs = "Annotation:".toList :: splitWs t) ∧
      (StartsBlank t → lines.flatMap splitWs = splitWs t) := by
  unfold infoAnnotation at h
  simp only at h
  split at h
  · cases h
  · rename_i hs
    cases h
    refine Or.inl ⟨?_, rfl⟩
    rintro t ⟨s, a, r, hs', -⟩
    have := findChild_none.1 hs
    unfold sectionsOf at hs'
    unfold findAllChildren at this
    rw [hs'] at this
    cases this
  · rename_i s hs
    have hs1 := findChild_some.1 hs
    split at h
    · rename_i ha
      cases h
      refine Or.inl ⟨?_, rfl⟩
      rintro t ⟨s', a, r, hs', ha', -⟩
      have e : [s] = [s'] := hs1.symm.trans hs'
      cases e
      have := (List.head?_filter (p := fun c : Elem => c.tag == ovfTag vm.env.ver "Annotation".toList) (l := s.children))
      unfold findFirst at ha
      rw [ha', ha] at this
      cases this
    · rename_i a ha
      have hf : ∃ r, s.children.filter (fun c => c.tag == ovfTag vm.env.ver "Annotation".toList) = a :: r := by
        have := (List.head?_filter (p := fun c : Elem => c.tag == ovfTag vm.env.ver "Annotation".toList) (l := s.children))
        unfold findFirst at ha
        rw [ha] at this
        exact List.head?_eq_some_iff.1 this
      obtain ⟨r, hf⟩ := hf
      split at h
      · rename_i ht
        cases h
        refine Or.inl ⟨?_, rfl⟩
        rintro t ⟨s', a', r', hs', ha', ht'⟩
        have e : [s] = [s'] := hs1.symm.trans hs'
        cases e
        rw [hf] at ha'
        cases ha'
        rw [ht] at ht'
        cases ht'
      · rename_i t ht
        refine Or.inr ⟨t, ⟨s, a, r, hs1, hf, ht⟩, ?_⟩
        have hsl := splitWs_splitLines t
        cases hl : splitLines t with
        | nil =>
          rw [hl] at h hsl
          cases h
          refine ⟨?_, fun _ => hsl⟩
          intro hb
          exfalso
          apply hb
          intro c hc
          exact splitWs_eq_nil.1 hsl.symm c (List.takeWhile_sublist _ |>.subset hc)
        | cons l ls =>
          have hl1 := splitLinesAux_head t [] hl
          rw [hl] at h hsl
          unfold wrapLines at h
          obtain ⟨x, h1, h⟩ := bind_ok_inv h
          obtain ⟨y, h2, h⟩ := bind_ok_inv h
          cases h
          have e1 := wrapLine_words (Or.inr ⟨"Annotation:".toList, ' ', by decide, isWs_space⟩) (by decide) h1
          have e2 := wrapLines_words (by decide) _ h2
          have hb : StartsBlank t ↔ splitWs l = [] := by
            rw [splitWs_eq_nil, hl1]
            rfl
          rw [List.flatMap_cons] at hsl
          constructor
          · intro hn
            rw [if_neg (fun x => hn (hb.2 x))] at e1
            rw [List.flatMap_append, e1, e2, ← hsl, List.append_assoc]
            rfl
          · intro hn
            rw [if_pos (hb.1 hn)] at e1
            rw [hb.1 hn] at hsl
            rw [List.flatMap_append, e1, e2, ← hsl]

/-! ### Licences -/

theorem eulaLines_words {w : InfoWorld} {v : Ver} {vb : Verbosity} {e : Elem} {ls : List Str}
    (h : eulaLines w v vb e (textOf e (ovfTag v "License".toList)) = .ok ls) : ls.flatMap splitWs = licenceWords v vb e := by
  unfold eulaLines at h
  obtain ⟨x, h1, h⟩ := bind_ok_inv h
  obtain ⟨y, h2, h⟩ := bind_ok_inv h
  cases h
  have e1 : x.flatMap splitWs = splitWs (firstText e (infoTag v)) := by
    rw [← textOf_firstText]
    unfold eulaInfo at h1
    split at h1
    · rename_i hn
      cases h1
      rw [hn]
      rfl
    · exact textWrap_blank (by decide) (by decide) h1
  unfold licenceWords
  rw [List.flatMap_append, e1]
  congr 1
  unfold eulaBody at h2
  split at h2
  · rename_i hn
    cases h2
    rw [if_neg hn]
    decide
  · rename_i hn
    rw [if_pos (by simpa using hn), ← textOf_firstText, ← splitWs_splitLines]
    exact wrapLines_words (by decide) _ h2

theorem eulaLoop_spec {w : InfoWorld} {v : Ver} {vb : Verbosity} {q : Elem → Bool}
    (hq : ∀ e, q e = true ↔ textOf e (ovfTag v "License".toList) ≠ []) : ∀ (es : List Elem) {header : Bool} {ls : List Str},
    eulaLoop w v vb header es = .ok ls → ∃ blocks : List (List Str),
      ls = (if header = true ∨ es.filter q = [] then [] else ["End User License Agreement(s):".toList]) ++ blocks.flatten ∧
      List.Forall₂ (fun e b => b.flatMap splitWs = licenceWords v vb e) (es.filter q) blocks := by
  intro es
  induction es with
  | nil =>
    intro header ls h
    cases h
    exact ⟨[], by rw [List.filter_nil, if_pos (Or.inr rfl)]; rfl, List.Forall₂.nil⟩
  | cons e r ih =>
    intro header ls h
    unfold eulaLoop at h
    split at h
    · rename_i hn
      have hf : (e :: r).filter q = r.filter q := List.filter_cons_of_neg (by rw [hq]; exact fun x => x hn)
      rw [hf]
      exact ih h
    · rename_i hn
      obtain ⟨x, h1, h⟩ := bind_ok_inv h
      obtain ⟨y, h2, h⟩ := bind_ok_inv h
      cases h
      have e1 := eulaLines_words h1
      have hf : (e :: r).filter q = e :: r.filter q := List.filter_cons_of_pos (by rw [hq]; exact hn)
      obtain ⟨blocks, h3, h4⟩ := ih h2
      refine ⟨x :: blocks, ?_, by rw [hf]; exact List.Forall₂.cons e1 h4⟩
      rw [h3, if_pos (Or.inl rfl), hf, List.nil_append, List.flatten_cons]
      cases header
      · rw [if_neg (by decide), if_neg (fun x => x.elim (fun y => by cases y) (fun y => by cases y)), List.append_assoc]
      · rw [if_pos rfl, if_pos (Or.inl rfl)]
        rfl

/-- **C91 (licences).** For each licence its Info text and, with `--verbose`, the licence itself. -/
theorem C91_licences {w : InfoWorld} {vm : InfoVM} {vb : Verbosity} {lines : List Str} (h : infoEula w vm vb = .ok lines) :
    (licences vm.env.ver vm.vs = [] ∧ lines = []) ∨
    (licences vm.env.ver vm.vs ≠ [] ∧ ∃ (head : Str) (blocks : List (List Str)), lines = head :: blocks.flatten ∧
      splitWs head = splitWs "End User License Agreement(s):".toList ∧
      List.Forall₂ (fun e b => b.flatMap splitWs = licenceWords vm.env.ver vb e) (licences vm.env.ver vm.vs) blocks) := by
  obtain ⟨blocks, h1, h2⟩ := eulaLoop_spec (q := fun e => decide (firstText e (ovfTag vm.env.ver "License".toList) ≠ []))
    (fun e => by rw [decide_eq_true_iff, textOf_firstText]) _ h
  change List.Forall₂ _ (licences vm.env.ver vm.vs) blocks at h2
  change lines = (if false = true ∨ licences vm.env.ver vm.vs = [] then [] else _) ++ blocks.flatten at h1
  by_cases hn : licences vm.env.ver vm.vs = []
  · refine Or.inl ⟨hn, ?_⟩
    rw [hn] at h2
    cases h2
    rw [h1, if_pos (Or.inr hn)]
    rfl
  · refine Or.inr ⟨hn, _, blocks, ?_, rfl, h2⟩
    rw [h1, if_neg (fun x => x.elim (fun y => by cases y) hn)]
    rfl

/-! ### Kinds of hardware -/

theorem splitWs_joinSp (l : List Str) : splitWs (joinWith [' '] l) = l.flatMap splitWs :=
  splitWs_joinLines [' '] (by decide) (by decide) l

theorem variantLines_words {w : InfoWorld} {label : Str} (hl : label.getLast? = some ' ') {l ls : List Str}
    (h : variantLines w label l = .ok ls) : ls.flatMap splitWs = labelled label (l.flatMap splitWs) := by
  obtain ⟨a, rfl⟩ := List.getLast?_eq_some_iff.1 hl
  rw [textWrap_words (Or.inr ⟨a, ' ', rfl, isWs_space⟩) (blank_spaces _) h, splitWs_joinSp]
  rfl

theorem subtypeLines_words {w : InfoWorld} {label : Str} (hl : label.getLast? = some ' ') {l ls : List Str}
    (h : subtypeLines w label l = .ok ls) : ls.flatMap splitWs = labelled label (l.flatMap splitWs) := by
  unfold subtypeLines at h
  split at h
  · rename_i hn; cases h; rw [hn]; rfl
  · exact variantLines_words hl h

theorem splitOnChar_words (t : Str) : (splitOnChar ' ' t).flatMap splitWs = splitWs t := by
  rw [← splitWs_joinSp, joinWith_splitOnChar]

theorem systemTypes_text (v : Ver) (hws : Option Elem) :
    (getSystemTypes v hws = none ∧ systemTypeText v hws = []) ∨
    (systemTypeText v hws ≠ [] ∧ getSystemTypes v hws = some (splitOnChar ' ' (systemTypeText v hws))) := by
  unfold getSystemTypes systemTypeText
  cases hws with
  | none => exact Or.inl ⟨rfl, rfl⟩
  | some h =>
    simp only
    unfold findFirst
    rw [List.head?_filter]
    cases List.find? (fun c => c.tag == systemTag v) h.children with
    | none => exact Or.inl ⟨rfl, rfl⟩
    | some s =>
      simp only [findText_childText, firstText]
      cases hc : childText s vstTag with
      | none => exact Or.inl ⟨rfl, rfl⟩
      | some t =>
        cases t with
        | nil => exact Or.inl ⟨rfl, rfl⟩
        | cons c r => exact Or.inr ⟨by simp, rfl⟩

/-- **C91 (kinds of hardware).** The system types as stated, and the subtypes of the SCSI and IDE controllers and of the
NICs. -/
theorem C91_hardware {w : InfoWorld} {vm : InfoVM} {lines : List Str} (wf : HwWF vm.env vm.pkg.hw)
    (h : infoHardware w vm = .ok lines) : ∃ scsi ide eth : List Str,
      Subtypes vm.pkg.hw "6".toList scsi ∧ Subtypes vm.pkg.hw "5".toList ide ∧ Subtypes vm.pkg.hw "10".toList eth ∧
      ((systemTypeText vm.env.ver vm.hws = [] ∧ scsi = [] ∧ ide = [] ∧ eth = [] ∧ lines = []) ∨
       (¬ (systemTypeText vm.env.ver vm.hws = [] ∧ scsi = [] ∧ ide = [] ∧ eth = []) ∧
        ∃ (head : Str) (rest : List Str), lines = head :: rest ∧ splitWs head = splitWs "Hardware Variants:".toList ∧
        rest.flatMap splitWs =
          labelled "System types:".toList (splitWs (systemTypeText vm.env.ver vm.hws)) ++
          labelled "SCSI device types:".toList (scsi.flatMap splitWs) ++
          labelled "IDE device types:".toList (ide.flatMap splitWs) ++
          labelled "Ethernet device types:".toList (eth.flatMap splitWs))) := by
  unfold infoHardware at h
  obtain ⟨scsi, h1, h⟩ := bind_ok_inv h
  obtain ⟨ide, h2, h⟩ := bind_ok_inv h
  obtain ⟨eth, h3, h⟩ := bind_ok_inv h
  refine ⟨scsi, ide, eth, subtypesOf_spec wf rfl h1, subtypesOf_spec wf rfl h2, subtypesOf_spec wf rfl h3, ?_⟩
  have hst := systemTypes_text vm.env.ver vm.hws
  have hn : getSystemTypes vm.env.ver vm.hws = none ↔ systemTypeText vm.env.ver vm.hws = [] := by
    rcases hst with ⟨e1, e2⟩ | ⟨e1, e2⟩
    · simp [e1, e2]
    · simp [e1, e2]
  split at h
  · rename_i hc
    cases h
    exact Or.inl ⟨hn.1 hc.1, hc.2.1, hc.2.2.1, hc.2.2.2, rfl⟩
  · rename_i hc
    obtain ⟨a, h4, h⟩ := bind_ok_inv h
    obtain ⟨b, h5, h⟩ := bind_ok_inv h
    obtain ⟨c, h6, h⟩ := bind_ok_inv h
    obtain ⟨d, h7, h⟩ := bind_ok_inv h
    cases h
    refine Or.inr ⟨by rw [← hn]; exact hc, _, _, rfl, rfl, ?_⟩
    have e4 : a.flatMap splitWs = labelled "System types:".toList (splitWs (systemTypeText vm.env.ver vm.hws)) := by
      rcases hst with ⟨e1, e2⟩ | ⟨e1, e2⟩
      · rw [e1] at h4
        cases h4
        rw [e2]
        rfl
      · rw [e2] at h4
        rw [variantLines_words (by decide) h4, splitOnChar_words]
        rfl
    change List.flatMap splitWs (((a ++ b) ++ c) ++ d) = _
    rw [List.flatMap_append, List.flatMap_append, List.flatMap_append, e4, subtypeLines_words (by decide) h5,
      subtypeLines_words (by decide) h6, subtypeLines_words (by decide) h7]
    rfl

/-! ### These sections are always told -/

theorem findChild_total {p : Elem} {t : Str} {a : List (Str × Str)} (h : (findAllChildren p t a).length ≤ 1) :
    ∃ o, findChild p t a false = .ok o := by
  unfold findChild
  split
  · exact ⟨_, rfl⟩
  · exact ⟨_, rfl⟩
  · rename_i hc; rw [hc] at h; simp at h

theorem getField_total {v : Ver} {vs : Elem} (h : (sectionsOf v vs "ProductSection".toList).length ≤ 1) (f : Field) :
    ∃ o, getField v vs f = .ok o := by
  obtain ⟨o, ho⟩ := findChild_total h
  unfold getField prodSec
  rw [ho]
  cases o <;> exact ⟨_, rfl⟩

theorem productLoop_total {w : InfoWorld} {vm : InfoVM} {vb : Verbosity} (hw : 0 < w.width)
    (h1 : (sectionsOf vm.env.ver vm.vs "ProductSection".toList).length ≤ 1) :
    ∀ T : List (Str × Field × Str × Bool), ∃ ls, productLoop w vm vb T = .ok ls := by
  intro T
  induction T with
  | nil => exact ⟨[], rfl⟩
  | cons x r ih =>
    obtain ⟨label, f, dflt, vo⟩ := x
    obtain ⟨rest, hr⟩ := ih
    obtain ⟨o, ho⟩ := getField_total h1 f
    obtain ⟨ls, hl⟩ := textWrap_total hw [] "          ".toList (label ++ o.getD dflt)
    unfold productLoop
    split
    · exact ⟨rest, hr⟩
    · exact ⟨ls ++ rest, by simp only [ho, hl, hr, bind, Except.bind]⟩

theorem eulaLoop_total {w : InfoWorld} {v : Ver} {vb : Verbosity} (hw : 0 < w.width) :
    ∀ (es : List Elem) (header : Bool), ∃ ls, eulaLoop w v vb header es = .ok ls := by
  intro es
  induction es with
  | nil => intro header; exact ⟨[], rfl⟩
  | cons e r ih =>
    intro header
    unfold eulaLoop
    split
    · exact ih header
    · obtain ⟨y, hy⟩ := ih true
      have hx : ∃ x, eulaLines w v vb e (textOf e (ovfTag v "License".toList)) = .ok x := by
        have h1 : ∃ x, eulaInfo w (textOf e (infoTag v)) = .ok x := by
          unfold eulaInfo
          split
          · exact ⟨_, rfl⟩
          · exact textWrap_total hw _ _ _
        have h2 : ∃ x, eulaBody w vb (textOf e (ovfTag v "License".toList)) = .ok x := by
          unfold eulaBody
          split
          · exact ⟨_, rfl⟩
          · exact wrapLines_total hw _ _ _
        obtain ⟨x, h1⟩ := h1
        obtain ⟨x', h2⟩ := h2
        exact ⟨x ++ x', by unfold eulaLines; simp only [h1, h2, bind, Except.bind]⟩
      obtain ⟨x, hx⟩ := hx
      exact ⟨_, by simp only [hx, hy, bind, Except.bind]; rfl⟩

theorem subtypesOf_total' (env : Env) (hw : Hw) {rt code : Str} (hc : resourceCode rt = .ok code) :
    ∃ l, subtypesOf env hw rt = .ok l := by
  obtain ⟨ids, hids⟩ := findAllItems_ok (env := env) (hw := hw) hc
  unfold subtypesOf
  rw [hids]
  exact ⟨_, rfl⟩

theorem variantLines_total {w : InfoWorld} (hw : 0 < w.width) (label : Str) (l : List Str) :
    ∃ ls, variantLines w label l = .ok ls := textWrap_total hw _ _ _

theorem subtypeLines_total {w : InfoWorld} (hw : 0 < w.width) (label : Str) (l : List Str) :
    ∃ ls, subtypeLines w label l = .ok ls := by
  unfold subtypeLines
  split
  · exact ⟨_, rfl⟩
  · exact variantLines_total hw _ _

/-- **C91 (nothing is in the way).** On a terminal with at least one column, these sections are told whenever the package
has at most one product section and one annotation section. -/
theorem C91_completes_partial {w : InfoWorld} {vm : InfoVM} (vb : Verbosity) (hw : 0 < w.width)
    (h1 : (sectionsOf vm.env.ver vm.vs "ProductSection".toList).length ≤ 1)
    (h2 : (sectionsOf vm.env.ver vm.vs "AnnotationSection".toList).length ≤ 1) :
    (∃ ls, infoProduct w vm vb = .ok ls) ∧ (∃ ls, infoAnnotation w vm = .ok ls) ∧
    (∃ ls, infoEula w vm vb = .ok ls) ∧ (∃ ls, infoHardware w vm = .ok ls) := by
  refine ⟨?_, ?_, eulaLoop_total hw _ _, ?_⟩
  · obtain ⟨a, ha⟩ := getField_total h1 .product
    obtain ⟨b, hb⟩ := getField_total h1 .vendor
    obtain ⟨c, hc⟩ := getField_total h1 .version
    obtain ⟨d, hd⟩ := getField_total h1 .productUrl
    obtain ⟨e, he⟩ := getField_total h1 .vendorUrl
    obtain ⟨f, hf⟩ := getField_total h1 .fullVersion
    obtain ⟨ls, hl⟩ := productLoop_total hw h1 (vb := vb) productTable
    unfold infoProduct
    simp only [ha, hb, hc, hd, he, hf, bind, Except.bind]
    split
    · exact ⟨_, rfl⟩
    · exact ⟨ls, hl⟩
  · obtain ⟨o, ho⟩ := findChild_total h2
    unfold infoAnnotation
    simp only [ho]
    cases o with
    | none => exact ⟨_, rfl⟩
    | some s =>
      simp only
      split
      · exact ⟨_, rfl⟩
      · split
        · exact ⟨_, rfl⟩
        · exact wrapLines_total hw _ _ _
  · obtain ⟨x, hx⟩ := subtypesOf_total' vm.env vm.pkg.hw (rt := "scsi".toList) rfl
    obtain ⟨y, hy⟩ := subtypesOf_total' vm.env vm.pkg.hw (rt := "ide".toList) rfl
    obtain ⟨z, hz⟩ := subtypesOf_total' vm.env vm.pkg.hw (rt := "ethernet".toList) rfl
    unfold infoHardware
    simp only [hx, hy, hz, bind, Except.bind]
    split
    · exact ⟨_, rfl⟩
    · obtain ⟨a, ha⟩ : ∃ a, systemTypeLines w (getSystemTypes vm.env.ver vm.hws) = .ok a := by
        cases getSystemTypes vm.env.ver vm.hws with
        | none => exact ⟨_, rfl⟩
        | some l => exact variantLines_total hw _ _
      obtain ⟨b, hb⟩ := subtypeLines_total hw "  SCSI device types:        ".toList x
      obtain ⟨c, hc⟩ := subtypeLines_total hw "  IDE device types:         ".toList y
      obtain ⟨d, hd⟩ := subtypeLines_total hw "  Ethernet device types:    ".toList z
      simp only [ha, hb, hc, hd]
      exact ⟨_, rfl⟩

/-! ### An example -/

/-- an element with a text -/
def exText (tag text : Str) : Elem := .mk tag [] (some text) none []

def exSecVs (annotation : Str) : Elem := .mk "vs".toList [] none none
  [.mk (ovfTag .v1 "AnnotationSection".toList) [] none none [exText (ovfTag .v1 "Annotation".toList) annotation],
   .mk (ovfTag .v1 "ProductSection".toList) [] none none
    [exText (fieldTag .v1 .product) "P Q".toList, exText (fieldTag .v1 .fullVersion) "1.2 build 7".toList,
     .mk (propertyTag .v1) [(propKey .v1, "host".toList), (propValue .v1, "a b".toList)] none none
      [exText (propLabel .v1) "Host name".toList, exText (propDesc .v1) "the name\nof it".toList],
     .mk (propertyTag .v1) [(propKey .v1, "net".toList)] none none []],
   .mk (ovfTag .v1 "EulaSection".toList) [] none none
    [exText (infoTag .v1) "Licence".toList, exText (ovfTag .v1 "License".toList) "do not\n\ncopy".toList]]

def exSecNic : List (Str × Str) := [("InstanceID".toList, "13".toList), ("ResourceType".toList, "10".toList),
  ("ElementName".toList, "eth 0".toList), ("Connection".toList, "VM Network".toList),
  ("Description".toList, "the first one".toList)]

/-- a CPU and three NICs, of which one has a name and a network and is in profile x -/
def exSecHw : Hw := exHw ++ [("13".toList, itemIn {pX} exSecNic)]

theorem exSecHw_wf : HwWF exEnv exSecHw :=
  hwWF_snoc exHw_wf (by decide +kernel) (by decide) (by decide) (by decide +kernel)
    (by
      have : ∀ ns ∈ exSecNic, ns.2 ≠ [] ∧ ns.1 ≠ resourceSubType := by decide +kernel
      exact fun n s h => this (n, s) h)
    (by decide +kernel)

def exSecVM : InfoVM :=
  { exInfoVM with
    pkg := { exInfoVM.pkg with hw := exSecHw }
    vs := exSecVs "a text\nwith lines".toList
    envelope := .mk "env".toList [] none none
      [.mk (netSecTag .v1) [] none none
        [.mk (networkTag .v1) [(networkName .v1, "VM Network".toList)] none none
          [exText (networkDesc .v1) "The VM network".toList],
         .mk (networkTag .v1) [(networkName .v1, "other".toList)] none none []]]
    hws := some (.mk "hws".toList [(transportAttr .v1, "iso com.vmware.guestInfo".toList)] none none
      [.mk (systemTag .v1) [] none none [exText vstTag "vmx-07 vmx-08".toList]]) }

example : infoWords (infoProduct exInfoWorld exSecVM .normal) = (none,
    [splitWs "Product: P Q".toList, splitWs "(No product URL)".toList, splitWs "Vendor: (No vendor string)".toList,
     splitWs "(No vendor URL)".toList, splitWs "Version: (No version string)".toList, splitWs "1.2 build 7".toList]) := by
  decide +kernel

example : infoWords (infoProduct exInfoWorld exInfoVM .normal) = (none, []) := by decide +kernel

example : infoWords (infoAnnotation exInfoWorld exSecVM) = (none,
    [splitWs "Annotation: a text".toList, splitWs "with lines".toList]) := by decide +kernel

example : infoWords (infoEula exInfoWorld exSecVM .verbose) = (none,
    [splitWs "End User License Agreement(s):".toList, splitWs "Licence".toList, splitWs "do not".toList, [], ["copy".toList]]) := by
  decide +kernel

example : infoWords (infoHardware exInfoWorld exSecVM) = (none,
    [splitWs "Hardware Variants:".toList, splitWs "System types: vmx-07 vmx-08".toList,
     splitWs "Ethernet device types: E1000".toList]) := by
  decide +kernel

/-- The hypotheses of `C91_completes_partial` are met. -/
example (vb : Verbosity) : (∃ ls, infoProduct exInfoWorld exSecVM vb = .ok ls) ∧ (∃ ls, infoAnnotation exInfoWorld exSecVM = .ok ls) ∧
    (∃ ls, infoEula exInfoWorld exSecVM vb = .ok ls) ∧ (∃ ls, infoHardware exInfoWorld exSecVM = .ok ls) :=
  C91_completes_partial vb (by decide) (by decide +kernel) (by decide +kernel)

/-- **C91 fails** to label an annotation that begins with an empty line. -/
theorem C91_annotation_fails : ∃ lines, infoAnnotation exInfoWorld { exSecVM with vs := exSecVs "\nimportant".toList } = .ok lines ∧
    lines.map splitWs = [[], ["important".toList]] := infoWords_ok (by decide +kernel)

def exTwoProducts : Elem := .mk "vs".toList [] none none
  [.mk (ovfTag .v1 "ProductSection".toList) [] none none [exText (fieldTag .v1 .product) "P".toList],
   .mk (ovfTag .v1 "ProductSection".toList) [] none none [exText (fieldTag .v1 .product) "Q".toList]]

/-- **C91 fails** for two product sections (which OVF allows): a LookupError. -/
theorem C91_two_products_fails : infoProduct exInfoWorld { exSecVM with vs := exTwoProducts } .normal =
    .error .lookupError := infoWords_error (by decide +kernel)

end Cot
