import Verif.Props.InfoNetworks
/-
C93: what `cot info` tells about transports and properties.  C94: the whole report, and several packages.
-/
namespace Cot

/-! ### Transports -/

theorem transports_text (v : Ver) (hws : Option Elem) :
    (getTransports v hws = none ∧ transportText v hws = []) ∨
    (transportText v hws ≠ [] ∧ getTransports v hws = some (splitOnChar ' ' (transportText v hws))) := by
  unfold getTransports transportText
  cases v with
  | v0 => exact Or.inl ⟨rfl, rfl⟩
  | v1 =>
    cases hws with
    | none => exact Or.inl ⟨rfl, rfl⟩
    | some h =>
      simp only
      cases h.get (transportAttr .v1) with
      | none => exact Or.inl ⟨rfl, rfl⟩
      | some t => cases t with
        | nil => exact Or.inl ⟨rfl, rfl⟩
        | cons c r => exact Or.inr ⟨by simp, rfl⟩
  | v2 =>
    cases hws with
    | none => exact Or.inl ⟨rfl, rfl⟩
    | some h =>
      simp only
      cases h.get (transportAttr .v2) with
      | none => exact Or.inl ⟨rfl, rfl⟩
      | some t => cases t with
        | nil => exact Or.inl ⟨rfl, rfl⟩
        | cons c r => exact Or.inr ⟨by simp, rfl⟩

/-- **C93 (transports).** All transports are told, if there are any. -/
theorem C93_transports {w : InfoWorld} {vm : InfoVM} {lines : List Str} (h : infoEnvironment w vm = .ok lines) :
    (transportText vm.env.ver vm.hws = [] ∧ lines = []) ∨
    (transportText vm.env.ver vm.hws ≠ [] ∧ ∃ (head : Str) (rest : List Str), lines = head :: rest ∧
      splitWs head = ["Environment:".toList] ∧
      rest.flatMap splitWs = ["Transport".toList, "types:".toList] ++ splitWs (transportText vm.env.ver vm.hws)) := by
  unfold infoEnvironment at h
  rcases transports_text vm.env.ver vm.hws with ⟨e1, e2⟩ | ⟨e1, e2⟩
  · rw [e1] at h
    cases h
    exact Or.inl ⟨e2, rfl⟩
  · rw [e2] at h
    right
    refine ⟨e1, ?_⟩
    split at h
    · rename_i hn; cases hn
    · rename_i hn
      exact absurd (Option.some.inj hn) (splitOnChar_ne_nil _ _)
    · rename_i l hne hl
      cases hl
      split at h
      · cases h
      · rename_i x hx
        cases h
        refine ⟨_, x, rfl, by decide, ?_⟩
        rw [textWrap_blank (by decide) (by decide) hx,
          splitWs_label (ws := ["Transport".toList, "types:".toList]) (by decide) (by decide), splitWs_joinSp, splitOnChar_words]

/-! ### Properties -/

/-- the property that the element states -/
def propOf (v : Ver) (e : Elem) : PropInfo :=
  ⟨e.get (propKey v), e.get (propValue v), firstText e (propLabel v), firstText e (propDesc v)⟩

theorem propInfos_spec {v : Ver} {vs : Elem} {ps : List PropInfo} (h : propInfos v vs = .ok ps) :
    ∃ es, IsProperties v vs es ∧ ps = es.map (propOf v) := by
  unfold propInfos at h
  split at h
  · rename_i hv
    cases h
    exact ⟨[], Or.inl ⟨Or.inl hv, rfl⟩, rfl⟩
  · rename_i hv
    split at h
    · cases h
    · rename_i hs
      cases h
      exact ⟨[], Or.inl ⟨Or.inr (findChild_none.1 hs), rfl⟩, rfl⟩
    · rename_i s hs
      cases h
      refine ⟨s.children.filter (fun e => e.tag == propertyTag v), Or.inr ⟨hv, s, findChild_some.1 hs, rfl⟩, ?_⟩
      have hfa : findAllChildren s (propertyTag v) [] = s.children.filter (fun e => e.tag == propertyTag v) := by
        unfold findAllChildren attribMatch
        simp
      rw [hfa]
      apply List.map_congr_left
      intro e _
      unfold propOf firstText
      rw [findText_childText, findText_childText]

theorem noneStr_getD (o : Option Str) : noneStr o = o.getD "None".toList := by cases o <;> rfl

theorem splitWs_cells (n m : Nat) (a b c : Str) :
    splitWs ("  ".toList ++ padR n a ++ "  ".toList ++ padR m b ++ "  ".toList ++ c) = splitWs a ++ splitWs b ++ splitWs c := by
  have : "  ".toList ++ padR n a ++ "  ".toList ++ padR m b ++ "  ".toList ++ c =
      "  ".toList ++ (padR n a ++ ' ' :: (' ' :: (padR m b ++ ' ' :: (' ' :: c)))) := by simp
  rw [this, splitWs_two, splitWs_space, splitWs_cons_ws isWs_space, splitWs_space, splitWs_cons_ws isWs_space, splitWs_padR,
    splitWs_padR, List.append_assoc]

theorem splitWs_cells2 (n : Nat) (a c : Str) :
    splitWs ("  ".toList ++ padR n a ++ "  ".toList ++ c) = splitWs a ++ splitWs c := by
  have : "  ".toList ++ padR n a ++ "  ".toList ++ c = "  ".toList ++ (padR n a ++ ' ' :: (' ' :: c)) := by simp
  rw [this, splitWs_two, splitWs_space, splitWs_cons_ws isWs_space, splitWs_padR]

theorem propsLoop_spec {w : InfoWorld} {v : Ver} {vb : Verbosity} {m : PropWidths} {wide : Bool}
    (hw : wide = true ↔ m.label > 0 ∧ ((m.key + m.label + m.value : Nat) : Int) < w.width - 8) : ∀ {es : List Elem} {ls : List Str},
    propsLoop w vb m (es.map (propOf v)) = .ok ls →
    ∃ blocks : List (List Str), ls = blocks.flatten ∧ List.Forall₂ (PropRows v vb wide) es blocks := by
  intro es
  induction es with
  | nil => intro ls h; cases h; exact ⟨[], rfl, List.Forall₂.nil⟩
  | cons e r ih =>
    intro ls h
    rw [List.map_cons] at h
    unfold propsLoop at h
    obtain ⟨d, h1, h⟩ := bind_ok_inv h
    obtain ⟨rest, h2, h⟩ := bind_ok_inv h
    cases h
    obtain ⟨blocks, rfl, hf⟩ := ih h2
    have hval : splitWs (valueCell (propOf v e)) = (match e.get (propValue v) with
       | some x => splitWs ("\"".toList ++ x ++ "\"".toList)
       | none => ["--".toList]) := by
      unfold valueCell propOf
      simp only
      cases e.get (propValue v) with
      | none => rfl
      | some x => rfl
    have hkey : keyCell (propOf v e) = "<".toList ++ (e.get (propKey v)).getD "None".toList ++ ">".toList := by
      unfold keyCell propOf
      rw [noneStr_getD]
    refine ⟨_ :: blocks, rfl, List.Forall₂.cons ⟨_, d, rfl, ?_, ?_, ?_⟩ hf⟩
    · have hl : (propOf v e).label = firstText e (propLabel v) := rfl
      suffices hs : splitWs (propLine w.width m (propOf v e)) =
          (if wide = true then splitWs (keyCell (propOf v e)) ++ splitWs (firstText e (propLabel v))
           else if firstText e (propLabel v) = [] then splitWs (keyCell (propOf v e)) else splitWs (firstText e (propLabel v))) ++
          splitWs (valueCell (propOf v e)) by
        rw [hs, hkey]
        exact congrArg _ hval
      unfold propLine
      by_cases hc : m.label > 0 ∧ ((m.key + m.label + m.value : Nat) : Int) < w.width - 8
      · rw [if_pos hc, splitWs_cells]
        simp only [hw.2 hc, if_true]
        rfl
      · have hwf : wide = false := by
          rw [← Bool.not_eq_true, hw]
          exact hc
        rw [if_neg hc, splitWs_cells2]
        simp only [hwf, Bool.false_eq_true, if_false]
        rw [hl]
        split <;> rfl
    · intro hv
      unfold propDescLines at h1
      rw [if_neg hv] at h1
      cases h1
      rfl
    · intro hv
      unfold propDescLines at h1
      rw [if_pos hv] at h1
      rw [wrapLines_words (by decide) _ h1, splitWs_splitLines]
      rfl

/-- **C93 (properties).** Every property is told, in order: key, label and value if the terminal is wide enough and there
are labels, else label (or, without one, key) and value; and with `--verbose` the description. -/
theorem C93_properties {w : InfoWorld} {vm : InfoVM} {vb : Verbosity} {lines : List Str}
    (h : infoProperties w vm vb = .ok lines) : ∃ es, IsProperties vm.env.ver vm.vs es ∧
      (es = [] → lines = []) ∧
      (es ≠ [] → ∃ (wide : Bool) (head : Str) (blocks : List (List Str)), Wide w.width vm.env.ver es wide ∧
        lines = head :: blocks.flatten ∧ splitWs head = ["Properties:".toList] ∧
        List.Forall₂ (PropRows vm.env.ver vb wide) es blocks) := by
  unfold infoProperties at h
  split at h
  · cases h
  · rename_i ps hps
    obtain ⟨es, h1, rfl⟩ := propInfos_spec hps
    refine ⟨es, h1, ?_, ?_⟩
    · rintro rfl
      rw [List.map_nil, if_pos rfl] at h
      cases h
      rfl
    · intro hne
      rw [if_neg (by simpa using hne)] at h
      split at h
      · cases h
      · rename_i l hl
        cases h
        let m := propWidths (es.map (propOf vm.env.ver))
        obtain ⟨blocks, rfl, hf⟩ := propsLoop_spec
          (wide := decide (m.label > 0 ∧ ((m.key + m.label + m.value : Nat) : Int) < w.width - 8)) (by simp [m]) hl
        refine ⟨_, _, blocks, ⟨maxLen ((es.map (propOf vm.env.ver)).map (fun p => noneStr p.key)),
          maxLen ((es.map (propOf vm.env.ver)).map PropInfo.label),
          maxLen ((es.map (propOf vm.env.ver)).map (fun p => noneStr p.value)), ?_, ?_, ?_, ?_⟩, rfl, by decide, hf⟩
        · have := maxLen_spec ((es.map (propOf vm.env.ver)).map (fun p => noneStr p.key))
          simpa [List.map_map, Function.comp_def, noneStr_getD, propOf] using this
        · have := maxLen_spec ((es.map (propOf vm.env.ver)).map PropInfo.label)
          simpa [List.map_map, Function.comp_def, propOf] using this
        · have := maxLen_spec ((es.map (propOf vm.env.ver)).map (fun p => noneStr p.value))
          simpa [List.map_map, Function.comp_def, noneStr_getD, propOf] using this
        · rw [decide_eq_true_iff]
          unfold m propWidths
          simp only
          omega

theorem propsLoop_total {w : InfoWorld} {vb : Verbosity} {m : PropWidths} (hw : 0 < w.width) :
    ∀ ps : List PropInfo, ∃ ls, propsLoop w vb m ps = .ok ls := by
  intro ps
  induction ps with
  | nil => exact ⟨[], rfl⟩
  | cons p r ih =>
    obtain ⟨rest, hr⟩ := ih
    obtain ⟨d, hd⟩ : ∃ d, propDescLines w vb p.desc = .ok d := by
      unfold propDescLines
      split
      · exact wrapLines_total hw _ _ _
      · exact ⟨_, rfl⟩
    exact ⟨_, by unfold propsLoop; rw [hd, hr]; rfl⟩

/-- **C93 (nothing is in the way).** -/
theorem C93_completes {w : InfoWorld} {vm : InfoVM} (vb : Verbosity) (hw : 0 < w.width)
    (h1 : (sectionsOf vm.env.ver vm.vs "ProductSection".toList).length ≤ 1) :
    (∃ ls, infoEnvironment w vm = .ok ls) ∧ (∃ ls, infoProperties w vm vb = .ok ls) := by
  constructor
  · unfold infoEnvironment
    split
    · exact ⟨_, rfl⟩
    · exact ⟨_, rfl⟩
    · rename_i l _ _
      obtain ⟨x, hx⟩ := textWrap_total hw "  ".toList "    ".toList ("Transport types: ".toList ++ joinWith [' '] l)
      rw [hx]
      exact ⟨_, rfl⟩
  · obtain ⟨o, ho⟩ := findChild_total h1
    have : ∃ ps, propInfos vm.env.ver vm.vs = .ok ps := by
      unfold propInfos prodSec
      rw [ho]
      split
      · exact ⟨_, rfl⟩
      · cases o <;> exact ⟨_, rfl⟩
    obtain ⟨ps, hps⟩ := this
    unfold infoProperties
    rw [hps]
    simp only
    split
    · exact ⟨_, rfl⟩
    · obtain ⟨l, hl⟩ := propsLoop_total hw (vb := vb) (m := propWidths ps) ps
      rw [hl]
      exact ⟨_, rfl⟩

example : infoWords (infoEnvironment exInfoWorld exSecVM) = (none,
    [["Environment:".toList], splitWs "Transport types: iso com.vmware.guestInfo".toList]) := by decide +kernel

example : infoWords (infoProperties exInfoWorld exSecVM .verbose) = (none,
    [["Properties:".toList], splitWs "<host> Host name \"a b\"".toList, splitWs "the name".toList, splitWs "of it".toList,
     splitWs "<net> --".toList]) := by decide +kernel

/-- on a narrow terminal -/
example : infoWords (infoProperties { exInfoWorld with width := 24 } exSecVM .normal) = (none,
    [["Properties:".toList], splitWs "Host name \"a b\"".toList, splitWs "<net> --".toList]) := by decide +kernel

example (vb : Verbosity) : (∃ ls, infoEnvironment exInfoWorld exSecVM = .ok ls) ∧
    (∃ ls, infoProperties exInfoWorld exSecVM vb = .ok ls) := C93_completes vb (by decide) (by decide +kernel)

/-! ### The whole report -/

theorem splitWs_joinNl (l : List Str) : splitWs (joinWith ['\n'] l) = l.flatMap splitWs :=
  splitWs_joinLines ['\n'] (by decide) (by decide) l

theorem keepSections_words (l : List (List Str)) : (keepSections l).flatMap splitWs = l.flatMap (fun s => s.flatMap splitWs) := by
  unfold keepSections
  induction l with
  | nil => rfl
  | cons a r ih =>
    rw [List.map_cons, List.flatMap_cons, ← ih, ← splitWs_joinNl a]
    by_cases hj : joinWith ['\n'] a = []
    · rw [List.filter_cons_of_neg (by simp [hj]), hj]
      rfl
    · rw [List.filter_cons_of_pos (by simpa using hj), List.flatMap_cons]

/-- the words before the sections -/
def headerWords (w : InfoWorld) (vm : InfoVM) : List Str :=
  let rule := splitWs (List.replicate w.width.toNat '-')
  rule ++ splitWs vm.input ++
  (match vm.platform with
   | none => []
   | some p => splitWs "COT detected platform type:".toList ++ splitWs p) ++ rule

theorem infoHeader_words (w : InfoWorld) (vm : InfoVM) : (infoHeader w vm).flatMap splitWs = headerWords w vm := by
  unfold infoHeader headerWords
  cases vm.platform with
  | none => simp
  | some p =>
    simp only [List.flatMap_append, List.flatMap_cons, List.flatMap_nil, List.append_nil]
    rw [splitWs_label (ws := splitWs "COT detected platform type:".toList) (by decide) (by decide)]

/-- **C94 (report).** The report consists of a header with the name of the file and of the platform, and of the sections
that C89 to C93 speak about, all of them and in this order, and nothing else; those that are not empty are separated by an
empty line. -/
theorem C94_report {w : InfoWorld} {vm : InfoVM} {vb : Verbosity} {text : Str} (h : infoString w vm vb = .ok text) :
    ∃ product annotation eula files hardware profiles networks nics environment properties : List Str,
      infoProduct w vm vb = .ok product ∧ infoAnnotation w vm = .ok annotation ∧ infoEula w vm vb = .ok eula ∧
      infoFiles w vm vb = .ok files ∧ infoHardware w vm = .ok hardware ∧ infoProfiles w vm vb = .ok profiles ∧
      infoNetworks w vm vb = .ok networks ∧ infoNics w vm vb = .ok nics ∧ infoEnvironment w vm = .ok environment ∧
      infoProperties w vm vb = .ok properties ∧
      splitWs text = headerWords w vm ++
        (product ++ annotation ++ eula ++ files ++ hardware ++ profiles ++ networks ++ nics ++ environment ++ properties).flatMap splitWs ∧
      ∃ header : Str, text = header ++ '\n' :: joinWith ['\n', '\n']
        (([product, annotation, eula, files, hardware, profiles, networks, nics, environment, properties].map
          (joinWith ['\n'])).filter (fun s => decide (s ≠ []))) := by
  unfold infoString at h
  obtain ⟨a, ha, h⟩ := bind_ok_inv h
  obtain ⟨b, hb, h⟩ := bind_ok_inv h
  obtain ⟨c, hc, h⟩ := bind_ok_inv h
  obtain ⟨d, hd, h⟩ := bind_ok_inv h
  obtain ⟨e, he, h⟩ := bind_ok_inv h
  obtain ⟨f, hf, h⟩ := bind_ok_inv h
  obtain ⟨g, hg, h⟩ := bind_ok_inv h
  obtain ⟨i, hi, h⟩ := bind_ok_inv h
  obtain ⟨j, hj, h⟩ := bind_ok_inv h
  obtain ⟨k, hk, h⟩ := bind_ok_inv h
  cases h
  refine ⟨a, b, c, d, e, f, g, i, j, k, ha, hb, hc, hd, he, hf, hg, hi, hj, hk, ?_, joinWith ['\n'] (infoHeader w vm), ?_⟩
  swap
  · unfold keepSections
    congr 4
    funext s
    cases s <;> rfl
  rw [splitWs_sep (by decide), splitWs_joinNl, infoHeader_words, splitWs_joinLines ['\n', '\n'] (by decide) (by decide),
    keepSections_words]
  simp [List.flatMap_append]

/-- **C94 (nothing is in the way).** For a descriptor with plain hardware, files and disks, a terminal wide enough, at most
one product and annotation section, and named networks if there is a network section, the report is made. -/
theorem C94_completes {w : InfoWorld} {vm : InfoVM} (vb : Verbosity) (hw : 0 < w.width) (wf : HwWF vm.env vm.pkg.hw)
    (hprod : (sectionsOf vm.env.ver vm.vs "ProductSection".toList).length ≤ 1)
    (hann : (sectionsOf vm.env.ver vm.vs "AnnotationSection".toList).length ≤ 1)
    (hfiles : PlainFiles vm.env vm.pkg)
    (hhw : ∀ p, IsProfile vm.env p → PlainHardware vm.env vm.pkg.hw p)
    (hmem : ∀ p z, HasMemory vm.env vm.pkg.hw p z → z < 1023 * 2 ^ 80)
    (hcap : ∀ d ∈ diskEntries vm.env.ver vm.pkg, ∃ z, capacityOf vm.env.ver d = .ok z)
    (htot : ∀ z, TotalCapacity vm.env.ver vm.pkg z → z < 1023 * 2 ^ 80)
    (hlab : vb ≠ .brief → (∀ i s t, ∃ ls, w.wrapBreak w.width i s t = .ok ls) ∧ ∀ q ∈ vm.env.configProfiles, ∃ s c,
      vm.envelope.children.filter (fun e => e.tag == deployTag vm.env.ver) = [s] ∧
      s.children.filter (fun e => e.tag == configTag vm.env.ver && e.get (configId vm.env.ver) == some q) = [c])
    (hnet : findAllChildren vm.envelope (netSecTag vm.env.ver) (netSecAttrib vm.env.ver) = [] ∨
      ∃ s n r, findAllChildren vm.envelope (netSecTag vm.env.ver) (netSecAttrib vm.env.ver) = [s] ∧
        s.children.filter (fun e => e.tag == networkTag vm.env.ver) = n :: r ∧
        ∀ e ∈ n :: r, ∃ x, e.get (networkName vm.env.ver) = some x)
    (hnic : ∀ k it, dget? vm.pkg.hw k = some it → OfType it "10".toList →
      (∃ o, it.getValue vm.env (elementName vm.env.ver) none = .ok o) ∧
      (∃ o, it.getValue vm.env itemDescription none = .ok o)) :
    ∃ t, infoString w vm vb = .ok t := by
  obtain ⟨⟨a, ha⟩, ⟨b, hb⟩, ⟨c, hc⟩, ⟨e, he⟩⟩ := C91_completes_partial vb hw hprod hann
  obtain ⟨d, hd⟩ := C90_completes_partial (w := w) (vb := vb) wf hfiles
  obtain ⟨f, hf⟩ := C89_completes_partial (w := w) (vb := vb) wf hhw hmem hcap htot hlab
  obtain ⟨⟨g, hg⟩, ⟨i, hi⟩⟩ := C92_completes_partial vb hw hnet hnic
  obtain ⟨⟨j, hj⟩, ⟨k, hk⟩⟩ := C93_completes vb hw hprod
  unfold infoString
  simp only [ha, hb, hc, hd, he, hf, hg, hi, hj, hk, bind, Except.bind]
  exact ⟨_, rfl⟩

/-! ### Several packages -/

/-- what is told about one package: its report, or that it cannot be shown -/
def ToldOf (load : Str → Except Err InfoVM) (w : InfoWorld) (vb : Verbosity) (p : Str) (o : InfoOut) : Prop :=
  (∃ vm t, load p = .ok vm ∧ infoString w vm vb = .ok t ∧ o = .line t) ∨
  (infoText load w vb p = .error .vmInitError ∧ o = .problem p)

/-- the outputs with an empty line between any two -/
def blankBetween : List InfoOut → List InfoOut
  | [] => []
  | o :: r => o :: r.flatMap (fun x => [.line [], x])

theorem infoText_ok {load : Str → Except Err InfoVM} {w : InfoWorld} {vb : Verbosity} {p t : Str}
    (h : infoText load w vb p = .ok t) : ∃ vm, load p = .ok vm ∧ infoString w vm vb = .ok t := by
  unfold infoText at h
  split at h
  · cases h
  · rename_i vm hvm; exact ⟨vm, hvm, h⟩

/-- how the loop ends -/
def EndsLoop (load : Str → Except Err InfoVM) (w : InfoWorld) (vb : Verbosity) (ps : List Str) (outs : List InfoOut)
    (cut : Bool) : Option Err → Prop
  | none => cut = false ∧ List.Forall₂ (ToldOf load w vb) ps outs
  | some e => cut = true ∧ ∃ pre p post, ps = pre ++ p :: post ∧ List.Forall₂ (ToldOf load w vb) pre outs ∧
      infoText load w vb p = .error e ∧ e ≠ .vmInitError

theorem infoLoop_crash {load : Str → Except Err InfoVM} {w : InfoWorld} {vb : Verbosity} {p : Str} {e : Err} (first : Bool)
    (r : List Str) (hx : infoText load w vb p = .error e) (he : e ≠ .vmInitError) :
    infoLoop load w vb first (p :: r) = (if first then [] else [.line []], some e) := by
  unfold infoLoop
  rw [hx]
  cases e <;> first | rfl | exact absurd rfl he

theorem infoLoop_false (load : Str → Except Err InfoVM) (w : InfoWorld) (vb : Verbosity) : ∀ ps : List Str, ∃ outs cut,
    (infoLoop load w vb false ps).1 = outs.flatMap (fun x => [.line [], x]) ++ (if cut then [.line []] else []) ∧
    EndsLoop load w vb ps outs cut (infoLoop load w vb false ps).2 := by
  intro ps
  induction ps with
  | nil => exact ⟨[], false, rfl, rfl, List.Forall₂.nil⟩
  | cons p r ih =>
    obtain ⟨outs, cut, h1, h2⟩ := ih
    have step : ∀ o, ToldOf load w vb p o → EndsLoop load w vb (p :: r) (o :: outs) cut (infoLoop load w vb false r).2 := by
      intro o ho
      generalize (infoLoop load w vb false r).2 = x at h2
      cases x with
      | none => exact ⟨h2.1, List.Forall₂.cons ho h2.2⟩
      | some e =>
        obtain ⟨hc, pre, q, post, rfl, hf, he⟩ := h2
        exact ⟨hc, p :: pre, q, post, rfl, List.Forall₂.cons ho hf, he⟩
    unfold infoLoop
    cases hx : infoText load w vb p with
    | ok t =>
      obtain ⟨vm, hv, ht⟩ := infoText_ok hx
      exact ⟨.line t :: outs, cut, by simp [h1], step _ (Or.inl ⟨vm, t, hv, ht, rfl⟩)⟩
    | error e =>
      by_cases he : e = .vmInitError
      · subst he
        exact ⟨.problem p :: outs, cut, by simp [h1], step _ (Or.inr ⟨hx, rfl⟩)⟩
      · have := infoLoop_crash false r hx he
        unfold infoLoop at this
        rw [hx] at this
        rw [this]
        exact ⟨[], true, rfl, rfl, [], p, r, rfl, List.Forall₂.nil, hx, he⟩

theorem infoLoop_first (load : Str → Except Err InfoVM) (w : InfoWorld) (vb : Verbosity) (p : Str) (r : List Str) :
    (infoLoop load w vb false (p :: r)).1 = .line [] :: (infoLoop load w vb true (p :: r)).1 ∧
    (infoLoop load w vb false (p :: r)).2 = (infoLoop load w vb true (p :: r)).2 := by
  unfold infoLoop
  cases infoText load w vb p with
  | ok t => exact ⟨rfl, rfl⟩
  | error e => cases e <;> exact ⟨rfl, rfl⟩

/-- **C94 (all packages).** `cot info` on several packages that exist tells about each, in the order given and with an empty
line between; a package that is no virtual machine description gets an error message instead of a report and does not keep
the others from being shown.  Nothing else is printed.  Any other error ends the run there, after all packages before it have
been told. -/
theorem C94_packages {exist : Str → Bool} {load : Str → Except Err InfoVM} {w : InfoWorld} {vb : Verbosity} {ps : List Str}
    (hex : ∀ p ∈ ps, exist p = true) (hne : ps ≠ []) :
    (∃ outs, infoRun exist load w vb ps = (blankBetween outs, none) ∧ List.Forall₂ (ToldOf load w vb) ps outs) ∨
    (∃ pre p post outs e, ps = pre ++ p :: post ∧ List.Forall₂ (ToldOf load w vb) pre outs ∧
      infoText load w vb p = .error e ∧ e ≠ .vmInitError ∧
      infoRun exist load w vb ps = (blankBetween outs ++ (if pre = [] then [] else [.line []]), some e)) := by
  unfold infoRun
  rw [if_neg (by simpa using hex), if_neg hne]
  obtain ⟨p, r, rfl⟩ := List.exists_cons_of_ne_nil hne
  obtain ⟨outs, cut, h1, h2⟩ := infoLoop_false load w vb (p :: r)
  obtain ⟨f1, f2⟩ := infoLoop_first load w vb p r
  rw [f2] at h2
  rw [f1] at h1
  generalize infoLoop load w vb true (p :: r) = res at h1 h2
  obtain ⟨o, x⟩ := res
  simp only at h1 h2
  cases x with
  | none =>
    obtain ⟨hc, hf⟩ := h2
    subst hc
    left
    refine ⟨outs, ?_, hf⟩
    cases hf
    simp only [List.flatMap_cons, List.cons_append, List.nil_append, List.cons.injEq, true_and, Bool.false_eq_true, if_false,
      List.append_nil] at h1
    rw [h1]
    rfl
  | some e =>
    obtain ⟨hc, pre, q, post, hps, hf, he, hn⟩ := h2
    subst hc
    right
    refine ⟨pre, q, post, outs, e, hps, hf, he, hn, ?_⟩
    cases hf with
    | nil =>
      simp only [List.flatMap_nil, if_true, List.nil_append, List.cons.injEq, true_and] at h1
      rw [h1]
      rfl
    | cons a b =>
      simp only [List.flatMap_cons, List.cons_append, List.nil_append, List.cons.injEq, true_and, if_true] at h1
      rw [h1]
      simp [blankBetween]

/-- **C94 (refused).** Without packages, or if one of them does not exist, nothing is printed and the input is refused. -/
theorem C94_refused {exist : Str → Bool} {load : Str → Except Err InfoVM} {w : InfoWorld} {vb : Verbosity} {ps : List Str}
    (h : ps = [] ∨ ∃ p ∈ ps, exist p = false) : infoRun exist load w vb ps = ([], some .invalidInput) := by
  unfold infoRun
  rcases h with rfl | ⟨p, hp, he⟩
  · rfl
  · rw [if_pos (by rw [List.all_eq_false]; exact ⟨p, hp, by simp [he]⟩)]

/-- a virtual machine with all that a report can tell: product, annotation, licence, disks, profiles, networks, transports
and properties -/
def exRepVM : InfoVM :=
  { exInfoIc with
    platform := some "Cisco CSR1000V".toList
    vs := exSecVM.vs
    hws := exSecVM.hws
    envelope := .mk "env".toList [] none none (exInfoVM.envelope.children ++ exSecVM.envelope.children) }

/-- the hypotheses of `C94_completes` are met -/
example (vb : Verbosity) : ∃ t, infoString exInfoWorld exRepVM vb = .ok t := by
  have hno : ∀ (t : Str) kv, kv ∈ exIcHw → t = "3".toList ∨ t = "4".toList ∨ t = "10".toList → ¬ OfType kv.2 t := by
    have h3 : ∀ kv ∈ exIcHw, ¬ OfType kv.2 "3".toList ∧ ¬ OfType kv.2 "4".toList ∧ ¬ OfType kv.2 "10".toList := by
      decide +kernel
    rintro t kv hkv (rfl | rfl | rfl)
    · exact (h3 kv hkv).1
    · exact (h3 kv hkv).2.1
    · exact (h3 kv hkv).2.2
  have hde : diskEntries exRepVM.env.ver exRepVM.pkg = [exDiskE "vmdisk1".toList "vmdk".toList "1000".toList,
       .mk (diskTag .v1) [(diskId .v1, "vmdisk2".toList), (diskCapacity .v1, "1000".toList)] none none []] := rfl
  refine C94_completes (w := exInfoWorld) (vm := exRepVM) vb (by decide) exIcHw_wf (by decide +kernel) (by decide +kernel) exIcPkg_plain ?_ ?_ ?_ ?_ ?_ ?_ ?_
  · intro p _
    refine ⟨?_, ?_, ?_, ?_⟩
    · exact fun id id' it it' h h' h1 h2 _ _ => absurd h1 (hno _ _ (dget?_mem h) (Or.inl rfl))
    · exact fun id id' it it' h h' h1 h2 _ _ => absurd h1 (hno _ _ (dget?_mem h) (Or.inr (Or.inl rfl)))
    · rintro it ⟨⟨id, hid⟩, ht, _⟩
      exact absurd ht (hno _ _ (dget?_mem hid) (Or.inl rfl))
    · rintro it ⟨⟨id, hid⟩, ht, _⟩
      exact absurd ht (hno _ _ (dget?_mem hid) (Or.inr (Or.inl rfl)))
  · rintro p z ⟨it, s, ⟨⟨id, hid⟩, ht, _⟩, _⟩
    exact absurd ht (hno _ _ (dget?_mem hid) (Or.inr (Or.inl rfl)))
  · intro d hd
    rw [hde] at hd
    simp only [List.mem_cons, List.not_mem_nil, or_false] at hd
    rcases hd with rfl | rfl <;> exact ⟨1000, by rfl⟩
  · rintro z ⟨caps, hf, rfl⟩
    rw [hde] at hf
    rcases hf with _ | ⟨h1, hf⟩
    rcases hf with _ | ⟨h2, hf⟩
    cases hf
    have e1 : capacityOf .v1 (exDiskE "vmdisk1".toList "vmdk".toList "1000".toList) = .ok 1000 := by rfl
    have e2 : capacityOf .v1 (.mk (diskTag .v1) [(diskId .v1, "vmdisk2".toList), (diskCapacity .v1, "1000".toList)] none none []) =
      .ok 1000 := by rfl
    cases h1.symm.trans e1
    cases h2.symm.trans e2
    norm_num
  · intro _
    refine ⟨fun i s t => textWrap_total (width := 79) (by decide) i s t, ?_⟩
    intro q hq
    have : q = "x".toList ∨ q = "y".toList := by
      have h : ∀ q ∈ exEnv.configProfiles, q = "x".toList ∨ q = "y".toList := by decide
      exact h q hq
    rcases this with rfl | rfl
    · exact ⟨_, _, rfl, rfl⟩
    · exact ⟨_, _, rfl, rfl⟩
  · exact Or.inr ⟨_, _, _, rfl, rfl, by
      intro e he
      rcases he with _ | ⟨_, he⟩
      · exact ⟨"VM Network".toList, rfl⟩
      · rcases he with _ | ⟨_, he⟩
        · exact ⟨"other".toList, rfl⟩
        · cases he⟩
  · intro k it hk ht
    exact absurd ht (hno _ _ (dget?_mem hk) (Or.inr (Or.inr rfl)))

/-- two packages that can be shown, with one between that is no virtual machine description -/
def exLoad (p : Str) : Except Err InfoVM :=
  if p = "a.ovf".toList then .ok exRepVM else if p = "b.vmx".toList then .error .vmInitError else
  if p = "c.ovf".toList then .ok { exRepVM with input := p } else .error .keyError

/-- what is printed: the second and the seventh word of each report; the packages that could not be shown; the exception -/
def runShape (x : List InfoOut × Option Err) : List (Option Str × Option Str) × Option Err :=
  (x.1.map (fun o => match o with
    | .line s => ((splitWs s)[1]?, (splitWs s)[6]?)
    | .problem p => (none, some p)), x.2)

def exShown (p : Str) : Option Str × Option Str := (some p, some "Cisco".toList)

example : runShape (infoRun (fun _ => true) exLoad exInfoWorld .normal ["a.ovf".toList, "b.vmx".toList, "c.ovf".toList]) =
    ([exShown "in.ovf".toList, (none, none), (none, some "b.vmx".toList), (none, none), exShown "c.ovf".toList], none) := by
  decide +kernel

/-- an error of another kind ends the run -/
example : runShape (infoRun (fun _ => true) exLoad exInfoWorld .brief ["a.ovf".toList, "d".toList, "c.ovf".toList]) =
    ([exShown "in.ovf".toList, (none, none)], some .keyError) := by
  decide +kernel

example : runShape (infoRun (fun p => p == "a.ovf".toList) exLoad exInfoWorld .brief ["a.ovf".toList, "d".toList]) =
    ([], some .invalidInput) := by
  decide +kernel

/-- the brief report in full -/
example : (infoString exInfoWorld exRepVM .brief).toOption.map (fun t => splitOnChar '\n' t |>.drop 4 |>.map String.ofList) = some
    ["Product:  P Q", "Vendor:   (No vendor string)", "Version:  (No version string)", "",
     "Annotation: a text", "            with lines", "",
     "End User License Agreement(s):", "  Licence", "    (not displayed, use 'cot info --verbose' if desired)", "",
     "Files and Disks:     File Size  Capacity Device",
     "                     --------- --------- --------------------",
     "  d.vmdk                  10 B    1000 B harddisk @ IDE 1:0",
     "  (disk placeholder)        --    1000 B harddisk @ SCSI 0:3", "",
     "Hardware Variants:", "  System types:             vmx-07 vmx-08", "",
     "Configuration Profiles:  CPUs    Memory NICs Serials Disks/Capacity",
     "                         ---- --------- ---- ------- --------------",
     "  x (default)               0       0 B    0       0  2 / 1.953 KiB",
     "  y                         0       0 B    0       0  2 / 1.953 KiB", "",
     "Networks:", "  VM Network  \"The VM network\"", "  other", "",
     "Environment:", "  Transport types: iso com.vmware.guestInfo", "",
     "Properties:", "  <host>  Host name  \"a b\"", "  <net>              --"] := by decide +kernel

end Cot
