import Verif.Lemmas.Info
import Verif.Props.ValidateHwCases
import Verif.Props.PrettyBytes
/-
C89: what `cot info` (and the question for a profile in `cot deploy`) tells about the configuration profiles.
-/
namespace Cot

theorem cpuCell_spec {env : Env} {py : PyVer} {hw : Hw} {p : Prof} {cpus : Str} (wf : HwWF env hw)
    (h : cpuCell env py hw p = .ok cpus) :
    (∃ it, DeviceUnder env hw "3".toList p it ∧ Reads (it.tab virtualQuantity) p (.str cpus)) ∨
     ((∀ it, ¬ DeviceUnder env hw "3".toList p it) ∧ cpus = "0".toList) ∨
     (py = .py2 ∧ (∃ it, DeviceUnder env hw "3".toList p it ∧ ∀ x, ¬ Reads (it.tab virtualQuantity) p x) ∧
      cpus = "None".toList) := by
  unfold cpuCell at h
  obtain ⟨r, hr, h⟩ := bind_ok_inv h
  have hs := itemUnder_spec (code := "3".toList) (by rfl) (by decide) hr
  cases r with
  | none => cases h; exact Or.inr (Or.inl ⟨hs, rfl⟩)
  | some it =>
    simp only at h
    obtain ⟨hd, -⟩ := hs
    obtain ⟨id, hid⟩ := hd.1
    obtain ⟨q, hq, h⟩ := bind_ok_inv h
    have hread := reads_of_getValue (plain_vq env) (wf.items id it (dget?_mem hid)) hq
    cases q with
    | none =>
      cases py with
      | py2 =>
        cases h
        refine Or.inr (Or.inr ⟨rfl, ⟨it, hd, ?_⟩, rfl⟩)
        intro x hx
        cases (hread x).2 hx
      | py3 => cases h
    | some x =>
      cases x with
      | str s => cases h; exact Or.inl ⟨it, hd, (hread _).1 rfl⟩
      | tup l => cases h

theorem memCell_spec {env : Env} {hw : Hw} {p : Prof} {z : Int} (wf : HwWF env hw) (h : memCell env hw p = .ok z) :
    HasMemory env hw p z ∨ ((∀ it, ¬ DeviceUnder env hw "4".toList p it) ∧ z = 0) := by
  unfold memCell at h
  obtain ⟨r, hr, h⟩ := bind_ok_inv h
  have hs := itemUnder_spec (code := "4".toList) (by rfl) (by decide) hr
  cases r with
  | none => cases h; exact Or.inr ⟨hs, rfl⟩
  | some it =>
    simp only at h
    obtain ⟨hd, -⟩ := hs
    obtain ⟨id, hid⟩ := hd.1
    obtain ⟨s, h1, h2⟩ := memBytes_spec (wf.items id it (dget?_mem hid)) h
    exact Or.inl ⟨it, s, hd, h1, h2⟩

theorem splitWs_profileName (env : Env) (p : Prof) : splitWs (profileName env p) =
    (match p with
     | none => ["None".toList]
     | some q => splitWs q) ++ (if p = env.configProfiles.head? then ["(default)".toList] else []) := by
  unfold profileName defaultProfile
  rw [List.append_assoc, splitWs_two]
  have hn : splitWs (noneStr p) = (match p with
     | none => ["None".toList]
     | some q => splitWs q) := by
    cases p with
    | none => decide
    | some q => rfl
  split
  · rw [← hn]
    exact splitWs_space (noneStr p) "(default)".toList
  · rw [List.append_nil, List.append_nil, hn]

theorem profileRow_spec {w : InfoWorld} {vm : InfoVM} {p : Prof} {line : Str} (wf : HwWF vm.env vm.pkg.hw)
    (h : profileRow w vm p = .ok line) : ProfileRow vm p line := by
  unfold profileRow at h
  obtain ⟨cpus, h1, h⟩ := bind_ok_inv h
  obtain ⟨z, h2, h⟩ := bind_ok_inv h
  obtain ⟨a, h3, h⟩ := bind_ok_inv h
  obtain ⟨b, h4, h⟩ := bind_ok_inv h
  obtain ⟨c, h5, h⟩ := bind_ok_inv h
  obtain ⟨total, h6, h⟩ := bind_ok_inv h
  obtain ⟨m, h7, h⟩ := bind_ok_inv h
  obtain ⟨t, h8, h⟩ := bind_ok_inv h
  cases h
  refine ⟨cpus, m, t, z, total, cpuCell_spec wf h1, memCell_spec wf h2, prettyInt_spec h7, disksTotal_spec h6,
    prettyInt_spec h8, ?_⟩
  rw [← itemCount_spec (code := "10".toList) wf (by rfl) h3, ← itemCount_spec (code := "21".toList) wf (by rfl) h4,
    ← itemCount_spec (code := "17".toList) wf (by rfl) h5, splitWs_profileLine, splitWs_profileName, splitWs_natStr,
    splitWs_natStr]
  have hd : splitWs (padL 2 (natStr c) ++ " / ".toList ++ padL 9 t) = [natStr c, "/".toList] ++ splitWs t := by
    have : padL 2 (natStr c) ++ " / ".toList ++ padL 9 t = padL 2 (natStr c) ++ ' ' :: ("/".toList ++ ' ' :: padL 9 t) := by
      rw [List.append_assoc]; rfl
    rw [this, splitWs_space, splitWs_space, splitWs_padL, splitWs_padL, splitWs_natStr]
    rfl
  rw [hd]
  simp only [List.append_assoc, List.cons_append, List.nil_append]
  cases p <;> rfl

theorem ink_append (a b : Str) : ink (a ++ b) = ink a ++ ink b := by simp [ink]

theorem ink_blank {s : Str} (h : ∀ c ∈ s, isWs c = true) : ink s = [] := by
  unfold ink
  rw [List.filter_eq_nil_iff]
  intro c hc
  simp [h c hc]

theorem profileLabels_spec {w : InfoWorld} {vm : InfoVM} {q : Str} {lines : List Str} (hk : KeepsInk w.wrapBreak)
    (h : profileLabels w vm q = .ok lines) : ProfileLabels vm (some q) lines := by
  unfold profileLabels at h
  simp only at h
  cases h1 : findChild vm.envelope (deployTag vm.env.ver) [] false with
  | error e => rw [h1] at h; cases h
  | ok o =>
    rw [h1] at h
    cases o with
    | none => cases h
    | some s =>
      simp only at h
      cases h2 : findChild s (configTag vm.env.ver) [(configId vm.env.ver, q)] false with
      | error e => rw [h2] at h; cases h
      | ok o =>
        rw [h2] at h
        cases o with
        | none => cases h
        | some c =>
          simp only at h
          obtain ⟨a, ha, h⟩ := bind_ok_inv h
          obtain ⟨b, hb, h⟩ := bind_ok_inv h
          cases h
          have m1 : s ∈ findAllChildren vm.envelope (deployTag vm.env.ver) [] := by rw [findChild_some.1 h1]; simp
          have m2 : c ∈ findAllChildren s (configTag vm.env.ver) [(configId vm.env.ver, q)] := by
            rw [findChild_some.1 h2]; simp
          rw [mem_findAllChildren] at m1 m2
          refine ⟨s, c, m1.1, m1.2.1, m2.1, m2.2.1, m2.2.2 (configId vm.env.ver, q) (by simp), ?_⟩
          have e1 := hk _ _ _ _ _ (by decide) (blank_spaces 21) ha
          have e2 := hk _ _ _ _ _ (by decide) (blank_spaces 21) hb
          rw [List.flatten_append, ink_append, e1, e2]
          have hn : ∀ o : Option Str, noneStr o = o.getD "None".toList := by intro o; cases o <;> rfl
          simp only [ink_append, hn]
          have i1 : ink (padR 15 "Label:".toList) = "Label:".toList := by decide
          have i2 : ink (padR 15 "Description:".toList) = "Description:".toList := by decide
          have i3 : ink " \"".toList = "\"".toList := by decide
          have i4 : ink "\"".toList = "\"".toList := by decide
          have j1 : "Label:".toList ++ "\"".toList = "Label:\"".toList := rfl
          have j2 : "Description:".toList ++ "\"".toList = "Description:\"".toList := rfl
          rw [i1, i2, i3, i4, ← j1, ← j2]
          simp only [List.append_assoc]

theorem profilesLoop_spec {w : InfoWorld} {vm : InfoVM} {verbose : Bool} (wf : HwWF vm.env vm.pkg.hw)
    (hk : KeepsInk w.wrapBreak) : ∀ {L : List Prof} {lines : List Str}, profilesLoop w vm verbose L = .ok lines →
    ∃ blocks : List (List Str), lines = blocks.flatten ∧
      List.Forall₂ (fun p b => ∃ row labels, b = row :: labels ∧ ProfileRow vm p row ∧
        (verbose = false → labels = []) ∧ (verbose = true → ProfileLabels vm p labels)) L blocks := by
  intro L
  induction L with
  | nil => intro lines h; cases h; exact ⟨[], rfl, .nil⟩
  | cons p r ih =>
    intro lines h
    unfold profilesLoop at h
    obtain ⟨row, h1, h⟩ := bind_ok_inv h
    obtain ⟨labels, h2, h⟩ := bind_ok_inv h
    obtain ⟨rest, h3, h⟩ := bind_ok_inv h
    cases h
    obtain ⟨blocks, rfl, hf⟩ := ih h3
    refine ⟨(row :: labels) :: blocks, rfl, .cons ⟨row, labels, rfl, profileRow_spec wf h1, ?_, ?_⟩ hf⟩
    · rintro rfl
      cases p <;> cases h2 <;> rfl
    · rintro rfl
      cases p with
      | none => cases h2; rfl
      | some q => exact profileLabels_spec hk h2

/-- **C89 (profiles).** What `cot info` prints about the profiles is a heading and then, for each profile of the package
in their order (or for the only, unnamed one), a line with its name, the mark of the default one, its CPUs, its memory,
how many NICs, serial ports and hard disks it has, and the total capacity of the package's disks; and, unless brief, its
label and description. -/
theorem C89_profiles {w : InfoWorld} {vm : InfoVM} {vb : Verbosity} {lines : List Str} (wf : HwWF vm.env vm.pkg.hw)
    (hk : KeepsInk w.wrapBreak) (h : infoProfiles w vm vb = .ok lines) :
    ∃ (head rule : Str) (profiles : List Prof) (blocks : List (List Str)),
      lines = head :: rule :: blocks.flatten ∧
      splitWs head = splitWs "Configuration Profiles: CPUs Memory NICs Serials Disks/Capacity".toList ∧
      (profiles = vm.env.configProfiles.map some ∧ profiles ≠ [] ∨ vm.env.configProfiles = [] ∧ profiles = [none]) ∧
      List.Forall₂ (fun p b => ∃ row labels, b = row :: labels ∧ ProfileRow vm p row ∧
        (vb = .brief → labels = []) ∧ (vb ≠ .brief → ProfileLabels vm p labels)) profiles blocks := by
  unfold infoProfiles at h
  obtain ⟨rows, h1, h⟩ := bind_ok_inv h
  cases h
  obtain ⟨blocks, rfl, hf⟩ := profilesLoop_spec wf hk h1
  refine ⟨_, _, profIds vm.env, blocks, rfl, ?_, ?_, ?_⟩
  · rw [splitWs_profileLine]; decide
  · unfold profIds
    split
    · rename_i h; exact Or.inr ⟨h, rfl⟩
    · rename_i h; exact Or.inl ⟨rfl, by simpa using h⟩
  · refine hf.imp ?_
    rintro p b ⟨row, labels, e, hr, g1, g2⟩
    exact ⟨row, labels, e, hr, fun hb => g1 (by simp [hb]), fun hb => g2 (by simpa using hb)⟩

theorem prettyInt_total (w : InfoWorld) {z : Int} (hz : z < 1023 * 2 ^ 80) : ∃ t, prettyInt w z = .ok t := by
  cases z with
  | ofNat n => exact C87_accepted (n := n) (by have : ((n : Nat) : Int) < 1023 * 2 ^ 80 := hz; exact_mod_cast this)
  | negSucc n => exact ⟨_, rfl⟩

theorem itemCount_total {env : Env} {hw : Hw} {rt code : Str} (hc : resourceCode rt = .ok code) (p : Prof) :
    ∃ n, itemCount env hw rt p = .ok n := by
  obtain ⟨ids, hids⟩ := findAllItems_ok (env := env) (hw := hw) (rt := rt) (code := code) hc
  unfold itemCount itemCounts
  rw [hids]
  exact ⟨_, rfl⟩

theorem memBytes_total {env : Env} {it : Item} {p : Prof} {z : Int} {t : Str} (wfi : ItemWF env it)
    (ht : Reads (it.tab virtualQuantity) p (.str t))
    (hz : (∃ u, Reads (it.tab allocationUnits) p (.str u) ∧ programmaticBytesToInt t u = .ok z) ∨
     ((∀ u, ¬ Reads (it.tab allocationUnits) p u) ∧ pyInt t = some z)) : memBytes env it p = .ok z := by
  have hg := getValue_of_reads (plain_vq env) wfi ht
  unfold memBytes
  rw [hg]
  rcases hz with ⟨u, hu, hz⟩ | ⟨hu, hz⟩
  · have hgu := getValue_of_reads (plain_au env) wfi hu
    show (do let u ← it.getValue env allocationUnits (some {p}); _) = _
    rw [hgu]
    exact hz
  · have hgu : it.getValue env allocationUnits (some {p}) = .ok none := by
      rw [getValue_plain (plain_au env)]
      congr 1
      show getScan {p} (it.tab allocationUnits) none = none
      cases hsc : getScan {p} (it.tab allocationUnits) none with
      | none => rfl
      | some v =>
        rw [getScan_spec (wfi.tab _) (by simp)] at hsc
        exact absurd (hsc p (by simp)) (hu v)
    show (do let u ← it.getValue env allocationUnits (some {p}); _) = _
    rw [hgu]
    show programmaticBytesToInt t [] = _
    unfold programmaticBytesToInt intOrErr
    rw [if_pos rfl, hz]

theorem cpuCell_total {env : Env} {py : PyVer} {hw : Hw} {p : Prof} (wf : HwWF env hw) (hp : PlainHardware env hw p) :
    ∃ c, cpuCell env py hw p = .ok c := by
  obtain ⟨r, hr⟩ := itemUnder_total (rt := "cpu".toList) (code := "3".toList) wf (by rfl) (by decide) hp.cpuIds
  have hs := itemUnder_spec (code := "3".toList) (by rfl) (by decide) hr
  unfold cpuCell
  rw [hr]
  cases r with
  | none => exact ⟨_, rfl⟩
  | some it =>
    obtain ⟨hd, huniq⟩ := hs
    obtain ⟨v, it', t, hd', ht, hv⟩ := hp.cpus it hd
    have := huniq it' hd'
    subst this
    obtain ⟨⟨id, hid⟩, -, -⟩ := hd
    have hg := getValue_of_reads (plain_vq env) (wf.items id it' (dget?_mem hid)) ht
    refine ⟨t, ?_⟩
    show (do let x ← it'.getValue env virtualQuantity (some {p}); _) = _
    rw [hg]
    rfl

theorem memCell_total {env : Env} {hw : Hw} {p : Prof} (wf : HwWF env hw) (hp : PlainHardware env hw p) :
    ∃ z, memCell env hw p = .ok z := by
  obtain ⟨r, hr⟩ := itemUnder_total (rt := "memory".toList) (code := "4".toList) wf (by rfl) (by decide) hp.memIds
  have hs := itemUnder_spec (code := "4".toList) (by rfl) (by decide) hr
  unfold memCell
  rw [hr]
  cases r with
  | none => exact ⟨_, rfl⟩
  | some it =>
    obtain ⟨hd, huniq⟩ := hs
    obtain ⟨z, it', t, hd', ht, hz⟩ := hp.memory it hd
    have := huniq it' hd'
    subst this
    obtain ⟨⟨id, hid⟩, -, -⟩ := hd
    exact ⟨z, memBytes_total (wf.items id it' (dget?_mem hid)) ht hz⟩

theorem profileRow_total {w : InfoWorld} {vm : InfoVM} {p : Prof} (wf : HwWF vm.env vm.pkg.hw)
    (hp : PlainHardware vm.env vm.pkg.hw p) (hm : ∀ z, HasMemory vm.env vm.pkg.hw p z → z < 1023 * 2 ^ 80)
    (hc : ∀ d ∈ diskEntries vm.env.ver vm.pkg, ∃ z, capacityOf vm.env.ver d = .ok z)
    (ht : ∀ z, TotalCapacity vm.env.ver vm.pkg z → z < 1023 * 2 ^ 80) : ∃ line, profileRow w vm p = .ok line := by
  obtain ⟨c, h1⟩ := cpuCell_total (py := vm.py) wf hp
  obtain ⟨z, h2⟩ := memCell_total wf hp
  obtain ⟨n1, h3⟩ := itemCount_total (env := vm.env) (hw := vm.pkg.hw) (rt := "ethernet".toList) (code := "10".toList) (by rfl) p
  obtain ⟨n2, h4⟩ := itemCount_total (env := vm.env) (hw := vm.pkg.hw) (rt := "serial".toList) (code := "21".toList) (by rfl) p
  obtain ⟨n3, h5⟩ := itemCount_total (env := vm.env) (hw := vm.pkg.hw) (rt := "harddisk".toList) (code := "17".toList) (by rfl) p
  obtain ⟨t, h6⟩ := disksTotal_total hc
  obtain ⟨a, h7⟩ := prettyInt_total w (z := z) (by
    rcases memCell_spec wf h2 with h | ⟨-, rfl⟩
    · exact hm z h
    · norm_num)
  obtain ⟨b, h8⟩ := prettyInt_total w (ht t (disksTotal_spec h6))
  unfold profileRow
  simp only [h1, h2, h3, h4, h5, h6, h7, h8, bind, Except.bind]
  exact ⟨_, rfl⟩

/-- **C89 (completes).** The profiles are told without an error if every profile states its CPUs and memory properly (at
most one item of each, with a number), the capacities of the disks can be read and nothing exceeds 1023 YiB, and, for
the labels, each profile has one Configuration element in the one DeploymentOptionSection. -/
theorem C89_completes_partial {w : InfoWorld} {vm : InfoVM} {vb : Verbosity} (wf : HwWF vm.env vm.pkg.hw)
    (hp : ∀ p, IsProfile vm.env p → PlainHardware vm.env vm.pkg.hw p)
    (hm : ∀ p z, HasMemory vm.env vm.pkg.hw p z → z < 1023 * 2 ^ 80)
    (hc : ∀ d ∈ diskEntries vm.env.ver vm.pkg, ∃ z, capacityOf vm.env.ver d = .ok z)
    (ht : ∀ z, TotalCapacity vm.env.ver vm.pkg z → z < 1023 * 2 ^ 80)
    (hl : vb ≠ .brief → (∀ i s t, ∃ ls, w.wrapBreak w.width i s t = .ok ls) ∧ ∀ q ∈ vm.env.configProfiles, ∃ s c,
      vm.envelope.children.filter (fun e => e.tag == deployTag vm.env.ver) = [s] ∧
      s.children.filter (fun e => e.tag == configTag vm.env.ver && e.get (configId vm.env.ver) == some q) = [c]) :
    ∃ lines, infoProfiles w vm vb = .ok lines := by
  have key : ∀ L : List Prof, (∀ p ∈ L, IsProfile vm.env p) →
      ∃ rows, profilesLoop w vm (decide (vb ≠ .brief)) L = .ok rows := by
    intro L
    induction L with
    | nil => intro _; exact ⟨[], rfl⟩
    | cons p r ih =>
      intro hL
      obtain ⟨rest, h3⟩ := ih (fun x hx => hL x (by simp [hx]))
      obtain ⟨row, h1⟩ := profileRow_total (w := w) wf (hp p (hL p (by simp))) (hm p) hc ht
      have h2 : ∃ l, labelsIf w vm (decide (vb ≠ .brief)) p = .ok l := by
        cases p with
        | none => exact ⟨[], rfl⟩
        | some q =>
          by_cases hb : vb = .brief
          · subst hb; exact ⟨[], rfl⟩
          · obtain ⟨hw, hq⟩ := hl hb
            obtain ⟨s, c, e1, e2⟩ := hq q (by
              rcases hL _ List.mem_cons_self with ⟨q', hq', e⟩ | ⟨-, e⟩
              · cases e; exact hq'
              · cases e)
            have f1 : findChild vm.envelope (deployTag vm.env.ver) [] false = .ok (some s) :=
              findChild_some.2 (by rw [← e1]; unfold findAllChildren; congr 1; funext e; simp [attribMatch])
            have f2 : findChild s (configTag vm.env.ver) [(configId vm.env.ver, q)] false = .ok (some c) :=
              findChild_some.2 (by rw [← e2]; unfold findAllChildren; congr 1; funext e; simp [attribMatch])
            simp only [labelsIf, decide_eq_true hb, if_true, profileLabels, f1, f2]
            obtain ⟨a, ha⟩ := hw "    ".toList (List.replicate 21 ' ')
              (padR 15 "Label:".toList ++ " \"".toList ++ noneStr (findText c (configLabel vm.env.ver)) ++ "\"".toList)
            obtain ⟨b, hb⟩ := hw "    ".toList (List.replicate 21 ' ')
              (padR 15 "Description:".toList ++ " \"".toList ++ noneStr (findText c (configDesc vm.env.ver)) ++ "\"".toList)
            rw [ha, hb]
            exact ⟨_, rfl⟩
      obtain ⟨l, h2⟩ := h2
      unfold profilesLoop
      rw [h1, h2, h3]
      exact ⟨_, rfl⟩
  obtain ⟨rows, h⟩ := key (profIds vm.env) (fun p hp => mem_profIds.1 hp)
  unfold infoProfiles
  rw [h]
  exact ⟨_, rfl⟩

/-! ### Examples -/

theorem splitWs_ink (s : Str) : (splitWs s).flatten = ink s := by
  have key : ∀ (s cur : Str), (splitWsAux s cur).flatten = cur ++ ink s := by
    intro s
    induction s with
    | nil => intro cur; by_cases h : cur = [] <;> simp [splitWsAux, ink, h]
    | cons c r ih =>
      intro cur
      unfold splitWsAux
      by_cases hc : isWs c = true
      · rw [if_pos hc]
        have : ink (c :: r) = ink r := by simp [ink, hc]
        rw [this]
        by_cases h : cur = [] <;> simp [h, ih]
      · have : ink (c :: r) = c :: ink r := by simp [ink, hc]
        rw [if_neg hc, ih, this]
        simp
  exact key s []

/-- The hypothesis on the wrapping of labels is met, for instance, by wrapping without breaking words. -/
theorem keepsInk_textWrap : KeepsInk textWrap := by
  intro w i s t ls hi hs h
  have hflat : ∀ l : List Str, ink l.flatten = (l.flatMap splitWs).flatten := by
    intro l
    induction l with
    | nil => rfl
    | cons a r ih => rw [List.flatten_cons, ink_append, ih, List.flatMap_cons, List.flatten_append, splitWs_ink]
  have hi' : i = [] ∨ ∃ a c, i = a ++ [c] ∧ isWs c = true := by
    rcases List.eq_nil_or_concat i with rfl | ⟨a, c, rfl⟩
    · exact Or.inl rfl
    · exact Or.inr ⟨a, c, by simp, hi c (by simp)⟩
  rw [hflat, textWrap_words hi' hs h]
  split
  · rename_i ht
    rw [← splitWs_ink, ht]
  · rw [splitWs_blank hi, List.nil_append, splitWs_ink]

def exInfoWorld : InfoWorld := ⟨79, fun _ => [], fun _ => .error .valueError, textWrap⟩

/-- an item that exists in the given profiles only -/
def itemIn (S : PSet) (l : List (Str × Str)) : Item :=
  { props := l.map (fun nv => (nv.1, [(.str nv.2, S)])), ns := rasd, modified := false }

theorem itemIn_tab (S : PSet) (l : List (Str × Str)) (n : Str) :
    (itemIn S l).tab n = match dget? l n with
      | none => []
      | some s => [(.str s, S)] := by
  unfold Item.tab itemIn
  simp only
  induction l with
  | nil => rfl
  | cons a r ih =>
    simp only [List.map_cons, dget?]
    by_cases h : a.1 = n
    · simp [h]
    · simpa [h] using ih

theorem itemIn_wf (env : Env) {S : PSet} (hS : S ≠ ∅) (hS' : none ∈ S → S = {none}) {l : List (Str × Str)}
    (hk : (dkeys l).Nodup) (hv : ∀ n s, (n, s) ∈ l → s ≠ [] ∧ n ≠ resourceSubType) : ItemWF env (itemIn S l) := by
  have one : ∀ s : Str, s ≠ [] → TabWF [(Val.str s, S)] := by
    intro s hs
    have ht : (Val.str s).truthy = true := by
      cases s with
      | nil => exact absurd rfl hs
      | cons c t => rfl
    refine ⟨by simp [dkeys], ?_, ?_, ?_, ?_⟩
    · intro w T h; simp at h; rw [h.1]; exact ht
    · intro w T h; simp at h; rw [h.2]; exact hS
    · intro p a b ha hb; rw [explicit_singleton] at ha hb; rw [ha.1, hb.1]
    · intro w T h; simp at h; rw [h.2]; exact hS'
  have hlen : ∀ n, ((itemIn S l).tab n).length ≤ 1 := by
    intro n; rw [itemIn_tab]; cases dget? l n <;> simp
  refine ⟨?_, ?_, hlen _, hlen _, ?_⟩
  · simpa [itemIn, dkeys, Function.comp_def] using hk
  · intro n t h
    simp only [itemIn, List.mem_map] at h
    obtain ⟨⟨k, s⟩, hm, he⟩ := h
    simp only [Prod.mk.injEq] at he
    obtain ⟨rfl, rfl⟩ := he
    exact one s (hv k s hm).1
  · intro n v T h
    rw [itemIn_tab] at h
    cases hg : dget? l n with
    | none => rw [hg] at h; simp at h
    | some s =>
      rw [hg] at h
      simp only [List.mem_singleton, Prod.mk.injEq] at h
      obtain ⟨rfl, rfl⟩ := h
      simp only [Val.isTup]
      have := (hv n s (dget?_mem hg)).2
      simp [this]

/-- adding an item to a consistent collection -/
theorem hwWF_snoc {env : Env} {hw : Hw} {k : Str} {S : PSet} {l : List (Str × Str)} (h : HwWF env hw) (hk : k ∉ dkeys hw)
    (hS : S ≠ ∅) (hS' : none ∈ S → S = {none}) (hl : (dkeys l).Nodup)
    (hv : ∀ n s, (n, s) ∈ l → s ≠ [] ∧ n ≠ resourceSubType) (hid : dget? l (instanceId env.ver) = some k) :
    HwWF env (hw ++ [(k, itemIn S l)]) := by
  refine ⟨?_, ?_, ?_⟩
  · have : dkeys (hw ++ [(k, itemIn S l)]) = dkeys hw ++ [k] := by simp [dkeys]
    rw [this]
    exact List.nodup_append.2 ⟨h.keys, by simp, by rintro a ha b hb rfl; simp at hb; subst hb; exact hk ha⟩
  · intro id it hm
    rcases List.mem_append.1 hm with hm | hm
    · exact h.items id it hm
    · simp at hm
      rw [hm.2]
      exact itemIn_wf env hS hS' hl hv
  · intro id it hm v T hvT
    rcases List.mem_append.1 hm with hm | hm
    · exact h.ident id it hm v T hvT
    · simp at hm
      obtain ⟨rfl, rfl⟩ := hm
      rw [itemIn_tab, hid] at hvT
      simp only [List.mem_singleton, Prod.mk.injEq] at hvT
      exact hvT.1

def exInfoDisk : List (Str × Str) := [("InstanceID".toList, "6".toList), ("ResourceType".toList, "17".toList),
  ("HostResource".toList, "ovf:/disk/vmdisk1".toList)]

/-- two profiles with 2 CPUs, 4 GiB and 3 NICs; profile x has a hard disk -/
def exInfoHw : Hw := exVhHw ++ [("6".toList, itemIn {pX} exInfoDisk)]

theorem exInfoHw_wf : HwWF exEnv exInfoHw :=
  hwWF_snoc exVhHw_wf (by decide +kernel) (by decide) (by decide) (by decide +kernel)
    (by
      have : ∀ ns ∈ exInfoDisk, ns.2 ≠ [] ∧ ns.1 ≠ resourceSubType := by decide +kernel
      exact fun n s h => this (n, s) h)
    (by decide +kernel)

def exInfoVM : InfoVM :=
  { env := exEnv, py := .py3, input := "in.ovf".toList, platform := none, vs := .mk "vs".toList [] none none [],
    envelope := .mk "env".toList [] none none
      [.mk (deployTag .v1) [] none none
        [.mk (configTag .v1) [(configId .v1, "x".toList)] none none
          [.mk (configLabel .v1) [] (some "Small".toList) none [], .mk (configDesc .v1) [] (some "a small one".toList) none []],
         .mk (configTag .v1) [(configId .v1, "y".toList)] none none []]],
    hws := none,
    pkg :=
      { refs := .mk (ovfTag .v1 "References".toList) [] none none
          [.mk (fileTag .v1) [(fileId .v1, "vmdk".toList), (fileHref .v1, "d.vmdk".toList), (fileSize .v1, "1024".toList)] none none []],
        disks := some (.mk (diskSecTag .v1) [] none none
          [.mk (diskTag .v1) [(diskId .v1, "vmdisk1".toList), (diskFileRef .v1, "vmdk".toList),
            (diskCapacity .v1, "1073741824".toList)] none none []]),
        hw := exInfoHw, files := [] } }

/-- the lines as words, or the error -/
def infoWords (r : Except Err (List Str)) : Option Err × List (List Str) :=
  match r with
  | .ok ls => (none, ls.map splitWs)
  | .error e => (some e, [])

theorem infoWords_error {r : Except Err (List Str)} {e : Err} (h : (infoWords r).1 = some e) : r = .error e := by
  cases r with
  | ok ls => cases h
  | error e' => cases h; rfl

theorem infoWords_ok {r : Except Err (List Str)} {ws : List (List Str)} (h : infoWords r = (none, ws)) :
    ∃ ls, r = .ok ls ∧ ls.map splitWs = ws := by
  cases r with
  | ok ls => exact ⟨ls, rfl, (Prod.mk.inj h).2⟩
  | error e' => cases (Prod.mk.inj h).1

/-- The hypotheses of `C89_profiles` are met; what is printed: -/
example : infoWords (infoProfiles exInfoWorld exInfoVM .normal) = (none,
    [splitWs "Configuration Profiles: CPUs Memory NICs Serials Disks/Capacity".toList,
     splitWs "---- --------- ---- ------- --------------".toList,
     splitWs "x (default) 2 4 GiB 3 0 1 / 1 GiB".toList,
     splitWs "Label: \"Small\"".toList,
     splitWs "Description: \"a small one\"".toList,
     splitWs "y 2 4 GiB 3 0 0 / 1 GiB".toList,
     splitWs "Label: \"None\"".toList,
     splitWs "Description: \"None\"".toList]) := by decide +kernel

/-- and those of `C89_completes_partial` -/
example (vb : Verbosity) : ∃ lines, infoProfiles exInfoWorld exInfoVM vb = .ok lines := by
  refine C89_completes_partial exInfoHw_wf ?_ ?_ ?_ ?_ ?_
  · intro p _
    refine ⟨?_, ?_, ?_, ?_⟩
    · have : ∀ kv ∈ exInfoHw, ∀ kw ∈ exInfoHw, OfType kv.2 "3".toList → OfType kw.2 "3".toList → kv.1 = kw.1 := by
        decide +kernel
      exact fun id id' it it' h h' h1 h2 _ _ => this (id, it) (dget?_mem h) (id', it') (dget?_mem h') h1 h2
    · have : ∀ kv ∈ exInfoHw, ∀ kw ∈ exInfoHw, OfType kv.2 "4".toList → OfType kw.2 "4".toList → kv.1 = kw.1 := by
        decide +kernel
      exact fun id id' it it' h h' h1 h2 _ _ => this (id, it) (dget?_mem h) (id', it') (dget?_mem h') h1 h2
    · rintro it ⟨⟨id, hid⟩, ht, hp⟩
      have hm : ∀ kv ∈ exInfoHw, OfType kv.2 "3".toList → kv.1 = "1".toList := by decide +kernel
      have := hm _ (dget?_mem hid) ht
      simp only at this
      subst this
      have hd : dget? exInfoHw "1".toList = some (simpleItem (exVhHwL.head!).2) := rfl
      have : it = simpleItem (exVhHwL.head!).2 := Option.some.inj (hid.symm.trans hd)
      subst this
      exact ⟨2, _, "2".toList, ⟨⟨"1".toList, hid⟩, ht, hp⟩, reads_everywhere rfl, by decide +kernel⟩
    · rintro it ⟨⟨id, hid⟩, ht, hp⟩
      have hm : ∀ kv ∈ exInfoHw, OfType kv.2 "4".toList → kv.1 = "2".toList := by decide +kernel
      have := hm _ (dget?_mem hid) ht
      simp only at this
      subst this
      have hd : dget? exInfoHw "2".toList = some (simpleItem (exVhHwL[1]!).2) := rfl
      have : it = simpleItem (exVhHwL[1]!).2 := Option.some.inj (hid.symm.trans hd)
      subst this
      exact ⟨4294967296, _, "4096".toList, ⟨⟨"2".toList, hid⟩, ht, hp⟩,
        reads_everywhere rfl, Or.inl ⟨"byte * 2^20".toList, reads_everywhere rfl, by decide +kernel⟩⟩
  · rintro p z ⟨it, s, ⟨⟨id, hid⟩, ht, hp⟩, h1, h2⟩
    have hm : ∀ kv ∈ exInfoHw, OfType kv.2 "4".toList → kv.1 = "2".toList := by decide +kernel
    have := hm _ (dget?_mem hid) ht
    simp only at this
    subst this
    have hd : dget? exInfoHw "2".toList = some (simpleItem (exVhHwL[1]!).2) := rfl
    have : it = simpleItem (exVhHwL[1]!).2 := Option.some.inj (hid.symm.trans hd)
    subst this
    have := hasMemory_unique (exInfoHw_wf.items _ _ (dget?_mem hid)) (z' := 4294967296) (s' := "4096".toList) h1
      (reads_everywhere rfl) h2 (Or.inl ⟨"byte * 2^20".toList, reads_everywhere rfl, by decide +kernel⟩)
    rw [this]
    norm_num
  · intro d hd
    have : diskEntries exInfoVM.env.ver exInfoVM.pkg = exInfoVM.pkg.diskList := rfl
    rw [this] at hd
    have hd : d = (.mk (diskTag .v1) [(diskId .v1, "vmdisk1".toList), (diskFileRef .v1, "vmdk".toList),
            (diskCapacity .v1, "1073741824".toList)] none none [] : Elem) := by
      rcases hd with _ | ⟨_, hd⟩
      · rfl
      · cases hd
    subst hd
    exact ⟨1073741824, by rfl⟩
  · rintro z ⟨caps, hf, rfl⟩
    have : diskEntries exInfoVM.env.ver exInfoVM.pkg = [.mk (diskTag .v1) [(diskId .v1, "vmdisk1".toList), (diskFileRef .v1, "vmdk".toList),
            (diskCapacity .v1, "1073741824".toList)] none none []] := rfl
    rw [this] at hf
    rcases hf with _ | ⟨h1, hf⟩
    cases hf
    have h2 : capacityOf .v1 (.mk (diskTag .v1) [(diskId .v1, "vmdisk1".toList), (diskFileRef .v1, "vmdk".toList),
            (diskCapacity .v1, "1073741824".toList)] none none []) = .ok 1073741824 := by rfl
    cases h1.symm.trans h2
    norm_num
  · intro _
    refine ⟨fun i s t => textWrap_total (width := 79) (by decide) i s t, ?_⟩
    intro q hq
    have : q = "x".toList ∨ q = "y".toList := by simpa [exInfoVM, exEnv] using hq
    rcases this with rfl | rfl
    · exact ⟨_, _, rfl, rfl⟩
    · exact ⟨_, _, rfl, rfl⟩

/-- **C89 fails** to tell the disks of the profile: its line shows the total capacity of all disks of the package.
Profile y has no hard disk, but its line says "0 / 1 GiB". -/
theorem C89_capacity_fails : ∃ (vm : InfoVM) (lines : List Str) (row : Str), HwWF vm.env vm.pkg.hw ∧
    infoProfiles exInfoWorld vm .brief = .ok lines ∧ row ∈ lines ∧
    countOf vm.env vm.pkg.hw "17".toList pY = 0 ∧
    splitWs row = splitWs "y 2 4 GiB 3 0 0 / 1 GiB".toList := by
  obtain ⟨ls, h1, h2⟩ := infoWords_ok (r := infoProfiles exInfoWorld exInfoVM .brief)
    (ws := [splitWs "Configuration Profiles: CPUs Memory NICs Serials Disks/Capacity".toList,
     splitWs "---- --------- ---- ------- --------------".toList,
     splitWs "x (default) 2 4 GiB 3 0 1 / 1 GiB".toList,
     splitWs "y 2 4 GiB 3 0 0 / 1 GiB".toList]) (by decide +kernel)
  have : splitWs "y 2 4 GiB 3 0 0 / 1 GiB".toList ∈ ls.map splitWs := by rw [h2]; simp
  obtain ⟨row, hr, e⟩ := List.mem_map.1 this
  exact ⟨exInfoVM, ls, row, exInfoHw_wf, h1, hr, by decide +kernel, e⟩

/-- **C89 fails** for a CPU item without VirtualQuantity: on Python 3 nothing is told, but a TypeError raised. -/
theorem C89_no_quantity_fails : infoProfiles exInfoWorld { exInfoVM with pkg := { exInfoVM.pkg with hw := exVhNoQuantity } } .brief =
    .error .typeError := infoWords_error (by decide +kernel)

/-- **C89 fails** for two CPU items: a LookupError. -/
theorem C89_two_cpus_fails : infoProfiles exInfoWorld { exInfoVM with pkg := { exInfoVM.pkg with hw := exVhTwo } } .brief =
    .error .lookupError := infoWords_error (by decide +kernel)

end Cot
