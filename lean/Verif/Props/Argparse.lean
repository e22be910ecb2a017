import Verif.Lemmas.ArgPrints
/-
C120: the command line means what it says.
-/
namespace Cot

theorem cotParse_top {g : List Str} {gus : List ArgUse} (hg : CmdLine mainParser g gus []) (hp : ∀ u ∈ gus, ¬ OnlyPrints u.opt)
    {c : SubCommand} (hc : c ∈ cotCommands) {name : Str} (hn : name = c.title ∨ name ∈ c.aliases) {l : List Str}
    (hl : ClearFor mainParser l) :
    (NoConflict gus → ∃ ns, Left mainParser gus ns ∧ cotParse (g ++ name :: l) = match parseCommand c l with
      | .error e => .error e
      | .ok (sns, []) => .ok (mergeSpace (dset ns "_subcommand".toList (.one (.text name))) sns)
      | .ok (_, _ :: _) => .error .usage) ∧
    (¬ NoConflict gus → cotParse (g ++ name :: l) = .error .usage) := by
  obtain ⟨-, -, h3, -⟩ := cot_tables c hc
  obtain ⟨hs, hw⟩ := h3 name (by simpa using hn)
  obtain ⟨g1, g2⟩ := parseWith_top main_top hg hp (.inr hw) hl hs parseCommand "_subcommand".toList
  constructor
  · intro hnc
    obtain ⟨ns, k1, k2⟩ := g1 hnc
    refine ⟨ns, k1, ?_⟩
    unfold cotParse
    rw [k2]
    cases parseCommand c l with
    | error e => rfl
    | ok x =>
      obtain ⟨sns, ex⟩ := x
      cases ex <;> rfl
  · intro hnc
    unfold cotParse
    rw [g2 hnc]

/-- **C120.** For every command with options and mandatory arguments of one word each (all but `deploy`, `help` and `info`): a
command line of global flags, the command under one of its names, and its options, values and words in any order (with attached
values and abbreviations that the main parser does not find ambiguous) is accepted exactly if it has as many words as the command
has mandatory arguments, every value is of the kind its option wants, and no two options exclude each other.  The namespace
then has every word in its place, every option's value or values in order, the defaults of what was not given, and the
command that is to run.  Everything else is a usage error. -/
theorem C120_means_partial {c : SubCommand} (hc : PlainCommand c) {name : Str} (hn : name = c.title ∨ name ∈ c.aliases) {g l : List Str}
    {gus us : List ArgUse} {ws : List Str} (hg : CmdLine mainParser g gus []) (hl : CmdLine c.parser l us ws)
    (hp : ∀ u ∈ gus ++ us, ¬ OnlyPrints u.opt) (ha : ClearFor mainParser l) :
    (NoConflict gus ∧ RightLine c.parser us ws → ∃ ns, cotParse (g ++ name :: l) = .ok ns ∧ Means c.parser us ws ns ∧
      Means mainParser gus [] ns ∧ dget? ns "instance".toList = some (.one (.text c.title)) ∧
      dget? ns "_subcommand".toList = some (.one (.text name))) ∧
    (¬ (NoConflict gus ∧ RightLine c.parser us ws) → cotParse (g ++ name :: l) = .error .usage) := by
  obtain ⟨hm, hd, hh, hi⟩ := hc
  obtain ⟨t1, t2, -, t4⟩ := cot_tables c hm
  have hone := onesB_sound (t4 hd hh hi)
  have hcmd : parseCommand c l = parseLeaf c.title c.parser l := by
    unfold parseCommand
    rw [if_neg hd]
  obtain ⟨g1, g2⟩ := cotParse_top hg (fun u hu => hp u (List.mem_append_left _ hu)) hm hn ha
  obtain ⟨k1, k2⟩ := parseLeaf_line (optsOkB_sound t1) hone
    (fun o ho => Ne.symm (freeB_sound t2 (d := "instance".toList) (by decide) o ho)) c.title hl
    (fun u hu => hp u (List.mem_append_right _ hu))
  constructor
  · rintro ⟨hnc, hr⟩
    obtain ⟨ns, hns, hcp⟩ := g1 hnc
    obtain ⟨sns, hl1, hl2, hl3, hl4, hl5⟩ := k1 hr
    rw [hcmd, hl1] at hcp
    obtain ⟨m1, m2, m3⟩ := merged_get hns (name := name) hl5 (fun d hd' hne => hl4 d hne (freeB_sound t2 hd'))
    exact ⟨_, hcp, means_merged hl2 m3, m1, m3 _ _ hl3, m2⟩
  · intro hno
    by_cases hnc : NoConflict gus
    · obtain ⟨ns, hns, hcp⟩ := g1 hnc
      rcases k2 (fun hr => hno ⟨hnc, hr⟩) with hx | ⟨ns', x, ex, hx⟩
      · rw [hcp, hcmd, hx]
      · rw [hcp, hcmd, hx]
    · exact g2 hnc

/-- **C120.** A command line that asks for a help text or the version, by a global flag or by an option of the command: the first such
request is met, whatever comes after it (missing arguments, wrong values, another command), and no command runs; unless
something before it is wrong, which is a usage error. -/
theorem C120_prints_partial {u : ArgUse} {k : ArgStop} (hk : Prints u.opt k) :
    (∀ {g l : List Str} {gus a b : List ArgUse}, CmdLine mainParser g gus [] → gus = a ++ u :: b → (∀ x ∈ a, ¬ OnlyPrints x.opt) →
      ClearFor mainParser l →
      (NoConflict a → cotParse (g ++ l) = .error k) ∧ (¬ NoConflict a → cotParse (g ++ l) = .error .usage)) ∧
    (∀ {c : SubCommand} {name : Str} {g l ws : List Str} {gus us a b : List ArgUse}, PlainCommand c → name = c.title ∨ name ∈ c.aliases →
      CmdLine mainParser g gus [] → CmdLine c.parser l us ws → us = a ++ u :: b → (∀ x ∈ gus ++ a, ¬ OnlyPrints x.opt) →
      ClearFor mainParser l →
      (NoConflict gus → (∀ x ∈ a, x.Good) → NoConflict a → cotParse (g ++ name :: l) = .error k) ∧
      (¬ (NoConflict gus ∧ (∀ x ∈ a, x.Good) ∧ NoConflict a) → cotParse (g ++ name :: l) = .error .usage)) := by
  obtain ⟨hu, hs⟩ := prints_stop hk
  refine ⟨?_, ?_⟩
  · intro g l gus a b hg hus hpa hl
    obtain ⟨g1, g2⟩ := argParse_top_prints main_top (cot_prints _ List.mem_cons_self) hg hus hpa hu hl
    unfold cotParse parseWith
    constructor
    · intro h
      rw [g1 h, hs]
    · intro h
      rw [g2 h]
  · intro c name g l ws gus us a b hc hn hg hl hus hpa ha
    obtain ⟨hm, hd, hh, hi⟩ := hc
    obtain ⟨t1, t2, -, t4⟩ := cot_tables c hm
    have hone := onesB_sound (t4 hd hh hi)
    have hcmd : parseCommand c l = parseLeaf c.title c.parser l := by
      unfold parseCommand
      rw [if_neg hd]
    obtain ⟨g1, g2⟩ := cotParse_top hg (fun u hu => hpa u (List.mem_append_left _ hu)) hm hn ha
    obtain ⟨k1, k2⟩ := argParse_prints (optsOkB_sound t1) hone
      (cot_prints _ (List.mem_cons_of_mem _ (List.mem_cons_of_mem _ (List.mem_map_of_mem hm)))) hl hus
      (fun x hx => hpa x (List.mem_append_right _ hx)) hu
    constructor
    · intro hnc hg' hnc'
      obtain ⟨ns, -, hcp⟩ := g1 hnc
      rw [hcp, hcmd]
      unfold parseLeaf
      rw [k1 ⟨hg', hnc'⟩, hs]
    · intro hno
      by_cases hnc : NoConflict gus
      · obtain ⟨ns, -, hcp⟩ := g1 hnc
        rw [hcp, hcmd]
        unfold parseLeaf
        rw [k2 (fun h => hno ⟨hnc, h⟩)]
      · exact g2 hnc

/-- **C120.** The main parser looks at the arguments of the command as well: an abbreviation that is ambiguous for the main parser is
refused, whatever it stands for in the command. -/
theorem C120_ambiguous_fails {c : SubCommand} (hc : c ∈ cotCommands) {name : Str} (hn : name = c.title ∨ name ∈ c.aliases) {g l : List Str}
    {gus : List ArgUse} (hg : CmdLine mainParser g gus []) (ha : ¬ ClearFor mainParser l) : cotParse (g ++ name :: l) = .error .usage := by
  obtain ⟨-, -, h3, -⟩ := cot_tables c hc
  have hw := (h3 name (by simpa using hn)).2
  unfold cotParse
  have hF := main_top.opts.flags
  have hd : ['-', '-'] ∉ g ++ [name] := by
    rw [List.mem_append, not_or]
    refine ⟨noDashes_of hF hg, ?_⟩
    simp only [List.mem_singleton]
    rintro rfl
    simp at hw
  have := parseWith_ambiguous hF hd ha none "_subcommand".toList cotCommands parseCommand
  rw [List.append_assoc] at this
  have he : g ++ ([name] ++ l) = g ++ name :: l := rfl
  rw [he] at this
  rw [this]

/-- **C120.** An option that the command does not know is never passed over: whatever else is on the command line, it is not
accepted. -/
theorem C120_unknown {c : SubCommand} (hc : c ∈ cotCommands) (hd : c.title ≠ "deploy".toList) {name : Str}
    (hn : name = c.title ∨ name ∈ c.aliases) {g a b : List Str} {s : Str} {gus : List ArgUse} (hg : CmdLine mainParser g gus [])
    (hp : ∀ u ∈ gus, ¬ OnlyPrints u.opt) (hs : UnknownIn c.parser s) (ha : ['-', '-'] ∉ a) (ns : ArgSpace) :
    cotParse (g ++ name :: (a ++ s :: b)) ≠ .ok ns := by
  intro hok
  by_cases hl : ClearFor mainParser (a ++ s :: b)
  · obtain ⟨g1, g2⟩ := cotParse_top hg hp hc hn hl
    by_cases hnc : NoConflict gus
    · obtain ⟨ns', -, hcp⟩ := g1 hnc
      rw [hok] at hcp
      unfold parseCommand at hcp
      rw [if_neg hd] at hcp
      have hr : ∀ c ∈ cotCommands, c.title ≠ "deploy".toList → ∀ p ∈ c.parser.pos, p.num ≠ .rest := by decide +kernel
      cases hx : parseLeaf c.title c.parser (a ++ s :: b) with
      | error e => rw [hx] at hcp; cases hcp
      | ok x =>
        obtain ⟨sns, ex⟩ := x
        have := parseLeaf_unknown (hr c hc hd) c.title ha hs hx
        rw [hx] at hcp
        cases ex with
        | nil => exact this rfl
        | cons y ex => cases hcp
    · rw [g2 hnc] at hok
      cases hok
  · rw [C120_ambiguous_fails hc hn hg hl] at hok
    cases hok

/-- **C120.** `info`: flags, one or more packages, flags.  It is accepted exactly if `--brief` and `--verbose` are not both given, and
then the packages are those named, in order. -/
theorem C120_info_partial {name : Str} (hn : name = "info".toList ∨ name = "describe".toList) {g a b ws : List Str} {gus ua ub : List ArgUse}
    (hg : CmdLine mainParser g gus []) (ha : CmdLine infoParser a ua []) (hb : CmdLine infoParser b ub []) (hws : ∀ w ∈ ws, Word w)
    (hne : ws ≠ []) (hp : ∀ u ∈ gus ++ (ua ++ ub), ¬ OnlyPrints u.opt) (hc : ClearFor mainParser (a ++ ws ++ b)) :
    (NoConflict gus ∧ NoConflict (ua ++ ub) → ∃ ns, cotParse (g ++ name :: (a ++ ws ++ b)) = .ok ns ∧ Means infoParser (ua ++ ub) [] ns ∧
      Means mainParser gus [] ns ∧ dget? ns "PACKAGE_LIST".toList = some (.list (ws.map (fun w => .one (.text w)))) ∧
      dget? ns "instance".toList = some (.one (.text "info".toList)) ∧ dget? ns "_subcommand".toList = some (.one (.text name))) ∧
    (¬ (NoConflict gus ∧ NoConflict (ua ++ ub)) → cotParse (g ++ name :: (a ++ ws ++ b)) = .error .usage) := by
  set c : SubCommand := ⟨"info".toList, ["describe".toList], infoParser⟩ with hcd
  have hm : c ∈ cotCommands := by decide +kernel
  obtain ⟨t1, t2, -, -⟩ := cot_tables c hm
  have hin : "instance".toList ∈ topNames := by decide
  obtain ⟨g1, g2⟩ := cotParse_top hg (fun u hu => hp u (List.mem_append_left _ hu)) hm (name := name) (by simpa [hcd] using hn) hc
  obtain ⟨k1, k2⟩ := argParse_block (P := infoParser) (p := { flags := [], dest := "PACKAGE_LIST".toList, num := .plus })
    (optsOkB_sound t1) (by decide +kernel) rfl rfl ha hb hws hne (fun u hu => hp u (List.mem_append_right _ hu))
  have hcmd : parseCommand c (a ++ ws ++ b) = parseLeaf "info".toList infoParser (a ++ ws ++ b) := by
    unfold parseCommand
    rw [if_neg (by decide +kernel)]
  constructor
  · rintro ⟨hnc, hr⟩
    obtain ⟨ns, hns, hcp⟩ := g1 hnc
    obtain ⟨st, hst, s1, s2, s3⟩ := k1 hr
    have hleaf : parseLeaf "info".toList infoParser (a ++ ws ++ b) = .ok (setInstance (some "info".toList) st.ns, []) := by
      unfold parseLeaf
      rw [hst]
      dsimp only
      rw [s1]
      rfl
    rw [hcmd, hleaf] at hcp
    have hnd : (dkeys (setInstance (some "info".toList) st.ns)).Nodup := nodup_dset s2.nodup
    obtain ⟨m1, m2, m3⟩ := merged_get hns (name := name) hnd (fun d hd' hne' => by
      rw [setInstance_get (Ne.symm hne')]
      exact s2.other d (freeB_sound t2 hd'))
    refine ⟨_, hcp, ⟨?_, ?_⟩, m1, ?_, ?_, m2⟩
    · intro o ho hop
      obtain ⟨v, hv, hout⟩ := s2.opts o ho (stored_iff.2 hop)
      refine ⟨v, m3 _ _ ?_, hout⟩
      rw [setInstance_get (Ne.symm (freeB_sound t2 hin o (List.mem_append_right _ ho)))]
      exact hv
    · intro i p w _ hw
      simp at hw
    · apply m3
      rw [setInstance_get (by decide)]
      exact s3
    · apply m3
      unfold setInstance
      dsimp only
      rw [dget?_dset, if_pos rfl]
  · intro hno
    by_cases hnc : NoConflict gus
    · obtain ⟨ns, hns, hcp⟩ := g1 hnc
      rw [hcp, hcmd]
      unfold parseLeaf
      rw [k2 (fun hr => hno ⟨hnc, hr⟩)]
    · exact g2 hnc

/-- the parser of `deploy` hands on to that of the hypervisor -/
theorem deploy_cmd {h : Str} (hh : h ∈ ["esxi".toList, "vcenter".toList, "vmware".toList, "vsphere".toList]) {pkg : Str} (hw : Word pkg)
    (l : List Str) : parseCommand ⟨"deploy".toList, [], deployParser⟩ (pkg :: h :: l) =
      match parseLeaf "deploy-esxi".toList esxiParser l with
      | .error e => .error e
      | .ok (sns, ex) => .ok (mergeSpace (deployBase pkg h) sns, ex) := by
  obtain ⟨hsub, hdash⟩ := esxi_tables.2.2.2 h hh
  obtain ⟨st, d1, d2, d3, d4⟩ := deploy_parse hw (.inr hdash) l
  unfold parseCommand
  rw [if_pos (by decide +kernel)]
  unfold parseWith
  rw [d1]
  dsimp only
  rw [d2]
  dsimp only
  rw [hsub]
  dsimp only
  have ht : "deploy-".toList ++ "esxi".toList = "deploy-esxi".toList := by decide +kernel
  rw [ht]
  cases parseLeaf "deploy-esxi".toList esxiParser l with
  | error e => rfl
  | ok x =>
    dsimp only
    rw [d3, d4, deployBase_eq]
    rfl

/-- **C120.** `deploy`: the package, the hypervisor under one of its names, and the options and words for the hypervisor. -/
theorem C120_deploy_partial {h : Str} (hh : h ∈ ["esxi".toList, "vcenter".toList, "vmware".toList, "vsphere".toList]) {g l : List Str}
    {gus us : List ArgUse} {ws : List Str} {pkg : Str} (hg : CmdLine mainParser g gus []) (hw : Word pkg) (hl : CmdLine esxiParser l us ws)
    (hp : ∀ u ∈ gus ++ us, ¬ OnlyPrints u.opt) (hc : ClearFor mainParser (pkg :: h :: l)) :
    (NoConflict gus ∧ RightLine esxiParser us ws → ∃ ns, cotParse (g ++ "deploy".toList :: pkg :: h :: l) = .ok ns ∧
      Means esxiParser us ws ns ∧ Means mainParser gus [] ns ∧ dget? ns "PACKAGE".toList = some (.one (.text pkg)) ∧
      dget? ns "HYPERVISOR".toList = some (.one (.text h)) ∧ dget? ns "instance".toList = some (.one (.text "deploy-esxi".toList)) ∧
      dget? ns "_subcommand".toList = some (.one (.text "deploy".toList))) ∧
    (¬ (NoConflict gus ∧ RightLine esxiParser us ws) → cotParse (g ++ "deploy".toList :: pkg :: h :: l) = .error .usage) := by
  set c : SubCommand := ⟨"deploy".toList, [], deployParser⟩ with hcd
  have hm : c ∈ cotCommands := by decide +kernel
  obtain ⟨t1, t2, t3, t4⟩ := esxi_tables
  obtain ⟨g1, g2⟩ := cotParse_top hg (fun u hu => hp u (List.mem_append_left _ hu)) hm (name := "deploy".toList) (.inl rfl) hc
  obtain ⟨k1, k2⟩ := parseLeaf_line (optsOkB_sound t1) (onesB_sound t3)
    (fun o ho => Ne.symm (freeB_sound t2 (d := "instance".toList) (by decide) o ho)) "deploy-esxi".toList hl
    (fun u hu => hp u (List.mem_append_right _ hu))
  have hcmd := deploy_cmd hh hw l
  constructor
  · rintro ⟨hnc, hr⟩
    obtain ⟨ns, hns, hcp⟩ := g1 hnc
    obtain ⟨sns, hl1, hl2, hl3, hl4, hl5⟩ := k1 hr
    rw [hcmd, hl1] at hcp
    dsimp only at hcp
    have hfree : ∀ d ∈ topNames, d ≠ "instance".toList → dget? sns d = none := fun d hd hne =>
      hl4 d hne (freeB_sound t2 (List.mem_cons_of_mem _ (List.mem_cons_of_mem _ hd)))
    obtain ⟨m1, m2, m3⟩ := merged_get hns (name := "deploy".toList) (mergeSpace_nodup (deployBase_nodup pkg h) sns) (fun d hd hne => by
      rw [mergeSpace_get hl5, hfree d hd hne]
      exact deployBase_none pkg h hd hne)
    have m4 : ∀ d v, dget? sns d = some v → dget? (mergeSpace (dset ns "_subcommand".toList (.one (.text "deploy".toList)))
        (mergeSpace (deployBase pkg h) sns)) d = some v := by
      intro d v hv
      apply m3
      rw [mergeSpace_get hl5, hv]
    refine ⟨_, hcp, means_merged hl2 m4, m1, ?_, ?_, m4 _ _ hl3, m2⟩
    · apply m3
      rw [mergeSpace_get hl5, hl4 "PACKAGE".toList (by decide) (freeB_sound t2 List.mem_cons_self)]
      exact deployBase_pkg pkg h
    · apply m3
      rw [mergeSpace_get hl5, hl4 "HYPERVISOR".toList (by decide) (freeB_sound t2 (List.mem_cons_of_mem _ List.mem_cons_self))]
      exact deployBase_hyp pkg h
  · intro hno
    by_cases hnc : NoConflict gus
    · obtain ⟨ns, hns, hcp⟩ := g1 hnc
      rcases k2 (fun hr => hno ⟨hnc, hr⟩) with hx | ⟨ns', x, ex, hx⟩
      · rw [hcp, hcmd, hx]
      · rw [hcp, hcmd, hx]
    · exact g2 hnc

/-- **C120.** `help` takes at most one word. -/
theorem C120_help_partial {g ws : List Str} {gus : List ArgUse} (hg : CmdLine mainParser g gus []) (hws : ∀ w ∈ ws, Word w)
    (hp : ∀ u ∈ gus, ¬ OnlyPrints u.opt) :
    (NoConflict gus ∧ ws.length ≤ 1 → ∃ ns, cotParse (g ++ "help".toList :: ws) = .ok ns ∧ Means mainParser gus [] ns ∧
      (∀ w, ws = [w] → dget? ns "SUBCOMMAND".toList = some (.one (.text w))) ∧
      (ws = [] → dget? ns "SUBCOMMAND".toList = some .absent) ∧
      dget? ns "instance".toList = some (.one (.text "help".toList)) ∧ dget? ns "_subcommand".toList = some (.one (.text "help".toList))) ∧
    (¬ (NoConflict gus ∧ ws.length ≤ 1) → cotParse (g ++ "help".toList :: ws) = .error .usage) := by
  set c : SubCommand := ⟨"help".toList, [], helpParser⟩ with hcd
  have hm : c ∈ cotCommands := by decide +kernel
  have hc : ClearFor mainParser ws := by
    rintro a s b rfl - ⟨-, p, hst, ⟨t, ht⟩, -⟩
    have hs := hws s (by simp)
    rcases hst.2 with rfl | ⟨v, rfl⟩ <;> rcases hs with hs | hs <;> simp [← ht] at hs
  obtain ⟨g1, g2⟩ := cotParse_top hg hp hm (name := "help".toList) (.inl rfl) hc
  obtain ⟨st, h1, h2, h3⟩ := help_parse hws
  have hcmd : parseCommand c ws = .ok (setInstance (some "help".toList) st.ns, ws.drop 1) := by
    unfold parseCommand
    rw [if_neg (by decide +kernel)]
    unfold parseLeaf
    rw [h1]
    dsimp only
    rw [h2]
    rfl
  constructor
  · rintro ⟨hnc, hlen⟩
    obtain ⟨ns, hns, hcp⟩ := g1 hnc
    rw [hcmd, List.drop_eq_nil_of_le hlen] at hcp
    have hnd : (dkeys (setInstance (some "help".toList) st.ns)).Nodup := by
      apply nodup_dset
      rw [h3]
      exact List.nodup_singleton _
    obtain ⟨m1, m2, m3⟩ := merged_get hns (name := "help".toList) hnd (fun d hd hne => by
      rw [setInstance_get (Ne.symm hne), h3]
      have : ∀ d ∈ topNames, "SUBCOMMAND".toList ≠ d := by decide
      simp only [dget?]
      rw [if_neg (this d hd)])
    refine ⟨_, hcp, m1, ?_, ?_, ?_, m2⟩
    · rintro w rfl
      apply m3
      rw [setInstance_get (by decide), h3]
      rfl
    · rintro rfl
      apply m3
      rw [setInstance_get (by decide), h3]
      rfl
    · apply m3
      unfold setInstance
      dsimp only
      rw [dget?_dset, if_pos rfl]
  · intro hno
    by_cases hnc : NoConflict gus
    · obtain ⟨ns, hns, hcp⟩ := g1 hnc
      rw [hcp, hcmd]
      match ws, hno with
      | [], hno => exact absurd ⟨hnc, by simp⟩ hno
      | [w], hno => exact absurd ⟨hnc, by simp⟩ hno
      | w :: w' :: ws, _ => rfl
    · exact g2 hnc

/-! ### Examples -/

/-- a use of an option that is named by one of its flags -/
theorem CmdLine.flag {P : ArgParser} {s : Str} {o : ArgOpt} {vals l : List Str} {us : List ArgUse} {ws : List Str}
    (hs : NamesOpt P s o) (hv : ∀ v ∈ vals, Word v) (hn : FitsNum o.num vals) (hm : TakesMore o.num vals → ¬ StartsWithWord l)
    (h : CmdLine P l us ws) {r : List Str} (hr : r = s :: (vals ++ l)) : CmdLine P r (⟨o, vals⟩ :: us) ws :=
  hr ▸ .use hs hv hn hm h

def exHwCmd : SubCommand := ⟨"edit-hardware".toList, [], editHardwareParser⟩
def exNics : ArgOpt := { flags := ["-n".toList, "--nics".toList], dest := "nics".toList, type := .nonNegative }
def exNames : ArgOpt := listOpt ["--nic-names".toList] "nic_names".toList
def exForce : ArgOpt := flagOpt ["-f".toList, "--force".toList] "_force".toList 0

/-- `-f` -/
theorem exGlobal : CmdLine mainParser ["-f".toList] [⟨exForce, []⟩] [] :=
  .flag (s := "-f".toList) (by decide +kernel) (by simp) (by rfl) (by simp [TakesMore, exForce, flagOpt]) .done rfl

/-- `a.ovf --nic-names x y --nic-na z --nics=2 -o b.ovf` -/
theorem exLine (n : Str) : CmdLine editHardwareParser
    ["a.ovf".toList, "--nic-names".toList, "x".toList, "y".toList, "--nic-na".toList, "z".toList, "--nics".toList ++ '=' :: n, "-o".toList, "b.ovf".toList]
    [⟨exNames, ["x".toList, "y".toList]⟩, ⟨exNames, ["z".toList]⟩, ⟨exNics, [n]⟩, ⟨outputOpt, ["b.ovf".toList]⟩] ["a.ovf".toList] := by
  have hs : ∀ v l, ¬ StartsWithWord (('-' :: 'o' :: v) :: l) ∧ ¬ StartsWithWord (("--nics".toList ++ v) :: l) ∧
      ¬ StartsWithWord (("--nic-na".toList ++ v) :: l) := by
    intro v l
    simp [StartsWithWord, Word]
  refine .word (by decide) (.flag (s := "--nic-names".toList) (vals := ["x".toList, "y".toList]) (by decide +kernel) (by decide)
    (by simp [FitsNum, exNames, listOpt]) (fun _ => (hs [] _).2.2) ?_ rfl)
  refine .flag (s := "--nic-na".toList) (vals := ["z".toList]) (by decide +kernel) (by decide) (by simp [FitsNum, exNames, listOpt])
    (fun _ => (hs _ _).2.1) ?_ rfl
  refine .attached (s := "--nics".toList) (by decide +kernel) (by decide) ?_
  exact .flag (s := "-o".toList) (vals := ["b.ovf".toList]) (by decide +kernel) (by decide) (by rfl) (by simp [TakesMore, outputOpt, textOpt]) .done rfl

theorem exPlain : PlainCommand exHwCmd := by
  unfold PlainCommand
  decide +kernel

theorem exClear (n : Str) (h : n = "2".toList ∨ n = "-1".toList) : ClearFor mainParser
    ["a.ovf".toList, "--nic-names".toList, "x".toList, "y".toList, "--nic-na".toList, "z".toList, "--nics".toList ++ '=' :: n, "-o".toList,
      "b.ovf".toList] := by
  rcases h with rfl | rfl
  · exact clear_of_isOk main_top.opts.flags (by decide +kernel)
  · exact clear_of_isOk main_top.opts.flags (by decide +kernel)

theorem exPrints (n : Str) : ∀ u ∈ [(⟨exForce, []⟩ : ArgUse)] ++
    [⟨exNames, ["x".toList, "y".toList]⟩, ⟨exNames, ["z".toList]⟩, ⟨exNics, [n]⟩, ⟨outputOpt, ["b.ovf".toList]⟩], ¬ OnlyPrints u.opt := by
  have : ∀ o ∈ [exForce, exNames, exNames, exNics, outputOpt], o.act ≠ .help ∧ o.act ≠ .version := by decide +kernel
  intro u hu
  have hm : u.opt ∈ [exForce, exNames, exNames, exNics, outputOpt] := by
    have := List.mem_map_of_mem (f := ArgUse.opt) hu
    simpa using this
  have := this _ hm
  unfold OnlyPrints
  rintro (h | h)
  · exact this.1 h
  · exact this.2 h

theorem exRight : RightLine editHardwareParser
    [⟨exNames, ["x".toList, "y".toList]⟩, ⟨exNames, ["z".toList]⟩, ⟨exNics, ["2".toList]⟩, ⟨outputOpt, ["b.ovf".toList]⟩] ["a.ovf".toList] := by
  have hgood : ∀ (o : ArgOpt) (s : Str), (∃ a, argAtom o s = .ok a) → ∃ a, Accepts o s a := fun o s ⟨a, h⟩ => ⟨a, (argAtom_iff o s a).1 h⟩
  refine ⟨rfl, ?_, ?_⟩
  · intro u hu s hs
    simp only [List.mem_cons, List.not_mem_nil, or_false] at hu
    rcases hu with rfl | rfl | rfl | rfl
    · exact ⟨.text s, rfl, by rintro cs ⟨⟩⟩
    · exact ⟨.text s, rfl, by rintro cs ⟨⟩⟩
    · have : s = "2".toList := by simpa [ArgUse.texts, exNics] using hs
      subst this
      exact hgood _ _ ⟨.int 2, by decide +kernel⟩
    · exact ⟨.text s, rfl, by rintro cs ⟨⟩⟩
  · unfold NoConflict
    simp [exNames, listOpt, exNics, outputOpt, textOpt]

/-- `cot -f edit-hardware a.ovf --nic-names x y --nic-na z --nics=2 -o b.ovf`: two NICs and three names -/
example : ∃ ns, cotParse (["-f".toList] ++ "edit-hardware".toList ::
      ["a.ovf".toList, "--nic-names".toList, "x".toList, "y".toList, "--nic-na".toList, "z".toList, "--nics".toList ++ '=' :: "2".toList,
        "-o".toList, "b.ovf".toList]) = .ok ns ∧
    dget? ns "PACKAGE".toList = some (.one (.text "a.ovf".toList)) ∧
    (∃ a, dget? ns "nics".toList = some (.one a) ∧ Accepts exNics "2".toList a) ∧
    (∃ ass : List (List ArgAtom), dget? ns "nic_names".toList = some (.list (ass.map .many)) ∧ ass.length = 2) := by
  have hr := exRight
  have hc : NoConflict [(⟨exForce, []⟩ : ArgUse)] := by
    unfold NoConflict
    simp
  obtain ⟨ns, h1, h2, -, -, -⟩ := (C120_means_partial exPlain (.inl rfl) exGlobal (exLine "2".toList) (exPrints _) (exClear _ (.inl rfl))).1 ⟨hc, hr⟩
  refine ⟨ns, h1, h2.words 0 (posArg "PACKAGE".toList) "a.ovf".toList rfl rfl, ?_, ?_⟩
  · obtain ⟨v, hv, hout⟩ := h2.opts exNics (by decide +kernel) (by simp [OnlyPrints, exNics])
    have hu : usesFor exNics.dest [⟨exNames, ["x".toList, "y".toList]⟩, ⟨exNames, ["z".toList]⟩, ⟨exNics, ["2".toList]⟩,
        ⟨outputOpt, ["b.ovf".toList]⟩] = [⟨exNics, ["2".toList]⟩] := rfl
    rw [hu] at hout
    rcases hout with ⟨h, -⟩ | ⟨u, s, a, e1, e2, e3, e4⟩
    · cases h
    · simp only [List.getLast?_singleton, Option.some.injEq] at e1
      subst e1
      have : s = "2".toList := by
        have := e2.symm
        simpa [ArgUse.texts, exNics] using this
      subst this
      exact ⟨a, e4 ▸ hv, e3⟩
  · obtain ⟨v, hv, hout⟩ := h2.opts exNames (by decide +kernel) (by simp [OnlyPrints, exNames, listOpt])
    have hu : usesFor exNames.dest [⟨exNames, ["x".toList, "y".toList]⟩, ⟨exNames, ["z".toList]⟩, ⟨exNics, ["2".toList]⟩,
        ⟨outputOpt, ["b.ovf".toList]⟩] = [⟨exNames, ["x".toList, "y".toList]⟩, ⟨exNames, ["z".toList]⟩] := rfl
    rw [hu] at hout
    rcases hout with ⟨h, -⟩ | ⟨-, ass, e1, e2⟩
    · cases h
    · exact ⟨ass, e2 ▸ hv, by rw [← e1.length_eq]; rfl⟩

/-- a negative number of NICs is a usage error -/
example : cotParse (["-f".toList] ++ "edit-hardware".toList ::
      ["a.ovf".toList, "--nic-names".toList, "x".toList, "y".toList, "--nic-na".toList, "z".toList, "--nics".toList ++ '=' :: "-1".toList,
        "-o".toList, "b.ovf".toList]) = .error .usage := by
  refine (C120_means_partial exPlain (.inl rfl) exGlobal (exLine "-1".toList) (exPrints _) (exClear _ (.inr rfl))).2 ?_
  rintro ⟨-, -, hg, -⟩
  obtain ⟨a, ha⟩ := hg ⟨exNics, ["-1".toList]⟩ (by simp) "-1".toList (by simp [ArgUse.texts, exNics])
  have h1 := (argAtom_iff _ _ _).2 ha
  have h2 : argAtom exNics "-1".toList = .error .usage := by decide +kernel
  rw [h2] at h1
  cases h1

def exVerbose : ArgOpt := { flags := ["-v".toList, "--verbose".toList], dest := "_verbosity".toList, num := .zero, act := .count, group := 1 }
def exVersion : ArgOpt := { flags := ["-V".toList, "--version".toList], dest := "version".toList, num := .zero, act := .version }

/-- `-vfv` -/
theorem exFlags : CmdLine mainParser ["-vfv".toList] [⟨exVerbose, []⟩, ⟨exForce, []⟩, ⟨exVerbose, []⟩] [] :=
  .bundle (fl := [('v', exVerbose), ('f', exForce)]) (c := 'v') (vals := []) (by simp) (by decide +kernel) (by decide +kernel) (by decide +kernel)
    (by decide +kernel) (by simp) (by rfl) (by simp [TakesMore, exVerbose]) .done

/-- `cot -vfv edit-hardware a.ovf …`: verbose twice, and forced -/
example : ∃ ns, cotParse (["-vfv".toList] ++ "edit-hardware".toList ::
      ["a.ovf".toList, "--nic-names".toList, "x".toList, "y".toList, "--nic-na".toList, "z".toList, "--nics".toList ++ '=' :: "2".toList,
        "-o".toList, "b.ovf".toList]) = .ok ns ∧ dget? ns "_verbosity".toList = some (.one (.int 2)) ∧
      dget? ns "_force".toList = some (.one (.truth true)) := by
  have hp : ∀ u ∈ [(⟨exVerbose, []⟩ : ArgUse), ⟨exForce, []⟩, ⟨exVerbose, []⟩] ++ [⟨exNames, ["x".toList, "y".toList]⟩, ⟨exNames, ["z".toList]⟩,
      ⟨exNics, ["2".toList]⟩, ⟨outputOpt, ["b.ovf".toList]⟩], ¬ OnlyPrints u.opt := by
    simp [OnlyPrints, exVerbose, exForce, exNames, exNics, outputOpt, flagOpt, listOpt, textOpt]
  obtain ⟨ns, h1, -, h2, -, -⟩ := (C120_means_partial exPlain (.inl rfl) exFlags (exLine "2".toList) hp (exClear _ (.inl rfl))).1
    ⟨by simp [NoConflict, exVerbose, exForce, flagOpt], exRight⟩
  refine ⟨ns, h1, ?_, ?_⟩
  · obtain ⟨v, hv, hout⟩ := h2.opts exVerbose (by decide +kernel) (by simp [OnlyPrints, exVerbose])
    have hout : v = .one (.int 2) := hout
    rw [← hout]
    exact hv
  · obtain ⟨v, hv, hout⟩ := h2.opts exForce (by decide +kernel) (by simp [OnlyPrints, exForce, flagOpt])
    have hout : v = .one (.truth true) := hout
    rw [← hout]
    exact hv

/-- `cot -fV nonsense` prints the version; `cot -f edit-hardware --nics 2 -h --nics x` prints the help of the command, although there
is no package and `x` is no number; `cot edit-hardware --nics x -h` is refused -/
example : cotParse (["-fV".toList] ++ ["nonsense".toList]) = .error .version ∧
    cotParse (["-f".toList] ++ "edit-hardware".toList :: ["--nics".toList, "2".toList, "-h".toList, "--nics".toList, "x".toList]) = .error .help ∧
    cotParse ([] ++ "edit-hardware".toList :: ["--nics".toList, "x".toList, "-h".toList]) = .error .usage := by
  have hl : ∀ (n : Str) (l : List Str) (us : List ArgUse), n.head? ≠ some '-' → CmdLine editHardwareParser l us [] →
      CmdLine editHardwareParser ("--nics".toList :: n :: l) (⟨exNics, [n]⟩ :: us) [] := by
    intro n l us hn h
    exact .flag (s := "--nics".toList) (vals := [n]) (by decide +kernel) (by simpa using .inr hn) (by rfl) (by simp [TakesMore, exNics]) h rfl
  have hh : ∀ (l : List Str) (us : List ArgUse), CmdLine editHardwareParser l us [] →
      CmdLine editHardwareParser ("-h".toList :: l) (⟨helpOpt, []⟩ :: us) [] := by
    intro l us h
    exact .flag (s := "-h".toList) (vals := []) (by decide +kernel) (by simp) (by rfl) (by simp [TakesMore, helpOpt]) h rfl
  refine ⟨?_, ?_, ?_⟩
  · refine ((C120_prints_partial (u := ⟨exVersion, []⟩) (k := .version) rfl).1
      (.bundle (fl := [('f', exForce)]) (c := 'V') (o := exVersion) (vals := []) (by simp) (by decide +kernel) (by decide +kernel) (by decide +kernel)
        (by decide +kernel) (by simp) (by rfl) (by simp [TakesMore, exVersion]) .done) 
      (show ([⟨exForce, []⟩, ⟨exVersion, []⟩] : List ArgUse) = [⟨exForce, []⟩] ++ ⟨exVersion, []⟩ :: [] from rfl) ?_
      (clear_of_isOk main_top.opts.flags (by decide +kernel))).1 (by simp [NoConflict])
    simp [OnlyPrints, exForce, flagOpt]
  · refine ((C120_prints_partial (u := ⟨helpOpt, []⟩) (k := .help) rfl).2 exPlain (.inl rfl) exGlobal
      (hl "2".toList _ _ (by decide) (hh _ _ (hl "x".toList _ _ (by decide) .done))) 
      (show ([⟨exNics, ["2".toList]⟩, ⟨helpOpt, []⟩, ⟨exNics, ["x".toList]⟩] : List ArgUse) =
        [⟨exNics, ["2".toList]⟩] ++ ⟨helpOpt, []⟩ :: [⟨exNics, ["x".toList]⟩] from rfl) ?_
      (clear_of_isOk main_top.opts.flags (by decide +kernel))).1 (by simp [NoConflict]) ?_ (by simp [NoConflict])
    · simp [OnlyPrints, exForce, flagOpt, exNics]
    · intro u hu s hs
      rw [List.mem_singleton] at hu
      subst hu
      have : s = "2".toList := by simpa [ArgUse.texts, exNics] using hs
      subst this
      exact ⟨.int 2, (argAtom_iff _ _ _).1 (by decide +kernel)⟩
  · refine ((C120_prints_partial (u := ⟨helpOpt, []⟩) (k := .help) rfl).2 exPlain (.inl rfl) .done
      (hl "x".toList _ _ (by decide) (hh _ _ .done)) 
      (show ([⟨exNics, ["x".toList]⟩, ⟨helpOpt, []⟩] : List ArgUse) = [⟨exNics, ["x".toList]⟩] ++ ⟨helpOpt, []⟩ :: [] from rfl) ?_
      (clear_of_isOk main_top.opts.flags (by decide +kernel))).2 ?_
    · simp [OnlyPrints, exNics]
    · rintro ⟨-, hg, -⟩
      obtain ⟨a, ha⟩ := hg ⟨exNics, ["x".toList]⟩ (by simp) "x".toList (by simp [ArgUse.texts, exNics])
      have h1 := (argAtom_iff _ _ _).2 ha
      have h2 : argAtom exNics "x".toList = .error .usage := by decide +kernel
      rw [h2] at h1
      cases h1

/-- **C120 fails** for abbreviations that the command takes, but that the main parser finds ambiguous: `cot edit-product --ver 1 a.ovf`
says clearly which option is meant, has everything it needs, and is refused. -/
theorem C120_abbreviation_fails : ∃ (c : SubCommand) (l : List Str) (us : List ArgUse) (ws : List Str), PlainCommand c ∧
    CmdLine c.parser l us ws ∧ RightLine c.parser us ws ∧ (∀ u ∈ us, ¬ OnlyPrints u.opt) ∧ cotParse (c.title :: l) = .error .usage := by
  refine ⟨⟨"edit-product".toList, ["set-product".toList, "set-version".toList], editProductParser⟩, ["--ver".toList, "1".toList, "a.ovf".toList],
    [⟨textOpt ["-v".toList, "--version".toList] "version".toList, ["1".toList]⟩], ["a.ovf".toList], ?_, ?_, ?_, ?_, ?_⟩
  · unfold PlainCommand
    decide +kernel
  · exact .flag (s := "--ver".toList) (vals := ["1".toList]) (by decide +kernel) (by decide) (by rfl) (by simp [TakesMore, textOpt])
      (.word (by decide) .done) rfl
  · refine ⟨rfl, ?_, ?_⟩
    · intro u hu s hs
      simp only [List.mem_cons, List.not_mem_nil, or_false] at hu
      subst hu
      exact ⟨.text s, rfl, by rintro cs ⟨⟩⟩
    · unfold NoConflict
      simp
  · simp [OnlyPrints, textOpt]
  · refine C120_ambiguous_fails (c := ⟨"edit-product".toList, ["set-product".toList, "set-version".toList], editProductParser⟩) (by decide +kernel)
      (.inl rfl) (g := []) .done ?_
    intro hc
    refine hc [] "--ver".toList _ rfl (by simp) ⟨by decide, "--ver".toList, ⟨by decide, .inl rfl⟩, by decide, ?_, "--version".toList,
      "--verbose".toList, by decide, ?_, ?_, by decide, by decide⟩ <;>
    · unfold IsFlag
      decide +kernel

/-- **C120.** An option that takes one or more values takes everything up to the next option: a package given directly after its values
is one more value, and the command line is refused for want of a package. -/
theorem C120_swallows_fails {c : SubCommand} (hc : PlainCommand c) (hpos : c.parser.pos ≠ []) {o : ArgOpt} {s : Str} {vals : List Str} {pkg : Str}
    (hs : NamesOpt c.parser s o) (hn : o.num = .plus) (hv : ∀ v ∈ vals, Word v) (hp : Word pkg) (ho : ¬ OnlyPrints o)
    (ha : ClearFor mainParser (s :: (vals ++ [pkg]))) : cotParse (c.title :: s :: (vals ++ [pkg])) = .error .usage := by
  have hl : CmdLine c.parser (s :: (vals ++ [pkg])) [⟨o, vals ++ [pkg]⟩] [] := by
    refine .flag (vals := vals ++ [pkg]) (l := []) hs ?_ (by rw [hn]; simp [FitsNum]) (fun _ => by simp [StartsWithWord]) .done (by simp)
    intro v hm
    rcases List.mem_append.1 hm with h | h
    · exact hv v h
    · rw [List.mem_singleton.1 h]
      exact hp
  refine (C120_means_partial hc (.inl rfl) .done hl (by simpa using ho) ha).2 ?_
  rintro ⟨-, h, -⟩
  exact hpos (List.length_eq_zero_iff.1 h.symm)

/-- `cot edit-hardware --nic-names a b input.ova` -/
example : cotParse ("edit-hardware".toList :: "--nic-names".toList :: (["a".toList, "b".toList] ++ ["input.ova".toList])) = .error .usage :=
  C120_swallows_fails exPlain (by decide +kernel) (o := exNames) (by decide +kernel) rfl (by decide) (by decide) (by simp [OnlyPrints, exNames, listOpt])
    (clear_of_isOk main_top.opts.flags (by decide +kernel))

/-- `cot edit-hardware a.ovf --frobnicate --nics 2` is not accepted -/
example (ns : ArgSpace) : cotParse ([] ++ "edit-hardware".toList :: (["a.ovf".toList] ++ "--frobnicate".toList :: ["--nics".toList, "2".toList])) ≠ .ok ns := by
  refine C120_unknown exPlain.1 (by decide +kernel) (.inl rfl) .done (by simp) ⟨⟨'-', "frobnicate".toList, rfl, by decide, by decide⟩, by decide, by decide, ?_, ?_⟩
    (by decide) ns
  · intro _ p f hst hf hpre
    have hp : p = "--frobnicate".toList := stem_unique hst ⟨by decide, .inl rfl⟩
    subst hp
    obtain ⟨o, ho⟩ := isFlag_iff.1 hf
    have : ∀ fo ∈ editHardwareParser.flagTable, ¬ "--frobnicate".toList <+: fo.1 := by decide +kernel
    exact this _ ho hpre
  · intro h
    exact absurd (by decide) h

/-- `cot info -b a.ova b.ova`, and `cot info -b a.ova -v` -/
example : (∃ ns, cotParse ([] ++ "info".toList :: (["-b".toList] ++ ["a.ova".toList, "b.ova".toList] ++ [])) = .ok ns ∧
    dget? ns "PACKAGE_LIST".toList = some (.list [.one (.text "a.ova".toList), .one (.text "b.ova".toList)])) ∧
    cotParse ([] ++ "info".toList :: (["-b".toList] ++ ["a.ova".toList] ++ ["-v".toList])) = .error .usage := by
  have hb : CmdLine infoParser ["-b".toList]
      [⟨{ flags := ["-b".toList, "--brief".toList], dest := "verbosity".toList, num := .zero, act := .setConst "brief".toList, group := 1 }, []⟩] [] :=
    .flag (s := "-b".toList) (by decide +kernel) (by simp) (by rfl) (by simp [TakesMore]) .done rfl
  have hv : CmdLine infoParser ["-v".toList]
      [⟨{ flags := ["-v".toList, "--verbose".toList], dest := "verbosity".toList, num := .zero, act := .setConst "verbose".toList, group := 1 }, []⟩] [] :=
    .flag (s := "-v".toList) (by decide +kernel) (by simp) (by rfl) (by simp [TakesMore]) .done rfl
  constructor
  · obtain ⟨ns, h1, -, -, h2, -⟩ := (C120_info_partial (.inl rfl) .done hb .done (ws := ["a.ova".toList, "b.ova".toList]) (by decide) (by simp)
      (by simp [OnlyPrints]) (clear_of_isOk main_top.opts.flags (by decide +kernel))).1 ⟨by simp [NoConflict], by simp [NoConflict]⟩
    exact ⟨ns, h1, h2⟩
  · refine (C120_info_partial (.inl rfl) .done hb hv (ws := ["a.ova".toList]) (by decide) (by simp)
      (by simp [OnlyPrints]) (clear_of_isOk main_top.opts.flags (by decide +kernel))).2 ?_
    rintro ⟨-, h⟩
    simp [NoConflict] at h

/-- `cot deploy a.ova vsphere host -d store` -/
example : ∃ ns, cotParse ([] ++ "deploy".toList :: "a.ova".toList :: "vsphere".toList :: ["host".toList, "-d".toList, "store".toList]) = .ok ns ∧
    dget? ns "PACKAGE".toList = some (.one (.text "a.ova".toList)) ∧ dget? ns "LOCATOR".toList = some (.one (.text "host".toList)) := by
  have hl : CmdLine esxiParser ["host".toList, "-d".toList, "store".toList]
      [⟨textOpt ["-d".toList, "-ds".toList, "--datastore".toList] "datastore".toList, ["store".toList]⟩] ["host".toList] :=
    .word (by decide) (.flag (s := "-d".toList) (vals := ["store".toList]) (by decide +kernel) (by decide) (by rfl) (by simp [TakesMore, textOpt])
      .done rfl)
  have hr : RightLine esxiParser [⟨textOpt ["-d".toList, "-ds".toList, "--datastore".toList] "datastore".toList, ["store".toList]⟩] ["host".toList] := by
    refine ⟨rfl, ?_, by simp [NoConflict]⟩
    intro u hu s hs
    rw [List.mem_singleton.1 hu]
    exact ⟨.text s, rfl, by rintro cs ⟨⟩⟩
  obtain ⟨ns, h1, h2, -, h3, -⟩ := (C120_deploy_partial (h := "vsphere".toList) (by decide) .done (pkg := "a.ova".toList) (by decide) hl
    (by simp [OnlyPrints, textOpt]) (clear_of_isOk main_top.opts.flags (by decide +kernel))).1 ⟨by simp [NoConflict], hr⟩
  exact ⟨ns, h1, h3, h2.words 0 (posArg "LOCATOR".toList) _ rfl rfl⟩

/-- `cot -f help info` -/
example : ∃ ns, cotParse (["-f".toList] ++ "help".toList :: ["info".toList]) = .ok ns ∧
    dget? ns "SUBCOMMAND".toList = some (.one (.text "info".toList)) := by
  obtain ⟨ns, h1, -, h2, -⟩ := (C120_help_partial exGlobal (ws := ["info".toList]) (by decide) (by simp [OnlyPrints, exForce, flagOpt])).1
    ⟨by simp [NoConflict], by simp⟩
  exact ⟨ns, h1, h2 _ rfl⟩

end Cot
