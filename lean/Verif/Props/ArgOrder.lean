import Verif.Lemmas.ArgOrder
import Verif.Props.Argparse
/-
C122: how and where the options are written on the command line does not matter.
-/
namespace Cot

/-- two parsers of a command that agree, or both leave arguments over, make the same of the command line -/
theorem cotParse_same {c : SubCommand} (hc : c ∈ cotCommands) {name : Str} (hn : name = c.title ∨ name ∈ c.aliases) {g k l m : List Str}
    {gus kus : List ArgUse} (hg : CmdLine mainParser g gus []) (hk : CmdLine mainParser k kus []) (hp : ∀ u ∈ gus, ¬ OnlyPrints u.opt)
    (hs : ∀ d, usesFor d gus = usesFor d kus) (hl : ClearFor mainParser l) (hm : ClearFor mainParser m)
    (he : parseCommand c l = parseCommand c m ∨
      ((∃ ns x ex, parseCommand c l = .ok (ns, x :: ex)) ∧ ∃ ns x ex, parseCommand c m = .ok (ns, x :: ex))) :
    cotParse (g ++ name :: l) = cotParse (k ++ name :: m) := by
  obtain ⟨-, -, h3, -⟩ := cot_tables c hc
  obtain ⟨hsub, hw⟩ := h3 name (by simpa using hn)
  unfold cotParse parseWith
  rcases argParse_top_same main_top hg hk hp hs (.inr hw) hl hm with ⟨h1, h2⟩ | ⟨st, st', h1, h2, h3, h4, h5, h6, h7⟩
  · rw [h1, h2]
  · rw [h1, h2]
    dsimp only
    rw [h6, h7]
    dsimp only
    rw [hsub]
    dsimp only
    rcases he with he | ⟨⟨ns, x, ex, he⟩, ns', y, fx, hf⟩
    · rw [he]
      cases parseCommand c m with
      | error e => rfl
      | ok z =>
        dsimp only
        rw [h3, h4, h5]
    · rw [he, hf]
      simp [needAll, h4, h5]

/-- **C122.** Two command lines of a command that have the same words in the same order, and for everything that can be set the same uses
of its options in the same order, mean the same: both are refused, or both leave the same namespace behind, whatever the order of
the options among each other and between the words, whichever flags and abbreviations name them, and whether values are attached
and flags are bundled. -/
theorem C122_order_partial {c : SubCommand} (hc : PlainCommand c) {name : Str} (hn : name = c.title ∨ name ∈ c.aliases) {g k l m : List Str}
    {gus kus us vs : List ArgUse} {ws : List Str} (hg : CmdLine mainParser g gus []) (hk : CmdLine mainParser k kus [])
    (hl : CmdLine c.parser l us ws) (hm : CmdLine c.parser m vs ws) (hp : ∀ u ∈ gus ++ us, ¬ OnlyPrints u.opt)
    (hgk : ∀ d, usesFor d gus = usesFor d kus) (huv : ∀ d, usesFor d us = usesFor d vs) (hcl : ClearFor mainParser l)
    (hcm : ClearFor mainParser m) : cotParse (g ++ name :: l) = cotParse (k ++ name :: m) := by
  obtain ⟨hmem, hd, hh, hi⟩ := hc
  obtain ⟨t1, -, -, t4⟩ := cot_tables c hmem
  refine cotParse_same hmem hn hg hk (fun u hu => hp u (List.mem_append_left _ hu)) hgk hcl hcm ?_
  unfold parseCommand
  rw [if_neg hd, if_neg hd]
  exact parseLeaf_same (optsOkB_sound t1) (onesB_sound (t4 hd hh hi)) c.title hl hm (fun u hu => hp u (List.mem_append_right _ hu)) huv

/-- **C122.** The same for `deploy`, after the package and the hypervisor. -/
theorem C122_deploy_partial {h : Str} (hh : h ∈ ["esxi".toList, "vcenter".toList, "vmware".toList, "vsphere".toList]) {pkg : Str} (hw : Word pkg)
    {g k l m : List Str} {gus kus us vs : List ArgUse} {ws : List Str} (hg : CmdLine mainParser g gus []) (hk : CmdLine mainParser k kus [])
    (hl : CmdLine esxiParser l us ws) (hm : CmdLine esxiParser m vs ws) (hp : ∀ u ∈ gus ++ us, ¬ OnlyPrints u.opt)
    (hgk : ∀ d, usesFor d gus = usesFor d kus) (huv : ∀ d, usesFor d us = usesFor d vs) (hcl : ClearFor mainParser (pkg :: h :: l))
    (hcm : ClearFor mainParser (pkg :: h :: m)) :
    cotParse (g ++ "deploy".toList :: pkg :: h :: l) = cotParse (k ++ "deploy".toList :: pkg :: h :: m) := by
  obtain ⟨t1, -, t3, -⟩ := esxi_tables
  refine cotParse_same (c := ⟨"deploy".toList, [], deployParser⟩) (by decide +kernel) (.inl rfl) hg hk
    (fun u hu => hp u (List.mem_append_left _ hu)) hgk hcl hcm ?_
  rw [deploy_cmd hh hw l, deploy_cmd hh hw m]
  rcases parseLeaf_same (optsOkB_sound t1) (onesB_sound t3) "deploy-esxi".toList hl hm (fun u hu => hp u (List.mem_append_right _ hu)) huv with
    he | ⟨⟨ns, x, ex, he⟩, ns', y, fx, hf⟩
  · rw [he]
    exact .inl rfl
  · rw [he, hf]
    exact .inr ⟨⟨_, x, ex, rfl⟩, _, y, fx, rfl⟩

/-! ### Examples -/

/-- `--out=b.ovf a.ovf --nic-names x y --nics 2 --nic-names z` -/
theorem exOther : CmdLine editHardwareParser
    ["--out".toList ++ '=' :: "b.ovf".toList, "a.ovf".toList, "--nic-names".toList, "x".toList, "y".toList, "--nics".toList, "2".toList,
      "--nic-names".toList, "z".toList]
    [⟨outputOpt, ["b.ovf".toList]⟩, ⟨exNames, ["x".toList, "y".toList]⟩, ⟨exNics, ["2".toList]⟩, ⟨exNames, ["z".toList]⟩] ["a.ovf".toList] := by
  refine .attached (s := "--out".toList) (by decide +kernel) (by decide) (.word (by decide) ?_)
  refine .flag (s := "--nic-names".toList) (vals := ["x".toList, "y".toList]) (by decide +kernel) (by decide)
    (by simp [FitsNum, exNames, listOpt]) (fun _ => by simp [StartsWithWord, Word]) ?_ rfl
  refine .flag (s := "--nics".toList) (vals := ["2".toList]) (by decide +kernel) (by decide) (by rfl) (by simp [TakesMore, exNics]) ?_ rfl
  exact .flag (s := "--nic-names".toList) (vals := ["z".toList]) (by decide +kernel) (by decide) (by simp [FitsNum, exNames, listOpt])
    (fun _ => by simp [StartsWithWord]) .done rfl

/-- `-v --force --verb` -/
theorem exApart : CmdLine mainParser ["-v".toList, "--force".toList, "--verb".toList] [⟨exVerbose, []⟩, ⟨exForce, []⟩, ⟨exVerbose, []⟩] [] :=
  .flag (s := "-v".toList) (vals := []) (by decide +kernel) (by simp) (by rfl) (by simp [TakesMore, exVerbose])
    (.flag (s := "--force".toList) (vals := []) (by decide +kernel) (by simp) (by rfl) (by simp [TakesMore, exForce, flagOpt])
      (.flag (s := "--verb".toList) (vals := []) (by decide +kernel) (by simp) (by rfl) (by simp [TakesMore, exVerbose]) .done rfl) rfl) rfl

/-- two ways to write one command: it is accepted, and means the same -/
example : cotParse (["-vfv".toList] ++ "edit-hardware".toList ::
      ["a.ovf".toList, "--nic-names".toList, "x".toList, "y".toList, "--nic-na".toList, "z".toList, "--nics".toList ++ '=' :: "2".toList,
        "-o".toList, "b.ovf".toList]) =
    cotParse (["-v".toList, "--force".toList, "--verb".toList] ++ "edit-hardware".toList ::
      ["--out".toList ++ '=' :: "b.ovf".toList, "a.ovf".toList, "--nic-names".toList, "x".toList, "y".toList, "--nics".toList, "2".toList,
        "--nic-names".toList, "z".toList]) := by
  refine C122_order_partial exPlain (.inl rfl) exFlags exApart (exLine "2".toList) exOther ?_ (fun _ => rfl) ?_ (exClear _ (.inl rfl))
    (clear_of_isOk main_top.opts.flags (by decide +kernel))
  · simp [OnlyPrints, exVerbose, exForce, exNames, exNics, outputOpt, flagOpt, listOpt, textOpt]
  · intro d
    by_cases h1 : exNics.dest = d
    · subst h1; rfl
    · by_cases h2 : exNames.dest = d
      · subst h2; rfl
      · by_cases h3 : outputOpt.dest = d
        · subst h3; rfl
        · simp [usesFor, h1, h2, h3]

end Cot
