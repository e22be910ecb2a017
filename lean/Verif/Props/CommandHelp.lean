import Verif.Props.ArgHelp
import Verif.Props.CommandProps
import Verif.Props.DeployCommand
import Verif.Props.InfoCommand
import Verif.Props.InstallCommand
/-
A command line with a help flag runs nothing: C123, C125, C127, C128 and C129.
-/
namespace Cot

theorem stops_either {argv : List Str} {k : ArgStop} {A : Prop} (h1 : A → cotParse argv = .error k) (h2 : ¬ A → cotParse argv = .error .usage) :
    ∃ e, cotParse argv = .error e := by
  by_cases h : A
  · exact ⟨k, h1 h⟩
  · exact ⟨.usage, h2 h⟩

/-- a help flag among the arguments of a command with one-word arguments -/
theorem plain_stops {u : ArgUse} {k : ArgStop} (hk : Prints u.opt k) {c : SubCommand} (hc : PlainCommand c) {name : Str}
    (hn : name = c.title ∨ name ∈ c.aliases) {g l : List Str} {gus us a b : List ArgUse} {ws : List Str} (hg : CmdLine mainParser g gus [])
    (hl : CmdLine c.parser l us ws) (hu : us = a ++ u :: b) (hp : ∀ x ∈ gus ++ a, ¬ OnlyPrints x.opt) (hm : ClearFor mainParser l) :
    ∃ e, cotParse (g ++ name :: l) = .error e := by
  obtain ⟨h1, h2⟩ := (C120_prints_partial hk).2 hc hn hg hl hu hp hm
  exact stops_either (fun h : NoConflict gus ∧ (∀ x ∈ a, x.Good) ∧ NoConflict a => h1 h.1 h.2.1 h.2.2) h2

/-- **C123 (help flag).** With a help flag among its arguments, edit-hardware changes nothing, whatever else is asked for. -/
theorem C123_prints_partial {ctx : EhCtx} {f : EhFiles} {s : EhSt} {u : ArgUse} {k : ArgStop} (hk : Prints u.opt k) {g l : List Str}
    {gus us a b : List ArgUse} {ws : List Str} (hg : CmdLine mainParser g gus []) (hl : CmdLine editHardwareParser l us ws)
    (hu : us = a ++ u :: b) (hp : ∀ x ∈ gus ++ a, ¬ OnlyPrints x.opt) (hm : ClearFor mainParser l) :
    ehMain ctx f (g ++ "edit-hardware".toList :: l) s = .error .systemExit := by
  obtain ⟨e, he⟩ := plain_stops hk (c := ⟨"edit-hardware".toList, [], editHardwareParser⟩) (by unfold PlainCommand; decide +kernel)
    (name := "edit-hardware".toList) (.inl rfl) hg hl hu hp hm
  unfold ehMain
  rw [he]

/-- **C125 (help flag).** The same for every command with one-word arguments: with a help flag the command does not get to run. -/
theorem C125_prints_partial {Q : Type} {f : EhFiles} {setters : List (Str × Setter Q)} {q : Q} {u : ArgUse} {k : ArgStop} (hk : Prints u.opt k)
    {c : SubCommand} (hc : PlainCommand c) {name : Str} (hn : name = c.title ∨ name ∈ c.aliases) {g l : List Str} {gus us a b : List ArgUse}
    {ws : List Str} (hg : CmdLine mainParser g gus []) (hl : CmdLine c.parser l us ws) (hu : us = a ++ u :: b)
    (hp : ∀ x ∈ gus ++ a, ¬ OnlyPrints x.opt) (hm : ClearFor mainParser l) :
    pkgCommand f setters q (g ++ name :: l) = .error .systemExit := by
  obtain ⟨e, he⟩ := plain_stops hk hc hn hg hl hu hp hm
  unfold pkgCommand
  rw [he]

/-- **C129 (help flag).** With a help flag among its arguments, install-helpers installs and reports nothing. -/
theorem C129_prints_partial {W V : Type} {sys : InstallSys W V} {fs : ManFs W} {m : ManSource} {fill : Str → Str} {w : W} {u : ArgUse}
    {k : ArgStop} (hk : Prints u.opt k) {g l : List Str} {gus us a b : List ArgUse} {ws : List Str} (hg : CmdLine mainParser g gus [])
    (hl : CmdLine installHelpersParser l us ws) (hu : us = a ++ u :: b) (hp : ∀ x ∈ gus ++ a, ¬ OnlyPrints x.opt) (hm : ClearFor mainParser l) :
    installMain sys fs m fill (g ++ "install-helpers".toList :: l) w = ⟨[], .error .systemExit, w⟩ := by
  obtain ⟨e, he⟩ := plain_stops hk (c := ⟨"install-helpers".toList, [], installHelpersParser⟩) (by unfold PlainCommand; decide +kernel)
    (name := "install-helpers".toList) (.inl rfl) hg hl hu hp hm
  unfold installMain
  rw [he]

/-- **C127 (help flag).** With a help flag after the hypervisor, deploy does nothing. -/
theorem C127_prints_partial {W : Type} {f : EhFiles} {shlex : Str → Except Err (List Str)} {d : DeployWorld W} {vm : DeployVm} {s : DeploySt W}
    {u : ArgUse} {k : ArgStop} (hk : Prints u.opt k) {h : Str}
    (hh : h ∈ ["esxi".toList, "vcenter".toList, "vmware".toList, "vsphere".toList]) {g l : List Str} {gus us x y : List ArgUse} {ws : List Str}
    {pkg : Str} (hg : CmdLine mainParser g gus []) (hw : Word pkg) (hl : CmdLine esxiParser l us ws) (hu : us = x ++ u :: y)
    (hp : ∀ v ∈ gus ++ x, ¬ OnlyPrints v.opt) (hc : ClearFor mainParser (pkg :: h :: l)) :
    deployMain f shlex d vm (g ++ "deploy".toList :: pkg :: h :: l) s = (.error .systemExit, s) := by
  obtain ⟨h1, h2⟩ := C120_deploy_prints_partial hk hh hg hw hl hu hp hc
  obtain ⟨e, he⟩ := stops_either (fun h : NoConflict gus ∧ (∀ v ∈ x, v.Good) ∧ NoConflict x => h1 h.1 h.2.1 h.2.2) h2
  unfold deployMain pkgCommand
  rw [he]

/-- **C128 (help flag).** With a help flag after the packages, info reports on none of them. -/
theorem C128_prints_partial {exist : Str → Bool} {load : Str → Except Err InfoVM} {w : InfoWorld} {u : ArgUse} {k : ArgStop}
    (hk : Prints u.opt k) {name : Str} (hn : name = "info".toList ∨ name = "describe".toList) {g a b l ws : List Str}
    {gus ua ub x y : List ArgUse} (hg : CmdLine mainParser g gus []) (ha : CmdLine infoParser a ua []) (hb : CmdLine infoParser b ub [])
    (hws : ∀ w ∈ ws, Word w) (hne : ws ≠ []) (hub : ub = x ++ u :: y) (hp : ∀ v ∈ gus ++ (ua ++ x), ¬ OnlyPrints v.opt)
    (hm : ClearFor mainParser (a ++ ws ++ (b ++ l))) (hl : ClearFor infoParser l) :
    infoMain exist load w (g ++ name :: (a ++ ws ++ (b ++ l))) = ([], some .systemExit) := by
  obtain ⟨h1, h2⟩ := C120_after_prints_partial hk hn hg ha hb hws hne hub hp hm hl
  obtain ⟨e, he⟩ := stops_either (fun h : NoConflict gus ∧ NoConflict (ua ++ x) => h1 h.1 h.2) h2
  unfold infoMain
  rw [he]

/-! ### Examples -/

/-- `cot edit-product -h a.ovf b.ovf c.ovf` -/
example {f : EhFiles} {q : ProductReq} : pkgCommand f productSetters q ([] ++ "edit-product".toList ::
    ("-h".toList :: ([] ++ ["a.ovf".toList, "b.ovf".toList, "c.ovf".toList]))) = .error .systemExit :=
  C125_prints_partial (u := ⟨helpOpt, []⟩) (k := .help) rfl (c := ⟨"edit-product".toList, ["set-product".toList, "set-version".toList], editProductParser⟩)
    (by unfold PlainCommand; decide +kernel) (.inl rfl) .done
    (.use (s := "-h".toList) (o := helpOpt) (vals := []) (by decide +kernel) (by simp) (by rfl) (by simp [TakesMore, helpOpt])
      (.word (by decide) (.word (by decide) (.word (by decide) .done)))) (a := []) rfl (by simp)
    (clear_of_isOk main_top.opts.flags (by decide +kernel))

theorem exHelpFlag {P : ArgParser} (h : NamesOpt P "--help".toList helpOpt) : CmdLine P ["--help".toList] [⟨helpOpt, []⟩] [] :=
  .flag (s := "--help".toList) (vals := []) h (by simp) (by rfl) (by simp [TakesMore, helpOpt]) .done rfl

/-- `cot edit-hardware --nics 2 --help`, `cot install-helpers --help`, `cot deploy a.ovf esxi --help`, `cot info a.ovf --help -b -v` -/
example {ctx : EhCtx} {f : EhFiles} {s : EhSt} {W V : Type} {sys : InstallSys W V} {fs : ManFs W} {m : ManSource} {fill : Str → Str} {w : W}
    {shlex : Str → Except Err (List Str)} {d : DeployWorld W} {vm : DeployVm} {t : DeploySt W} {exist : Str → Bool}
    {load : Str → Except Err InfoVM} {iw : InfoWorld} :
    ehMain ctx f ([] ++ "edit-hardware".toList :: ("--nics".toList :: (["2".toList] ++ ["--help".toList]))) s = .error .systemExit ∧
    installMain sys fs m fill ([] ++ "install-helpers".toList :: ["--help".toList]) w = ⟨[], .error .systemExit, w⟩ ∧
    deployMain f shlex d vm ([] ++ "deploy".toList :: "a.ovf".toList :: "esxi".toList :: ["--help".toList]) t = (.error .systemExit, t) ∧
    infoMain exist load iw ([] ++ "info".toList :: ([] ++ ["a.ovf".toList] ++ (["--help".toList] ++ ["-b".toList, "-v".toList]))) =
      ([], some .systemExit) := by
  refine ⟨?_, ?_, ?_, ?_⟩
  · exact C123_prints_partial (u := ⟨helpOpt, []⟩) (k := .help) rfl .done
      (.use (s := "--nics".toList) (o := exNics) (vals := ["2".toList]) (by decide +kernel) (by decide) (by rfl) (by simp [TakesMore, exNics])
        (exHelpFlag (by decide +kernel))) (a := [⟨exNics, ["2".toList]⟩]) rfl (by simp [OnlyPrints, exNics])
      (clear_of_isOk main_top.opts.flags (by decide +kernel))
  · exact C129_prints_partial (u := ⟨helpOpt, []⟩) (k := .help) rfl .done (exHelpFlag (by decide +kernel)) (a := []) rfl (by simp)
      (clear_of_isOk main_top.opts.flags (by decide +kernel))
  · exact C127_prints_partial (u := ⟨helpOpt, []⟩) (k := .help) rfl (h := "esxi".toList) (by simp) .done (by decide)
      (exHelpFlag (by decide +kernel)) (x := []) rfl (by simp) (clear_of_isOk main_top.opts.flags (by decide +kernel))
  · exact C128_prints_partial (u := ⟨helpOpt, []⟩) (k := .help) rfl (.inl rfl) .done .done (exHelpFlag (by decide +kernel)) (by decide) (by simp)
      (x := []) rfl (by simp) (clear_of_isOk main_top.opts.flags (by decide +kernel))
      (clear_of_isOk (optsOkB_sound (P := infoParser) (by decide +kernel)).flags (by decide +kernel))

end Cot
