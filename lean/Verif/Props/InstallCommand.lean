import Verif.Model.InstallCommand
import Verif.Spec.Commands
import Verif.Props.InstallHelpers
import Verif.Props.CommandProps
/-
C129: `cot install-helpers` verifies or installs as its command line asks.
-/
namespace Cot

def installSub : SubCommand := ⟨"install-helpers".toList, [], installHelpersParser⟩

theorem install_plain : PlainCommand installSub := by
  unfold PlainCommand
  decide +kernel

theorem install_page : ∀ m ∈ commandPages, m.names = installSub.title :: installSub.aliases → m = installHelpersPage := by decide +kernel

/-- **C129.** `cot … install-helpers [options]`, for every command line, machine and installer: unless it is a usage error, which leaves the
machine as it is, the command does what C98 says, verifying only exactly if `--verify-only` is given, and ignoring errors exactly if
`--ignore-errors` (or `-i`) is given. -/
theorem C129_install_partial {sys : InstallSys W V} {fs : ManFs W} {m : ManSource} {fill : Str → Str} {g l : List Str} {gus us : List ArgUse}
    {ws : List Str} (hg : CmdLine mainParser g gus []) (hl : CmdLine installHelpersParser l us ws) (hp : ∀ u ∈ gus ++ us, ¬ OnlyPrints u.opt)
    (ha : ClearFor mainParser l) (w : W) :
    (NoConflict gus ∧ RightLine installHelpersParser us ws → installMain sys fs m fill (g ++ "install-helpers".toList :: l) w =
      installHelpersRun sys fs m fill (decide (withFlag "--verify-only" us ≠ [])) (decide (withFlag "--ignore-errors" us ≠ [])) w) ∧
    (¬ (NoConflict gus ∧ RightLine installHelpersParser us ws) →
      installMain sys fs m fill (g ++ "install-helpers".toList :: l) w = ⟨[], .error .systemExit, w⟩) := by
  have hP := optsOkB_sound (cot_tables installSub install_plain.1).1
  have hus : ∀ u ∈ us, u.opt ∈ installHelpersParser.opts := fun u hu => (uses_ok (fun o ho => (hP.opts o ho).norest) hl u hu).1
  constructor
  · rintro ⟨hnc, hr⟩
    obtain ⟨mp, hm, hn, ns, d, h1, h2, h3, -⟩ := C121_reaches_partial install_plain (.inl rfl) hg hl hp ha hnc hr
    obtain rfl := install_page mp hm hn
    obtain ⟨v1, r1, a1⟩ := h3 ⟨["--verify-only".toList], .flag, "verify_only".toList⟩ (by decide +kernel) (by decide)
    obtain ⟨v2, r2, a2⟩ := h3 ⟨["-i".toList, "--ignore-errors".toList], .flag, "ignore_errors".toList⟩ (by decide +kernel) (by decide)
    have e1 : v1 = .one (.truth (decide (withFlag "--verify-only" us ≠ []))) := by
      have : v1 = .one (.truth (decide (givenWith ⟨["--verify-only".toList], .flag, "verify_only".toList⟩ us ≠ []))) := r1
      rw [this, withFlag_of hus (fl := "--verify-only") (by decide +kernel)]
    have e2 : v2 = .one (.truth (decide (withFlag "--ignore-errors" us ≠ []))) := by
      have : v2 = .one (.truth (decide (givenWith ⟨["-i".toList, "--ignore-errors".toList], .flag, "ignore_errors".toList⟩ us ≠ []))) := r2
      rw [this, withFlag_of hus (fl := "--ignore-errors") (by decide +kernel)]
    subst e1 e2
    have all : ∀ a v, (a, v) ∈ Assignments d → ∀ s, ∃ s', installSetattr s a v = .ok s' := by
      intro a v hv s
      unfold installSetattr
      split
      · rename_i h
        subst h
        obtain ⟨rfl, -⟩ := (a1 v).1 hv
        exact ⟨_, rfl⟩
      · split
        · rename_i h
          subst h
          obtain ⟨rfl, -⟩ := (a2 v).1 hv
          exact ⟨_, rfl⟩
        · exact ⟨_, rfl⟩
    have h1' : cotParse (g ++ "install-helpers".toList :: l) = .ok ns := h1
    unfold installMain
    rw [h1']
    dsimp only
    rw [h2]
    dsimp only
    cases hs : setAttributes installSetattr d {} with
    | mk r st =>
      obtain ⟨done, rest, e1, e2, e3⟩ := C103_set hs
      rcases e3 with ⟨rfl, rfl⟩ | ⟨e, a, v, rest', rfl, e4, e5⟩
      · rw [List.append_nil] at e1
        subst e1
        dsimp only
        have k1 := assigned_any (F := fun s : InstallCmd => s.verifyOnly) (a := "verify_only".toList) (R := fun v x => v = .one (.truth x))
          (by
            intro s s' b v hb hs
            unfold installSetattr at hs
            rw [if_neg hb] at hs
            split at hs
            · obtain ⟨x, -, rfl⟩ := storeTruth_ok hs
              rfl
            · cases hs
              rfl)
          (by
            intro s s' v hs
            unfold installSetattr at hs
            rw [if_pos rfl] at hs
            obtain ⟨x, e, rfl⟩ := storeTruth_ok hs
            exact e) e2 a1
        have k2 := assigned_any (F := fun s : InstallCmd => s.ignoreErrors) (a := "ignore_errors".toList) (R := fun v x => v = .one (.truth x))
          (by
            intro s s' b v hb hs
            unfold installSetattr at hs
            rw [if_neg hb] at hs
            split at hs
            · obtain ⟨x, -, rfl⟩ := storeTruth_ok hs
              rfl
            · cases hs
              rfl)
          (by
            intro s s' v hs
            unfold installSetattr at hs
            rw [if_neg (by decide), if_pos rfl] at hs
            obtain ⟨x, e, rfl⟩ := storeTruth_ok hs
            exact e) e2 a2
        rcases k1 with ⟨k1, -⟩ | ⟨-, k1⟩
        · cases k1
        rcases k2 with ⟨k2, -⟩ | ⟨-, k2⟩
        · cases k2
        injection k1 with k1
        injection k1 with k1
        injection k2 with k2
        injection k2 with k2
        rw [k1, k2]
      · exact absurd e5 (sets_all all _ done rest st e a v rest' e1 e2 e4)
  · intro hno
    have : cotParse (g ++ "install-helpers".toList :: l) = .error .usage := (C120_means_partial install_plain (.inl rfl) hg hl hp ha).2 hno
    unfold installMain
    rw [this]

/-- **C129 (verification).** A command line with `--verify-only` never changes the machine. -/
theorem C129_verify_partial {sys : InstallSys W V} {fs : ManFs W} {m : ManSource} {fill : Str → Str} {g l : List Str} {gus us : List ArgUse}
    {ws : List Str} (hg : CmdLine mainParser g gus []) (hl : CmdLine installHelpersParser l us ws) (hp : ∀ u ∈ gus ++ us, ¬ OnlyPrints u.opt)
    (ha : ClearFor mainParser l) (hv : withFlag "--verify-only" us ≠ []) (w : W) :
    (installMain sys fs m fill (g ++ "install-helpers".toList :: l) w).w = w := by
  obtain ⟨k1, k2⟩ := C129_install_partial (sys := sys) (fs := fs) (m := m) (fill := fill) hg hl hp ha w
  by_cases hok : NoConflict gus ∧ RightLine installHelpersParser us ws
  · rw [k1 hok, decide_eq_true hv]
    exact C98_verify _ _ _ _ _ _
  · rw [k2 hok]

/-- **C129 (success).** If a command line without any of the two options succeeds, and installing does not remove anything, then the four
programs are there afterwards, and one of those for ISO images. -/
theorem C129_success_partial {sys : InstallSys W V} {fs : ManFs W} (hk : NothingLost sys fs) {m : ManSource} {fill : Str → Str} {g l : List Str}
    {gus us : List ArgUse} {ws : List Str} (hg : CmdLine mainParser g gus []) (hl : CmdLine installHelpersParser l us ws)
    (hp : ∀ u ∈ gus ++ us, ¬ OnlyPrints u.opt) (ha : ClearFor mainParser l) (hv : withFlag "--verify-only" us = [])
    (hi : withFlag "--ignore-errors" us = []) {w : W} (h : (installMain sys fs m fill (g ++ "install-helpers".toList :: l) w).result = .ok ()) :
    (∀ n ∈ ["fatdisk".toList, "ovftool".toList, "qemu-img".toList, "vmdktool".toList],
      sys.found (installMain sys fs m fill (g ++ "install-helpers".toList :: l) w).w n = true) ∧
    (∃ n ∈ ["mkisofs".toList, "genisoimage".toList, "xorriso".toList],
      sys.found (installMain sys fs m fill (g ++ "install-helpers".toList :: l) w).w n = true) := by
  obtain ⟨k1, k2⟩ := C129_install_partial (sys := sys) (fs := fs) (m := m) (fill := fill) hg hl hp ha w
  by_cases hok : NoConflict gus ∧ RightLine installHelpersParser us ws
  · rw [k1 hok, hv, hi] at h ⊢
    exact C98_success hk h
  · rw [k2 hok] at h
    cases h

/-! ### Examples -/

def exVerifyOpt : ArgOpt := flagOpt ["--verify-only".toList] "verify_only".toList 1
def exIgnoreOpt : ArgOpt := flagOpt ["-i".toList, "--ignore-errors".toList] "ignore_errors".toList 1

/-- `cot install-helpers --verify --verify-only` -/
theorem exVerifyLine : CmdLine installHelpersParser ["--verify".toList, "--verify-only".toList] [⟨exVerifyOpt, []⟩, ⟨exVerifyOpt, []⟩] [] :=
  .flag (s := "--verify".toList) (vals := []) (by decide +kernel) (by simp) (by rfl) (by simp [TakesMore, exVerifyOpt, flagOpt])
    (.flag (s := "--verify-only".toList) (vals := []) (by decide +kernel) (by simp) (by rfl) (by simp [TakesMore, exVerifyOpt, flagOpt]) .done rfl) rfl

example (sys : InstallSys W V) (fs : ManFs W) (m : ManSource) (fill : Str → Str) (w : W) :
    (installMain sys fs m fill ([] ++ "install-helpers".toList :: ["--verify".toList, "--verify-only".toList]) w).w = w :=
  C129_verify_partial .done exVerifyLine (by simp [OnlyPrints, exVerifyOpt, flagOpt]) (clear_of_isOk main_top.opts.flags (by decide +kernel))
    (by decide +kernel) w

/-- the empty line installs: every program can be installed -/
example : ((installMain (exBoxSys ["fatdisk".toList, "qemu-img".toList, "vmdktool".toList, "ovftool".toList, "xorriso".toList]
      .notImplementedError) exBoxFs exBoxPages id ([] ++ "install-helpers".toList :: []) ⟨["fatdisk".toList], exManWorld⟩).result = .ok ()) ∧
    (exBoxSys ["fatdisk".toList, "qemu-img".toList, "vmdktool".toList, "ovftool".toList, "xorriso".toList] .notImplementedError).found
      (installMain (exBoxSys ["fatdisk".toList, "qemu-img".toList, "vmdktool".toList, "ovftool".toList, "xorriso".toList]
      .notImplementedError) exBoxFs exBoxPages id ([] ++ "install-helpers".toList :: []) ⟨["fatdisk".toList], exManWorld⟩).w "ovftool".toList = true := by
  have h : (installMain (exBoxSys ["fatdisk".toList, "qemu-img".toList, "vmdktool".toList, "ovftool".toList, "xorriso".toList]
      .notImplementedError) exBoxFs exBoxPages id ([] ++ "install-helpers".toList :: []) ⟨["fatdisk".toList], exManWorld⟩).result = .ok () := by rfl
  exact ⟨h, (C129_success_partial (exNothingLost _ _) .done .done (by simp) (clear_of_isOk main_top.opts.flags (by decide +kernel)) rfl rfl h).1 _
    (by decide)⟩

/-- both options together are refused -/
example (sys : InstallSys W V) (fs : ManFs W) (m : ManSource) (fill : Str → Str) (w : W) :
    installMain sys fs m fill ([] ++ "install-helpers".toList :: ["-i".toList, "--verify-only".toList]) w = ⟨[], .error .systemExit, w⟩ := by
  refine (C129_install_partial .done (us := [⟨exIgnoreOpt, []⟩, ⟨exVerifyOpt, []⟩]) (ws := [])
    (.flag (s := "-i".toList) (vals := []) (by decide +kernel) (by simp) (by rfl) (by simp [TakesMore, exIgnoreOpt, flagOpt])
      (.flag (s := "--verify-only".toList) (vals := []) (by decide +kernel) (by simp) (by rfl) (by simp [TakesMore, exVerifyOpt, flagOpt]) .done rfl) rfl)
    (by simp [OnlyPrints, exVerifyOpt, exIgnoreOpt, flagOpt]) (clear_of_isOk main_top.opts.flags (by decide +kernel)) w).2 ?_
  rintro ⟨-, -, -, h⟩
  simp [NoConflict, exVerifyOpt, exIgnoreOpt, flagOpt] at h

end Cot
