import Verif.Lemmas.RoundTripOk
import Verif.Props.CommandFiles
/-
C125: a right command line is carried out exactly as the request that it states, with the same result or the same error.
-/
namespace Cot

variable {f : EhFiles} {isFile : Str → Bool} {Q β : Type}

/-- the uses of a parser's options, on a command line of it -/
theorem uses_known {sc : SubCommand} (hc : PlainCommand sc) {l : List Str} {us : List ArgUse} {ws : List Str}
    (hl : CmdLine sc.parser l us ws) : ∀ u ∈ us, u.opt ∈ sc.parser.opts :=
  fun u hu => (uses_ok (fun o ho => ((optsOkB_sound (cot_tables sc hc.1).1).opts o ho).norest) hl u hu).1

/-- a text that is converted -/
theorem viaText_runs {P : ArgParser} {us : List ArgUse} (hus : ∀ u ∈ us, u.opt ∈ P.opts) {m : ManPage} {flags : List Str} {b : Str} {fl : String}
    {G : Str → Except Err β} (F : Q → β → Q) (ho : ⟨flags, .value .text, b⟩ ∈ m.options)
    (hfl : ∀ x ∈ P.opts, (∃ g ∈ flags, g ∈ x.flags) ↔ fl.toList ∈ x.flags) (hG : ∀ x, lastGiven fl us = some x → ∃ y, G x = .ok y) :
    ∃ o ∈ m.options, o.takes ≠ .prints ∧ o.sets = b ∧
      ∀ v, Reaches o.takes (givenWith o us) v → Given v → ∀ q, ∃ q', storeTextVia G F q v = .ok q' := by
  refine storeTextVia_runs F ho (fun x hx => hG x ?_)
  rw [withFlag_of hus hfl] at hx
  unfold lastGiven
  rw [hx]
  rfl

/-- a list that is converted -/
theorem viaList_runs {P : ArgParser} {us : List ArgUse} (hus : ∀ u ∈ us, u.opt ∈ P.opts) {m : ManPage} {flags : List Str} {b : Str} {fl : String}
    {G : List Str → Except Err β} (F : Q → β → Q) (ho : ⟨flags, .values .text, b⟩ ∈ m.options)
    (hfl : ∀ x ∈ P.opts, (∃ g ∈ flags, g ∈ x.flags) ↔ fl.toList ∈ x.flags) (hG : ∃ y, G (allGiven fl us) = .ok y) :
    ∃ o ∈ m.options, o.takes ≠ .prints ∧ o.sets = b ∧
      ∀ v, Reaches o.takes (givenWith o us) v → Given v → ∀ q, ∃ q', storeListVia G F q v = .ok q' := by
  refine storeListVia_runs F ho ?_
  rw [withFlag_of hus hfl]
  exact hG

/-- **C125 (add-file).** A right command line for a file that exists and a package that can be opened has the result that adding this file with
the last `--file-id` has, be it a package or an error. -/
theorem C125_add_file_runs_partial {c : Ctx} {ask : Prompt → Bool} {g l : List Str} {gus us : List ArgUse} {file pkg : Str}
    (hg : CmdLine mainParser g gus []) (hl : CmdLine addFileParser l us [file, pkg]) (hp : ∀ u ∈ gus ++ us, ¬ OnlyPrints u.opt)
    (ha : ClearFor mainParser l) (hnc : NoConflict gus) (hr : RightLine addFileParser us [file, pkg]) (hf : isFile file = true)
    (hopen : f.opens pkg = .ok ()) (hagree : ∀ x, lastGiven "--output" us = some x → f.agrees x = .ok ()) (p : Pkg) :
    (addFileMain f isFile c ask (g ++ "add-file".toList :: l) p).map Prod.snd = addFileCmd c ask p file (lastGiven "--file-id" us) := by
  obtain ⟨cmd, hc⟩ := handed_runs (f := f) (setters := addFileSetters isFile) addFile_plain addFile_page (.inl rfl) hg hl hp ha hnc hr {}
    (i := 1) rfl rfl hopen (by decide +kernel) (by decide +kernel) hagree (by
      intro b g' hm
      unfold addFileSetters at hm
      simp only [List.mem_cons, List.not_mem_nil, or_false, Prod.mk.injEq] at hm
      rcases hm with ⟨rfl, rfl⟩ | ⟨rfl, rfl⟩
      · refine .inr ⟨0, "FILE".toList, file, rfl, rfl, by decide +kernel, fun q => ⟨{ q with file := some file }, ?_⟩⟩
        unfold storeTextVia setFileArg
        dsimp only
        rw [hf]
        rfl
      · exact .inl (storeText_runs (flags := ["-f".toList, "--file-id".toList]) _ (by decide +kernel)))
  obtain ⟨d, hd⟩ := handed addFile_plain addFile_page (.inl rfl) hg hl hp ha hc
  obtain ⟨file', pkg', hw, -, h2, -, h4⟩ := addFile_asks hd
  cases hw
  unfold addFileMain
  rw [show pkgCommand f (addFileSetters isFile) {} (g ++ "add-file".toList :: l) = .ok cmd from hc]
  dsimp only
  rw [h2, h4]
  dsimp only
  cases addFileCmd c ask p file (lastGiven "--file-id" us) <;> rfl

/-- **C125 (remove-file).** A right command line with `--file-path` or `--file-id`, for a package that can be opened, has the result that
removing the file with the last of these has. -/
theorem C125_remove_file_runs_partial {env : Env} {ask : Prompt → Bool} {name : Str} (hn : name = removeFileSub.title ∨ name ∈ removeFileSub.aliases)
    {g l : List Str} {gus us : List ArgUse} {pkg : Str} (hg : CmdLine mainParser g gus []) (hl : CmdLine removeFileParser l us [pkg])
    (hp : ∀ u ∈ gus ++ us, ¬ OnlyPrints u.opt) (ha : ClearFor mainParser l) (hnc : NoConflict gus) (hr : RightLine removeFileParser us [pkg])
    (hopen : f.opens pkg = .ok ()) (hagree : ∀ x, lastGiven "--output" us = some x → f.agrees x = .ok ())
    (hq : lastGiven "--file-path" us ≠ none ∨ lastGiven "--file-id" us ≠ none) (p : Pkg) :
    (removeFileMain f env ask (g ++ name :: l) p).map Prod.snd =
      removeFileCmd env ask p (lastGiven "--file-path" us) (lastGiven "--file-id" us) := by
  obtain ⟨cmd, hc⟩ := handed_runs (f := f) (setters := removeFileSetters) removeFile_plain removeFile_page hn hg hl hp ha hnc hr {}
    (i := 0) rfl rfl hopen (by decide +kernel) (by decide +kernel) hagree (by
      intro b g' hm
      unfold removeFileSetters at hm
      simp only [List.mem_cons, List.not_mem_nil, or_false, Prod.mk.injEq] at hm
      rcases hm with ⟨rfl, rfl⟩ | ⟨rfl, rfl⟩
      · exact .inl (storeText_runs (flags := ["-f".toList, "--file-path".toList]) _ (by decide +kernel))
      · exact .inl (storeText_runs (flags := ["-i".toList, "--file-id".toList]) _ (by decide +kernel)))
  obtain ⟨d, hd⟩ := handed removeFile_plain removeFile_page hn hg hl hp ha hc
  obtain ⟨k1, k2⟩ := removeFile_asks hd
  unfold removeFileMain
  rw [hc]
  dsimp only
  rw [k1, k2, if_neg (by rintro ⟨a, b⟩; exact hq.elim (fun h => h a) (fun h => h b))]
  cases removeFileCmd env ask p (lastGiven "--file-path" us) (lastGiven "--file-id" us) <;> rfl

theorem setConfigArg_runs {nm : Option Str} {s t : Str} (hs : isFile s = true) (hn : nm = some t) (ht : t ≠ []) :
    setConfigArg isFile nm (some s) = .ok (some s) := by
  unfold setConfigArg
  dsimp only
  rw [if_neg (by simp [hs]), if_neg (by rw [hn]; simp [ht])]

/-- **C125 (inject-config).** A right command line that gives some file, where all files exist and the platform has a place for the
configuration files that are given, does outside and to the package what injecting these files does. -/
theorem C125_inject_runs_partial {c : Ctx} {w : IcWorld} {pl : Plat} {plat : Str → Str} {ask : Prompt → Bool} {over : Option Str → Bool} {name : Str}
    (hn : name = injectSub.title ∨ name ∈ injectSub.aliases) {g l : List Str} {gus us : List ArgUse} {pkg : Str}
    (hg : CmdLine mainParser g gus []) (hl : CmdLine injectConfigParser l us [pkg]) (hp : ∀ u ∈ gus ++ us, ¬ OnlyPrints u.opt)
    (ha : ClearFor mainParser l) (hnc : NoConflict gus) (hr : RightLine injectConfigParser us [pkg]) (hopen : f.opens pkg = .ok ())
    (hagree : ∀ x, lastGiven "--output" us = some x → f.agrees x = .ok ()) {q : IcReq}
    (hq : q = ⟨lastGiven "--config-file" us, lastGiven "--secondary-config-file" us, allGiven "--extra-files" us⟩)
    (hex : ∀ s, q.config = some s ∨ q.secondary = some s ∨ s ∈ q.extra → isFile s = true)
    (h1 : q.config ≠ none → (wantedNames pl).1 ≠ none) (h2 : q.secondary ≠ none → (wantedNames pl).2 ≠ none)
    (hsome : (∃ s, q.config = some s ∧ s ≠ []) ∨ (∃ s, q.secondary = some s ∧ s ≠ []) ∨ q.extra ≠ []) (p : Pkg) :
    (injectMain f isFile c w pl plat ask over (g ++ name :: l) p).2 = (injectConfig c w pl plat ask over p q).2 ∧
      (injectMain f isFile c w pl plat ask over (g ++ name :: l) p).1.map Prod.snd = (injectConfig c w pl plat ask over p q).1.map Prod.snd := by
  have hus := uses_known inject_plain hl
  have hw1 : (wantedNames pl).1 ≠ none → ∃ t, configTextFile pl = some t ∧ t ≠ [] := by
    cases pl <;> intro h <;> first | exact ⟨_, rfl, by decide⟩ | exact absurd rfl h
  have hw2 : (wantedNames pl).2 ≠ none → ∃ t, secondaryTextFile pl = some t ∧ t ≠ [] := by
    cases pl <;> intro h <;> first | exact ⟨_, rfl, by decide⟩ | exact absurd rfl h
  obtain ⟨cmd, hc⟩ := handed_runs (f := f) (setters := injectSetters isFile pl) inject_plain inject_page hn hg hl hp ha hnc hr ⟨none, none, []⟩
    (i := 0) rfl rfl hopen (by decide +kernel) (by decide +kernel) hagree (by
      intro b g' hm
      unfold injectSetters at hm
      simp only [List.mem_cons, List.not_mem_nil, or_false, Prod.mk.injEq] at hm
      rcases hm with ⟨rfl, rfl⟩ | ⟨rfl, rfl⟩ | ⟨rfl, rfl⟩
      · refine .inl (viaText_runs hus (flags := ["-c".toList, "--config-file".toList]) (fl := "--config-file") _ (by decide +kernel)
          (by decide +kernel) (fun x hx => ?_))
        obtain ⟨t, k1, k2⟩ := hw1 (h1 (by rw [hq]; simp [hx]))
        exact ⟨_, setConfigArg_runs (hex x (.inl (by rw [hq]; exact hx))) k1 k2⟩
      · refine .inl (viaText_runs hus (flags := ["-s".toList, "--secondary-config-file".toList]) (fl := "--secondary-config-file") _
          (by decide +kernel) (by decide +kernel) (fun x hx => ?_))
        obtain ⟨t, k1, k2⟩ := hw2 (h2 (by rw [hq]; simp [hx]))
        exact ⟨_, setConfigArg_runs (hex x (.inr (.inl (by rw [hq]; exact hx)))) k1 k2⟩
      · refine .inl (viaList_runs hus (flags := ["-e".toList, "--extra-files".toList]) (fl := "--extra-files") _ (by decide +kernel)
          (by decide +kernel) ⟨allGiven "--extra-files" us, ?_⟩)
        unfold setExtraArg
        rw [if_pos (by
          rw [List.all_eq_true]
          intro s hs
          exact hex s (.inr (.inr (by rw [hq]; exact hs))))])
  obtain ⟨d, hd⟩ := handed inject_plain inject_page hn hg hl hp ha hc
  obtain ⟨k1, -⟩ := inject_asks hd
  rw [← hq] at k1
  have hready : q.ready = true := by
    unfold IcReq.ready
    rcases hsome with ⟨s, e1, e2⟩ | ⟨s, e1, e2⟩ | e1
    · simp [e1, given, e2]
    · simp [e1, given, e2]
    · simp [e1]
  unfold injectMain
  rw [hc]
  dsimp only
  rw [k1, hready, if_neg (by simp)]
  cases hi : injectConfig c w pl plat ask over p q with
  | mk r ops =>
    cases r with
    | error e => exact ⟨rfl, rfl⟩
    | ok r => exact ⟨rfl, rfl⟩

/-- **C125 (edit-properties).** A right command line, where the configuration file exists and every property is written as the manual says,
has the result that the request which its options state has. -/
theorem C125_properties_runs_partial {lines : Str → Option (List Str)} {v : Ver} {ask : Str → Bool} {force : Bool} {inp : List Str} {name : Str}
    (hn : name = propsCmd.title ∨ name ∈ propsCmd.aliases) {g l : List Str} {gus us : List ArgUse} {pkg : Str}
    (hg : CmdLine mainParser g gus []) (hl : CmdLine editPropertiesParser l us [pkg]) (hp : ∀ u ∈ gus ++ us, ¬ OnlyPrints u.opt)
    (ha : ClearFor mainParser l) (hnc : NoConflict gus) (hr : RightLine editPropertiesParser us [pkg]) (hopen : f.opens pkg = .ok ())
    (hagree : ∀ x, lastGiven "--output" us = some x → f.agrees x = .ok ()) (hcf : ∀ x, lastGiven "--config-file" us = some x → lines x ≠ none)
    (hps : ∀ s ∈ allGiven "--properties" us, '\n' ∉ s ∧ ∃ k val t, IsProperty s k val t) (vs : Elem) (hws : Option Elem) :
    ∃ q, PropAsks lines us q ∧
      (propsMain f lines v ask force inp (g ++ name :: l) vs hws).map (fun r => r.map Prod.snd) = editProperties v ask force inp q vs hws := by
  have hus := uses_known props_plain hl
  obtain ⟨cmd, hc⟩ := handed_runs (f := f) (setters := propSetters lines) props_plain props_page hn hg hl hp ha hnc hr {}
    (i := 0) rfl rfl hopen (by decide +kernel) (by decide +kernel) hagree (by
      intro b g' hm
      unfold propSetters at hm
      simp only [List.mem_cons, List.not_mem_nil, or_false, Prod.mk.injEq] at hm
      rcases hm with ⟨rfl, rfl⟩ | ⟨rfl, rfl⟩ | ⟨rfl, rfl⟩ | ⟨rfl, rfl⟩ | ⟨rfl, rfl⟩ | ⟨rfl, rfl⟩
      · refine .inl (viaText_runs hus (flags := ["-c".toList, "--config-file".toList]) (fl := "--config-file") _ (by decide +kernel)
          (by decide +kernel) (fun x hx => ?_))
        unfold setConfigLines
        cases hlx : lines x with
        | none => exact absurd hlx (hcf x hx)
        | some y => exact ⟨y, rfl⟩
      · refine .inl (viaList_runs hus (flags := ["-p".toList, "--properties".toList]) (fl := "--properties") _ (by decide +kernel)
          (by decide +kernel) (mapE_ok (fun s hs => ?_)))
        obtain ⟨h1, k, val, t, h2⟩ := hps s hs
        exact ⟨_, (C33_unambiguous h1 _ _ _).2 h2⟩
      · exact .inl (viaList_runs hus (flags := ["-l".toList, "--labels".toList]) (fl := "--labels") _ (by decide +kernel)
          (by decide +kernel) ⟨_, rfl⟩)
      · exact .inl (viaList_runs hus (flags := ["-d".toList, "--descriptions".toList]) (fl := "--descriptions") _ (by decide +kernel)
          (by decide +kernel) ⟨_, rfl⟩)
      · refine .inl ⟨⟨["-u".toList, "--user-configurable".toList], .maybeTruth, "user_configurable".toList⟩, by decide +kernel, by decide, rfl, ?_⟩
        rintro v (⟨-, rfl⟩ | ⟨-, rfl⟩ | ⟨s, a, -, (⟨rfl, -⟩ | ⟨rfl, -⟩), rfl⟩) hgv q
        · exact hgv.elim
        · exact ⟨_, rfl⟩
        · exact ⟨_, rfl⟩
        · exact ⟨_, rfl⟩
      · exact .inl (viaList_runs hus (flags := ["-t".toList, "--transports".toList]) (fl := "--transports") _ (by decide +kernel)
          (by decide +kernel) ⟨_, rfl⟩))
  obtain ⟨d, hd⟩ := handed props_plain props_page hn hg hl hp ha hc
  refine ⟨cmd.req, props_ask hd, ?_⟩
  unfold propsMain
  rw [hc]
  dsimp only
  cases editProperties v ask force inp cmd.req vs hws with
  | none => rfl
  | some r => cases r <;> rfl

end Cot
