import Verif.Props.CommandProps
import Verif.Props.PackageFiles
import Verif.Props.PackageRemove
import Verif.Props.InjectConfig
/-
C125: what the command line asks add-file, remove-file and inject-config for is what is done.
-/
namespace Cot

variable {f : EhFiles} {isFile : Str → Bool}

/-! ### add-file -/

def addFileSub : SubCommand := ⟨"add-file".toList, [], addFileParser⟩

theorem addFile_plain : PlainCommand addFileSub := by
  refine ⟨?_, ?_, ?_, ?_⟩ <;> decide +kernel

theorem addFile_page : ∀ m ∈ commandPages, m.names = addFileSub.title :: addFileSub.aliases → m = addFilePage := by decide +kernel

theorem addFileSetters_keep {b : Str} {g : Setter AddFileReq} (hm : (b, g) ∈ addFileSetters isFile) {q q' : AddFileReq} {v : ArgVal ArgAtom}
    (h : g q v = .ok q') : (b ≠ "file".toList → q'.file = q.file) ∧ (b ≠ "file_id".toList → q'.fileId = q.fileId) := by
  unfold addFileSetters at hm
  simp only [List.mem_cons, List.not_mem_nil, or_false, Prod.mk.injEq] at hm
  rcases hm with ⟨rfl, rfl⟩ | ⟨rfl, rfl⟩
  · obtain ⟨s, x, -, -, rfl⟩ := storeTextVia_ok h
    exact ⟨fun hne => absurd rfl hne, fun _ => rfl⟩
  · obtain ⟨s, -, rfl⟩ := storeText_ok h
    exact ⟨fun _ => rfl, fun hne => absurd rfl hne⟩

theorem addFile_asks {us : List ArgUse} {ws : List Str} {cmd : PkgCmd AddFileReq} {d : List (Str × ArgVal ArgAtom)}
    (h : Handed f (addFileSetters isFile) {} addFileParser addFilePage us ws cmd d) :
    ∃ file p, ws = [file, p] ∧ PkgPlaces f us p cmd ∧ cmd.req.file = some file ∧ isFile file = true ∧ cmd.req.fileId = lastGiven "--file-id" us := by
  have hlen : ws.length = 2 := h.words
  obtain ⟨file, p, rfl⟩ : ∃ a b, ws = [a, b] := by
    match ws, hlen with
    | [a, b], _ => exact ⟨a, b, rfl⟩
  have k1 := pkg_attr (F := fun q => q.file) (a := "file".toList) (R := fun v x => ∃ s : Str, v = .one (.text s) ∧ isFile s = true ∧ x = some s)
    (by decide) (by decide) rfl (fun b g hb hne q v q' hq => (addFileSetters_keep hb hq).1 hne) (by
      intro q v q' hq
      obtain ⟨s, x, e, hx, rfl⟩ := storeTextVia_ok hq
      unfold setFileArg at hx
      split at hx
      · cases hx
      · rename_i hf
        cases hx
        exact ⟨s, e, by simpa using hf, rfl⟩) h.sets (h.pos 0 "FILE".toList file rfl rfl)
  rcases k1 with ⟨k1, -⟩ | ⟨-, s, k2, k3, k4⟩
  · cases k1
  cases k2
  refine ⟨file, p, rfl, h.places (i := 1) rfl rfl (by decide +kernel) (by decide +kernel), k4, k3, ?_⟩
  exact h.text (flags := ["-f".toList, "--file-id".toList]) (a := "file_id".toList) "--file-id" (by decide +kernel) (by decide +kernel)
    (fun q => q.fileId) (fun q s => { q with fileId := some s }) (by decide) (by decide) rfl
    (fun b g hb hne q v q' hq => (addFileSetters_keep hb hq).2 hne) (fun _ _ => rfl) rfl

/-- **C125 (add-file).** If `cot … add-file FILE PACKAGE …` is carried out, then FILE exists, and the package has afterwards an entry with
the name and the size of FILE, under the identifier of the last `--file-id` if there is one; all other entries, the disks and the hardware are
as before. -/
theorem C125_add_file_partial {c : Ctx} {ask : Prompt → Bool} {g l : List Str} {gus us : List ArgUse} {ws : List Str}
    (hg : CmdLine mainParser g gus []) (hl : CmdLine addFileParser l us ws) (hp : ∀ u ∈ gus ++ us, ¬ OnlyPrints u.opt)
    (ha : ClearFor mainParser l) {p p' : Pkg} (wf : HwWF c.env p.hw) {cmd : PkgCmd AddFileReq}
    (h : addFileMain f isFile c ask (g ++ "add-file".toList :: l) p = .ok (cmd, p')) :
    ∃ file pkg, ws = [file, pkg] ∧ PkgPlaces f us pkg cmd ∧ isFile file = true ∧
      addFileCmd c ask p file (lastGiven "--file-id" us) = .ok p' ∧
      ∃ b e id, c.fs.file (absName c.fs file) = some b ∧ e ∈ p'.refs.children ∧ FileSays c.env.ver e id (pathBase file) b.length ∧
        (∀ s, lastGiven "--file-id" us = some s → id = s) ∧ p'.disks = p.disks ∧ p'.hw = p.hw ∧
        (p'.refs.children = p.refs.children ++ [e] ∨ ∃ i, i < p.refs.children.length ∧ p'.refs.children = p.refs.children.set i e) := by
  unfold addFileMain at h
  cases hc : pkgCommand f (addFileSetters isFile) {} (g ++ "add-file".toList :: l) with
  | error e => rw [hc] at h; cases h
  | ok cmd' =>
    rw [hc] at h
    dsimp only at h
    obtain ⟨d, hd⟩ := handed addFile_plain addFile_page (.inl rfl) hg hl hp ha hc
    obtain ⟨file, pkg, rfl, h1, h2, h3, h4⟩ := addFile_asks hd
    rw [h2, h4] at h
    dsimp only at h
    cases hr : addFileCmd c ask p file (lastGiven "--file-id" us) with
    | error e => rw [hr] at h; cases h
    | ok p2 =>
      rw [hr] at h
      cases h
      obtain ⟨b, e, id, k1, k2, k3, k4, k5, -, k6⟩ := C66_add_file wf hr
      refine ⟨file, pkg, rfl, h1, h3, hr, b, e, id, k1, ?_, k2, k3, k4, k5, ?_⟩
      · rcases k6 with ⟨k6, -⟩ | ⟨i, old, k7, k6, -⟩
        · rw [k6]; simp
        · rw [k6]
          exact List.mem_set (List.getElem?_eq_some_iff.1 k7).1 _
      · rcases k6 with ⟨k6, -⟩ | ⟨i, old, k7, k6, -⟩
        · exact .inl k6
        · exact .inr ⟨i, (List.getElem?_eq_some_iff.1 k7).1, k6⟩

/-! ### remove-file -/

def removeFileSub : SubCommand := ⟨"remove-file".toList, ["delete-file".toList], removeFileParser⟩

theorem removeFile_plain : PlainCommand removeFileSub := by
  refine ⟨?_, ?_, ?_, ?_⟩ <;> decide +kernel

theorem removeFile_page : ∀ m ∈ commandPages, m.names = removeFileSub.title :: removeFileSub.aliases → m = removeFilePage := by decide +kernel

theorem removeFileSetters_keep {b : Str} {g : Setter RemoveFileReq} (hm : (b, g) ∈ removeFileSetters) {q q' : RemoveFileReq} {v : ArgVal ArgAtom}
    (h : g q v = .ok q') : (b ≠ "file_path".toList → q'.filePath = q.filePath) ∧ (b ≠ "file_id".toList → q'.fileId = q.fileId) := by
  unfold removeFileSetters at hm
  simp only [List.mem_cons, List.not_mem_nil, or_false, Prod.mk.injEq] at hm
  rcases hm with ⟨rfl, rfl⟩ | ⟨rfl, rfl⟩
  · obtain ⟨s, -, rfl⟩ := storeText_ok h
    exact ⟨fun hne => absurd rfl hne, fun _ => rfl⟩
  · obtain ⟨s, -, rfl⟩ := storeText_ok h
    exact ⟨fun _ => rfl, fun hne => absurd rfl hne⟩

theorem removeFile_asks {us : List ArgUse} {ws : List Str} {cmd : PkgCmd RemoveFileReq} {d : List (Str × ArgVal ArgAtom)}
    (h : Handed f removeFileSetters {} removeFileParser removeFilePage us ws cmd d) :
    cmd.req.filePath = lastGiven "--file-path" us ∧ cmd.req.fileId = lastGiven "--file-id" us := by
  constructor
  · exact h.text (flags := ["-f".toList, "--file-path".toList]) (a := "file_path".toList) "--file-path" (by decide +kernel) (by decide +kernel)
      (fun q => q.filePath) (fun q s => { q with filePath := some s }) (by decide) (by decide) rfl
      (fun b g hb hne q v q' hq => (removeFileSetters_keep hb hq).1 hne) (fun _ _ => rfl) rfl
  · exact h.text (flags := ["-i".toList, "--file-id".toList]) (a := "file_id".toList) "--file-id" (by decide +kernel) (by decide +kernel)
      (fun q => q.fileId) (fun q s => { q with fileId := some s }) (by decide) (by decide) rfl
      (fun b g hb hne q v q' hq => (removeFileSetters_keep hb hq).2 hne) (fun _ _ => rfl) rfl

/-- **C125 (remove-file).** If `cot … remove-file PACKAGE …` (or `delete-file`) is carried out, then the last `--file-path` and the last
`--file-id` name one entry of the package, which is the one that is gone afterwards, together with its file; the user agreed to this. -/
theorem C125_remove_file_partial {env : Env} {ask : Prompt → Bool} {name : Str} (hn : name = removeFileSub.title ∨ name ∈ removeFileSub.aliases)
    {g l : List Str} {gus us : List ArgUse} {ws : List Str} (hg : CmdLine mainParser g gus []) (hl : CmdLine removeFileParser l us ws)
    (hp : ∀ u ∈ gus ++ us, ¬ OnlyPrints u.opt) (ha : ClearFor mainParser l) {p p' : Pkg} (wf : HwWF env p.hw) {cmd : PkgCmd RemoveFileReq}
    (h : removeFileMain f env ask (g ++ name :: l) p = .ok (cmd, p')) :
    (∃ pkg, ws = [pkg] ∧ PkgPlaces f us pkg cmd) ∧
      removeFileCmd env ask p (lastGiven "--file-path" us) (lastGiven "--file-id" us) = .ok p' ∧
      (lastGiven "--file-path" us ≠ none ∨ lastGiven "--file-id" us ≠ none) ∧
      ∃ i old id path, p.refs.children[i]? = some old ∧ old.get (fileId env.ver) = some id ∧ old.get (fileHref env.ver) = some path ∧
        (∀ s, lastGiven "--file-path" us = some s → path = s) ∧ (∀ s, lastGiven "--file-id" us = some s → id = s) ∧
        ask (.removeFile (some path) (some id)) = true ∧ p'.refs = p.refs.setChildren (p.refs.children.eraseIdx i) ∧
        p'.files = ddel p.files path := by
  unfold removeFileMain at h
  cases hc : pkgCommand f removeFileSetters {} (g ++ name :: l) with
  | error e => rw [hc] at h; cases h
  | ok cmd' =>
    rw [hc] at h
    dsimp only at h
    obtain ⟨d, hd⟩ := handed removeFile_plain removeFile_page hn hg hl hp ha hc
    obtain ⟨pkg, rfl⟩ := one_word hd rfl
    obtain ⟨k1, k2⟩ := removeFile_asks hd
    rw [k1, k2] at h
    split at h
    · cases h
    · cases hr : removeFileCmd env ask p (lastGiven "--file-path" us) (lastGiven "--file-id" us) with
      | error e => rw [hr] at h; cases h
      | ok p2 =>
        rw [hr] at h
        cases h
        obtain ⟨i, old, id, path, e1, -, e2, e3, e4, e5, e6, e7, e8, -, e9, -⟩ := C68_remove_file wf hr
        exact ⟨⟨pkg, rfl, hd.places (i := 0) rfl rfl (by decide +kernel) (by decide +kernel)⟩, rfl, e6, i, old, id, path, e1, e2, e3, e4, e5, e7, e8, e9⟩

/-! ### inject-config -/

def injectSub : SubCommand := ⟨"inject-config".toList, ["add-bootstrap".toList], injectConfigParser⟩

theorem inject_plain : PlainCommand injectSub := by
  refine ⟨?_, ?_, ?_, ?_⟩ <;> decide +kernel

theorem inject_page : ∀ m ∈ commandPages, m.names = injectSub.title :: injectSub.aliases → m = injectConfigPage := by decide +kernel

theorem injectSetters_keep {pl : Plat} {b : Str} {g : Setter IcReq} (hm : (b, g) ∈ injectSetters isFile pl) {q q' : IcReq} {v : ArgVal ArgAtom}
    (h : g q v = .ok q') : (b ≠ "config_file".toList → q'.config = q.config) ∧
      (b ≠ "secondary_config_file".toList → q'.secondary = q.secondary) ∧ (b ≠ "extra_files".toList → q'.extra = q.extra) := by
  unfold injectSetters at hm
  simp only [List.mem_cons, List.not_mem_nil, or_false, Prod.mk.injEq] at hm
  rcases hm with ⟨rfl, rfl⟩ | ⟨rfl, rfl⟩ | ⟨rfl, rfl⟩
  · obtain ⟨s, x, -, -, rfl⟩ := storeTextVia_ok h
    exact ⟨fun hne => absurd rfl hne, fun _ => rfl, fun _ => rfl⟩
  · obtain ⟨s, x, -, -, rfl⟩ := storeTextVia_ok h
    exact ⟨fun _ => rfl, fun hne => absurd rfl hne, fun _ => rfl⟩
  · obtain ⟨s, x, -, -, rfl⟩ := storeListVia_ok h
    exact ⟨fun _ => rfl, fun _ => rfl, fun hne => absurd rfl hne⟩

theorem setConfigArg_ok {nm : Option Str} {s : Str} {x : Option Str} (h : setConfigArg isFile nm (some s) = .ok x) :
    x = some s ∧ isFile s = true ∧ ∃ t, nm = some t ∧ t ≠ [] := by
  unfold setConfigArg at h
  dsimp only at h
  split at h
  · cases h
  · rename_i h1
    split at h
    · cases h
    · rename_i h2
      cases h
      refine ⟨rfl, by simpa using h1, ?_⟩
      cases nm with
      | none => exact absurd (.inl rfl) h2
      | some t => exact ⟨t, rfl, fun ht => h2 (.inr (by rw [ht]))⟩

/-- what the options of inject-config leave in the command object -/
theorem inject_asks {pl : Plat} {us : List ArgUse} {ws : List Str} {cmd : PkgCmd IcReq} {d : List (Str × ArgVal ArgAtom)}
    (h : Handed f (injectSetters isFile pl) ⟨none, none, []⟩ injectConfigParser injectConfigPage us ws cmd d) :
    cmd.req = ⟨lastGiven "--config-file" us, lastGiven "--secondary-config-file" us, allGiven "--extra-files" us⟩ ∧
      (∀ s, lastGiven "--config-file" us = some s → isFile s = true ∧ ∃ t, configTextFile pl = some t ∧ t ≠ []) ∧
      (∀ s, lastGiven "--secondary-config-file" us = some s → isFile s = true ∧ ∃ t, secondaryTextFile pl = some t ∧ t ≠ []) ∧
      ∀ s ∈ allGiven "--extra-files" us, isFile s = true := by
  obtain ⟨v, e1, e2⟩ := h.option (o := ⟨["-c".toList, "--config-file".toList], .value .text, "config_file".toList⟩) (fl := "--config-file")
    (F := fun q => q.config) (R := fun v x => ∃ (s y : Str), v = .one (.text s) ∧
      (s = y ∧ isFile s = true ∧ ∃ t, configTextFile pl = some t ∧ t ≠ []) ∧ x = some y) (by decide +kernel) (by decide) (by decide +kernel)
    (by decide) (by decide) rfl (fun b g hb hne q v q' hq => (injectSetters_keep hb hq).1 hne) (by
      intro q v q' hq
      obtain ⟨s, x, e, hx, rfl⟩ := storeTextVia_ok hq
      obtain ⟨rfl, k1, k2⟩ := setConfigArg_ok hx
      exact ⟨s, s, e, ⟨rfl, k1, k2⟩, rfl⟩)
  obtain ⟨v', e3, e4⟩ := h.option (o := ⟨["-s".toList, "--secondary-config-file".toList], .value .text, "secondary_config_file".toList⟩)
    (fl := "--secondary-config-file") (F := fun q => q.secondary) (R := fun v x => ∃ (s y : Str), v = .one (.text s) ∧
      (s = y ∧ isFile s = true ∧ ∃ t, secondaryTextFile pl = some t ∧ t ≠ []) ∧ x = some y) (by decide +kernel) (by decide) (by decide +kernel)
    (by decide) (by decide) rfl (fun b g hb hne q v q' hq => (injectSetters_keep hb hq).2.1 hne) (by
      intro q v q' hq
      obtain ⟨s, x, e, hx, rfl⟩ := storeTextVia_ok hq
      obtain ⟨rfl, k1, k2⟩ := setConfigArg_ok hx
      exact ⟨s, s, e, ⟨rfl, k1, k2⟩, rfl⟩)
  have e5 := h.list (flags := ["-e".toList, "--extra-files".toList]) (a := "extra_files".toList) "--extra-files" (by decide +kernel)
    (by decide +kernel) (fun q => q.extra) _ _ (by decide) (by decide) rfl (fun b g hb hne q v q' hq => (injectSetters_keep hb hq).2.2 hne)
    (fun _ _ => rfl) rfl
  have h1 := reached_text (R := fun s y => s = y ∧ isFile s = true ∧ ∃ t, configTextFile pl = some t ∧ t ≠ []) e1 e2
  have h2 := reached_text (R := fun s y => s = y ∧ isFile s = true ∧ ∃ t, secondaryTextFile pl = some t ∧ t ≠ []) e3 e4
  have h3 : allGiven "--extra-files" us = cmd.req.extra ∧ ∀ s ∈ allGiven "--extra-files" us, isFile s = true := by
    unfold setExtraArg at e5
    split at e5
    · rename_i hall
      exact ⟨Except.ok.inj e5, by simpa using hall⟩
    · cases e5
  have k1 : cmd.req.config = lastGiven "--config-file" us ∧
      ∀ s, lastGiven "--config-file" us = some s → isFile s = true ∧ ∃ t, configTextFile pl = some t ∧ t ≠ [] := by
    unfold lastGiven
    rcases h1 with ⟨a, b⟩ | ⟨s, y, a, -, ⟨rfl, b, c⟩, d⟩
    · rw [a]; exact ⟨b, by intro s hs; cases hs⟩
    · rw [a]; exact ⟨d, by intro s' hs; cases hs; exact ⟨b, c⟩⟩
  have k2 : cmd.req.secondary = lastGiven "--secondary-config-file" us ∧
      ∀ s, lastGiven "--secondary-config-file" us = some s → isFile s = true ∧ ∃ t, secondaryTextFile pl = some t ∧ t ≠ [] := by
    unfold lastGiven
    rcases h2 with ⟨a, b⟩ | ⟨s, y, a, -, ⟨rfl, b, c⟩, d⟩
    · rw [a]; exact ⟨b, by intro s hs; cases hs⟩
    · rw [a]; exact ⟨d, by intro s' hs; cases hs; exact ⟨b, c⟩⟩
  refine ⟨?_, k1.2, k2.2, h3.2⟩
  rw [← k1.1, ← k2.1, h3.1]

/-- **C125 (inject-config).** If `cot … inject-config PACKAGE …` (or `add-bootstrap`) is carried out, then it was carried out with the file of
the last `--config-file`, that of the last `--secondary-config-file` and all `--extra-files` in order; all of them exist, the platform has a
place for the configuration files that were given, and something was given. -/
theorem C125_inject_partial {c : Ctx} {w : IcWorld} {pl : Plat} {plat : Str → Str} {ask : Prompt → Bool} {over : Option Str → Bool} {name : Str}
    (hn : name = injectSub.title ∨ name ∈ injectSub.aliases) {g l : List Str} {gus us : List ArgUse} {ws : List Str}
    (hg : CmdLine mainParser g gus []) (hl : CmdLine injectConfigParser l us ws) (hp : ∀ u ∈ gus ++ us, ¬ OnlyPrints u.opt)
    (ha : ClearFor mainParser l) {p p' : Pkg} {cmd : PkgCmd IcReq} {ops : List IcOp}
    (h : injectMain f isFile c w pl plat ask over (g ++ name :: l) p = (.ok (cmd, p'), ops)) :
    ∃ q : IcReq, q = ⟨lastGiven "--config-file" us, lastGiven "--secondary-config-file" us, allGiven "--extra-files" us⟩ ∧
      (∃ pkg, ws = [pkg] ∧ PkgPlaces f us pkg cmd) ∧
      (∃ k, injectConfig c w pl plat ask over p q = (.ok (k, p'), ops)) ∧ Accepted pl q ∧
      (∀ s, q.config = some s ∨ q.secondary = some s ∨ s ∈ q.extra → isFile s = true) ∧
      ((∃ s, q.config = some s ∧ s ≠ []) ∨ (∃ s, q.secondary = some s ∧ s ≠ []) ∨ q.extra ≠ []) := by
  unfold injectMain at h
  cases hc : pkgCommand f (injectSetters isFile pl) ⟨none, none, []⟩ (g ++ name :: l) with
  | error e => rw [hc] at h; cases h
  | ok cmd' =>
    rw [hc] at h
    dsimp only at h
    obtain ⟨d, hd⟩ := handed inject_plain inject_page hn hg hl hp ha hc
    obtain ⟨pkg, rfl⟩ := one_word hd rfl
    obtain ⟨k1, k2, k3, k4⟩ := inject_asks hd
    split at h
    · cases h
    · rename_i hready
      cases hr : injectConfig c w pl plat ask over p cmd'.req with
      | mk r ops' =>
        rw [hr] at h
        cases r with
        | error e => cases h
        | ok r =>
          obtain ⟨k, p2⟩ := r
          cases h
          have hw1 : ∀ t, configTextFile pl = some t → t ≠ [] → (wantedNames pl).1 ≠ none := by
            cases pl <;> intro t ht hne <;> first | decide +kernel | cases ht
          have hw2 : ∀ t, secondaryTextFile pl = some t → t ≠ [] → (wantedNames pl).2 ≠ none := by
            cases pl <;> intro t ht hne <;> first | decide +kernel | cases ht
          refine ⟨_, rfl, ⟨pkg, rfl, hd.places (i := 0) rfl rfl (by decide +kernel) (by decide +kernel)⟩, ⟨k, by rw [← k1]; exact hr⟩, ?_, ?_, ?_⟩
          · constructor
            · intro hgv
              dsimp only at hgv
              cases hx : lastGiven "--config-file" us with
              | none => rw [hx] at hgv; cases hgv
              | some s =>
                obtain ⟨-, t, ht, hne⟩ := k2 s hx
                exact hw1 t ht hne
            · intro hgv
              dsimp only at hgv
              cases hx : lastGiven "--secondary-config-file" us with
              | none => rw [hx] at hgv; cases hgv
              | some s =>
                obtain ⟨-, t, ht, hne⟩ := k3 s hx
                exact hw2 t ht hne
          · rintro s (hs | hs | hs)
            · exact (k2 s hs).1
            · exact (k3 s hs).1
            · exact k4 s hs
          · rw [k1] at hready
            unfold IcReq.ready at hready
            simp only [Bool.not_eq_false, Bool.or_eq_true, decide_eq_true_eq] at hready
            have gv : ∀ o : Option Str, given o = true → ∃ s, o = some s ∧ s ≠ [] := by
              intro o ho
              cases o with
              | none => cases ho
              | some s => exact ⟨s, rfl, by simpa [given] using ho⟩
            rcases hready with (h1 | h1) | h1
            · exact .inl (gv _ h1)
            · exact .inr (.inl (gv _ h1))
            · exact .inr (.inr h1)

end Cot
