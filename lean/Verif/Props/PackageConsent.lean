import Verif.Props.PackageDiskCases
/-
C71: `add-file`, `remove-file` and `add-disk` replace, change and remove what is already in the package only after the user
has agreed.  `ask` stands for the answers of the user; a refused question ends the program.
-/
namespace Cot

/-- **C71**, `add-file`: the entries that were there are all still there, or the user has agreed to the replacement of
one. -/
theorem C71_add_file {c : Ctx} {ask : Prompt → Bool} {p p' : Pkg} {path : Str} {fid : Option Str} (wf : HwWF c.env p.hw)
    (h : addFileCmd c ask p path fid = .ok p') :
    p'.disks = p.disks ∧ p'.hw = p.hw ∧ ∃ e, Added p.refs.children p'.refs.children e ∨
      ∃ old, Replaced p.refs.children p'.refs.children old e ∧ ask (.replaceFile (old.get (fileHref c.env.ver)) path) = true := by
  obtain ⟨b, e, id, -, -, -, h1, h2, -, hcase⟩ := C66_add_file wf h
  refine ⟨h1, h2, e, ?_⟩
  rcases hcase with ⟨q, -⟩ | ⟨i, old, ho, q, -, -, -, ha⟩
  · left; exact ⟨p.refs.children, [], by simp, q⟩
  · right; rw [q]; exact ⟨old, replaced_set ho, ha⟩

/-- **C71**, `remove-file`: nothing is removed without consent to the removal of exactly that file. -/
theorem C71_remove_file {env : Env} {ask : Prompt → Bool} {p p' : Pkg} {path fid : Option Str} (wf : HwWF env p.hw)
    (h : removeFileCmd env ask p path fid = .ok p') :
    ∃ old name id, Removed p.refs.children p'.refs.children old ∧ FileWith env.ver (fileHref env.ver) name old ∧
      FileWith env.ver (fileId env.ver) id old ∧ ask (.removeFile (some name) (some id)) = true := by
  obtain ⟨i, old, id, name, h1, h2, h3, h4, -, -, -, h5, h6, -⟩ := C68_remove_file wf h
  refine ⟨old, name, id, ?_, ⟨h2, h4⟩, ⟨h2, h3⟩, h5⟩
  rw [h6, setChildren_children]; exact removed_eraseIdx h1

/-- **C71**, `add-disk`: a File is replaced, a Disk or a drive that was there is used, the type of a drive is changed, a
controller is added, and a sub-type is replaced only after the corresponding question.  (A controller without a single
sub-type is given the requested one without asking, see `C71_subtype_fails`.) -/
theorem C71_add_disk_partial {c : Ctx} {plat : Str → Str} {ask : Prompt → Bool} {p p' : Pkg} {q : DiskReq} {k : Str}
    (wf : HwWF c.env p.hw) (ht : Tidy c.env p.hw) (hq : Sensible q)
    (hplat : ∃ code, ControllerCode (plat q.drive) code) (h : addDiskCmd c plat ask p q = .ok (k, p')) :
    (∃ e, Added p.refs.children p'.refs.children e ∨ ∃ old, Replaced p.refs.children p'.refs.children old e ∧
      ask (.replaceFile (old.get (fileHref c.env.ver)) q.path) = true) ∧
    (diskEntries c.env.ver p' = diskEntries c.env.ver p ∨
      (∃ d, Added (diskEntries c.env.ver p) (diskEntries c.env.ver p') d) ∨ Agreed ask q) ∧
    (k ∈ dkeys p.hw → Agreed ask q) ∧
    (∀ it, dget? p.hw k = some it → (∃ code, DriveCode q.drive code ∧ OfType it code) ∨
      ∃ old, ask (.changeType old q.drive) = true) ∧
    ∃ ctrl it ci, dget? p'.hw k = some it ∧ ChildOf it ctrl ∧ dget? p'.hw ctrl = some ci ∧
      (∀ k', k' ≠ k → k' ≠ ctrl → dget? p'.hw k' = dget? p.hw k') ∧
      (ctrl ∉ dkeys p.hw → ∃ t code, ControllerCode t code ∧ OfType ci code ∧ ask (.addController (upper t)) = true) ∧
      (∀ ci0, dget? p.hw ctrl = some ci0 → ci = ci0 ∨ ∃ s, q.subtype = some s ∧
        ∀ ws S, ci0.tab resourceSubType = [(.tup ws, S)] → ∃ t, ask (.changeSubtype t (.tup ws) s) = true) := by
  obtain ⟨_, e, fid, r3, ctrl, ci, it, ct, code, -, -, -, hf, -, hct, -, -, h8, h9, h10, h11, -, -, -, ho, -, -, hd, hc,
    -, hk, hty, hadd, hsub, -⟩ := addDiskCmd_core wf ht hq hplat h
  refine ⟨⟨e, ?_⟩, ?_, hk, ?_, ctrl, it, ci, h10, h11, h8, ho, fun hn => ⟨ct, code, hct, h9, hadd hn⟩, ?_⟩
  · rcases hf with ⟨n, g, -⟩ | ⟨i, old, g1, g2, g3, g4, -⟩
    · left; rw [g]; exact added_insert _ _ _
    · right; rw [g3]; exact ⟨old, replaced_set g1, g4⟩
  · by_cases hdr : q.drive = "harddisk".toList
    · obtain ⟨d, did, -, -, g⟩ := hd hdr
      rcases g with ⟨-, g⟩ | ⟨-, -, -, g⟩
      · exact Or.inr (Or.inl ⟨d, g⟩)
      · exact Or.inr (Or.inr g)
    · obtain ⟨-, g⟩ := hc hdr
      rcases g with g | ⟨-, -, g⟩
      · exact Or.inl g
      · exact Or.inr (Or.inr g)
  · intro it0 h0
    rcases hty it0 h0 with g | g
    · obtain ⟨dc, hdc⟩ := hq.drive
      exact Or.inl ⟨dc, hdc, hardwareType_drive hdc g⟩
    · exact Or.inr ⟨_, g⟩
  · intro ci0 h0
    rcases hsub ci0 h0 with g | ⟨s, g1, g2⟩
    · exact Or.inl g
    · refine Or.inr ⟨s, g1, fun ws S hw => ?_⟩
      rcases g2 _ _ hw with g | g
      · cases g
      · exact ⟨_, g⟩

/-- **C71**, refusal: if the user would refuse every question, and no sub-type is given, then a successful `add-disk` only
adds: every File, every Disk and every device that was there is there, as it was. -/
theorem C71_refused {c : Ctx} {plat : Str → Str} {p p' : Pkg} {q : DiskReq} {k : Str}
    (wf : HwWF c.env p.hw) (ht : Tidy c.env p.hw) (hq : Sensible q) (hsub : q.subtype = none)
    (hplat : ∃ code, ControllerCode (plat q.drive) code) (h : addDiskCmd c plat (fun _ => false) p q = .ok (k, p')) :
    (∃ e, Added p.refs.children p'.refs.children e) ∧
    (diskEntries c.env.ver p' = diskEntries c.env.ver p ∨
      ∃ d, Added (diskEntries c.env.ver p) (diskEntries c.env.ver p') d) ∧
    k ∉ dkeys p.hw ∧ ∀ k' it, dget? p.hw k' = some it → dget? p'.hw k' = some it := by
  obtain ⟨⟨e, h1⟩, h2, h3, -, ctrl, it, ci, -, -, h4, h5, h6, h7⟩ := C71_add_disk_partial wf ht hq hplat h
  have hag : ¬ Agreed (fun _ => false) q := by rintro (⟨_, h⟩ | h) <;> cases h
  have hk : k ∉ dkeys p.hw := fun hk => hag (h3 hk)
  refine ⟨⟨e, ?_⟩, ?_, hk, ?_⟩
  · rcases h1 with h1 | ⟨_, _, h1⟩
    · exact h1
    · cases h1
  · rcases h2 with h2 | h2 | h2
    · exact Or.inl h2
    · exact Or.inr h2
    · exact absurd h2 hag
  · intro k' it' hk'
    by_cases h8 : k' = ctrl
    · subst h8
      rcases h7 it' hk' with g | ⟨s, g, -⟩
      · rw [h4, g]
      · rw [hsub] at g; cases g
    · rw [h5 k' (by rintro rfl; exact hk (mem_dkeys_of_dget? hk')) h8]; exact hk'

/-! ### Cases -/

/-- SCSI controller 0 with a sub-type, which under profile x is another one -/
def exSubHw : Hw :=
  [("3".toList, { props := [("InstanceID".toList, [(.str "3".toList, {none})]), ("ResourceType".toList, [(.str "6".toList, {none})]),
      ("Address".toList, [(.str "0".toList, {none})]),
      ("ResourceSubType".toList, [(.tup ["lsilogic".toList], {none}), (.tup ["buslogic".toList], {pX})])], ns := rasd, modified := false })]

/-- a drive on an existing controller needs no question -/
example : ∃ k p', addDiskCmd exCtx exPlat (fun _ => false) { exPkg with hw := exSubHw }
      (exReq "new.iso".toList "cdrom".toList none (some "scsi".toList) (some "0:3".toList)) = .ok (k, p') ∧
    (exReq "new.iso".toList "cdrom".toList none (some "scsi".toList) (some "0:3".toList)).subtype = none :=
  ⟨_, _, rfl, rfl⟩

/-- **C71 fails** for sub-types that depend on the profile: the given sub-type replaces all of them and nothing is asked. -/
theorem C71_subtype_fails : ∃ k p' ci,
    addDiskCmd exCtx exPlat (fun _ => false) { exPkg with hw := exSubHw }
      { exReq "new.iso".toList "cdrom".toList none (some "scsi".toList) (some "0:3".toList) with
        subtype := some "virtio".toList } = .ok (k, p') ∧
    dget? p'.hw "3".toList = some ci ∧ HasSubtype ci "virtio".toList := by
  refine ⟨_, _, _, rfl, rfl, [_], _, rfl, rfl, ?_⟩
  decide +kernel

/-- SCSI controller 0 with sub-type virtio -/
def exSameHw : Hw :=
  [("3".toList, { props := [("InstanceID".toList, [(.str "3".toList, {none})]), ("ResourceType".toList, [(.str "6".toList, {none})]),
      ("Address".toList, [(.str "0".toList, {none})]), ("ResourceSubType".toList, [(.tup ["virtio".toList], {none})])], ns := rasd, modified := false })]

/-- **C71 fails** in the other direction: for the sub-type that the controller already has the user is asked whether to
change it (from `('virtio',)` to `virtio`), and a refusal ends the program, although nothing would be changed. -/
theorem C71_same_subtype_fails : ∃ ci, dget? exSameHw "3".toList = some ci ∧ HasSubtype ci "virtio".toList ∧
    addDiskCmd exCtx exPlat (fun x => match x with
        | .changeSubtype _ _ _ => false
        | _ => true) { exPkg with hw := exSameHw }
      { exReq "new.iso".toList "cdrom".toList none (some "scsi".toList) (some "0:3".toList) with
        subtype := some "virtio".toList } = .error .systemExit := by
  refine ⟨_, rfl, ⟨[_], _, rfl, rfl, ?_⟩, rfl⟩
  decide +kernel

end Cot
