import Verif.Props.CommandFiles
import Verif.Props.DiskDevice
import Verif.Props.DiskNames
import Verif.Props.PackageDisk
import Verif.Spec.AddDiskCommand
/-
C125: what the command line asks add-disk for is what is done.
-/
namespace Cot

variable {f : EhFiles} {w : AdWorld}

def addDiskSub : SubCommand := ⟨"add-disk".toList, ["add-drive".toList], addDiskParser⟩

theorem addDisk_plain : PlainCommand addDiskSub := by
  refine ⟨?_, ?_, ?_, ?_⟩ <;> decide +kernel

theorem addDisk_page : ∀ m ∈ commandPages, m.names = addDiskSub.title :: addDiskSub.aliases → m = addDiskPage := by decide +kernel

theorem storeTextIn_ok {Q : Type} {G : Q → Str → Except Err Q} {q q' : Q} {v : ArgVal ArgAtom} (h : storeTextIn G q v = .ok q') :
    ∃ s, v = .one (.text s) ∧ G q s = .ok q' := by
  unfold storeTextIn at h
  split at h
  · exact ⟨_, rfl, h⟩
  · cases h

theorem setAddress_ok {q q' : AddDiskReq} {s : Str} (h : q.setAddress s = .ok q') :
    validateControllerAddress q.loc.controller (some s) = .ok () ∧ q' = { q with loc := ⟨q.loc.controller, some s⟩ } := by
  unfold AddDiskReq.setAddress DiskArgs.setAddress at h
  cases hv : validateControllerAddress q.loc.controller (some s) with
  | error e => rw [hv] at h; cases h
  | ok u => rw [hv] at h; cases h; exact ⟨rfl, rfl⟩

theorem setController_ok {q q' : AddDiskReq} {s : Str} (h : q.setController s = .ok q') :
    validateControllerAddress (some s) q.loc.address = .ok () ∧ q' = { q with loc := ⟨some s, q.loc.address⟩ } := by
  unfold AddDiskReq.setController DiskArgs.setController at h
  cases hv : validateControllerAddress (some s) q.loc.address with
  | error e => rw [hv] at h; cases h
  | ok u => rw [hv] at h; cases h; exact ⟨rfl, rfl⟩

theorem setDiskImage_ok {D : DiskWorld} {s : Str} {x : Str × DiskFmt} (h : setDiskImage D s = .ok x) :
    x.1 = s ∧ fromFile D s = .ok x.2 := by
  unfold setDiskImage at h
  cases hv : fromFile D s with
  | error e => rw [hv] at h; cases h
  | ok u => rw [hv] at h; cases h; exact ⟨rfl, rfl⟩

theorem addDiskSetters_keep {D : DiskWorld} {b : Str} {g : Setter AddDiskReq} (hm : (b, g) ∈ addDiskSetters D) {q q' : AddDiskReq}
    {v : ArgVal ArgAtom} (h : g q v = .ok q') :
    (b ≠ "disk_image".toList → q'.image = q.image) ∧ (b ≠ "drive_type".toList → q'.driveType = q.driveType) ∧
      (b ≠ "file_id".toList → q'.fileId = q.fileId) ∧ (b ≠ "subtype".toList → q'.subtype = q.subtype) ∧
      (b ≠ "diskname".toList → q'.diskname = q.diskname) ∧ (b ≠ "description".toList → q'.description = q.description) ∧
      (b ≠ "address".toList → q'.loc.address = q.loc.address) ∧ (b ≠ "controller".toList → q'.loc.controller = q.loc.controller) ∧
      (validateControllerAddress q.loc.controller q.loc.address = .ok () →
        validateControllerAddress q'.loc.controller q'.loc.address = .ok ()) := by
  unfold addDiskSetters at hm
  simp only [List.mem_cons, List.not_mem_nil, or_false, Prod.mk.injEq] at hm
  rcases hm with ⟨rfl, rfl⟩ | ⟨rfl, rfl⟩ | ⟨rfl, rfl⟩ | ⟨rfl, rfl⟩ | ⟨rfl, rfl⟩ | ⟨rfl, rfl⟩ | ⟨rfl, rfl⟩ | ⟨rfl, rfl⟩
  · obtain ⟨s, x, -, -, rfl⟩ := storeTextVia_ok h
    exact ⟨fun hne => absurd rfl hne, fun _ => rfl, fun _ => rfl, fun _ => rfl, fun _ => rfl, fun _ => rfl, fun _ => rfl, fun _ => rfl, id⟩
  · obtain ⟨s, -, rfl⟩ := storeText_ok h
    exact ⟨fun _ => rfl, fun hne => absurd rfl hne, fun _ => rfl, fun _ => rfl, fun _ => rfl, fun _ => rfl, fun _ => rfl, fun _ => rfl, id⟩
  · obtain ⟨s, -, rfl⟩ := storeText_ok h
    exact ⟨fun _ => rfl, fun _ => rfl, fun hne => absurd rfl hne, fun _ => rfl, fun _ => rfl, fun _ => rfl, fun _ => rfl, fun _ => rfl, id⟩
  · obtain ⟨s, -, rfl⟩ := storeText_ok h
    exact ⟨fun _ => rfl, fun _ => rfl, fun _ => rfl, fun hne => absurd rfl hne, fun _ => rfl, fun _ => rfl, fun _ => rfl, fun _ => rfl, id⟩
  · obtain ⟨s, -, rfl⟩ := storeText_ok h
    exact ⟨fun _ => rfl, fun _ => rfl, fun _ => rfl, fun _ => rfl, fun hne => absurd rfl hne, fun _ => rfl, fun _ => rfl, fun _ => rfl, id⟩
  · obtain ⟨s, -, rfl⟩ := storeText_ok h
    exact ⟨fun _ => rfl, fun _ => rfl, fun _ => rfl, fun _ => rfl, fun _ => rfl, fun hne => absurd rfl hne, fun _ => rfl, fun _ => rfl, id⟩
  · obtain ⟨s, -, h⟩ := storeTextIn_ok h
    obtain ⟨hv, rfl⟩ := setAddress_ok h
    exact ⟨fun _ => rfl, fun _ => rfl, fun _ => rfl, fun _ => rfl, fun _ => rfl, fun _ => rfl, fun hne => absurd rfl hne, fun _ => rfl,
      fun _ => hv⟩
  · obtain ⟨s, -, h⟩ := storeTextIn_ok h
    obtain ⟨hv, rfl⟩ := setController_ok h
    exact ⟨fun _ => rfl, fun _ => rfl, fun _ => rfl, fun _ => rfl, fun _ => rfl, fun _ => rfl, fun _ => rfl, fun hne => absurd rfl hne,
      fun _ => hv⟩

theorem sets_inv {α S : Type} {set : S → Str → ArgVal α → Except Err S} {I : S → Prop}
    (hstep : ∀ s s' a v, I s → set s a v = .ok s' → I s') {s s' : S} {l : List (Str × ArgVal α)} (h : Sets set s l s') (h0 : I s) : I s' := by
  induction h with
  | nil => exact h0
  | cons h1 _ ih => exact ih (hstep _ _ _ _ h0 h1)

/-- controller and address always fit -/
theorem addDisk_fits {D : DiskWorld} {st st' : PkgCmd AddDiskReq} {l : List (Str × ArgVal ArgAtom)}
    (h : Sets (pkgSetattr f (addDiskSetters D)) st l st') (h0 : validateControllerAddress st.req.loc.controller st.req.loc.address = .ok ()) :
    validateControllerAddress st'.req.loc.controller st'.req.loc.address = .ok () := by
  refine sets_inv (I := fun s => validateControllerAddress s.req.loc.controller s.req.loc.address = .ok ()) ?_ h h0
  intro s s' a v hs h
  by_cases h1 : a = "package".toList
  · subst h1
    obtain ⟨p, -, -, rfl⟩ := pkgSetattr_package h
    exact hs
  by_cases h2 : a = "output".toList
  · subst h2
    obtain ⟨p, -, -, rfl⟩ := pkgSetattr_output h
    exact hs
  rcases pkgSetattr_other h1 h2 h with ⟨-, rfl⟩ | ⟨g, q, e1, e2, rfl⟩
  · exact hs
  · exact (addDiskSetters_keep (dget?_mem e1) e2).2.2.2.2.2.2.2.2 hs

/-- a choice: the attribute holds the last one -/
theorem reached_one {l : List Str} {given : List (List Str)} {v : ArgVal ArgAtom} (hv : Reaches (.oneOf l) given v) {x : Option Str}
    (h : (v = .absent ∧ x = none) ∨ (Given v ∧ ∃ s, v = .one (.text s) ∧ x = some s)) :
    x = given.getLast?.bind List.head? ∧ ∀ s, x = some s → s ∈ l := by
  rcases hv with ⟨h1, rfl⟩ | ⟨s, h1, h2, rfl⟩
  · rcases h with ⟨-, h⟩ | ⟨h, -⟩
    · rw [h1, h]; exact ⟨rfl, by intro s hs; cases hs⟩
    · exact h.elim
  · rcases h with ⟨h, -⟩ | ⟨-, s', h3, h4⟩
    · cases h
    · cases h3
      rw [h1, h4]
      exact ⟨rfl, by intro s' hs; cases hs; exact h2⟩

/-- what the options of add-disk leave in the command object -/
theorem addDisk_asks {us : List ArgUse} {ws : List Str} {cmd : PkgCmd AddDiskReq} {d : List (Str × ArgVal ArgAtom)}
    (h : Handed f (addDiskSetters w.disk) {} addDiskParser addDiskPage us ws cmd d) :
    ∃ image p fmt, ws = [image, p] ∧ PkgPlaces f us p cmd ∧ cmd.req.image = some (image, fmt) ∧ fromFile w.disk image = .ok fmt ∧
      cmd.req.driveType = lastGiven "--type" us ∧
      (∀ s, cmd.req.driveType = some s → s ∈ ["harddisk".toList, "cdrom".toList]) ∧
      cmd.req.fileId = lastGiven "--file-id" us ∧ cmd.req.subtype = lastGiven "--subtype" us ∧
      cmd.req.diskname = lastGiven "--name" us ∧ cmd.req.description = lastGiven "--description" us ∧
      cmd.req.loc.controller = lastGiven "--controller" us ∧
      (∀ s, cmd.req.loc.controller = some s → s ∈ ["ide".toList, "sata".toList, "scsi".toList]) ∧
      ((lastGiven "--address" us = none ∧ cmd.req.loc.address = none) ∨
        ∃ s t, lastGiven "--address" us = some s ∧ Padded s t ∧ IsDeviceAddress t ∧ cmd.req.loc.address = some t) := by
  have hlen : ws.length = 2 := h.words
  obtain ⟨image, p, rfl⟩ : ∃ a b, ws = [a, b] := by
    match ws, hlen with
    | [a, b], _ => exact ⟨a, b, rfl⟩
  have k1 := pkg_attr (F := fun q => q.image) (a := "disk_image".toList)
    (R := fun v x => ∃ (s : Str) (fmt : DiskFmt), v = .one (.text s) ∧ fromFile w.disk s = .ok fmt ∧ x = some (s, fmt))
    (by decide) (by decide) rfl (fun b g hb hne q v q' hq => (addDiskSetters_keep hb hq).1 hne) (by
      intro q v q' hq
      obtain ⟨s, x, e, hx, rfl⟩ := storeTextVia_ok hq
      obtain ⟨rfl, hx2⟩ := setDiskImage_ok hx
      exact ⟨x.1, x.2, e, hx2, rfl⟩) h.sets (h.pos 0 "DISK_IMAGE".toList image rfl rfl)
  rcases k1 with ⟨k1, -⟩ | ⟨-, s, fmt, k2, k3, k4⟩
  · cases k1
  cases k2
  obtain ⟨v1, a1, a2⟩ := h.option (o := ⟨["-t".toList, "--type".toList], .oneOf ["harddisk".toList, "cdrom".toList], "drive_type".toList⟩)
    (fl := "--type") (F := fun q => q.driveType) (R := fun v x => ∃ s : Str, v = .one (.text s) ∧ x = some s) (by decide +kernel)
    (by decide) (by decide +kernel) (by decide) (by decide) rfl (fun b g hb hne q v q' hq => (addDiskSetters_keep hb hq).2.1 hne) (by
      intro q v q' hq
      obtain ⟨s, e, rfl⟩ := storeText_ok hq
      exact ⟨s, e, rfl⟩)
  obtain ⟨v2, b1, b2⟩ := h.option (o := ⟨["-c".toList, "--controller".toList], .oneOf ["ide".toList, "sata".toList, "scsi".toList], "controller".toList⟩)
    (fl := "--controller") (F := fun q => q.loc.controller) (R := fun v x => ∃ s : Str, v = .one (.text s) ∧ x = some s) (by decide +kernel)
    (by decide) (by decide +kernel) (by decide) (by decide) rfl (fun b g hb hne q v q' hq => (addDiskSetters_keep hb hq).2.2.2.2.2.2.2.1 hne) (by
      intro q v q' hq
      obtain ⟨s, e, hx⟩ := storeTextIn_ok hq
      obtain ⟨-, rfl⟩ := setController_ok hx
      exact ⟨s, e, rfl⟩)
  obtain ⟨v3, c1, c2⟩ := h.option (o := ⟨["-a".toList, "--address".toList], .value .device, "address".toList⟩)
    (fl := "--address") (F := fun q => q.loc.address) (R := fun v x => ∃ s : Str, v = .one (.text s) ∧ x = some s) (by decide +kernel)
    (by decide) (by decide +kernel) (by decide) (by decide) rfl (fun b g hb hne q v q' hq => (addDiskSetters_keep hb hq).2.2.2.2.2.2.1 hne) (by
      intro q v q' hq
      obtain ⟨s, e, hx⟩ := storeTextIn_ok hq
      obtain ⟨-, rfl⟩ := setAddress_ok hx
      exact ⟨s, e, rfl⟩)
  obtain ⟨a3, a4⟩ := reached_one a1 a2
  obtain ⟨b3, b4⟩ := reached_one b1 b2
  refine ⟨image, p, fmt, rfl, h.places (i := 1) rfl rfl (by decide +kernel) (by decide +kernel), k4, k3, a3, a4, ?_, ?_, ?_, ?_, b3, b4, ?_⟩
  · exact h.text (flags := ["-f".toList, "--file-id".toList]) (a := "file_id".toList) "--file-id" (by decide +kernel) (by decide +kernel)
      (fun q => q.fileId) (fun q s => { q with fileId := some s }) (by decide) (by decide) rfl
      (fun b g hb hne q v q' hq => (addDiskSetters_keep hb hq).2.2.1 hne) (fun _ _ => rfl) rfl
  · exact h.text (flags := ["-s".toList, "--subtype".toList]) (a := "subtype".toList) "--subtype" (by decide +kernel) (by decide +kernel)
      (fun q => q.subtype) (fun q s => { q with subtype := some s }) (by decide) (by decide) rfl
      (fun b g hb hne q v q' hq => (addDiskSetters_keep hb hq).2.2.2.1 hne) (fun _ _ => rfl) rfl
  · exact h.text (flags := ["-n".toList, "--name".toList]) (a := "diskname".toList) "--name" (by decide +kernel) (by decide +kernel)
      (fun q => q.diskname) (fun q s => { q with diskname := some s }) (by decide) (by decide) rfl
      (fun b g hb hne q v q' hq => (addDiskSetters_keep hb hq).2.2.2.2.1 hne) (fun _ _ => rfl) rfl
  · exact h.text (flags := ["-d".toList, "--description".toList]) (a := "description".toList) "--description" (by decide +kernel)
      (by decide +kernel) (fun q => q.description) (fun q s => { q with description := some s }) (by decide) (by decide) rfl
      (fun b g hb hne q v q' hq => (addDiskSetters_keep hb hq).2.2.2.2.2.1 hne) (fun _ _ => rfl) rfl
  · rcases c1 with ⟨c3, rfl⟩ | ⟨s, a, c3, ⟨t, rfl, c4, c5⟩, rfl⟩
    · left
      rcases c2 with ⟨-, c2⟩ | ⟨c2, -⟩
      · exact ⟨by unfold lastGiven; rw [c3]; rfl, c2⟩
      · exact c2.elim
    · right
      rcases c2 with ⟨c2, -⟩ | ⟨-, s', c2, c6⟩
      · cases c2
      · cases c2
        exact ⟨s, t, by unfold lastGiven; rw [c3]; rfl, c4, c5, c6⟩

/-- **C125 (add-disk).** If `cot … add-disk DISK_IMAGE PACKAGE …` (or `add-drive`) is carried out, then the format of DISK_IMAGE was
recognised, the image was converted as the type of the drive demands, and the disk that was added to the package is the one that the options
ask for: the last of each of them counts. -/
theorem C125_add_disk_partial {c : Ctx} {plat : Str → Str} {ask : Prompt → Bool} {name : Str}
    (hn : name = addDiskSub.title ∨ name ∈ addDiskSub.aliases) {g l : List Str} {gus us : List ArgUse} {ws : List Str}
    (hg : CmdLine mainParser g gus []) (hl : CmdLine addDiskParser l us ws) (hp : ∀ u ∈ gus ++ us, ¬ OnlyPrints u.opt)
    (ha : ClearFor mainParser l) {p p' : Pkg} {cmd : PkgCmd AddDiskReq} {k : Str} {ops : List DiskOp}
    (h : addDiskMain f w c plat ask (g ++ name :: l) p = (.ok (cmd, k, p'), ops)) :
    ∃ image pkg fmt img q, ws = [image, pkg] ∧ PkgPlaces f us pkg cmd ∧ fromFile w.disk image = .ok fmt ∧ DiskAsks us fmt q ∧
      convertIfNeeded w.conv ⟨image, fmt, w.subformat image⟩ q.drive w.dir = (.ok img, ops) ∧ q.path = img.path ∧
      (q.drive = "harddisk".toList → w.capacity ops q.path = .ok q.cap) ∧ (q.drive ≠ "harddisk".toList → q.cap = 1) ∧
      addDiskCmd { c with fs := w.fs ops } plat ask p q = .ok (k, p') := by
  unfold addDiskMain at h
  cases hc : pkgCommand f (addDiskSetters w.disk) {} (g ++ name :: l) with
  | error e => rw [hc] at h; cases h
  | ok cmd' =>
    rw [hc] at h
    dsimp only at h
    obtain ⟨d, hd⟩ := handed addDisk_plain addDisk_page hn hg hl hp ha hc
    obtain ⟨image, pkg, fmt, rfl, h1, h2, h3, h4, h5, h6, h7, h8, h9, h10, h11, h12⟩ := addDisk_asks hd
    have hfit := addDisk_fits hd.sets rfl
    rw [h2] at h
    dsimp only at h
    split at h
    · cases h
    rename_i hready
    cases hw : addDiskWorker w c plat ask cmd'.req (image, fmt) p with
    | mk r ops' =>
      rw [hw] at h
      cases r with
      | error e => cases h
      | ok r =>
        obtain ⟨k', p2⟩ := r
        cases h
        unfold addDiskWorker at hw
        dsimp only at hw
        cases hcv : convertIfNeeded w.conv ⟨image, fmt, w.subformat image⟩ (cmd.req.driveType.getD (predictedDrive fmt)) w.dir with
        | mk r ops2 =>
          rw [hcv] at hw
          cases r with
          | error e => cases hw
          | ok img =>
            dsimp only at hw
            split at hw
            · cases hw
            · rename_i cap hcap
              have e1 := congrArg Prod.fst hw
              have e2 := congrArg Prod.snd hw
              dsimp only at e1 e2
              subst e2
              refine ⟨image, pkg, fmt, img, _, rfl, h1, h3, ?_, hcv, rfl, ?_, ?_, e1⟩
              · refine ⟨?_, h6, h10, h11, h7, h8, h9, ?_⟩
                · dsimp only
                  cases ht : cmd.req.driveType with
                  | some t =>
                    left
                    refine ⟨by rw [← h4, ht]; rfl, ?_⟩
                    have := h5 t ht
                    simpa using this
                  | none =>
                    right
                    rw [← h4, ht]
                    cases fmt with
                    | iso => exact .inl ⟨rfl, rfl, rfl⟩
                    | qcow2 => exact .inr ⟨rfl, by decide, rfl⟩
                    | raw => exact .inr ⟨rfl, by decide, rfl⟩
                    | vmdk => exact .inr ⟨rfl, by decide, rfl⟩
                · dsimp only
                  rcases h12 with h12 | ⟨s, t, e3, e4, ⟨a, b, da, db, rfl⟩, e6⟩
                  · exact .inl h12
                  · right
                    cases hct : cmd.req.loc.controller with
                    | none => exact absurd ⟨by rw [e6]; simp, hct⟩ hready
                    | some ctl =>
                      refine ⟨s, ctl, a, b, e3, e4, da, db, e6, rfl, ?_⟩
                      rw [hct, e6] at hfit
                      by_contra hno
                      rw [(validate_iff da db).2 hno] at hfit
                      cases hfit
              · intro hdr
                dsimp only at hdr ⊢
                rw [if_pos hdr] at hcap
                exact hcap
              · intro hdr
                dsimp only at hdr ⊢
                rw [if_neg hdr] at hcap
                exact (Except.ok.inj hcap).symm

theorem asks_sensible {us : List ArgUse} {fmt : DiskFmt} {q : DiskReq} (h : DiskAsks us fmt q) (h0 : 0 < q.cap) (h1 : q.cap ≤ 2 ^ 63) :
    Sensible q where
  drive := by
    rcases h.drive with ⟨-, hd | hd⟩ | ⟨-, -, hd⟩ | ⟨-, -, hd⟩
    · exact ⟨_, .inl ⟨hd, rfl⟩⟩
    · exact ⟨_, .inr ⟨hd, rfl⟩⟩
    · exact ⟨_, .inr ⟨hd, rfl⟩⟩
    · exact ⟨_, .inl ⟨hd, rfl⟩⟩
  controller := by
    intro s hs
    have := h.known s hs
    simp only [List.mem_cons, List.not_mem_nil, or_false] at this
    rcases this with rfl | rfl | rfl
    · exact ⟨_, .inl ⟨rfl, rfl⟩⟩
    · exact ⟨_, .inr (.inr ⟨rfl, rfl⟩)⟩
    · exact ⟨_, .inr (.inl ⟨rfl, rfl⟩)⟩
  address := by
    intro t ht
    rcases h.address with ⟨-, hn⟩ | ⟨s, ctl, a, b, -, -, da, db, he, hc, -⟩
    · rw [hn] at ht; cases ht
    · rw [he] at ht
      cases ht
      exact ⟨⟨a, b, da, db, rfl⟩, by rw [hc]; simp⟩
  positive := h0
  bounded := h1

/-- **C125**, add-disk: what the package has after the command, in terms of the command line.  There is a File entry for the image (as it
is after the conversion) with the `--file-id`; a drive of the type that was asked for, on a controller of the type given by `--controller`
and with the `--subtype`, which refers to the File, or for a hard disk to a Disk entry with the capacity of the image that refers to the
File.  A new drive is at the `--address`, and has the `--name` and the `--description`. -/
theorem C125_disk_added_partial {c : Ctx} {plat : Str → Str} {ask : Prompt → Bool} {name : Str}
    (hn : name = addDiskSub.title ∨ name ∈ addDiskSub.aliases) {g l : List Str} {gus us : List ArgUse} {ws : List Str}
    (hg : CmdLine mainParser g gus []) (hl : CmdLine addDiskParser l us ws) (hp : ∀ u ∈ gus ++ us, ¬ OnlyPrints u.opt)
    (ha : ClearFor mainParser l) {p p' : Pkg} {cmd : PkgCmd AddDiskReq} {k : Str} {ops : List DiskOp}
    (wf : HwWF c.env p.hw) (ht : Tidy c.env p.hw) (hplat : ∀ d, ∃ code, ControllerCode (plat d) code)
    (hcap : ∀ ops path n, w.capacity ops path = .ok n → 0 < n ∧ n ≤ 2 ^ 63)
    (h : addDiskMain f w c plat ask (g ++ name :: l) p = (.ok (cmd, k, p'), ops)) :
    ∃ image pkg fmt img drive bytes e fid it ctrl ci, ws = [image, pkg] ∧ PkgPlaces f us pkg cmd ∧
      -- the image
      fromFile w.disk image = .ok fmt ∧ DriveAsked us fmt drive ∧
      convertIfNeeded w.conv ⟨image, fmt, w.subformat image⟩ drive w.dir = (.ok img, ops) ∧
      -- the File
      (w.fs ops).file (absName (w.fs ops) img.path) = some bytes ∧ FileSays c.env.ver e fid (pathBase img.path) bytes.length ∧
      e ∈ p'.refs.children ∧ (∀ s, lastGiven "--file-id" us = some s → fid = s) ∧
      -- the drive and the controller
      dget? p'.hw k = some it ∧ (∃ code, DriveCode drive code ∧ OfType it code) ∧ ChildOf it ctrl ∧ dget? p'.hw ctrl = some ci ∧
      (∀ s, lastGiven "--controller" us = some s → ∃ code, ControllerCode s code ∧ OfType ci code) ∧
      (∀ s, lastGiven "--subtype" us = some s → s ≠ [] → HasSubtype ci s) ∧
      (drive = "harddisk".toList → ∃ cap d did, w.capacity ops img.path = .ok cap ∧ DiskSays c.env.ver d did fid cap ∧
        d ∈ diskEntries c.env.ver p' ∧ Mapped it (hostDiskRef c.env.ver ++ did)) ∧
      (drive ≠ "harddisk".toList → Mapped it (hostFileRef c.env.ver ++ fid)) ∧
      -- a new drive
      (k ∉ dkeys p.hw →
        (∀ s, lastGiven "--address" us = some s → ∃ a b S T, Padded s (a ++ ':' :: b) ∧ Digits a ∧ Digits b ∧
          ci.tab address = [(.str a, S)] ∧ it.tab addressOnParent = [(.str b, T)]) ∧
        (∀ nm, lastGiven "--name" us = some nm → nm ≠ [] → it.tab (elementName c.env.ver) = [(.str nm, {none})]) ∧
        (lastGiven "--description" us = none → it.tab itemDescription = []) ∧
        (∀ nm d, lastGiven "--name" us = some nm → lastGiven "--description" us = some d → LiteralSub c.env → TameText nm → TameVal nm →
          TameText d → d ≠ [] → ∀ P : PSet, it.getValue c.env itemDescription (some P) = .ok (some (.str d)))) := by
  obtain ⟨image, pkg, fmt, img, q, h1, h2, h3, h4, h5, h6, h7, h8, h9⟩ := C125_add_disk_partial hn hg hl hp ha h
  have hq : Sensible q := by
    by_cases hd : q.drive = "harddisk".toList
    · exact asks_sensible h4 (hcap _ _ _ (h7 hd)).1 (hcap _ _ _ (h7 hd)).2
    · exact asks_sensible h4 (by rw [h8 hd]; norm_num) (by rw [h8 hd]; norm_num)
  obtain ⟨bytes, e, fid, it, ctrl, ci, g1, g2, g3, g4, g5, g6, g7, g8, ⟨t, code, g9, g10, g11, -⟩, g12, g13, g14⟩ :=
    C67_add_disk (c := { c with fs := w.fs ops }) wf ht hq (hplat _) h9
  refine ⟨image, pkg, fmt, img, q.drive, bytes, e, fid, it, ctrl, ci, h1, h2, h3, h4.drive, h5, by rw [← h6]; exact g1, by rw [← h6]; exact g2,
    ?_, fun s hs => g3 s (h4.fid.trans hs), g5, g6, g7, g8, ?_, fun s hs => g12 s (h4.subtype.trans hs), ?_, fun hd => (g14 hd).1, ?_⟩
  · rcases g4 with ⟨a, b, -, he⟩ | ⟨old, -, a, b, -, he⟩ <;> rw [he] <;> simp
  · intro s hs
    have := g11 s (h4.controller.trans hs)
    subst this
    exact ⟨code, g9, g10⟩
  · intro hd
    obtain ⟨d, did, e1, e2, e3⟩ := g13 hd
    refine ⟨q.cap, d, did, by rw [← h6]; exact h7 hd, e1, ?_, e2⟩
    rcases e3 with ⟨-, a, b, -, he⟩ | ⟨old, -, a, b, -, he⟩ <;> rw [he] <;> simp
  · intro hk
    obtain ⟨ctrl', ci', it', code', f1, f2, f3, -, -, f4⟩ := C67_place (c := { c with fs := w.fs ops }) wf ht hq (hplat _) h9 hk
    obtain ⟨it'', nm, n1, n2, n3, n4, -, n5⟩ := C67_names (c := { c with fs := w.fs ops }) wf hk h9
    obtain rfl : it = it' := Option.some.inj (g5.symm.trans f2)
    obtain rfl : it = it'' := Option.some.inj (g5.symm.trans n1)
    obtain ⟨S, hS⟩ := g7
    obtain ⟨S', hS'⟩ := f3
    rw [hS] at hS'
    cases hS'
    obtain rfl : ci = ci' := Option.some.inj (g8.symm.trans f1)
    have hnm : ∀ x, lastGiven "--name" us = some x → nm = x := by
      intro x hx
      rcases n2 with n2 | ⟨n2, -⟩
      · exact Option.some.inj (n2.symm.trans (h4.name.trans hx))
      · rw [h4.name, hx] at n2; cases n2
    refine ⟨?_, ?_, fun hd => n4 (h4.descr.trans hd), ?_⟩
    · intro s hs
      rcases h4.address with ⟨hno, -⟩ | ⟨s', ctl, a, b, hs', hpad, da, db, he, -, -⟩
      · rw [hs] at hno; cases hno
      · rw [hs] at hs'
        cases hs'
        obtain ⟨⟨A, hA⟩, ⟨B, hB⟩, -⟩ := f4 a b he da db
        exact ⟨a, b, A, B, hpad, da, db, hA, hB⟩
    · intro x hx hne
      obtain rfl := hnm x hx
      exact n3 hne
    · intro x d hx hd hl' t1 t2 t3 t4 P
      obtain rfl := hnm x hx
      exact n5 hl' t1 t2 d (h4.descr.trans hd) t3 t4 P

end Cot
