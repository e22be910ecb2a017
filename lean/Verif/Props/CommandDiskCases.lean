import Verif.Props.CommandCases
import Verif.Props.CommandDisk
import Verif.Props.Disks
import Verif.Props.PackageDiskCases
import Verif.Props.Ui
/-
C125, add-disk: a command line that meets the hypotheses of the theorems.
-/
namespace Cot

/-- an ISO image, which needs no conversion -/
def exAdWorld : AdWorld where
  disk := exDiskWorld true
  subformat := fun _ => .ok none
  conv := { fails := fun _ _ => none, select := fun _ _ => .ok "qemu-img".toList, pathExists := fun _ _ => true }
  dir := "/tmp".toList
  capacity := fun _ _ => .ok 1048576
  fs := fun _ => exFs

def exTypeOpt : ArgOpt := { flags := ["-t".toList, "--type".toList], dest := "drive_type".toList, choices := some ["harddisk".toList, "cdrom".toList] }

def exCtlOpt : ArgOpt :=
  { flags := ["-c".toList, "--controller".toList], dest := "controller".toList, choices := some ["ide".toList, "sata".toList, "scsi".toList] }

def exAddrOpt : ArgOpt := { flags := ["-a".toList, "--address".toList], dest := "address".toList, type := .device }

def exNameOpt : ArgOpt := textOpt ["-n".toList, "--name".toList] "diskname".toList

def exDiskLine : List Str :=
  ["new.iso".toList, "a.ovf".toList, "-a".toList, "2:7".toList, "--controller".toList, "ide".toList, "-c".toList, "scsi".toList, "--name".toList,
    "boot disk".toList]

def exDiskUses : List ArgUse :=
  [⟨exAddrOpt, ["2:7".toList]⟩, ⟨exCtlOpt, ["ide".toList]⟩, ⟨exCtlOpt, ["scsi".toList]⟩, ⟨exNameOpt, ["boot disk".toList]⟩]

theorem exDiskLine_ok : CmdLine addDiskParser exDiskLine exDiskUses ["new.iso".toList, "a.ovf".toList] :=
  .word (by decide) (.word (by decide)
    (.flag (vals := ["2:7".toList]) (by decide +kernel) (by decide +kernel) (by rfl) (by simp [TakesMore, exAddrOpt])
    (.flag (vals := ["ide".toList]) (by decide +kernel) (by decide +kernel) (by rfl) (by simp [TakesMore, exCtlOpt])
    (.flag (vals := ["scsi".toList]) (by decide +kernel) (by decide +kernel) (by rfl) (by simp [TakesMore, exCtlOpt])
    (.text1 (by decide +kernel) (by decide +kernel) .done) rfl) rfl) rfl))

/-- `cot -f add-disk new.iso a.ovf -a 2:7 --controller ide -c scsi --name "boot disk"`: a CD-ROM drive, as the image is an ISO image, at unit
7 of the SCSI controller with address 2 -/
example : ∃ cmd k p' ops, addDiskMain exEhFiles exAdWorld exCtx exPlat (fun _ => true) (["-f".toList] ++ "add-disk".toList :: exDiskLine) exPkg =
      (.ok (cmd, k, p'), ops) ∧ cmd.package = some "a.ovf".toList ∧ ∃ it ctrl ci S T,
    dget? p'.hw k = some it ∧ OfType it "15".toList ∧ ChildOf it ctrl ∧ dget? p'.hw ctrl = some ci ∧ OfType ci "6".toList ∧
    ci.tab address = [(.str "2".toList, S)] ∧ it.tab addressOnParent = [(.str "7".toList, T)] ∧
    it.tab (elementName .v1) = [(.str "boot disk".toList, {none})] := by
  have hok : (addDiskMain exEhFiles exAdWorld exCtx exPlat (fun _ => true) (["-f".toList] ++ "add-disk".toList :: exDiskLine) exPkg).1.isOk = true := by
    decide +kernel
  have hk : (addDiskMain exEhFiles exAdWorld exCtx exPlat (fun _ => true) (["-f".toList] ++ "add-disk".toList :: exDiskLine) exPkg).1.map
      (fun r => decide (r.2.1 ∈ dkeys exPkg.hw)) = .ok false := by decide +kernel
  cases hr : addDiskMain exEhFiles exAdWorld exCtx exPlat (fun _ => true) (["-f".toList] ++ "add-disk".toList :: exDiskLine) exPkg with
  | mk r ops =>
    rw [hr] at hok hk
    obtain ⟨⟨cmd, k, p'⟩, rfl⟩ := ok_of_isOk hok
    have hk' : k ∉ dkeys exPkg.hw := by
      have : decide (k ∈ dkeys exPkg.hw) = false := Except.ok.inj hk
      simpa using this
    obtain ⟨image, pkg, fmt, img, drive, bytes, e, fid, it, ctrl, ci, hws, pl, hf, hd, -, -, -, -, -, h1, ⟨dc, hdc, h2⟩, h3, h4, h5, -, -, -, h6⟩ :=
      C125_disk_added_partial (c := exCtx) (f := exEhFiles) (w := exAdWorld) (.inl rfl) exGlobal exDiskLine_ok (noPrints (by decide +kernel))
        (clear_of_isOk (P := mainParser) (l := exDiskLine) main_top.opts.flags (by decide +kernel)) (p := exPkg) exDiskHw_wf exDiskHw_tidy exPlat_ok
        (by intro _ _ n hn; cases hn; exact ⟨by norm_num, by norm_num⟩) hr
    obtain ⟨h7, h8, -⟩ := h6 hk'
    obtain ⟨rfl, rfl⟩ : "new.iso".toList = image ∧ "a.ovf".toList = pkg := by
      simpa using hws
    obtain ⟨a, b, S, T, hpad, da, db, h9, h10⟩ := h7 "2:7".toList (by decide +kernel)
    obtain ⟨code, hc, h11⟩ := h5 "scsi".toList (by decide +kernel)
    have hdig : ∀ x, Digits x → ∀ ch ∈ x, isWs ch = false := fun x hx ch hch => isDig_not_ws (hx.2 ch hch)
    have hst := (strip_word (line := "2:7".toList) (a := a ++ ':' :: b) (by
      intro ch hch
      rcases List.mem_append.1 hch with hch | hch
      · exact hdig a da ch hch
      · rcases List.mem_cons.1 hch with rfl | hch
        · decide
        · exact hdig b db ch hch)).2 hpad
    have hsp := congrArg (splitOnChar ':') hst
    rw [splitOnChar_pair (digits_no_colon da) (digits_no_colon db), show splitOnChar ':' (strip "2:7".toList) = ["2".toList, "7".toList] by decide +kernel] at hsp
    simp only [List.cons.injEq, and_true] at hsp
    obtain ⟨rfl, rfl⟩ := hsp
    obtain rfl : code = "6".toList := by
      rcases hc with ⟨hc, -⟩ | ⟨-, hc⟩ | ⟨hc, -⟩
      · exact absurd hc (by decide)
      · exact hc
      · exact absurd hc (by decide)
    have hfmt : fmt = .iso := Except.ok.inj (hf.symm.trans (by decide +kernel))
    have hty : lastGiven "--type" exDiskUses = none := by decide +kernel
    obtain rfl : drive = "cdrom".toList := by
      rcases hd with ⟨hd, -⟩ | ⟨-, -, hd⟩ | ⟨-, hd, -⟩
      · rw [hty] at hd; cases hd
      · exact hd
      · exact absurd hfmt hd
    obtain rfl : dc = "15".toList := by
      rcases hdc with ⟨hdc, -⟩ | ⟨-, hdc⟩
      · exact absurd hdc (by decide)
      · exact hdc
    exact ⟨cmd, k, p', ops, rfl, pl.package, it, ctrl, ci, S, T, h1, h2, h3, h4, h11, h9, h10, h8 _ (by decide +kernel) (by decide)⟩

end Cot
