import Verif.Props.PackageDisk
import Verif.Props.PackageRemove
/-
C67, cases: example packages on which `cot add-disk` succeeds, showing that the hypotheses of the theorems in
`PackageDisk` are met, and the ways in which the command falls short.
-/
namespace Cot

/-- a request without options -/
def exReq (path drive : Str) (fid controller address : Option Str) : DiskReq :=
  { path := path, cap := 5, drive := drive, fid := fid, controller := controller, subtype := none,
    address := address, name := none, descr := none }

/-- IDE for everything, as most platforms have it -/
def exPlat : Str → Str := fun _ => "ide".toList

theorem exPlat_ok (d : Str) : ∃ code, ControllerCode (exPlat d) code := ⟨_, Or.inl ⟨rfl, rfl⟩⟩

/-- the example hardware is in order -/
theorem exDiskHw_tidy : Tidy exEnv exDiskHw where
  ident := forall_items (by decide +kernel)
  noSelf := by
    have h : ∀ kv ∈ exDiskHw, ∀ e ∈ kv.2.tab parentName, e.1 ≠ .str kv.1 := by decide +kernel
    rintro k it hk ⟨S, hS⟩
    exact h (k, it) (dget?_mem hk) _ (by rw [hS]; exact List.mem_singleton.2 rfl) rfl
  plainAddress := by
    have h : ∀ kv ∈ exDiskHw, ∀ e ∈ kv.2.tab address, (match e.1 with
      | .str s => decide (':' ∉ s)
      | _ => true) = true := by decide +kernel
    intro k it ca S hk hS
    have := h (k, it) (dget?_mem hk) _ (by rw [hS]; exact List.mem_singleton.2 rfl)
    simpa using this

theorem exReq_sensible {path drive : Str} {fid controller address : Option Str}
    (hd : ∃ code, DriveCode drive code) (hc : ∀ s, controller = some s → ∃ code, ControllerCode s code)
    (ha : ∀ a, address = some a → IsDeviceAddress a ∧ controller ≠ none) :
    Sensible (exReq path drive fid controller address) where
  drive := hd
  controller := hc
  address := ha
  positive := by show 0 < 5; omega
  bounded := by show 5 ≤ 2 ^ 63; norm_num

/-- a new hard disk: IDE controller 1 is full, so it gets a new controller 0 and is unit 0 there -/
def exNew : DiskReq := exReq "new.iso".toList "harddisk".toList none none none

theorem exNew_sensible : Sensible exNew :=
  exReq_sensible ⟨_, Or.inl ⟨rfl, rfl⟩⟩ (fun _ h => by cases h) (fun _ h => by cases h)

example : (addDiskCmd exCtx exPlat (fun _ => true) exPkg exNew).map (fun r => (r.1, dkeys r.2.hw,
      (dget? r.2.hw r.1).map (fun it => (it.getRaw parentName none, it.getRaw addressOnParent none,
        it.getRaw hostResource none)))) =
    .ok ("2".toList, ["5".toList, "8".toList, "9".toList, "1".toList, "2".toList],
      some (some (.str "1".toList), some (.str "0".toList), some (.str "ovf:/disk/new.iso".toList))) := rfl

/-- the hypotheses of `C67_add_disk`, `C67_others`, `C67_place` and `C67_distinct` are met -/
theorem exNew_runs : ∃ k p', addDiskCmd exCtx exPlat (fun _ => true) exPkg exNew = .ok (k, p') ∧ k ∉ dkeys exPkg.hw :=
  ⟨_, _, rfl, by decide +kernel⟩

example : ∃ k p' ctrl ci it code n m, addDiskCmd exCtx exPlat (fun _ => true) exPkg exNew = .ok (k, p') ∧
    dget? p'.hw ctrl = some ci ∧ dget? p'.hw k = some it ∧ ChildOf it ctrl ∧ OfType ci code ∧
    AtAddress it n ∧ FirstFree (Occupied exPkg.hw ctrl) n ∧
    (ctrl ∉ dkeys exPkg.hw → HasAddress ci m ∧ FirstFree (CtrlAddress exPkg.hw code) m) := by
  obtain ⟨k, p', h, hk⟩ := exNew_runs
  obtain ⟨ctrl, ci, it, code, h1, h2, h3, h4, h5, -⟩ :=
    C67_place (c := exCtx) (p := exPkg) exDiskHw_wf exDiskHw_tidy exNew_sensible (exPlat_ok _) h hk
  obtain ⟨n, h6, h7, h8⟩ := h5 rfl
  by_cases hc : ctrl ∈ dkeys exPkg.hw
  · exact ⟨k, p', ctrl, ci, it, code, n, 0, h, h1, h2, h3, h4, h6, h7, fun hn => absurd hc hn⟩
  · obtain ⟨m, h9⟩ := h8 hc
    exact ⟨k, p', ctrl, ci, it, code, n, m, h, h1, h2, h3, h4, h6, h7, fun _ => h9⟩

/-- at a given address: a CD-ROM drive on SCSI controller 2, unit 7, which is created -/
def exAt : DiskReq := exReq "new.iso".toList "cdrom".toList (some "media".toList) (some "scsi".toList) (some "2:7".toList)

theorem exAt_sensible : Sensible exAt :=
  exReq_sensible ⟨_, Or.inr ⟨rfl, rfl⟩⟩ (fun _ h => by cases h; exact ⟨_, Or.inr (Or.inl ⟨rfl, rfl⟩)⟩)
    (fun _ h => by cases h; exact ⟨⟨"2".toList, "7".toList, ⟨by decide, by decide +kernel⟩, ⟨by decide, by decide +kernel⟩, rfl⟩, by simp⟩)

example : (addDiskCmd exCtx exPlat (fun _ => true) exPkg exAt).map (fun r => (r.1,
      (dget? r.2.hw r.1).map (fun it => (it.getRaw parentName none, it.getRaw addressOnParent none,
        it.getRaw hostResource none, it.getRaw resourceType none)), r.2.diskList.length)) =
    .ok ("2".toList, some (some (.str "1".toList), some (.str "7".toList), some (.str "ovf:/file/media".toList),
      some (.str "15".toList)), 2) := rfl

/-- replacing the image of the hard disk: the drive, its place and the identifiers are kept -/
def exAgain : DiskReq := exReq "d.vmdk".toList "harddisk".toList none none none

example : (addDiskCmd exCtx exPlat (fun _ => true) exPkg exAgain).map (fun r => (r.1, dkeys r.2.hw, r.2.refs.children,
      (diskEntries .v1 r.2).map (fun d => (d.get (diskId .v1), d.get (diskFileRef .v1))))) =
    .ok ("9".toList, ["5".toList, "8".toList, "9".toList],
      [exFileE "vmdk".toList "d.vmdk".toList "1".toList, exFileE "iso".toList "c.iso".toList "20".toList],
      [(some "vmdisk1".toList, some "vmdk".toList)]) := rfl

/-- without consent nothing happens -/
example : addDiskCmd exCtx exPlat (fun _ => false) exPkg exAgain = .error .systemExit := rfl

/-! ### Where the command falls short -/

theorem not_occupied {hw : Hw} {c : Str} {n : Nat}
    (h : ∀ kv ∈ hw, kv.2.getRaw addressOnParent none ≠ some (.str (natStr n))) : ¬ Occupied hw c n := by
  rintro ⟨k, it, hk, -, S, hS⟩
  exact h (k, it) (dget?_mem hk) ((getRaw_none_eq ..).2 ⟨S, hS⟩)

/-- **C67 fails** for identifiers of disks: the identifier of a new Disk is that of its File, even if another Disk
already has it; then the old and the new hard disk refer to the same Disk. -/
theorem C67_duplicate_disk_fails : ∃ k p' it old,
    addDiskCmd exCtx exPlat (fun _ => true) exPkg
      (exReq "new.iso".toList "harddisk".toList (some "vmdisk1".toList) none none) = .ok (k, p') ∧
    Sensible (exReq "new.iso".toList "harddisk".toList (some "vmdisk1".toList) none none) ∧
    Distinct exPkg.diskList (diskTag .v1) (diskId .v1) ∧ ¬ Distinct p'.diskList (diskTag .v1) (diskId .v1) ∧
    k ≠ "9".toList ∧ dget? p'.hw k = some it ∧ dget? p'.hw "9".toList = some old ∧
    Mapped it "ovf:/disk/vmdisk1".toList ∧ Mapped old "ovf:/disk/vmdisk1".toList := by
  refine ⟨_, _, _, _, rfl, ?_, ?_, ?_, by decide +kernel, rfl, rfl, ⟨_, rfl⟩, ⟨_, rfl⟩⟩
  · exact exReq_sensible ⟨_, Or.inl ⟨rfl, rfl⟩⟩ (fun _ h => by cases h) (fun _ h => by cases h)
  · intro i j e f s hi hj te tf ge gf
    match i, j, hi, hj with
    | 1, 1, _, _ => rfl
    | 0, _, hi, _ => cases hi; exact absurd te (by decide +kernel)
    | 1, 0, _, hj => cases hj; exact absurd tf (by decide +kernel)
    | n + 2, _, hi, _ => cases hi
    | _, n + 2, _, hj => cases hj
  · intro h
    have := h 1 2 _ _ "vmdisk1".toList rfl rfl rfl rfl rfl rfl
    cases this

/-- **C67 fails** for the address of a drive that is already there: if the image is already attached to a drive, the
requested address is silently ignored and the drive stays where it was, although the requested place is free. -/
theorem C67_address_ignored_fails : ∃ k p' it,
    addDiskCmd exCtx exPlat (fun _ => true) exPkg
      (exReq "d.vmdk".toList "harddisk".toList none (some "ide".toList) (some "1:5".toList)) = .ok (k, p') ∧
    Sensible (exReq "d.vmdk".toList "harddisk".toList none (some "ide".toList) (some "1:5".toList)) ∧
    dget? p'.hw k = some it ∧ AtAddress it 0 ∧ ¬ Occupied exPkg.hw "5".toList 5 ∧ ¬ Occupied p'.hw "5".toList 5 := by
  refine ⟨_, _, _, rfl, ?_, rfl, ⟨_, rfl⟩, ?_, ?_⟩
  · exact exReq_sensible ⟨_, Or.inl ⟨rfl, rfl⟩⟩ (fun _ h => by cases h; exact ⟨_, Or.inl ⟨rfl, rfl⟩⟩)
      (fun _ h => by cases h; exact ⟨⟨"1".toList, "5".toList, ⟨by decide, by decide +kernel⟩, ⟨by decide, by decide +kernel⟩, rfl⟩, by simp⟩)
  · exact not_occupied (by decide +kernel)
  · exact not_occupied (by decide +kernel)

end Cot
