import Verif.Model.Commands
import Verif.Model.DiskDevice
import Verif.Model.Disks
import Verif.Model.Package
/-
Model of the command add-disk from the command line to the edited package: COT/ui/cli.py and COT/commands/add_disk.py.
-/
namespace Cot

/-- add_disk.py:117-136, the attributes of add-disk: the image with the format that was recognised, the options, and the controller and
address, which are checked against each other -/
structure AddDiskReq where
  image : Option (Str × DiskFmt) := none
  driveType : Option Str := none
  fileId : Option Str := none
  subtype : Option Str := none
  diskname : Option Str := none
  description : Option Str := none
  loc : DiskArgs := ⟨none, none⟩

/-- What is outside: the files (before anything is done), the conversion of images, and what the files are after the operations `ops`
(latest first): their capacity and contents. -/
structure AdWorld where
  disk : DiskWorld
  /-- `disk_subformat` of the image -/
  subformat : Str → Except Err (Option Str)
  conv : ConvWorld
  /-- `vm.working_dir` -/
  dir : Str
  /-- `disk_image.capacity` for the image at this path -/
  capacity : List DiskOp → Str → Except Err Nat
  /-- the file system as the package sees it -/
  fs : List DiskOp → Fs

/-- an attribute that is a text and whose setter looks at the others -/
def storeTextIn {Q : Type} (g : Q → Str → Except Err Q) (q : Q) : ArgVal ArgAtom → Except Err Q
  | .one (.text s) => g q s
  | _ => .error .typeError

/-- add_disk.py:147-149, the setter of `disk_image` -/
def setDiskImage (w : DiskWorld) (s : Str) : Except Err (Str × DiskFmt) :=
  match fromFile w s with
  | .error e => .error e
  | .ok f => .ok (s, f)

/-- add_disk.py:160-164 -/
def AddDiskReq.setAddress (q : AddDiskReq) (s : Str) : Except Err AddDiskReq :=
  match q.loc.setAddress (some s) with
  | .error e => .error e
  | .ok l => .ok { q with loc := l }

/-- add_disk.py:175-179 -/
def AddDiskReq.setController (q : AddDiskReq) (s : Str) : Except Err AddDiskReq :=
  match q.loc.setController (some s) with
  | .error e => .error e
  | .ok l => .ok { q with loc := l }

/-- add_disk.py:117-179, the attributes -/
def addDiskSetters (w : DiskWorld) : List (Str × Setter AddDiskReq) :=
  [("disk_image".toList, storeTextVia (setDiskImage w) (fun q x => { q with image := some x })),
   ("drive_type".toList, storeText (fun q s => { q with driveType := some s })),
   ("file_id".toList, storeText (fun q s => { q with fileId := some s })),
   ("subtype".toList, storeText (fun q s => { q with subtype := some s })),
   ("diskname".toList, storeText (fun q s => { q with diskname := some s })),
   ("description".toList, storeText (fun q s => { q with description := some s })),
   ("address".toList, storeTextIn AddDiskReq.setAddress),
   ("controller".toList, storeTextIn AddDiskReq.setController)]

/-- disk.py:172-180 and iso.py:73-80, `predicted_drive_type` -/
def predictedDrive : DiskFmt → Str
  | .iso => "cdrom".toList
  | _ => "harddisk".toList

/-- add_disk.py:194-211 `run` and 532-593 `add_disk_worker`, up to the call of `search_for_elements`: the type of the drive is settled and
the image is converted.  The capacity of the image is only looked at for a hard disk (ovf.py:2471). -/
def addDiskWorker (w : AdWorld) (c : Ctx) (plat : Str → Str) (ask : Prompt → Bool) (q : AddDiskReq) (img : Str × DiskFmt) (p : Pkg) :
    Except Err (Str × Pkg) × List DiskOp :=
  let drive := q.driveType.getD (predictedDrive img.2)
  match convertIfNeeded w.conv ⟨img.1, img.2, w.subformat img.1⟩ drive w.dir with
  | (.error e, ops) => (.error e, ops)
  | (.ok img', ops) => match (if drive = "harddisk".toList then w.capacity ops img'.path else .ok 1) with
    | .error e => (.error e, ops)
    | .ok cap => (addDiskCmd { c with fs := w.fs ops } plat ask p
        { path := img'.path, cap := cap, drive := drive, fid := q.fileId, controller := q.loc.controller, subtype := q.subtype,
          address := q.loc.address, name := q.diskname, descr := q.description }, ops)

/-- the command add-disk, add_disk.py:181-211: the object, the key of the drive and the package, and what was done outside -/
def addDiskMain (f : EhFiles) (w : AdWorld) (c : Ctx) (plat : Str → Str) (ask : Prompt → Bool) (argv : List Str) (p : Pkg) :
    Except Err (PkgCmd AddDiskReq × Str × Pkg) × List DiskOp :=
  match pkgCommand f (addDiskSetters w.disk) {} argv with
  | .error e => (.error e, [])
  | .ok cmd => match cmd.req.image with
    | none => (.error .invalidInput, [])
    | some img =>
      if cmd.req.loc.address ≠ none ∧ cmd.req.loc.controller = none then (.error .invalidInput, [])
      else match addDiskWorker w c plat ask cmd.req img p with
        | (.error e, ops) => (.error e, ops)
        | (.ok (k, p'), ops) => (.ok (cmd, k, p'), ops)

end Cot
