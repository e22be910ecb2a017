import Verif.Spec.Commands
import Verif.Spec.DiskDevice
import Verif.Model.AddDiskCommand
/-
Specification for C125: what a command line asks add-disk to do.
-/
namespace Cot

/-- The type of the drive that is asked for, for an image of the format `fmt`: the last `--type`, and without one a CD-ROM drive for an ISO
image and a hard disk otherwise. -/
def DriveAsked (us : List ArgUse) (fmt : DiskFmt) (drive : Str) : Prop :=
  (lastGiven "--type" us = some drive ∧ (drive = "harddisk".toList ∨ drive = "cdrom".toList)) ∨
    (lastGiven "--type" us = none ∧ fmt = .iso ∧ drive = "cdrom".toList) ∨
    (lastGiven "--type" us = none ∧ fmt ≠ .iso ∧ drive = "harddisk".toList)

/-- What the options of add-disk (COT/docs/man/cot-add-disk.1) ask for, for an image of the format `fmt`; the address is the last `--address`, without the blanks
around it, is within the limits of the controller, and a controller was given with it. -/
structure DiskAsks (us : List ArgUse) (fmt : DiskFmt) (q : DiskReq) : Prop where
  drive : DriveAsked us fmt q.drive
  fid : q.fid = lastGiven "--file-id" us
  controller : q.controller = lastGiven "--controller" us
  known : ∀ s, q.controller = some s → s ∈ ["ide".toList, "sata".toList, "scsi".toList]
  subtype : q.subtype = lastGiven "--subtype" us
  name : q.name = lastGiven "--name" us
  descr : q.descr = lastGiven "--description" us
  address : (lastGiven "--address" us = none ∧ q.address = none) ∨
    ∃ s ctl a b, lastGiven "--address" us = some s ∧ Padded s (a ++ ':' :: b) ∧ Digits a ∧ Digits b ∧ q.address = some (a ++ ':' :: b) ∧
      q.controller = some ctl ∧ AddressOk ctl (digitsVal a) (digitsVal b)

end Cot
