import Verif.Spec.Package
import Verif.Spec.Placeholder
/-
What a drive added by `add-disk` is called and how it is described.
-/
namespace Cot

/-- The name of a new drive: the one given, or the usual name for the kind of drive. -/
def DriveNamed (q : DiskReq) (nm : Str) : Prop :=
  q.name = some nm ∨
    q.name = none ∧ ((q.drive = "cdrom".toList ∧ nm = "CD-ROM Drive".toList) ∨
      (q.drive = "harddisk".toList ∧ nm = "Hard Disk Drive".toList))

end Cot
