import Verif.Spec.Info
import Verif.Spec.Refresh
/-
Specification for C124 (files): what `cot info` tells of the Files and Disks of a package that was saved.
-/
namespace Cot

open Classical in
/-- The File entries whose file is still there when the package is saved, in order. -/
noncomputable def keptFiles (v : Ver) (fs : Fs) (files : List (Str × FRef)) (refs : Elem) : List Elem :=
  refs.children.filter (fun e => decide (e.tag = fileTag v ∧ ∃ h, e.get (fileHref v) = some h ∧ Present fs files h))

/-- The Disk entries, in order. -/
def disksOf (v : Ver) (disks : Option Elem) : List Elem :=
  ((disks.map Elem.children).getD []).filter (fun d => d.tag == diskTag v)

open Classical in
/-- The Disk entries that are not on a File that is kept. -/
noncomputable def bareDisks (v : Ver) (kept : List Elem) (disks : Option Elem) : List Elem :=
  (disksOf v disks).filter (fun d => decide (∀ f, d.get (diskFileRef v) = some f → ∀ e ∈ kept, e.get (fileId v) ≠ some f))

/-- The lines tell about the File as it was saved: its name, the size the file really has, the capacity its disk image
really has (for an image in an archive, the capacity that is stated) and the device that uses it; and, if asked, the
identifiers. -/
def ToldFile (c : Ctx) (capOf : Str → Except Err Nat) (files : List (Str × FRef)) (disks : Option Elem) (hw : Hw) (width : Int)
    (longest : Nat) (vb : Verbosity) (e : Elem) (lines : List Str) : Prop :=
  ∃ (fid href : Str) (r : FRef) (b : List UInt8) (name size cap dev line : Str) (did : Option Str),
    e.get (fileId c.env.ver) = some fid ∧ e.get (fileHref c.env.ver) = some href ∧
    dget? files href = some r ∧ Leads c.fs r b ∧ ShownName width longest href name ∧ prettyBytes b.length = .ok size ∧
    ((∃ d x, d ∈ disksOf c.env.ver disks ∧ d.get (diskFileRef c.env.ver) = some fid ∧ d.get (diskId c.env.ver) = some x ∧
        did = some x ∧
        (r.inTar = false → ∃ n, capOf (pathJoin r.container r.filename) = .ok n ∧ prettyBytes n = .ok cap) ∧
        (r.inTar = true → ∃ z, capacityOf c.env.ver d = .ok z ∧ SizeText z cap) ∧
        DeviceCell c.env hw (fun it => UsesDisk c.env.ver it x) dev) ∨
     ((∀ d ∈ disksOf c.env.ver disks, d.get (diskFileRef c.env.ver) ≠ some fid) ∧ cap = [] ∧ did = none ∧
        DeviceCell c.env hw (fun it => UsesFile c.env.ver it fid) dev)) ∧
    splitWs line = splitWs name ++ splitWs size ++ splitWs cap ++ splitWs (dev.take 20) ∧
    (vb ≠ .verbose → lines = [line]) ∧
    (vb = .verbose → ∃ l1 ls, lines = line :: l1 :: ls ∧ splitWs l1 = ["File".toList, "ID:".toList] ++ splitWs fid ∧
      ls.map splitWs = diskIdWords did)

/-- The line tells about a Disk without File: the capacity that is stated and the device that uses it. -/
def ToldBare (c : Ctx) (hw : Hw) (d : Elem) (line : Str) : Prop :=
  ∃ (z : Int) (cap dev did : Str), capacityOf c.env.ver d = .ok z ∧ SizeText z cap ∧ d.get (diskId c.env.ver) = some did ∧
    DeviceCell c.env hw (fun it => UsesDisk c.env.ver it did) dev ∧
    splitWs line = ["(disk".toList, "placeholder)".toList, "--".toList] ++ splitWs cap ++ splitWs (dev.take 20)

end Cot
