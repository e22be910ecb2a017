import Verif.Spec.DiskDevice
import Verif.Model.Package
/-
Specification vocabulary for packages: what their File and Disk entries and their disk devices say.
Only the shape of the stored data is used, and the names that the OVF standard gives to the attributes.
-/
namespace Cot

/-- `i` is the position of the only entry with the property. -/
def OnlyAt (cs : List Elem) (P : Elem → Prop) (i : Nat) : Prop :=
  (∃ e, cs[i]? = some e ∧ P e) ∧ ∀ j e, cs[j]? = some e → P e → j = i

/-- A File entry with this value of an attribute. -/
def FileWith (v : Ver) (key val : Str) (e : Elem) : Prop := e.tag = fileTag v ∧ e.get key = some val

/-- A Disk entry with this value of an attribute. -/
def DiskWith (v : Ver) (key val : Str) (e : Elem) : Prop := e.tag = diskTag v ∧ e.get key = some val

/-- No two entries of this kind share a value of the attribute. -/
def Distinct (cs : List Elem) (tag key : Str) : Prop :=
  ∀ (i j : Nat) (e f : Elem) (s : Str), cs[i]? = some e → cs[j]? = some f → e.tag = tag → f.tag = tag →
    e.get key = some s → f.get key = some s → i = j

/-- The device's (only) HostResource is this text. -/
def Mapped (it : Item) (s : Str) : Prop := ∃ S, it.tab hostResource = [(.str s, S)]

/-- The device uses the file with this identifier directly (as CD-ROM drives do). -/
def UsesFile (v : Ver) (it : Item) (fid : Str) : Prop :=
  Mapped it (hostFileRef v ++ fid) ∨ Mapped it ("/file/".toList ++ fid)

/-- The device uses the disk with this identifier (as hard disks do). -/
def UsesDisk (v : Ver) (it : Item) (did : Str) : Prop :=
  Mapped it (hostDiskRef v ++ did) ∨ Mapped it ("/disk/".toList ++ did)

/-- The device exists outside of the named configuration profiles. -/
def InDefault (env : Env) (it : Item) : Prop := it.hasProfile env none = true

/-- The device uses the File or the Disk of a search result. -/
def RefersTo (v : Ver) (p : Pkg) (r : Found) (it : Item) : Prop :=
  (∃ i e fid, r.file = some i ∧ p.refs.children[i]? = some e ∧ e.get (fileId v) = some fid ∧ UsesFile v it fid) ∨
  (∃ j d did, r.disk = some j ∧ p.diskList[j]? = some d ∧ d.get (diskId v) = some did ∧ UsesDisk v it did)

/-- The parts of a search result belong together: the Disk is the one on the File, the device uses the File or the
Disk, the controller is the parent of the device; and nothing that should be there is left out. -/
structure Linked (env : Env) (p : Pkg) (r : Found) : Prop where
  disk : ∀ i j, r.file = some i → r.disk = some j → ∃ e fid, p.refs.children[i]? = some e ∧
    e.get (fileId env.ver) = some fid ∧ OnlyAt p.diskList (DiskWith env.ver (diskFileRef env.ver) fid) j
  noDisk : ∀ i e fid, r.file = some i → r.disk = none → p.refs.children[i]? = some e →
    e.get (fileId env.ver) = some fid → ∀ d ∈ p.diskList, ¬ DiskWith env.ver (diskFileRef env.ver) fid d
  dev : ∀ k, r.dev = some k → ∃ it c ci, dget? p.hw k = some it ∧ InDefault env it ∧ RefersTo env.ver p r it ∧
    r.ctrl = some c ∧ dget? p.hw c = some ci ∧ ChildOf it c
  noDev : r.dev = none → r.ctrl = none ∧
    ∀ k it, dget? p.hw k = some it → InDefault env it → ¬ RefersTo env.ver p r it

/-- Every device refers to files and disks the way this version of OVF does (COT also understands the way of
version 0.9 in a package of a later version). -/
def OneStyle (v : Ver) (hw : Hw) : Prop :=
  v = .v0 ∨ ∀ k it s, dget? hw k = some it → ¬ Mapped it ("/file/".toList ++ s) ∧ ¬ Mapped it ("/disk/".toList ++ s)

/-- The device uses the file with this identifier, directly or through a Disk on it. -/
def DependsOn (v : Ver) (p : Pkg) (fid : Str) (it : Item) : Prop :=
  UsesFile v it fid ∨ ∃ d ∈ p.diskList, DiskWith v (diskFileRef v) fid d ∧ ∃ did, d.get (diskId v) = some did ∧
    UsesDisk v it did

/-- A drive has lost its medium: a CD-ROM drive is still there, but empty; a hard disk is gone.  All other devices are
as before. -/
def Released (hw hw' : Hw) (k : Str) : Prop :=
  (∀ k', k' ≠ k → dget? hw' k' = dget? hw k') ∧ ∃ it, dget? hw k = some it ∧
    ((OfType it "15".toList ∧ ∃ it', dget? hw' k = some it' ∧ it'.tab hostResource = [] ∧
        ∀ m, m ≠ hostResource → it'.tab m = it.tab m) ∨
      (OfType it "17".toList ∧ dget? hw' k = none))

/-- What a File entry says. -/
structure FileSays (v : Ver) (e : Elem) (fid name : Str) (size : Nat) : Prop where
  isFile : e.tag = fileTag v
  id : e.get (fileId v) = some fid
  href : e.get (fileHref v) = some name
  size : e.get (fileSize v) = some (natStr size)

/-- What a Disk entry says: its identifier, its file, and a capacity that reads as so many bytes. -/
structure DiskSays (v : Ver) (e : Elem) (did fid : Str) (cap : Nat) : Prop where
  isDisk : e.tag = diskTag v
  id : e.get (diskId v) = some did
  ref : e.get (diskFileRef v) = some fid
  capacity : capacityOf v e = .ok (cap : Int)

/-- The second list is the first with one entry added. -/
def Added (cs cs' : List Elem) (e : Elem) : Prop := ∃ a b, cs = a ++ b ∧ cs' = a ++ e :: b

/-- The second list is the first with one entry replaced. -/
def Replaced (cs cs' : List Elem) (old e : Elem) : Prop := ∃ a b, cs = a ++ old :: b ∧ cs' = a ++ e :: b

/-- The second list is the first with one entry removed. -/
def Removed (cs cs' : List Elem) (old : Elem) : Prop := ∃ a b, cs = a ++ old :: b ∧ cs' = a ++ b

/-- The Disk entries of a package. -/
def diskEntries (v : Ver) (p : Pkg) : List Elem := p.diskList.filter (fun e => e.tag == diskTag v)

/-- The types of disk controllers and their CIM codes. -/
def ControllerCode (t code : Str) : Prop :=
  (t = "ide".toList ∧ code = "5".toList) ∨ (t = "scsi".toList ∧ code = "6".toList) ∨
    (t = "sata".toList ∧ code = "20".toList)

/-- The types of drives and their CIM codes. -/
def DriveCode (t code : Str) : Prop :=
  (t = "harddisk".toList ∧ code = "17".toList) ∨ (t = "cdrom".toList ∧ code = "15".toList)

/-- The (only) sub-type of a device, a text of one or more words. -/
def HasSubtype (it : Item) (s : Str) : Prop :=
  ∃ ws S, it.tab resourceSubType = [(.tup ws, S)] ∧ joinWith [' '] ws = s ∧ ∀ w ∈ ws, ' ' ∉ w

/-- The hardware is in order: every device has an InstanceID, none is its own parent, and no controller address
contains a colon. -/
structure Tidy (env : Env) (hw : Hw) : Prop where
  ident : ∀ k it, dget? hw k = some it → it.tab (instanceId env.ver) ≠ []
  noSelf : ∀ k it, dget? hw k = some it → ¬ ChildOf it k
  plainAddress : ∀ k it ca S, dget? hw k = some it → it.tab address = [(.str ca, S)] → ':' ∉ ca

/-- What the command line guarantees about a request: a disk or CD-ROM drive, a known controller type, an address that
names two numbers and comes with a controller type, a capacity that is not zero (nor beyond 2^63 bytes). -/
structure Sensible (q : DiskReq) : Prop where
  drive : ∃ code, DriveCode q.drive code
  controller : ∀ s, q.controller = some s → ∃ code, ControllerCode s code
  address : ∀ a, q.address = some a → IsDeviceAddress a ∧ q.controller ≠ none
  positive : 0 < q.cap
  bounded : q.cap ≤ 2 ^ 63

/-- The user has agreed to the use of something that is already there: of a File (which is then replaced), or of an empty
drive. -/
def Agreed (ask : Prompt → Bool) (q : DiskReq) : Prop :=
  (∃ old, ask (.replaceFile old q.path) = true) ∨ ask (.fillDrive q.drive) = true

example : fileTag .v1 = "{http://schemas.dmtf.org/ovf/envelope/1}File".toList ∧
    fileId .v1 = "{http://schemas.dmtf.org/ovf/envelope/1}id".toList ∧
    fileHref .v2 = "{http://schemas.dmtf.org/ovf/envelope/2}href".toList ∧
    diskTag .v0 = "{http://www.vmware.com/schema/ovf/1/envelope}Disk".toList ∧
    hostDiskRef .v1 = "ovf:/disk/".toList ∧ hostFileRef .v0 = "/file/".toList := ⟨rfl, rfl, rfl, rfl, rfl, rfl⟩

end Cot
