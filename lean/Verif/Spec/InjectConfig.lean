import Verif.Spec.Package
import Verif.Spec.DataValidation
import Verif.Model.InjectConfig
/-
What inject-config is meant to do: the names that the platforms look for, the drives, and the medium.
-/
namespace Cot

/-- The names under which the platforms look for their configuration on the injected disk, and for a second one, as
the documentation of the platforms gives them.  An IOS XRv line card takes its configuration from elsewhere. -/
def wantedNames : Plat → Option String × Option String
  | .generic => (some "config.txt", none)
  | .csr => (some "iosxe_config.txt", none)
  | .c9800 => (some "iosxe_config.txt", none)
  | .iosv => (some "ios_config.txt", none)
  | .xrv => (some "iosxr_config.txt", some "iosxr_config_admin.txt")
  | .xrvRP => (some "iosxr_config.txt", some "iosxr_config_admin.txt")
  | .xrv9k => (some "iosxr_config.txt", some "iosxr_config_admin.txt")
  | .xrvLC => (none, none)
  | .n9k => (some "nxos_config.txt", none)
  | .nxosv => (some "nxos_config.txt", none)

/-- IOSv boots from a hard disk, the others from a CD-ROM. -/
def BootsFromDisk (pl : Plat) : Prop := pl = .iosv

instance (pl : Plat) : Decidable (BootsFromDisk pl) := inferInstanceAs (Decidable (pl = .iosv))

/-- The name of the injected disk in the package. -/
def injectedName (pl : Plat) : Str := if BootsFromDisk pl then "config.vmdk".toList else "config.iso".toList

/-- The drive type of the platform, by its CIM code. -/
def injectedCode (pl : Plat) : Str := if BootsFromDisk pl then "17".toList else "15".toList

/-- A drive, or anything else with a medium. -/
def IsDrive (it : Item) : Prop := OfType it "15".toList ∨ OfType it "17".toList ∨ ∃ s, Mapped it s

/-- The device is part of the default configuration; if it sits on a controller, that is an IDE, SCSI or SATA
controller; and both have numbers as addresses. -/
structure Bay (env : Env) (hw : Hw) (it : Item) : Prop where
  inDefault : InDefault env it
  ctrl : ∀ c ci, ChildOf it c → dget? hw c = some ci → ∃ t code, ControllerCode t code ∧ OfType ci code
  addr : ∀ c ci a S, ChildOf it c → dget? hw c = some ci → ci.tab address = [(.str a, S)] → Digits a
  unit : ∀ b S, it.tab addressOnParent = [(.str b, S)] → Digits b

/-- All drives are like that. -/
def Bays (env : Env) (hw : Hw) : Prop := ∀ k it, dget? hw k = some it → IsDrive it → Bay env hw it

/-- The drive is empty: a CD-ROM drive without a medium (or without a single one), or the drive of a Disk that no File
belongs to. -/
def EmptyDrive (env : Env) (p : Pkg) (pl : Plat) (it : Item) : Prop :=
  (¬ BootsFromDisk pl ∧ OfType it "15".toList ∧ ∀ v S, it.tab hostResource ≠ [(v, S)]) ∨
  (BootsFromDisk pl ∧ ∃ d ∈ p.diskList, d.tag = diskTag env.ver ∧ d.get (diskFileRef env.ver) = none ∧
    ∃ did, d.get (diskId env.ver) = some did ∧ UsesDisk env.ver it did)

/-- A file of the user, if there is one, together with what becomes of the name wanted for it. -/
def paired (src : Option Str) (name : Option String) (f : Str → Str) : List (Str × Str) :=
  match src, name with
  | some s, some n => if s = [] then [] else [(s, f n.toList)]
  | _, _ => []

/-- What goes on the disk: pairs of the file of the user and the name on the disk.  The configuration files have the
names the platform looks for, the others keep theirs. -/
def wantedContents (pl : Plat) (q : IcReq) : List (Str × Str) :=
  paired q.config (wantedNames pl).1 id ++ paired q.secondary (wantedNames pl).2 id ++
    q.extra.map (fun f => (f, pathBase f))

/-- The files of the user that are copied to the working directory first, with their paths there. -/
def wantedCopies (dir : Str) (pl : Plat) (q : IcReq) : List (Str × Str) :=
  paired q.config (wantedNames pl).1 (pathJoin dir) ++ paired q.secondary (wantedNames pl).2 (pathJoin dir)

/-- the request passed the setters: a platform without a name for a file got none -/
def Accepted (pl : Plat) (q : IcReq) : Prop :=
  (given q.config = true → (wantedNames pl).1 ≠ none) ∧ (given q.secondary = true → (wantedNames pl).2 ≠ none)

end Cot
