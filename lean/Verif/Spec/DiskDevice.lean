import Verif.Spec.Hardware
import Verif.Spec.DataValidation
/-
Specification vocabulary for disk controllers and disks.
-/
namespace Cot

/-- The documented limits of an address `a:b` (controller `a`, unit `b`): SCSI 0:0 to 3:15, IDE 0:0 to 1:1,
no limit for other controllers. -/
def AddressOk (controller : Str) (a b : Nat) : Prop :=
  (controller = "scsi".toList → a ≤ 3 ∧ b ≤ 15) ∧ (controller = "ide".toList → a ≤ 1 ∧ b ≤ 1)

/-- The device is attached to the controller with this InstanceID. -/
def ChildOf (it : Item) (ctrl : Str) : Prop := ∃ S, it.tab parentName = [(.str ctrl, S)]

/-- The device has this address on its controller. -/
def AtAddress (it : Item) (a : Nat) : Prop := ∃ S, it.tab addressOnParent = [(.str (natStr a), S)]

/-- Some device of the collection has this address on this controller. -/
def Occupied (hw : Hw) (ctrl : Str) (a : Nat) : Prop :=
  ∃ id it, dget? hw id = some it ∧ ChildOf it ctrl ∧ AtAddress it a

/-- `a` is the first address not in use. -/
def FirstFree (used : Nat → Prop) (a : Nat) : Prop := ¬ used a ∧ ∀ b, b < a → used b

/-- The device is a controller (or anything else) with this address. -/
def HasAddress (it : Item) (a : Nat) : Prop := ∃ S, it.tab address = [(.str (natStr a), S)]

/-- The CIM codes of SCSI and IDE controllers. -/
def scsiCode : Str := "6".toList
def ideCode : Str := "5".toList

/-- The limit of a disk address on a controller. -/
def UnitOk (c : Item) (a : Nat) : Prop := (OfType c scsiCode → a ≤ 15) ∧ (OfType c ideCode → a ≤ 1)

/-- The names a drive gets by default, or the one asked for; only CD-ROM drives and hard disks have a
default. -/
def DriveName (drive : Str) (name : Option Str) (nm : Str) : Prop :=
  name = some nm ∨ (name = none ∧ ((drive = "cdrom".toList ∧ nm = "CD-ROM Drive".toList) ∨
    (drive = "harddisk".toList ∧ nm = "Hard Disk Drive".toList)))

/-- A controller with room: its smallest free address is acceptable to `find_open_controller`, which
stops at 7 for SCSI. -/
def OpenAt (hw : Hw) (code ctrl : Str) (a : Nat) : Prop :=
  FirstFree (Occupied hw ctrl) a ∧ (code = scsiCode → a ≤ 7) ∧ (code = ideCode → a ≤ 1)

/-- A controller of the type already has the address. -/
def CtrlAddress (hw : Hw) (code : Str) (a : Nat) : Prop :=
  ∃ id it, dget? hw id = some it ∧ OfType it code ∧ HasAddress it a

/-- The limit of a controller address. -/
def CtrlOk (code : Str) (a : Nat) : Prop := (code = scsiCode → a ≤ 3) ∧ (code = ideCode → a ≤ 1)

end Cot
