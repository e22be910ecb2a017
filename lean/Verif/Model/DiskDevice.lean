import Verif.Model.Hardware
import Verif.Model.Utilities
/-
Model of the disk controller and disk device functions: COT/commands/add_disk.py (addresses) and
COT/vm_description/ovf/ovf.py (controllers and disk Items).
-/
namespace Cot

/-! ### Addresses given by the user (add_disk.py:52-95, 130-179) -/

/-- `int(s) > limit`, with the ValueError of `int` -/
def intGt (s : Str) (limit : Int) : Except Err Bool :=
  match pyInt s with
  | none => .error .valueError
  | some z => .ok (decide (z > limit))

/-- `int(a) > la or int(b) > lb`, evaluated from the left -/
def eitherGt (a b : Str) (la lb : Int) : Except Err Bool :=
  match intGt a la with
  | .error e => .error e
  | .ok true => .ok true
  | .ok false => intGt b lb

/-- add_disk.py:52-95 `validate_controller_address(controller, address)` -/
def validateControllerAddress (controller address : Option Str) : Except Err Unit :=
  match controller, address with
  | some c, some a =>
    match splitOnChar ':' a with
    | ctrl :: disk :: _ =>
      match (if c = "scsi".toList then eitherGt ctrl disk 3 15 else .ok false) with
      | .error e => .error e
      | .ok true => .error .invalidInput
      | .ok false =>
        match (if c = "ide".toList then eitherGt ctrl disk 1 1 else .ok false) with
        | .error e => .error e
        | .ok true => .error .invalidInput
        | .ok false => .ok ()
    | _ => .error .indexError              -- address.split(":")[1]
  | _, _ => .ok ()

/-- add_disk.py:131-132: the two attributes of a `COTAddDisk` -/
structure DiskArgs where
  controller : Option Str
  address : Option Str

/-- add_disk.py:160-164, the `address` setter -/
def DiskArgs.setAddress (st : DiskArgs) (v : Option Str) : Except Err DiskArgs :=
  match validateControllerAddress st.controller v with
  | .error e => .error e
  | .ok _ => .ok { st with address := v }

/-- add_disk.py:175-179, the `controller` setter -/
def DiskArgs.setController (st : DiskArgs) (v : Option Str) : Except Err DiskArgs :=
  match validateControllerAddress v st.address with
  | .error e => .error e
  | .ok _ => .ok { st with controller := v }

/-! ### Addresses chosen by COT (ovf.py) -/

/-- item.py:150-157 `hardware_type` -/
def Item.hardwareType (env : Env) (it : Item) : Str :=
  match it.getRaw resourceType none with
  | none => "unknown (None)".toList
  | some v => match resMap.find? (fun kv => Val.str kv.2 = v) with
    | some kv => kv.1
    | none => "unknown (".toList ++ env.valStr v ++ ")".toList

/-- `[item.get_value(name) for item in items]` for items given by their keys -/
def valuesOf (env : Env) (hw : Hw) (name : Str) : List Str → Except Err (List (Option Val))
  | [] => .ok []
  | id :: r => match dget? hw id with
    | none => .error .keyError
    | some it => match it.getValue env name none with
      | .error e => .error e
      | .ok v => match valuesOf env hw name r with
        | .error e => .error e
        | .ok l => .ok (v :: l)

/-- ovf.py:2505-2506, 2558-2559, 2209-2210: `while str(address) in addresses: address += 1`, with a
bound on the number of iterations (shown to be sufficient). -/
def freeLoop (used : List (Option Val)) : Nat → Nat → Nat
  | 0, n => n
  | k + 1, n => if some (.str (natStr n)) ∈ used then freeLoop used k (n + 1) else n

/-- the same loop starting from `address = 0` -/
def freeAddress (used : List (Option Val)) : Nat := freeLoop used used.length 0

/-- ovf.py:2204-2210, 2551-2559: the first free address on the controller whose InstanceID is `inst`. -/
def freeOnController (env : Env) (hw : Hw) (inst : Option Val) : Except Err Nat :=
  match findAllItems env hw none [(parentName, inst)] [] with
  | .error e => .error e
  | .ok ids => match valuesOf env hw addressOnParent ids with
    | .error e => .error e
    | .ok used => .ok (freeAddress used)

/-- ovf.py:2564-2570: the limits for a disk on a controller -/
def checkDiskLimit (ctrlType address : Str) : Except Err Unit :=
  match (if ctrlType = "scsi".toList then intGt address 15 else .ok false) with
  | .error e => .error e
  | .ok true => .error .valueTooHigh
  | .ok false =>
    match (if ctrlType = "ide".toList then intGt address 1 else .ok false) with
    | .error e => .error e
    | .ok true => .error .valueTooHigh
    | .ok false => .ok ()

/-- ovf.py:2572-2579: the device name -/
def driveName (drive : Str) : Option Str → Except Err Str
  | some n => .ok n
  | none =>
    if drive = "cdrom".toList then .ok "CD-ROM Drive".toList
    else if drive = "harddisk".toList then .ok "Hard Disk Drive".toList
    else .error .valueUnsupported

/-- a value read from an item passed on to `set_property` -/
def optIn : Option Val → InVal
  | none => .none
  | some v => v.toIn

/-- ovf.py:2526-2583 `_create_new_disk_device(drive_type, address, name, ctrl_item)`, for a controller
held under key `ctrl`: the new item's key, the name, and the collection. -/
def createNewDisk (env : Env) (hw : Hw) (drive : Str) (address name : Option Str) (ctrl : Str) :
    Except Err (Str × Str × Hw) :=
  match dget? hw ctrl with
  | none => .error .keyError
  | some c => match c.getValue env (instanceId env.ver) none with
    | .error e => .error e
    | .ok inst =>
      match (match address with
        | some a => .ok a
        | none => match freeOnController env hw inst with
          | .error e => .error e
          | .ok n => .ok (natStr n) : Except Err Str) with
      | .error e => .error e
      | .ok a => match checkDiskLimit (c.hardwareType env) a with
        | .error e => .error e
        | .ok _ => match driveName drive name with
          | .error e => .error e
          | .ok nm => match newItem env hw drive [] with
            | .error e => .error e
            | .ok (id, hw1) => match dget? hw1 id with
              | none => .error .keyError
              | some it => match it.setProperty env addressOnParent (.str a) ∅ true with
                | .error e => .error e
                | .ok it1 => match it1.setProperty env parentName (optIn inst) ∅ true with
                  | .error e => .error e
                  | .ok it2 => .ok (id, nm, dset hw1 id it2)

/-- ovf.py:2199-2219: the loop of `find_open_controller` -/
def openLoop (env : Env) (hw : Hw) (ctype : Str) : List Str → Except Err (Option (Str × Str))
  | [] => .ok none
  | id :: r => match dget? hw id with
    | none => .error .keyError
    | some c => match c.getValue env (instanceId env.ver) none with
      | .error e => .error e
      | .ok inst => match c.getValue env address none with
        | .error e => .error e
        | .ok addr => match freeOnController env hw inst with
          | .error e => .error e
          | .ok n =>
            if (ctype = "scsi".toList ∧ n > 7) ∨ (ctype = "ide".toList ∧ n > 1) then openLoop env hw ctype r
            else .ok (some (id, (match addr with
              | none => "None".toList
              | some v => env.valStr v) ++ ':' :: natStr n))

/-- ovf.py:2191-2222 `find_open_controller(controller_type)` -/
def findOpenController (env : Env) (hw : Hw) (ctype : Str) : Except Err (Option (Str × Str)) :=
  match findAllItems env hw (some ctype) [] [] with
  | .error e => .error e
  | .ok ids => openLoop env hw ctype ids

/-- ovf.py:2509-2512: the limits for a controller -/
def checkCtrlLimit (ctype address : Str) : Except Err Unit :=
  match (if ctype = "scsi".toList then intGt address 3 else .ok false) with
  | .error e => .error e
  | .ok true => .error .valueTooHigh
  | .ok false =>
    match (if ctype = "ide".toList then intGt address 1 else .ok false) with
    | .error e => .error e
    | .ok true => .error .valueTooHigh
    | .ok false => .ok ()


/-- ovf.py:2501-2507: the address of a new controller, the given one or the first unused one -/
def controllerAddress (env : Env) (hw : Hw) (ctype : Str) : Option Str → Except Err Str
  | some a => .ok a
  | none => match findAllItems env hw (some ctype) [] [] with
    | .error e => .error e
    | .ok ids => match valuesOf env hw address ids with
      | .error e => .error e
      | .ok used => .ok (natStr (freeAddress used))

/-- ovf.py:2514-2519: the properties of a new controller -/
def fillController (env : Env) (ctype a : Str) (it : Item) : Except Err Item :=
  match it.setProperty env address (.str a) ∅ true with
  | .error e => .error e
  | .ok it1 => match it1.setProperty env (elementName env.ver) (.str (upper ctype ++ " Controller".toList)) ∅ true with
    | .error e => .error e
    | .ok it2 => it2.setProperty env itemDescription (.str (upper ctype ++ " Controller ".toList ++ a)) ∅ true

/-- ovf.py:2498-2519: creation of a controller -/
def newController (env : Env) (hw : Hw) (ctype : Str) (addr : Option Str) : Except Err (Str × Hw) :=
  match newItem env hw ctype [] with
  | .error e => .error e
  | .ok (id, hw1) => match controllerAddress env hw1 ctype addr with
    | .error e => .error e
    | .ok a => match checkCtrlLimit ctype a with
      | .error e => .error e
      | .ok _ => match dget? hw1 id with
        | none => .error .keyError
        | some it => match fillController env ctype a it with
          | .error e => .error e
          | .ok it' => .ok (id, dset hw1 id it')

/-- ovf.py:2480-2524 `add_controller_device(device_type, subtype, address, ctrl_item)` -/
def addControllerDevice (env : Env) (hw : Hw) (ctype : Str) (subtype : Option InVal) (address : Option Str)
    (ctrl : Option Str) : Except Err (Str × Hw) :=
  match (match ctrl with
    | some id => .ok (id, hw)
    | none => newController env hw ctype address : Except Err (Str × Hw)) with
  | .error e => .error e
  | .ok (id, hw1) => match subtype with
    | none => .ok (id, hw1)
    | some s => match dget? hw1 id with
      | none => .error .keyError
      | some it => match it.setProperty env resourceSubType s ∅ true with
        | .error e => .error e
        | .ok it' => .ok (id, dset hw1 id it')

end Cot
