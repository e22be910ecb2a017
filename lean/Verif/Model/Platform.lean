import Verif.Model.DataValidation
/-
Model of COT/platforms: hardware limits, NIC names, controller types and NIC types of the guest platforms.
-/
namespace Cot

/-- The classes of COT/platforms. -/
inductive Plat where
  | generic      -- platform.py Platform
  | csr          -- cisco_csr1000v.py CSR1000V
  | iosv         -- cisco_iosv.py IOSv
  | xrv          -- cisco_iosxrv.py IOSXRv
  | xrvRP        -- cisco_iosxrv.py IOSXRvRP
  | xrvLC        -- cisco_iosxrv.py IOSXRvLC
  | xrv9k        -- cisco_iosxrv_9000.py IOSXRv9000
  | n9k          -- cisco_nexus_9000v.py Nexus9000v
  | nxosv        -- cisco_nxosv.py NXOSv
  | c9800        -- cisco_c9800cl.py C9800CL
  deriving DecidableEq, Repr

/-- platform.py:26-33 `Hardware` -/
inductive HwKind where
  | cpus | memory | nicCount | serialCount
  deriving DecidableEq, Repr

/-- `HARDWARE_LIMITS` of every class, with the inherited entries written out: platform.py:84-89,
cisco_c9800cl.py:33-39, cisco_csr1000v.py:33-39, cisco_iosv.py:34-40, cisco_iosxrv.py:43-49, 74-77, 103-106,
cisco_iosxrv_9000.py:30-35, cisco_nexus_9000v.py:32-38, cisco_nxosv.py:32-37 -/
def hwLimits : Plat → HwKind → Option Int × Option Int
  | .generic, .cpus => (some 1, none)
  | .generic, .memory => (some 1, none)
  | .generic, .nicCount => (some 0, none)
  | .generic, .serialCount => (some 0, none)
  | .csr, .cpus => (some 1, some 8)
  | .csr, .memory => (some 2560, some 8192)
  | .csr, .nicCount => (some 3, some 26)
  | .csr, .serialCount => (some 0, some 2)
  | .iosv, .cpus => (some 1, some 1)
  | .iosv, .memory => (some 192, some 3072)
  | .iosv, .nicCount => (some 0, some 16)
  | .iosv, .serialCount => (some 1, some 2)
  | .xrv, .cpus => (some 1, some 8)
  | .xrv, .memory => (some 3072, some 8192)
  | .xrv, .nicCount => (some 1, none)
  | .xrv, .serialCount => (some 1, some 4)
  | .xrvRP, .cpus => (some 1, some 8)
  | .xrvRP, .memory => (some 3072, some 8192)
  | .xrvRP, .nicCount => (some 1, some 2)
  | .xrvRP, .serialCount => (some 1, some 4)
  | .xrvLC, .cpus => (some 1, some 8)
  | .xrvLC, .memory => (some 3072, some 8192)
  | .xrvLC, .nicCount => (some 1, none)
  | .xrvLC, .serialCount => (some 0, some 4)
  | .xrv9k, .cpus => (some 1, some 32)
  | .xrv9k, .memory => (some 8192, none)
  | .xrv9k, .nicCount => (some 4, none)
  | .xrv9k, .serialCount => (some 1, some 4)
  | .n9k, .cpus => (some 1, some 4)
  | .n9k, .memory => (some 8192, none)
  | .n9k, .nicCount => (some 1, some 65)
  | .n9k, .serialCount => (some 1, some 1)
  | .nxosv, .cpus => (some 1, some 8)
  | .nxosv, .memory => (some 2048, some 8192)
  | .nxosv, .nicCount => (some 0, none)
  | .nxosv, .serialCount => (some 1, some 2)
  | .c9800, .cpus => (some 4, some 10)
  | .c9800, .memory => (some 8192, some 32768)
  | .c9800, .nicCount => (some 1, some 3)
  | .c9800, .serialCount => (some 0, some 2)

/-- cisco_csr1000v.py:87, cisco_c9800cl.py:81: the CPU counts of the two platforms that list them -/
def cpuList : Plat → Option (List Int)
  | .csr => some [1, 2, 4, 8]
  | .c9800 => some [4, 6, 10]
  | _ => none

/-- `_already_validated` (platform.py:126): the values seen, per kind -/
abbrev ValCache := HwKind → List Int

/-- platform.py:169-268: the four methods have the same body.  The value is recorded before it is checked,
so the cache is returned with an error as well.  The argument is an int, for which `int(...)` in
`validate_int` is the identity.  IOSv's warning for little memory (cisco_iosv.py:67-70) is not modelled. -/
def validateBase (p : Plat) (k : HwKind) (seen : ValCache) (v : Int) : Except Err Unit × ValCache :=
  if v ∈ seen k then (.ok (), seen)
  else
    let seen' : ValCache := fun j => if j = k then v :: seen j else seen j
    if belowMin v (hwLimits p k).1 then (.error .valueTooLow, seen')
    else if aboveMax v (hwLimits p k).2 then (.error .valueTooHigh, seen')
    else (.ok (), seen')

/-- `validate_cpu_count`, `validate_memory_amount`, `validate_nic_count`, `validate_serial_count` of every
class: platform.py:169-268, with the overrides cisco_csr1000v.py:74-88 and cisco_c9800cl.py:69-82. -/
def validateHw (p : Plat) (k : HwKind) (seen : ValCache) (v : Int) : Except Err Unit × ValCache :=
  let r := validateBase p k seen v
  match r.1, k, cpuList p with
  | .ok _, .cpus, some l => if v ∈ l then r else (.error .valueUnsupported, r.2)
  | _, _, _ => r

/-- `guess_nic_name` of every class: platform.py:156-167, cisco_c9800cl.py:57-67, cisco_csr1000v.py:57-72,
cisco_iosv.py:42-52, cisco_iosxrv.py:51-66, 79-91, 108-124, cisco_iosxrv_9000.py:37-58,
cisco_nexus_9000v.py:40-57, cisco_nxosv.py:39-59.  Python's `//` and `%` by a positive number are `/` and `%`
of `Int`. -/
def guessNicName (p : Plat) (n : Int) : Str :=
  match p with
  | .generic => "Ethernet".toList ++ intStr n
  | .csr => "GigabitEthernet".toList ++ intStr n
  | .c9800 => "GigabitEthernet".toList ++ intStr n
  | .iosv => "GigabitEthernet0/".toList ++ intStr (n - 1)
  | .xrv => if n = 1 then "MgmtEth0/0/CPU0/0".toList else "GigabitEthernet0/0/0/".toList ++ intStr (n - 2)
  | .xrvRP => if n = 1 then "fabric".toList else "MgmtEth0/{SLOT}/CPU0/".toList ++ intStr (n - 2)
  | .xrvLC => if n = 1 then "fabric".toList else "GigabitEthernet0/{SLOT}/0/".toList ++ intStr (n - 2)
  | .xrv9k =>
    if n = 1 then "MgmtEth0/0/CPU0/0".toList
    else if n = 2 then "CtrlEth".toList
    else if n = 3 then "DevEth".toList
    else "GigabitEthernet0/0/0/".toList ++ intStr (n - 4)
  | .n9k => if n = 1 then "mgmt0".toList else "Ethernet1/".toList ++ intStr (n - 1)
  | .nxosv =>
    if n = 1 then "mgmt0".toList
    else "Ethernet".toList ++ intStr ((n - 2) / 48 + 2) ++ '/' :: intStr ((n - 2) % 48 + 1)

/-- `controller_type_for_device`: platform.py:144-154, cisco_c9800cl.py:41-55, cisco_csr1000v.py:41-55 -/
def controllerTypeFor (p : Plat) (device : Str) : Str :=
  match p with
  | .csr => if device = "harddisk".toList then "scsi".toList else "ide".toList
  | .c9800 => if device = "harddisk".toList then "scsi".toList else "ide".toList
  | _ => "ide".toList

/-- data_validation.py:208 `NIC_TYPES` -/
def nicTypes : List Str := nicMappings.map Prod.snd

/-- `SUPPORTED_NIC_TYPES` of every class -/
def supportedNics : Plat → List Str
  | .generic => nicTypes
  | .csr => ["E1000".toList, "virtio".toList, "VMXNET3".toList]
  | .c9800 => ["E1000".toList, "virtio".toList, "VMXNET3".toList]
  | .iosv => ["E1000".toList]
  | .xrv => ["E1000".toList, "virtio".toList]
  | .xrvRP => ["E1000".toList, "virtio".toList]
  | .xrvLC => ["E1000".toList, "virtio".toList]
  | .xrv9k => ["E1000".toList, "virtio".toList, "VMXNET3".toList]
  | .n9k => ["E1000".toList, "VMXNET3".toList]
  | .nxosv => ["E1000".toList, "virtio".toList]

/-- platform.py:220-237 `validate_nic_type` -/
def validateNicType (p : Plat) (t : Str) : Except Err Unit :=
  if t ∈ supportedNics p then .ok () else .error .valueUnsupported

/-- platform.py:239-250 `validate_nic_types` -/
def validateNicTypes (p : Plat) : List Str → Except Err Unit
  | [] => .ok ()
  | t :: r => match validateNicType p t with
    | .error e => .error e
    | .ok _ => validateNicTypes p r

/-- `PRODUCT_PLATFORM_MAP`, filled at the end of each platform module -/
def platformMap : List (Str × Plat) :=
  [("com.cisco.csr1000v".toList, .csr), ("com.cisco.iosv".toList, .iosv), ("com.cisco.ios-xrv".toList, .xrv),
   ("com.cisco.ios-xrv.rp".toList, .xrvRP), ("com.cisco.ios-xrv.lc".toList, .xrvLC),
   ("com.cisco.ios-xrv9000".toList, .xrv9k), ("com.cisco.ios-xrv64".toList, .xrv9k),
   ("com.cisco.n9k".toList, .n9k), ("com.cisco.nx-osv".toList, .nxosv), ("com.cisco.vwlc".toList, .c9800)]

/-- platform.py:92-122 `for_product_string` -/
def forProductString : Option Str → Plat
  | none => .generic
  | some s => (dget? platformMap s).getD .generic

end Cot
