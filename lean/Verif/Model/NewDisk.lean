import Verif.Model.Disks
/-
Model of the creation of new disk images (COT/disks/disk.py:98-120, 253-307, iso.py:82-104, raw.py:84-120,
vmdk.py:142-164) and of reading the sub-format of a VMDK file (vmdk.py:31-51).
-/
namespace Cot

/-- The keyword arguments of `for_new_file`: `files` (with their sizes), `capacity`, and `disk_subformat`, which may be not
given at all, or given as None.  That a file among `files` is missing (an OSError before anything is run) is left out. -/
structure NewDisk where
  files : Option (List (Str × Nat)) := none
  capacity : Option Str := none
  subformat : Option (Option Str) := none

/-- `files` as a list; None and [] are treated alike by the `_create_file` functions -/
def NewDisk.fileList (k : NewDisk) : List (Str × Nat) := k.files.getD []

/-- disk.py:278-307 `DiskRepresentation._create_file`.  A capacity of None ends in the list of arguments, where it is a
TypeError. -/
def qemuCreate (f : DiskFmt) (path : Str) (files : List (Str × Nat)) (capacity subformat : Option Str) :
    Except Err (List DiskOp) :=
  if files ≠ [] then .error .notImplementedError
  else match capacity with
    | none => .error .typeError
    | some c => .ok [.call "qemu-img".toList (["create".toList, "-f".toList, f.name] ++
        (match subformat with
          | none => []
          | some s => ["-o".toList, "subformat=".toList ++ s]) ++ [path, c])]

/-- vmdk.py:142-164 `VMDK._create_file`: the default sub-format; for it the version of qemu-img is asked for (`version`),
which decides about a warning only -/
def vmdkCreate (version : Except Err Unit) (path : Str) (k : NewDisk) : Except Err (List DiskOp) :=
  let sub := k.subformat.getD (some "streamOptimized".toList)
  if sub = some "streamOptimized".toList then
    match version with
    | .error e => .error e
    | .ok _ => qemuCreate .vmdk path k.fileList k.capacity sub
  else qemuCreate .vmdk path k.fileList k.capacity sub

/-- raw.py:84-120 `RAW._create_file`; without files the other keyword arguments are passed on -/
def rawCreateFile (py : PyVer) (path : Str) (k : NewDisk) : Except Err (List DiskOp) :=
  if k.fileList = [] then qemuCreate .raw path [] k.capacity (k.subformat.getD none)
  else rawCreate py path k.fileList k.capacity

/-- iso.py:82-104 `ISO._create_file`; the program is selected only if there are files -/
def isoCreateFile (w : ConvWorld) (h : List DiskOp) (path : Str) (k : NewDisk) : Except Err (List DiskOp) :=
  let files := k.fileList.map Prod.fst
  let sub := (k.subformat.getD (some "rockridge".toList)).getD []
  if files = [] then isoCreate path [] sub []
  else match w.select h [("mkisofs".toList, none), ("genisoimage".toList, none), ("xorriso".toList, none)] with
    | .error e => .error e
    | .ok maker => isoCreate path files sub maker

/-- `cls._create_file(path, **kwargs)`: the commands to be run -/
def createOps (w : ConvWorld) (version : Except Err Unit) (py : PyVer) (h : List DiskOp) (f : DiskFmt) (path : Str)
    (k : NewDisk) : Except Err (List DiskOp) :=
  match f with
  | .iso => isoCreateFile w h path k
  | .raw => rawCreateFile py path k
  | .vmdk => vmdkCreate version path k
  | .qcow2 => qemuCreate .qcow2 path k.fileList k.capacity (k.subformat.getD none)

/-- one command after the other, until one fails -/
def runOps (w : ConvWorld) : List DiskOp → List DiskOp → Except Err Unit × List DiskOp
  | h, [] => (.ok (), h)
  | h, op :: r => match w.run h op with
    | (.error e, h') => (.error e, h')
    | (.ok _, h') => runOps w h' r

/-- disk.py:98-120 `DiskRepresentation.for_new_file(path, disk_format, **kwargs)` with disk.py:253-276 `create_file` -/
def forNewFile (w : ConvWorld) (version : Except Err Unit) (py : PyVer) (h : List DiskOp) (path format : Str)
    (k : NewDisk) : Except Err Image × List DiskOp :=
  match classForFormat format with
  | none => (.error .notImplementedError, h)
  | some f =>
    if path = [] then (.error .valueError, h)
    else if w.pathExists h path then (.error .runtimeError, h)
    else if k.capacity = none ∧ k.files = none then (.error .runtimeError, h)
    else match createOps w version py h f path k with
      | .error e => (.error e, h)
      | .ok ops => match runOps w h ops with
        | (.error e, h') => (.error e, h')
        | (.ok _, h') => (w.open h' path f, h')

/-! ### The sub-format of a VMDK file -/

/-- vmdk.py:40: the first 1000 bytes, decoded as ASCII with other bytes ignored -/
def vmdkHeader (bytes : List Nat) : Str := ((bytes.take 1000).filter (fun b => decide (b < 128))).map Char.ofNat

/-- vmdk.py:42 `createType="(.*)"` -/
def createTypeRe : Re := .seq (.lit "createType=\"".toList) (.seq (.grp 1 (.star .dot)) (.lit "\"".toList))

/-- vmdk.py:31-51 `VMDK.disk_subformat` -/
def vmdkSubformat (bytes : List Nat) : Except Err Str :=
  match reSearch createTypeRe (vmdkHeader bytes) with
  | none => .error .runtimeError
  | some m => .ok ((m.group 1).getD [])

end Cot
