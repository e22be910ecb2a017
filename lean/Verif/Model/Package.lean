import Verif.Model.DiskDevice
import Verif.Model.OvfXml
import Verif.Model.FileRef
/-
Model of the parts of COT/vm_description/ovf/ovf.py that tie together the File entries, the Disk entries and
the disk devices of a package, and of the commands that use them: COT/commands/add_file.py,
COT/commands/add_disk.py and COT/commands/remove_file.py.

A File or Disk object (an XML element that Python passes around by reference) is given by its position among
the children of its section, an OVFItem by its key in the hardware.  Where Python raises, the model returns the
error only: the commands do not write a package after an exception, so the half-edited one is not observable.
-/
namespace Cot

/-! ### Names (name_helper.py:211-228, 299-302, 456, 470-471, 507) -/

/-- name_helper.py:212 `FILE` -/
def fileTag (v : Ver) : Str := ovfTag v "File".toList
/-- name_helper.py:215 `FILE_ID` -/
def fileId (v : Ver) : Str := ovfTag v "id".toList
/-- name_helper.py:216 `FILE_HREF` -/
def fileHref (v : Ver) : Str := ovfTag v "href".toList
/-- name_helper.py:217 `FILE_SIZE` -/
def fileSize (v : Ver) : Str := ovfTag v "size".toList
/-- name_helper.py:221 `DISK` -/
def diskTag (v : Ver) : Str := ovfTag v "Disk".toList
/-- name_helper.py:224 `DISK_ID` -/
def diskId (v : Ver) : Str := ovfTag v "diskId".toList
/-- name_helper.py:225 `DISK_FILE_REF` -/
def diskFileRef (v : Ver) : Str := ovfTag v "fileRef".toList
/-- name_helper.py:226 `DISK_CAPACITY` -/
def diskCapacity (v : Ver) : Str := ovfTag v "capacity".toList
/-- name_helper.py:227 `DISK_CAP_UNITS` -/
def diskCapUnits (v : Ver) : Str := ovfTag v "capacityAllocationUnits".toList
/-- name_helper.py:228 `DISK_FORMAT` -/
def diskFormat (v : Ver) : Str := ovfTag v "format".toList
/-- name_helper.py:220, 456 `DISK_SECTION` and 378, 507 `DISK_SECTION_ATTRIB` -/
def diskSecTag (v : Ver) : Str := sectionTag v "DiskSection".toList
/-- name_helper.py:378, 507 `DISK_SECTION_ATTRIB` -/
def diskSecAttrib (v : Ver) : List (Str × Str) := sectionAttrib v "DiskSection".toList

/-- name_helper.py:299 `OLD_HOST_RSRC_FILE_REF` -/
def oldFileRef : Str := "/file/".toList
/-- name_helper.py:300 `OLD_HOST_RSRC_DISK_REF` -/
def oldDiskRef : Str := "/disk/".toList
/-- name_helper.py:301, 470 `HOST_RSRC_FILE_REF` -/
def hostFileRef : Ver → Str
  | .v0 => "/file/".toList
  | _ => "ovf:/file/".toList
/-- name_helper.py:302, 471 `HOST_RSRC_DISK_REF` -/
def hostDiskRef : Ver → Str
  | .v0 => "/disk/".toList
  | _ => "ovf:/disk/".toList

/-! ### State -/

/-- What these functions see of an OVF object: the References section, the DiskSection if any, the hardware, and
`file_references` (the files behind the File entries).
Simplification: the DiskSection is kept apart from the envelope, in which Python inserts and removes it
(the place is chosen by `_ensure_section`, see C30). -/
structure Pkg where
  refs : Elem
  disks : Option Elem
  hw : Hw
  files : List (Str × FRef)

/-- What the functions depend on: the item environment, the Python version, the file system at the time of the
call, the checksum function and the package's checksum algorithm. -/
structure Ctx where
  env : Env
  py : PyVer
  fs : Fs
  digest : Str → List UInt8 → Except Err Str
  algo : Option Str

/-! ### Looking up entries -/

/-- the positions of the elements that satisfy `p`, counted from `n` -/
def positions (p : Elem → Bool) : List Elem → Nat → List Nat
  | [], _ => []
  | e :: t, n => if p e then n :: positions p t (n + 1) else positions p t (n + 1)

/-- is this an element with the tag, and with the attribute at the value (`none`: without the attribute)? -/
def entryIs (tag key : Str) (val : Option Str) (e : Elem) : Bool := e.tag == tag && e.get key == val

/-- xml_file.py:131-212 `find_child(parent, tag, attrib={key: val})`: the position of the element found -/
def findPos (cs : List Elem) (tag key : Str) (val : Option Str) : Except Err (Option Nat) :=
  match positions (entryIs tag key val) cs 0 with
  | [] => .ok none
  | [i] => .ok (some i)
  | _ :: _ :: _ => .error .lookupError

/-- the children of the DiskSection -/
def Pkg.diskList (p : Pkg) : List Elem :=
  match p.disks with
  | none => []
  | some d => d.children

/-- `elem.get(key)` of a File or Disk object -/
def attrOf (cs : List Elem) (i : Nat) (key : Str) : Option Str :=
  match cs[i]? with
  | none => none
  | some e => e.get key

/-- ovf.py:2937-2950 `find_disk_from_file_id(file_id)` -/
def findDiskFromFileId (v : Ver) (p : Pkg) (fid : Option Str) : Except Err (Option Nat) :=
  match fid, p.disks with
  | some f, some d => findPos d.children (diskTag v) (diskFileRef v) (some f)
  | _, _ => .ok none

/-- `find_item(properties={HOST_RESOURCE: s})` -/
def itemFromResource (env : Env) (hw : Hw) (s : Str) : Except Err (Option Str) :=
  findItem env hw none [(hostResource, some (.str s))] none

/-- ovf.py:2888-2935: the two attempts, current and old prefix.  `prefix + None` is a TypeError. -/
def itemFromRef (env : Env) (hw : Hw) (new old : Str) (id : Option Str) : Except Err (Option Str) :=
  match id with
  | none => .error .typeError
  | some s => match itemFromResource env hw (new ++ s) with
    | .error e => .error e
    | .ok (some k) => .ok (some k)
    | .ok none => itemFromResource env hw (old ++ s)

/-- ovf.py:2888-2911 `find_item_from_disk(disk)` -/
def findItemFromDisk (env : Env) (p : Pkg) : Option Nat → Except Err (Option Str)
  | none => .ok none
  | some j => itemFromRef env p.hw (hostDiskRef env.ver) oldDiskRef (attrOf p.diskList j (diskId env.ver))

/-- ovf.py:2913-2935 `find_item_from_file(file_obj)` -/
def findItemFromFile (env : Env) (p : Pkg) : Option Nat → Except Err (Option Str)
  | none => .ok none
  | some i => itemFromRef env p.hw (hostFileRef env.ver) oldFileRef (attrOf p.refs.children i (fileId env.ver))

/-- `item.get_value(name)` for an item given by its key -/
def valueAt (env : Env) (hw : Hw) (k name : Str) : Except Err (Option Val) :=
  match dget? hw k with
  | none => .error .keyError
  | some it => it.getValue env name none

/-- ovf.py:2866-2886 `find_parent_from_item(item)` -/
def findParent (env : Env) (hw : Hw) : Option Str → Except Err (Option Str)
  | none => .ok none
  | some k => match valueAt env hw k parentName with
    | .error e => .error e
    | .ok none => .ok none
    | .ok (some v) => findItem env hw none [(instanceId env.ver, some v)] none

/-- the result of a search: `(file, disk, ctrl_item, disk_item)` -/
structure Found where
  file : Option Nat
  disk : Option Nat
  ctrl : Option Str
  dev : Option Str
deriving DecidableEq

/-- ovf.py:2034-2046 and 2090-2102: from the File and the Disk to the devices -/
def devicesOf (env : Env) (p : Pkg) (f d : Option Nat) : Except Err Found := do
  let k1 ← findItemFromFile env p f
  let k2 ← findItemFromDisk env p d
  let k ← checkForConflict [k1, k2]
  let c ← findParent env p.hw k
  match k, c with
  | some _, none => .error .lookupError
  | _, _ => .ok ⟨f, d, c, k⟩

/-- ovf.py:2000-2046 `search_from_filename(filename)` -/
def searchFromFilename (env : Env) (p : Pkg) (name : Option Str) : Except Err Found :=
  match findPos p.refs.children (fileTag env.ver) (fileHref env.ver) name with
  | .error e => .error e
  | .ok none => .ok ⟨none, none, none, none⟩
  | .ok (some i) =>
    match findDiskFromFileId env.ver p (attrOf p.refs.children i (fileId env.ver)) with
    | .error e => .error e
    | .ok d => devicesOf env p (some i) d

/-- ovf.py:2048-2102 `search_from_file_id(file_id)` -/
def searchFromFileId (env : Env) (p : Pkg) (fid : Option Str) : Except Err Found :=
  match fid with
  | none => .ok ⟨none, none, none, none⟩
  | some s => match findPos p.refs.children (fileTag env.ver) (fileId env.ver) (some s) with
    | .error e => .error e
    | .ok f => match findDiskFromFileId env.ver p (some s) with
      | .error e => .error e
      | .ok d => match f, d with
        | none, some _ => .error .lookupError
        | _, _ => devicesOf env p f d

/-- does a HostResource value refer to a Disk? ovf.py:2158-2159, 2307-2308 -/
def isDiskRef (v : Ver) (s : Str) : Bool := startsWith s (hostDiskRef v) || startsWith s oldDiskRef
/-- does a HostResource value refer to a File? ovf.py:2173-2174, 2313-2314 -/
def isFileRef (v : Ver) (s : Str) : Bool := startsWith s (hostFileRef v) || startsWith s oldFileRef

/-- ovf.py:2158-2187: from the HostResource of a disk device to its File and Disk -/
def fromResource (v : Ver) (p : Pkg) (s : Str) : Except Err (Option Nat × Option Nat) :=
  if isDiskRef v s then
    match (match p.disks with
      | none => .ok none
      | some d => findPos d.children (diskTag v) (diskId v) (some (pathBase s)) : Except Err (Option Nat)) with
    | .error e => .error e
    | .ok none => .ok (none, none)
    | .ok (some j) => match findPos p.refs.children (fileTag v) (fileId v) (attrOf p.diskList j (diskFileRef v)) with
      | .error e => .error e
      | .ok f => .ok (f, some j)
  else if isFileRef v s then
    match findPos p.refs.children (fileTag v) (fileId v) (some (pathBase s)) with
    | .error e => .error e
    | .ok f => match (match p.disks with
        | none => .ok none
        | some d => findPos d.children (diskTag v) (diskFileRef v) (some (pathBase s)) : Except Err (Option Nat)) with
      | .error e => .error e
      | .ok d => .ok (f, d)
  else .ok (none, none)

/-- a value on which a string method is called -/
def asStr : Val → Except Err Str
  | .str s => .ok s
  | .tup _ => .error .attributeError

/-- ovf.py:2104-2189 `search_from_controller(controller, address)` -/
def searchFromController (env : Env) (p : Pkg) (controller address_ : Option Str) : Except Err Found :=
  match controller, address_ with
  | some c, some a =>
    match splitOnChar ':' a with
    | ca :: da :: _ => do
      let ctrl ← findItem env p.hw (some c) [(address, some (.str ca))] none
      match ctrl with
      | none => .ok ⟨none, none, none, none⟩
      | some k => do
        let inst ← valueAt env p.hw k (instanceId env.ver)
        let dev ← findItem env p.hw none [(parentName, inst), (addressOnParent, some (.str da))] none
        match dev with
        | none => .ok ⟨none, none, some k, none⟩
        | some d => do
          let hr ← valueAt env p.hw d hostResource
          match hr with
          | none => .ok ⟨none, none, some k, some d⟩
          | some v => do
            let s ← asStr v
            let fd ← fromResource env.ver p s
            .ok ⟨fd.1, fd.2, some k, some d⟩
    | _ => .error .indexError
  | _, _ => .ok ⟨none, none, none, none⟩

/-- add_disk.py:283-348 `search_for_elements(vm, disk_file, file_id, controller, address)` -/
def searchForElements (env : Env) (p : Pkg) (name : Str) (fid controller address_ : Option Str) :
    Except Err Found := do
  let r1 ← searchFromFilename env p (some name)
  let r2 ← searchFromFileId env p (match fid with
    | some f => some f
    | none => some name)
  let r3 ← searchFromController env p controller address_
  let f ← checkForConflict [r1.file, r2.file, r3.file]
  let d ← checkForConflict [r1.disk, r2.disk, r3.disk]
  let c ← checkForConflict [r1.ctrl, r2.ctrl, r3.ctrl]
  let k ← checkForConflict [r1.dev, r2.dev, r3.dev]
  .ok ⟨f, d, c, k⟩

/-- ovf.py:2268-2279: the loop of `get_common_subtype`; `sub` is the sub-type so far.  A sub-type of `None` is
"none so far". -/
def subtypeLoop (env : Env) (hw : Hw) : List Str → Option Val → Except Err (Option Val)
  | [], sub => .ok sub
  | k :: r, sub => match valueAt env hw k resourceSubType with
    | .error e => .error e
    | .ok s => match sub with
      | none => subtypeLoop env hw r s
      | some x => if some x ≠ s then .ok none else subtypeLoop env hw r (some x)

/-- ovf.py:2257-2279 `get_common_subtype(device_type)` -/
def commonSubtype (env : Env) (hw : Hw) (rt : Str) : Except Err (Option Val) :=
  match findAllItems env hw (some rt) [] [] with
  | .error e => .error e
  | .ok ids => subtypeLoop env hw ids none

/-- ovf.py:2952-2991 `find_empty_drive(drive_type)` -/
def findEmptyDrive (env : Env) (p : Pkg) (drive : Str) : Except Err (Option Str) :=
  if drive = "cdrom".toList then
    match findAllItems env p.hw (some drive) [(hostResource, none)] [] with
    | .error e => .error e
    | .ok ids => .ok ids.head?
  else if drive = "harddisk".toList then
    match positions (entryIs (diskTag env.ver) (diskFileRef env.ver) none) p.diskList 0 with
    | [] => .ok none
    | j :: _ => findItemFromDisk env p (some j)
  else .error .valueUnsupported

/-- ovf.py:2993-3010 `find_device_location(device)`.  `None + ':'` and `':' + None` are TypeErrors. -/
def deviceLocation (env : Env) (hw : Hw) (k : Str) : Except Err (Str × Str) := do
  let c ← findParent env hw (some k)
  match c with
  | none => .error .lookupError
  | some c => match dget? hw c with
    | none => .error .keyError
    | some ci => do
      let a ← ci.getValue env address none
      let b ← valueAt env hw k addressOnParent
      match a, b with
      | some (.str a), some (.str b) => .ok (ci.hardwareType env, a ++ ':' :: b)
      | _, _ => .error .typeError

/-! ### Capacities -/

/-- ovf.py:3023-3034 `get_capacity_from_disk(disk)`; `int(None)` is a TypeError -/
def capacityOf (v : Ver) (d : Elem) : Except Err Int :=
  match d.get (diskCapacity v) with
  | none => .error .typeError
  | some c => match pyInt c with
    | none => .error .valueError
    | some z => programmaticBytesToInt (intStr z) ((d.get (diskCapUnits v)).getD "byte".toList)

/-- ovf.py:3036-3053 `set_capacity_of_disk(disk, capacity_bytes)` for a capacity given as a numeral, as the disk
images report it.  The endless loop for 0 (C22) is reported as a RuntimeError. -/
def setCapacity (v : Ver) (py : PyVer) (d : Elem) (n : Nat) : Except Err Elem :=
  match v with
  | .v0 => .ok (d.set (diskCapacity v) (natStr n))
  | _ => match intBytesToUnits py (n + 1) n with
    | none => .error .runtimeError
    | some (.error e) => .error e
    | some (.ok (c, u)) => .ok ((d.set (diskCapacity v) c).set (diskCapUnits v) u)

/-! ### Changing entries -/

/-- ovf.py:2373-2383: the disks from the given one on; the first whose File exists tells where the new File goes -/
def nextFile (v : Ver) (files : List Elem) : List Elem → Except Err (Option Nat)
  | [] => .ok none
  | d :: r => match findPos files (fileTag v) (fileId v) (d.get (diskFileRef v)) with
    | .error e => .error e
    | .ok (some i) => .ok (some i)
    | .ok none => nextFile v files r

/-- ovf.py:2357-2387: the position of a new File entry for a Disk that already exists.  `list.insert` gets an index
that counts File entries only. -/
def filePlace (v : Ver) (files disks : List Elem) (j : Nat) : Except Err Nat :=
  match nextFile v files ((disks.drop j).filter (fun e => e.tag == diskTag v)) with
  | .error e => .error e
  | .ok none => .ok (files.filter (fun e => e.tag == fileTag v)).length
  | .ok (some i) => .ok ((files.take i).filter (fun e => e.tag == fileTag v)).length

/-- `os.path.abspath` -/
def absName (w : Fs) (p : Str) : Str := normpath (if p.head? = some '/' then p else pathJoin w.cwd p)

/-- ovf.py:2389-2391: the attributes of a File entry -/
def fileElem (v : Ver) (fid name size : Str) : Elem :=
  (((Elem.new (fileTag v)).set (fileId v) fid).set (fileHref v) name).set (fileSize v) size

/-- `del file_references[href]` if there is such an entry, ovf.py:2348-2350 -/
def dropRef (files : List (Str × FRef)) : Option Str → List (Str × FRef)
  | none => files
  | some h => ddel files h

/-- ovf.py:2329-2393 `add_file(file_path, file_id, file_obj, disk)`: the position of the File entry and the new
package.  `clear()` also forgets text, tail and children. -/
def addFile (c : Ctx) (p : Pkg) (path fid : Str) (file disk : Option Nat) : Except Err (Nat × Pkg) := do
  let v := c.env.ver
  let cs := p.refs.children
  let pos ← (match file, disk with
    | some i, _ => .ok i
    | none, none => .ok cs.length
    | none, some j => filePlace v cs p.diskList j : Except Err Nat)
  let size ← (match c.fs.file (absName c.fs path) with
    | none => .error .ioError
    | some b => .ok b.length : Except Err Nat)
  let name := pathBase path
  let e := fileElem v fid name (natStr size)
  let ref ← FRef.init c.digest c.fs false (pathDir (absName c.fs path)) name c.algo none none
  match file with
  | some i => .ok (i, { p with
      refs := p.refs.setChildren (cs.set i e)
      files := dset (dropRef p.files (attrOf cs i (fileHref v))) name ref.1 })
  | none => .ok (pos, { p with
      refs := p.refs.setChildren (cs.take pos ++ e :: cs.drop pos)
      files := dset p.files name ref.1 })

/-- ovf.py:2395-2426 `remove_file(file_obj, disk, disk_drive)`.  `del file_references[href]` is a KeyError if the
file was missing from the start. -/
def removeFile (env : Env) (p : Pkg) (i : Nat) (disk : Option Nat) (drive : Option Str) : Except Err Pkg := do
  let files ← (match attrOf p.refs.children i (fileHref env.ver) with
    | none => .error .keyError
    | some h => if h ∈ dkeys p.files then .ok (ddel p.files h) else .error .keyError : Except Err _)
  let disks := (match disk, p.disks with
    | some j, some d => some (d.setChildren (d.children.eraseIdx j))
    | _, ds => ds)
  let hw ← (match drive with
    | none => .ok p.hw
    | some k => match dget? p.hw k with
      | none => .error .keyError
      | some it => do
        let t ← it.getValue env resourceType none
        if t = some (.str "15".toList) then do
          let it' ← it.setProperty env hostResource (.str []) ∅ true
          .ok (dset p.hw k it')
        else if t = some (.str "17".toList) then deleteItem env p.hw k
        else .error .valueUnsupported : Except Err Hw)
  .ok { refs := p.refs.setChildren (p.refs.children.eraseIdx i), disks := disks, hw := hw, files := files }

/-- the format attribute, ovf.py:2475-2477 -/
def vmdkFormat : Str := "http://www.vmware.com/interfaces/specifications/vmdk.html#streamOptimized".toList

/-- ovf.py:2802-2843 for a package without DiskSection: the new section -/
def newDiskSection (v : Ver) : Elem :=
  .mk (diskSecTag v) (diskSecAttrib v) none none
    [.mk (infoTag v) [] (some "Virtual disk information".toList) none []]

/-- ovf.py:2459-2478: a Disk entry.  `disk.set(DISK_ID, None)` would make the package unwritable: a TypeError. -/
def diskElem (c : Ctx) (did : Option Str) (fid : Str) (cap : Nat) : Except Err Elem := do
  let v := c.env.ver
  let e ← setCapacity v c.py (Elem.new (diskTag v)) cap
  match did with
  | none => .error .typeError
  | some did => .ok (((e.set (diskId v) did).set (diskFileRef v) fid).set (diskFormat v) vmdkFormat)

/-- ovf.py:2428-2478 `add_disk(disk_repr, file_id, drive_type, disk)`; `cap` is `disk_repr.capacity` -/
def addDisk (c : Ctx) (p : Pkg) (cap : Nat) (fid drive : Str) (disk : Option Nat) :
    Except Err (Option Nat × Pkg) :=
  let v := c.env.ver
  if drive ≠ "harddisk".toList then
    match disk, p.disks with
    | some j, some d =>
      let cs := d.children.eraseIdx j
      if cs.any (fun e => e.tag == diskTag v) then .ok (none, { p with disks := some (d.setChildren cs) })
      else .ok (none, { p with disks := none })
    | _, _ => .ok (none, p)
  else
    let d := p.disks.getD (newDiskSection v)
    match disk with
    | some j => do
      let e ← diskElem c (attrOf d.children j (diskId v)) fid cap
      .ok (some j, { p with disks := some (d.setChildren (d.children.set j e)) })
    | none => do
      let e ← diskElem c (some fid) fid cap
      .ok (some d.children.length, { p with disks := some (d.setChildren (d.children ++ [e])) })

/-- `RES_MAP[drive_type]` and the other settings of ovf.py:2610-2628, on the item with key `k` -/
def fillDisk (c : Ctx) (hw : Hw) (k drive res : Str) (name descr : Option Str) : Except Err Hw :=
  match dget? hw k with
  | none => .error .keyError
  | some it => do
    let code ← resourceCode drive
    let it ← it.setProperty c.env resourceType (.str code) ∅ true
    let it ← it.setProperty c.env hostResource (.str res) ∅ true
    let it ← (match name with
      | none => .ok it
      | some n => it.setProperty c.env (elementName c.env.ver) (.str n) ∅ true)
    let it ← (match descr with
      | none => .ok it
      | some s => it.setProperty c.env itemDescription (.str s) ∅ true)
    .ok (dset hw k it)

/-- ovf.py:2585-2630 `add_disk_device(...)`: the key of the device and the hardware.  `prefix + None` and
`None.get` are errors. -/
def addDiskDevice (c : Ctx) (p : Pkg) (drive : Str) (addr name descr : Option Str) (disk : Option Nat) (file : Nat)
    (ctrl : Str) (dev : Option Str) : Except Err (Str × Pkg) := do
  let v := c.env.ver
  let r ← (match dev with
    | some k => .ok (k, name, p.hw)
    | none => match createNewDisk c.env p.hw drive addr name ctrl with
      | .error e => .error e
      | .ok (k, nm, hw) => .ok (k, some nm, hw) : Except Err (Str × Option Str × Hw))
  let res ← (if drive = "harddisk".toList then
      match disk with
      | none => .error .attributeError
      | some j => match attrOf p.diskList j (diskId v) with
        | none => .error .typeError
        | some s => .ok (hostDiskRef v ++ s)
    else match attrOf p.refs.children file (fileId v) with
      | none => .error .typeError
      | some s => .ok (hostFileRef v ++ s) : Except Err Str)
  let hw ← fillDisk c r.2.2 r.1 drive res r.2.1 descr
  .ok (r.1, { p with hw := hw })

/-! ### The commands -/

/-- what the user is asked -/
inductive Prompt
  | replaceFile (old : Option Str) (new : Str)
  | fillDrive (drive : Str)
  | changeType (old new : Str)
  | changeSubtype (controller : Str) (old : Val) (new : Str)
  | addController (controller : Str)
  | removeFile (path fid : Option Str)

/-- ui.py:129-141 `confirm_or_die`; the answers are a function of the prompt (see C41 for how a line typed by the
user is read) -/
def orDie (ask : Prompt → Bool) (q : Prompt) : Except Err Unit := if ask q then .ok () else .error .systemExit

/-- add_file.py:82-110 `run` -/
def addFileCmd (c : Ctx) (ask : Prompt → Bool) (p : Pkg) (path : Str) (fid : Option Str) : Except Err Pkg := do
  let v := c.env.ver
  let r1 ← searchFromFilename c.env p (some (pathBase path))
  let f ← (match fid with
    | none => .ok r1.file
    | some s => match searchFromFileId c.env p (some s) with
      | .error e => .error e
      | .ok r2 => checkForConflict [r1.file, r2.file] : Except Err (Option Nat))
  let id ← (match fid, f with
    | some s, _ => .ok s
    | none, some i => match attrOf p.refs.children i (fileId v) with
      | none => .error .typeError
      | some s => .ok s
    | none, none => .ok (pathBase path) : Except Err Str)
  let _ ← (match f with
    | none => .ok ()
    | some i => orDie ask (.replaceFile (attrOf p.refs.children i (fileHref v)) path) : Except Err Unit)
  let r ← addFile c p path id f none
  .ok r.2

/-- remove_file.py:69-116 `run` -/
def removeFileCmd (env : Env) (ask : Prompt → Bool) (p : Pkg) (path fid : Option Str) : Except Err Pkg := do
  let v := env.ver
  let r1 ← searchFromFilename env p path
  let r2 ← searchFromFileId env p fid
  let f ← checkForConflict [r1.file, r2.file]
  let d ← checkForConflict [r1.disk, r2.disk]
  let k ← checkForConflict [r1.dev, r2.dev]
  match f with
  | none => .error .invalidInput
  | some i => do
    let _ ← (match fid with
      | none => .ok ()
      | some s => matchOrDie (some s) (attrOf p.refs.children i (fileId v)) : Except Err Unit)
    let _ ← (match path with
      | none => .ok ()
      | some s => matchOrDie (some s) (attrOf p.refs.children i (fileHref v)) : Except Err Unit)
    let _ ← orDie ask (.removeFile (match path with
      | some s => some s
      | none => attrOf p.refs.children i (fileHref v)) (match fid with
      | some s => some s
      | none => attrOf p.refs.children i (fileId v)))
    removeFile env p i d k

/-- ovf.py:2281-2327 `check_sanity_of_disk_device(disk, file_obj, disk_item, ctrl_item)` -/
def checkSanity (env : Env) (p : Pkg) (disk file : Option Nat) (dev ctrl : Option Str) : Except Err Unit :=
  match dev with
  | none => .ok ()
  | some k => do
    let _ ← (match ctrl with
      | none => .ok ()
      | some c => do
        let a ← valueAt env p.hw k parentName
        let b ← valueAt env p.hw c (instanceId env.ver)
        matchOrDie a b : Except Err Unit)
    let hr ← valueAt env p.hw k hostResource
    match hr with
    | none => .ok ()
    | some v => do
      let s ← asStr v
      match isDiskRef env.ver s, disk, isFileRef env.ver s, file with
      | true, some j, _, _ => matchOrDie (some (pathBase s)) (attrOf p.diskList j (diskId env.ver))
      | _, _, true, some i => matchOrDie (some (pathBase s)) (attrOf p.refs.children i (fileId env.ver))
      | _, _, _, _ => .error .valueUnsupported

/-- add_disk.py:351-387 `guess_controller_type(platform, ctrl_item, drive_type)`; `plat` is
`platform.controller_type_for_device` (C37) -/
def guessController (env : Env) (plat : Str → Str) (hw : Hw) (ctrl : Option Str) (drive : Str) : Except Err Str :=
  match ctrl with
  | none => .ok (plat drive)
  | some k => match dget? hw k with
    | none => .error .keyError
    | some it =>
      let t := it.hardwareType env
      if t ∈ ["ide".toList, "sata".toList, "scsi".toList] then .ok t else .error .valueUnsupported

/-- add_disk.py:390-437 `validate_elements(...)` -/
def validateElements (env : Env) (p : Pkg) (r : Found) (fid : Option Str) (ctype : Str) : Except Err Unit := do
  let v := env.ver
  let _ ← (match r.file with
    | none => .ok ()
    | some i => do
      let _ ← (match fid with
        | none => .ok ()
        | some s => matchOrDie (attrOf p.refs.children i (fileId v)) (some s) : Except Err Unit)
      match r.disk with
      | none => .ok ()
      | some j => matchOrDie (attrOf p.refs.children i (fileId v)) (attrOf p.diskList j (diskFileRef v))
    : Except Err Unit)
  let _ ← (match r.disk, fid with
    | some j, some s => matchOrDie (attrOf p.diskList j (diskFileRef v)) (some s)
    | _, _ => .ok () : Except Err Unit)
  let _ ← checkSanity env p r.disk r.file r.dev r.ctrl
  match r.ctrl with
  | none => .ok ()
  | some k => match dget? p.hw k with
    | none => .error .keyError
    | some it => matchOrDie (it.hardwareType env) ctype

/-- add_disk.py:440-492 `confirm_elements(...)`.  The sub-type of an item is a tuple (item.py:448-455), the one given
by the user a string: they are never equal. -/
def confirmElements (env : Env) (ask : Prompt → Bool) (p : Pkg) (r : Found) (path drive ctype : Str)
    (subtype : Option Str) : Except Err Unit := do
  let v := env.ver
  let _ ← (match r.file with
    | some i => orDie ask (.replaceFile (attrOf p.refs.children i (fileHref v)) path)
    | none => if r.disk.isSome ∨ r.dev.isSome then orDie ask (.fillDrive drive) else .ok () : Except Err Unit)
  let _ ← (match r.dev with
    | none => .ok ()
    | some k => match dget? p.hw k with
      | none => .error .keyError
      | some it =>
        if it.hardwareType env ≠ drive then orDie ask (.changeType (it.hardwareType env) drive) else .ok ()
    : Except Err Unit)
  match r.ctrl with
  | none => orDie ask (.addController (upper ctype))
  | some k => match subtype with
    | none => .ok ()
    | some s => do
      let cur ← valueAt env p.hw k resourceSubType
      match cur with
      | none => .ok ()
      | some w => if w = .str s then .ok () else orDie ask (.changeSubtype ctype w s)

/-- What the user gives to `cot add-disk` (all optional but the image), after conversion of the image (C61): its
path, its capacity, and the drive type, given or predicted. -/
structure DiskReq where
  path : Str
  cap : Nat
  drive : Str
  fid : Option Str
  controller : Option Str
  subtype : Option Str
  address : Option Str
  name : Option Str
  descr : Option Str

/-- add_disk.py:561-567: the file identifier to use -/
def pickFileId (v : Ver) (p : Pkg) (r : Found) (fid : Option Str) (name : Str) : Str :=
  match fid with
  | some s => s
  | none => match (match r.file with
      | none => none
      | some i => attrOf p.refs.children i (fileId v)) with
    | some s => s
    | none => match (match r.disk with
        | none => none
        | some j => attrOf p.diskList j (diskFileRef v)) with
      | some s => s
      | none => name

/-- add_disk.py:576-583: the two parts of the address -/
def addressParts : Option Str → Except Err (Option Str × Option Str)
  | none => .ok (none, none)
  | some a => match splitOnChar ':' a with
    | x :: y :: _ => .ok (some x, some y)
    | _ => .error .indexError

/-- a stored value handed to `set_property` as sub-type, or the user's string -/
def subtypeArg (env : Env) (hw : Hw) (ctrl : Option Str) (ctype : Str) (subtype : Option Str) :
    Except Err (Option InVal) :=
  match subtype, ctrl with
  | some s, _ => .ok (some (.str s))
  | none, some _ => .ok none
  | none, none => match commonSubtype env hw ctype with
    | .error e => .error e
    | .ok s => .ok (s.map Val.toIn)

/-- add_disk.py:560-593, once everything is settled: the changes -/
def applyDisk (c : Ctx) (p : Pkg) (q : DiskReq) (r : Found) (ctype : Str) (addr : Option Str) :
    Except Err (Str × Pkg) := do
  let fid := pickFileId c.env.ver p r q.fid (pathBase q.path)
  let f ← addFile c p q.path fid r.file r.disk
  let d ← addDisk c f.2 q.cap fid q.drive r.disk
  let parts ← addressParts addr
  let sub ← subtypeArg c.env d.2.hw r.ctrl ctype q.subtype
  let k ← addControllerDevice c.env d.2.hw ctype sub parts.1 r.ctrl
  addDiskDevice c { d.2 with hw := k.2 } q.drive parts.2 q.name q.descr d.1 f.1 k.1 r.dev

/-- add_disk.py:545-553: the controller to use and the address, if any -/
def settleController (env : Env) (plat : Str → Str) (p : Pkg) (q : DiskReq) (r : Found) :
    Except Err (Str × Option Str × Option Str) := do
  let ctype ← (match q.controller with
    | some s => .ok s
    | none => guessController env plat p.hw r.ctrl q.drive)
  match r.ctrl, q.address with
  | none, none => do
    let o ← findOpenController env p.hw ctype
    match o with
    | none => .ok (ctype, none, none)
    | some (k, a) => .ok (ctype, some k, some a)
  | _, _ => .ok (ctype, r.ctrl, q.address)

/-- add_disk.py:495-593 `add_disk_worker(...)`: the key of the device and the package -/
def addDiskCmd (c : Ctx) (plat : Str → Str) (ask : Prompt → Bool) (p : Pkg) (q : DiskReq) :
    Except Err (Str × Pkg) := do
  let r ← searchForElements c.env p (pathBase q.path) q.fid q.controller q.address
  let s ← settleController c.env plat p q r
  let r' : Found := { r with ctrl := s.2.1 }
  let _ ← validateElements c.env p r' q.fid s.1
  let _ ← confirmElements c.env ask p r' q.path q.drive s.1 q.subtype
  applyDisk c p q r' s.1 s.2.2

/-! ### Refreshing the entries before writing (ovf.py:856-910) -/

/-- ovf.py:862-872: refresh the references, forgetting files that no longer exist -/
def refreshRefs (c : Ctx) : List (Str × FRef) → Except Err (List (Str × FRef))
  | [] => .ok []
  | (h, r) :: t => match r.exists_ c.fs with
    | (.error e, _) => .error e
    | (.ok false, _) => refreshRefs c t
    | (.ok true, r1) => match r1.refresh c.digest c.fs with
      | (.error e, _) => .error e
      | (.ok _, r2) => match refreshRefs c t with
        | .error e => .error e
        | .ok l => .ok ((h, r2) :: l)

/-- ovf.py:874-881: File entries without a file are removed -/
def dropMissing (v : Ver) (files : List (Str × FRef)) (cs : List Elem) : List Elem :=
  cs.filter (fun e => !(e.tag == fileTag v && !(match e.get (fileHref v) with
    | none => false
    | some h => decide (h ∈ dkeys files))))

/-- ovf.py:883-910, one file: the size, and the capacity of the Disk on it.  `capOf` is the capacity that the disk
helpers report for a path; it is not asked for a file inside an archive.  `str != str` is compared after conversion
to numbers, which is the same for numerals without leading zeros. -/
def refreshOne (c : Ctx) (capOf : Str → Except Err Nat) (h : Str) (r : FRef) (p : Pkg) : Except Err Pkg := do
  let v := c.env.ver
  let i ← findPos p.refs.children (fileTag v) (fileHref v) (some h)
  match i with
  | none => .error .runtimeError                  -- AssertionError
  | some i => do
    let n ← (r.readSize c.fs).1
    let cs := p.refs.children.modify i (fun e => e.set (fileSize v) (natStr n))
    let p := { p with refs := p.refs.setChildren cs }
    let d ← findDiskFromFileId v p (attrOf cs i (fileId v))
    match d, p.disks with
    | some j, some ds =>
      if r.inTar then .ok p
      else match ds.children[j]? with
        | none => .ok p
        | some e => do
          let real ← capOf (pathJoin r.container r.filename)
          let rep ← capacityOf v e
          if rep = (real : Int) then .ok p
          else do
            let e' ← setCapacity v c.py e real
            .ok { p with disks := some (ds.setChildren (ds.children.set j e')) }
    | _, _ => .ok p

/-- ovf.py:883-910: the loop -/
def refreshEach (c : Ctx) (capOf : Str → Except Err Nat) : List (Str × FRef) → Pkg → Except Err Pkg
  | [], p => .ok p
  | (h, r) :: t, p => match refreshOne c capOf h r p with
    | .error e => .error e
    | .ok p' => refreshEach c capOf t p'

/-- ovf.py:856-910 `_refresh_file_references()` -/
def refreshFiles (c : Ctx) (capOf : Str → Except Err Nat) (p : Pkg) : Except Err Pkg := do
  let files ← refreshRefs c p.files
  refreshEach c capOf files { p with
    files := files
    refs := p.refs.setChildren (dropMissing c.env.ver files p.refs.children) }

end Cot
