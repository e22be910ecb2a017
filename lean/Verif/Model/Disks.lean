import Verif.Py.Basic
import Verif.Py.Path
import Verif.Py.Re
import Verif.Model.Utilities
/-
Model of disk images: COT/disks/disk.py, iso.py, qcow2.py, raw.py, vmdk.py.

The helper programs (qemu-img, isoinfo, fatdisk, vmdktool, …) and the file system are parameters; what is modelled
is which commands COT runs, with which arguments and in which order, and how it interprets their output.
-/
namespace Cot

/-- The disk formats, i.e. the subclasses of DiskRepresentation. -/
inductive DiskFmt | iso | qcow2 | raw | vmdk
  deriving DecidableEq, Repr

/-- disk_format: iso.py:32, qcow2.py:24, raw.py:28, vmdk.py:29 -/
def DiskFmt.name : DiskFmt → Str
  | .iso => "iso".toList
  | .qcow2 => "qcow2".toList
  | .raw => "raw".toList
  | .vmdk => "vmdk".toList

/-- disk.py:32-40 `subclasses()`: in the order of the imports of disks/__init__.py:45-48 -/
def diskClasses : List DiskFmt := [.iso, .qcow2, .raw, .vmdk]

/-- disk.py:42-54 `class_for_format` -/
def classForFormat (f : Str) : Option DiskFmt := diskClasses.find? (fun c => decide (c.name = f))

/-- What detection looks at. -/
structure DiskWorld where
  /-- `os.path.exists` -/
  pathExists : Str → Bool
  /-- output of `qemu-img info path` -/
  qemuInfo : Str → Except Err Str
  /-- `bool(helpers['isoinfo'])` -/
  hasIsoinfo : Bool
  /-- output of `isoinfo -i path -d` -/
  isoinfo : Str → Except Err Str
  /-- contents of the file -/
  bytes : Str → List Nat

/-- disk.py:243 `file format: (\S*)` -/
def fileFormatRe : Re := .seq (.lit "file format: ".toList) (.grp 1 (.star (.cls (fun c => !isWs c))))

/-- disk.py:219-251 `file_is_this_type`, the default implementation -/
def qemuIsType (w : DiskWorld) (f : DiskFmt) (path : Str) : Except Err Nat :=
  if w.pathExists path = false then .error .helperError
  else match w.qemuInfo path with
    | .error e => .error e
    | .ok out => match reSearch fileFormatRe out with
      | none => .error .runtimeError
      | some m => .ok (if m.group 1 = some f.name then 100 else 0)

/-- raw.py:58-82 `RAW.file_is_this_type` -/
def rawIsType (w : DiskWorld) (path : Str) : Except Err Nat :=
  match qemuIsType w .raw path with
  | .error e => .error e
  | .ok c =>
    if c = 100 then
      (if pathExt path = ".raw".toList ∨ pathExt path = ".img".toList then .ok 60 else .ok 10)
    else .ok c

/-- iso.py:131-138: the five bytes at an offset, decoded as ASCII with other bytes ignored, are "CD001" -/
def magicAt (b : List Nat) (off : Nat) : Bool :=
  decide ((((b.drop off).take 5).filter (fun x => decide (x < 128))).map Char.ofNat = "CD001".toList)

/-- iso.py:106-139 `ISO.file_is_this_type` -/
def isoIsType (w : DiskWorld) (path : Str) : Except Err Nat :=
  if w.pathExists path = false then .error .helperError
  else if w.hasIsoinfo then
    match w.isoinfo path with
    | .ok _ => .ok 100
    | .error .helperError => .ok 0
    | .error e => .error e
  else if magicAt (w.bytes path) 0x8001 || magicAt (w.bytes path) 0x8801 || magicAt (w.bytes path) 0x9001 then .ok 100
  else .ok 0

/-- `subclass.file_is_this_type(path)` -/
def fileIsType (w : DiskWorld) (path : Str) : DiskFmt → Except Err Nat
  | .iso => isoIsType w path
  | .raw => rawIsType w path
  | f => qemuIsType w f path

/-- disk.py:73-85: the loop over the subclasses -/
def pickBest {α : Type} (conf : α → Except Err Nat) : List α → Option α → Nat → Except Err (Option α)
  | [], best, _ => .ok best
  | c :: r, best, n => match conf c with
    | .error e => .error e
    | .ok k => if k > n then pickBest conf r (some c) k else pickBest conf r best n

/-- disk.py:86-96: nothing found is NotImplementedError -/
def pickResult : Except Err (Option DiskFmt) → Except Err DiskFmt
  | .error e => .error e
  | .ok none => .error .notImplementedError
  | .ok (some f) => .ok f

/-- disk.py:56-96 `from_file` -/
def fromFile (w : DiskWorld) (path : Str) : Except Err DiskFmt :=
  if w.pathExists path = false then .error .ioError
  else pickResult (pickBest (fileIsType w path) diskClasses none 0)

/-- disk.py:155 `(\d+) bytes` -/
def byteCountRe : Re := .seq (.grp 1 (.plus .dig)) (.lit " bytes".toList)

/-- disk.py:148-163 `capacity`, from the output of `qemu-img info` -/
def qemuCapacity (out : Str) : Except Err Str :=
  match reSearch byteCountRe out with
  | none => .error .runtimeError
  | some m => .ok ((m.group 1).getD [])

/-! ### Creating images -/

/-- an external command, or the removal of a file -/
inductive DiskOp
  | call (helper : Str) (args : List Str)
  | remove (path : Str)
  deriving DecidableEq, Repr

/-- raw.py:100-106: the capacity, in MiB, of an image for files of this total size.  On Python 3 `/` gives the
nearest double (dividing a double by a power of two is exact), and so does `+ 1`; on Python 2 it is integer
division. -/
def rawCapacityMB (py : PyVer) (total : Nat) : Nat :=
  match py with
  | .py2 => 8 * (total / 1024 / 1024 / 8 + 1)
  | .py3 => roundDouble (roundDouble total + 8 * 1024 * 1024) / (1024 * 1024)

/-- raw.py:84-120 `RAW._create_file`: the commands run; `files` are paths with sizes -/
def rawCreate (py : PyVer) (path : Str) (files : List (Str × Nat)) (capacity : Option Str) : Except Err (List DiskOp) :=
  if files = [] then
    match capacity with
    | none => .error .typeError     -- not reached: create_file asks for a capacity or files
    | some c => .ok [.call "qemu-img".toList ["create".toList, "-f".toList, "raw".toList, path, c]]
  else
    let cap := match capacity with
      | some (ch :: cs) => ch :: cs
      | _ => natStr (rawCapacityMB py (files.map Prod.snd).sum) ++ "M".toList
    .ok (.call "fatdisk".toList [path, "format".toList, "size".toList, cap, "fat32".toList] ::
      files.map (fun f => .call "fatdisk".toList [path, "fileadd".toList, f.1, pathBase f.1]))

/-- iso.py:82-104 `ISO._create_file`; `maker` is the program selected -/
def isoCreate (path : Str) (files : List Str) (subformat maker : Str) : Except Err (List DiskOp) :=
  if files = [] then .error .runtimeError
  else
    let args := ["-output".toList, path, "-full-iso9660-filenames".toList, "-iso-level".toList, "2".toList,
        "-allow-lowercase".toList] ++ (if subformat = "rockridge".toList then ["-r".toList] else []) ++ files
    .ok [.call maker (if maker = "xorriso".toList then ["-as".toList, "mkisofs".toList] ++ args else args)]

/-- disk.py:253-276 `create_file`: the checks before anything is run; `mk` is `_create_file` -/
def createFile (w : DiskWorld) (path : Str) (files : Option (List (Str × Nat))) (capacity : Option Str)
    (mk : List (Str × Nat) → Except Err (List DiskOp)) : Except Err (List DiskOp) :=
  if path = [] then .error .valueError
  else if w.pathExists path then .error .runtimeError
  else if capacity = none ∧ files = none then .error .runtimeError
  else mk (files.getD [])

/-- inject_config.py:142-162: the space an injected configuration disk is expected to need.  `total` is the size of
the files. -/
def configDiskEstimate (cdrom : Bool) (total : Int) : Int :=
  if cdrom then total else total + ((8 <<< 20) - total) % (8 <<< 20)

/-! ### Contents of images -/

/-- raw.py:40-54: the names in the output of `fatdisk path ls` -/
def rawFiles (out : Str) : List Str :=
  (splitOnChar '\n' out).filterMap (fun line =>
    if startsWith line "Listed".toList then none
    else if (splitWs line).length < 6 then none
    else (splitWs line)[5]?)

/-- iso.py:57-69: the names in the output of `isoinfo -i path -f -R` -/
def isoFiles (rockridge : Bool) (out : Str) : List Str :=
  (splitOnChar '\n' out).filterMap (fun line =>
    if line.head? ≠ some '/' then none
    else if rockridge = false ∧ hasSub ";1".toList line = true then
      some (((lower line).take (line.length - 2)).drop 1)
    else some (line.drop 1))

/-! ### Converting images -/

/-- An existing image: path, format, and what asking for its sub-format gives. -/
structure Image where
  path : Str
  fmt : DiskFmt
  subformat : Except Err (Option Str)

/-- What the outside does, depending on the operations carried out so far (latest first). -/
structure ConvWorld where
  /-- does the operation fail? -/
  fails : List DiskOp → DiskOp → Option Err
  /-- `helper_select(choices).name` -/
  select : List DiskOp → List (Str × Option Str) → Except Err Str
  /-- `os.path.exists` -/
  pathExists : List DiskOp → Str → Bool

/-- carry out an operation: it is recorded whether or not it fails -/
def ConvWorld.run (w : ConvWorld) (h : List DiskOp) (op : DiskOp) : Except Err Unit × List DiskOp :=
  match w.fails h op with
  | some e => (.error e, op :: h)
  | none => (.ok (), op :: h)

/-- disk.py:122-137 `cls(path)` -/
def ConvWorld.open (w : ConvWorld) (h : List DiskOp) (path : Str) (f : DiskFmt) : Except Err Image :=
  if path = [] then .error .valueError
  else if w.pathExists h path = false then .error .helperError
  else .ok { path := path, fmt := f, subformat := .ok none }

/-- vmdk.py:96-98, raw.py:134-136, qcow2.py:38-40: where the new image goes -/
def outputPath (dir : Str) (input : Str) (ext : Str) : Str := pathJoin dir (pathRoot (pathBase input) ++ ext)

/-- run a command and open its output -/
def ConvWorld.make (w : ConvWorld) (h : List DiskOp) (op : DiskOp) (out : Str) (f : DiskFmt) :
    Except Err Image × List DiskOp :=
  match w.run h op with
  | (.error e, h') => (.error e, h')
  | (.ok _, h') => (w.open h' out f, h')

/-- raw.py:137-139, qcow2.py:41-43: does reading this image need a recent qemu-img? -/
def needsNewQemu (img : Image) : Except Err Bool :=
  if img.fmt = .vmdk then
    match img.subformat with
    | .error e => .error e
    | .ok s => .ok (decide (s = some "streamOptimized".toList))
  else .ok false

/-- raw.py:122-151 `RAW.from_other_image` -/
def rawFrom (w : ConvWorld) (h : List DiskOp) (img : Image) (dir : Str) : Except Err Image × List DiskOp :=
  let out := outputPath dir img.path ".img".toList
  let viaQemu := w.make h (.call "qemu-img".toList ["convert".toList, "-O".toList, "raw".toList, img.path, out]) out .raw
  match needsNewQemu img with
  | .error e => (.error e, h)
  | .ok false => viaQemu
  | .ok true => match w.select h [("qemu-img".toList, some "1.2.0".toList), ("vmdktool".toList, none)] with
    | .error e => (.error e, h)
    | .ok name =>
      if name = "vmdktool".toList then w.make h (.call "vmdktool".toList ["-s".toList, out, img.path]) out .raw
      else viaQemu

/-- `try: return f(temp) finally: os.remove(temp.path)`: an error of the removal replaces the outcome -/
def ConvWorld.thenRemove (w : ConvWorld) (r : Except Err Image × List DiskOp) (temp : Str) :
    Except Err Image × List DiskOp :=
  match w.run r.2 (.remove temp) with
  | (.error e, h) => (.error e, h)
  | (.ok _, h) => (r.1, h)

/-- vmdk.py:53-140 `VMDK.from_other_image`, where `again` is the recursive call for a temporary raw image -/
def vmdkStep (w : ConvWorld) (again : List DiskOp → Image → Except Err Image × List DiskOp)
    (h : List DiskOp) (img : Image) (dir sub : Str) : Except Err Image × List DiskOp :=
  let out := outputPath dir img.path ".vmdk".toList
  let viaQemu := w.make h (.call "qemu-img".toList ["convert".toList, "-O".toList, "vmdk".toList, "-o".toList,
    "subformat=".toList ++ sub, img.path, out]) out .vmdk
  if sub = "streamOptimized".toList then
    match w.select h [("qemu-img".toList, some "2.5.1".toList), ("vmdktool".toList, none),
        ("qemu-img".toList, some "2.1.0".toList)] with
    | .error e => (.error e, h)
    | .ok name =>
      if name = "vmdktool".toList then
        if img.fmt ≠ .raw then
          match rawFrom w h img dir with
          | (.error e, h') => (.error e, h')
          | (.ok temp, h') => w.thenRemove (again h' temp) temp.path
        else w.make h (.call "vmdktool".toList ["-z9".toList, "-v".toList, out, img.path]) out .vmdk
      else viaQemu
  else viaQemu

/-- vmdk.py:53-140 `VMDK.from_other_image`.  The recursive call is on a raw image, which needs no further one. -/
def vmdkFrom (w : ConvWorld) (h : List DiskOp) (img : Image) (dir sub : Str) : Except Err Image × List DiskOp :=
  vmdkStep w (fun h' temp => vmdkStep w (fun h'' _ => (.error .runtimeError, h'')) h' temp dir sub) h img dir sub

/-- qcow2.py:26-62 `QCOW2.from_other_image`, with `again` as above.  If making the temporary image fails,
`os.remove(temp_image.path)` raises UnboundLocalError (modelled as attributeError) instead. -/
def qcow2Step (w : ConvWorld) (again : List DiskOp → Image → Except Err Image × List DiskOp)
    (h : List DiskOp) (img : Image) (dir : Str) : Except Err Image × List DiskOp :=
  let out := outputPath dir img.path ".qcow2".toList
  let viaQemu := w.make h (.call "qemu-img".toList ["convert".toList, "-O".toList, "qcow2".toList, img.path, out]) out .qcow2
  match needsNewQemu img with
  | .error e => (.error e, h)
  | .ok false => viaQemu
  | .ok true => match w.select h [("qemu-img".toList, some "1.2.0".toList), ("vmdktool".toList, none)] with
    | .error e => (.error e, h)
    | .ok name =>
      if name = "vmdktool".toList then
        match rawFrom w h img dir with
        | (.error _, h') => (.error .attributeError, h')
        | (.ok temp, h') => w.thenRemove (again h' temp) temp.path
      else viaQemu

/-- qcow2.py:26-62 `QCOW2.from_other_image` -/
def qcow2From (w : ConvWorld) (h : List DiskOp) (img : Image) (dir : Str) : Except Err Image × List DiskOp :=
  qcow2Step w (fun h' temp => qcow2Step w (fun h'' _ => (.error .runtimeError, h'')) h' temp dir) h img dir

/-- disk.py:182-203 `convert_to`.  A sub-format of None reaches qemu-img as the text "None". -/
def convertTo (w : ConvWorld) (h : List DiskOp) (img : Image) (fmt dir : Str) (sub : Option Str) :
    Except Err Image × List DiskOp :=
  match classForFormat fmt with
  | none => (.error .notImplementedError, h)
  | some .iso => (.error .notImplementedError, h)
  | some .raw => rawFrom w h img dir
  | some .qcow2 => qcow2From w h img dir
  | some .vmdk => vmdkFrom w h img dir (sub.getD "None".toList)

/-- ovf.py:1965-1998 `convert_disk_if_needed` -/
def convertIfNeeded (w : ConvWorld) (img : Image) (kind workingDir : Str) : Except Err Image × List DiskOp :=
  if kind ≠ "harddisk".toList then (.ok img, [])
  else match needsNewQemu img with
    | .error e => (.error e, [])
    | .ok true => (.ok img, [])
    | .ok false => convertTo w [] img "vmdk".toList workingDir (some "streamOptimized".toList)

end Cot
