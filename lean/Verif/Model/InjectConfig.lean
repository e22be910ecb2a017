import Verif.Model.Package
import Verif.Model.Disks
import Verif.Model.Platform
/-
Model of COT/commands/inject_config.py: the arguments, the choice of the drive, the making of the image, and the
addition of the image to the package with the worker of add-disk.
-/
namespace Cot

/-! ### What the platforms say (COT/platforms) -/

/-- `CONFIG_TEXT_FILE`: platform.py:46, cisco_csr1000v.py:28, cisco_c9800cl.py:28, cisco_iosv.py:28,
cisco_iosxrv.py:38 and 100, cisco_nexus_9000v.py:28, cisco_nxosv.py:28 -/
def configTextFile : Plat → Option Str
  | .generic => some "config.txt".toList
  | .csr => some "iosxe_config.txt".toList
  | .c9800 => some "iosxe_config.txt".toList
  | .iosv => some "ios_config.txt".toList
  | .xrv => some "iosxr_config.txt".toList
  | .xrvRP => some "iosxr_config.txt".toList
  | .xrv9k => some "iosxr_config.txt".toList
  | .xrvLC => none
  | .n9k => some "nxos_config.txt".toList
  | .nxosv => some "nxos_config.txt".toList

/-- `SECONDARY_CONFIG_TEXT_FILE`: platform.py:53, cisco_iosxrv.py:39 and 101 -/
def secondaryTextFile : Plat → Option Str
  | .xrv => some "iosxr_config_admin.txt".toList
  | .xrvRP => some "iosxr_config_admin.txt".toList
  | .xrv9k => some "iosxr_config_admin.txt".toList
  | _ => none

/-- `BOOTSTRAP_DISK_TYPE`: platform.py:72, cisco_iosv.py:31 -/
def bootstrapDrive : Plat → Str
  | .iosv => "harddisk".toList
  | _ => "cdrom".toList

/-! ### The arguments -/

/-- inject_config.py:68-79 and 92-103, the setters of `config_file` and `secondary_config_file`; `name` is the
platform's name for such a file -/
def setConfigArg (isFile : Str → Bool) (name : Option Str) : Option Str → Except Err (Option Str)
  | none => .ok none
  | some value =>
    if isFile value = false then .error .invalidInput
    else if name = none ∨ name = some [] then .error .invalidInput
    else .ok (some value)

/-- inject_config.py:114-119, the setter of `extra_files` -/
def setExtraArg (isFile : Str → Bool) (values : List Str) : Except Err (List Str) :=
  if values.all isFile then .ok values else .error .invalidInput

/-- the files given to `cot inject-config` -/
structure IcReq where
  config : Option Str
  secondary : Option Str
  extra : List Str

/-- a Python string or None as a condition -/
def given : Option Str → Bool
  | none => false
  | some s => decide (s ≠ [])

/-- inject_config.py:121-131 `ready_to_run`, without the base class's check of the package -/
def IcReq.ready (q : IcReq) : Bool := given q.config || given q.secondary || decide (q.extra ≠ [])

/-! ### The outside -/

/-- what the command does outside of the package -/
inductive IcOp
  /-- `shutil.copy(src, dst)` -/
  | copy (src dst : Str)
  /-- a command run to make or convert the image -/
  | disk (op : DiskOp)
  deriving DecidableEq, Repr

/-- What the outside does, depending on the operations carried out so far (latest first). -/
structure IcWorld where
  /-- does the operation fail? -/
  fails : List IcOp → IcOp → Option Err
  /-- `helper_select(choices).name` -/
  select : List IcOp → List (Str × Option Str) → Except Err Str
  /-- what is known about files -/
  disk : List IcOp → DiskWorld
  /-- `os.path.getsize` -/
  size : List IcOp → Str → Nat
  /-- `disk_image.capacity` for the image at this path -/
  capacity : List IcOp → Str → Except Err Nat
  /-- the file system as the package sees it -/
  fs : List IcOp → Fs
  /-- `vm.working_dir` -/
  dir : Str

/-- carry out operations in this order, up to the first that fails -/
def IcWorld.runAll (w : IcWorld) (h : List IcOp) : List IcOp → Except Err Unit × List IcOp
  | [] => (.ok (), h)
  | op :: t => match w.fails h op with
    | some e => (.error e, op :: h)
    | none => w.runAll (op :: h) t

/-- the same outside, as the conversion of images sees it -/
def IcWorld.conv (w : IcWorld) (h : List IcOp) : ConvWorld where
  fails := fun h' op => w.fails (h'.map .disk ++ h) (.disk op)
  select := fun h' l => w.select (h'.map .disk ++ h) l
  pathExists := fun h' p => (w.disk (h'.map .disk ++ h)).pathExists p

/-! ### The command -/

/-- the name of the disk in the package: inject_config.py:189-195, and what the conversion of `config.img` to VMDK
makes of it -/
def configDiskName (drive : Str) : Str :=
  if drive = "cdrom".toList then "config.iso".toList else "config.vmdk".toList

/-- inject_config.py:186-216: the identifier of the File to overwrite, if any, and the drive to use.  `over` is the
answer to "Existing configuration disk '{0}' found. Continue and overwrite it?" -/
def icTarget (env : Env) (over : Option Str → Bool) (p : Pkg) (drive : Str) : Except Err (Option Str × Str) := do
  let r ← (if drive = "cdrom".toList ∨ drive = "harddisk".toList then
      searchFromFilename env p (some (configDiskName drive))
    else .error .valueUnsupported : Except Err Found)
  let t ← (match r.file with
    | some i =>
      let id := attrOf p.refs.children i (fileId env.ver)
      if over id then .ok (id, r.dev) else .error .systemExit
    | none => match findEmptyDrive env p drive with
      | .error e => .error e
      | .ok d => .ok (none, d) : Except Err (Option Str × Option Str))
  match t.2 with
  | none => .error .lookupError
  | some d => .ok (t.1, d)

/-- inject_config.py:220-230: one configuration file and its name in the working directory; `os.path.join(dir, None)`
is a TypeError -/
def icCopy (dir : Str) (src name : Option Str) : Except Err (List (Str × Str)) :=
  match src with
  | none => .ok []
  | some s => if s = [] then .ok [] else match name with
    | none => .error .typeError
    | some n => .ok [(s, pathJoin dir n)]

/-- inject_config.py:219-254: the files are copied, the image is made and opened -/
def icImage (w : IcWorld) (py : PyVer) (pl : Plat) (q : IcReq) : Except Err Image × List IcOp :=
  match icCopy w.dir q.config (configTextFile pl), icCopy w.dir q.secondary (secondaryTextFile pl) with
  | .error e, _ => (.error e, [])
  | .ok c1, .error e =>
    match w.runAll [] (c1.map (fun c => .copy c.1 c.2)) with
    | (.error e', h) => (.error e', h)
    | (.ok _, h) => (.error e, h)
  | .ok c1, .ok c2 =>
    match w.runAll [] ((c1 ++ c2).map (fun c => .copy c.1 c.2)) with
    | (.error e, h) => (.error e, h)
    | (.ok _, h) =>
      let files := (c1 ++ c2).map Prod.snd ++ q.extra
      let drive := bootstrapDrive pl
      let path := pathJoin w.dir (if drive = "cdrom".toList then "config.iso".toList else "config.img".toList)
      let ops := createFile (w.disk h) path (some (files.map (fun f => (f, w.size h f)))) none (fun fs =>
        if drive = "cdrom".toList then
          match w.select h [("mkisofs".toList, none), ("genisoimage".toList, none), ("xorriso".toList, none)] with
          | .error e => .error e
          | .ok maker => isoCreate path (fs.map Prod.fst) "rockridge".toList maker
        else rawCreate py path fs none)
      match ops with
      | .error e => (.error e, h)
      | .ok ops => match w.runAll h (ops.map .disk) with
        | (.error e, h) => (.error e, h)
        | (.ok _, h) => ((w.conv h).open [] path (if drive = "cdrom".toList then .iso else .raw), h)

/-- inject_config.py:248-260, the arguments given to `add_disk_worker` -/
def icDiskReq (drive path : Str) (cap : Nat) (fid : Option Str) (loc : Str × Str) : DiskReq where
  path := path
  cap := cap
  drive := drive
  fid := fid
  controller := some loc.1
  subtype := none
  address := some loc.2
  name := none
  descr := some "Configuration disk".toList

/-- inject_config.py:167-267 `run`, for files accepted by the setters: the key of the drive and the package, and what
was done outside (latest first).  `plat` is `platform.controller_type_for_device`.  The capacity of the image is only
looked at for a hard disk. -/
def injectConfig (c : Ctx) (w : IcWorld) (pl : Plat) (plat : Str → Str) (ask : Prompt → Bool) (over : Option Str → Bool)
    (p : Pkg) (q : IcReq) : Except Err (Str × Pkg) × List IcOp :=
  let drive := bootstrapDrive pl
  match icTarget c.env over p drive with
  | .error e => (.error e, [])
  | .ok (fid, d) => match deviceLocation c.env p.hw d with
    | .error e => (.error e, [])
    | .ok loc => match icImage w c.py pl q with
      | (.error e, h) => (.error e, h)
      | (.ok img, h) => match convertIfNeeded (w.conv h) img drive w.dir with
        | (.error e, hc) => (.error e, hc.map .disk ++ h)
        | (.ok img', hc) =>
          let h' := hc.map IcOp.disk ++ h
          match (if drive = "harddisk".toList then w.capacity h' img'.path else .ok 1) with
          | .error e => (.error e, h')
          | .ok cap => (addDiskCmd { c with fs := w.fs h' } plat ask p (icDiskReq drive img'.path cap fid loc), h')

end Cot
