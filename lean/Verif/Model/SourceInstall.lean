import Verif.Model.Helper
import Verif.Py.Path
/-
Model of how each helper program is installed: COT/helpers/helper.py:240-246, 360-443, COT/helpers/fatdisk.py:42-89,
COT/helpers/vmdktool.py:38-107, COT/helpers/ovftool.py:39-53 and the `_provider_package` tables of the helpers.

What the machine does is given by `InstWorld`, depending on what was done before.  How the package managers work in detail,
and `mkdir`, `copy_file` and `check_call`, is modelled in Model/Calls and Model/InstallHelpers; here each is one operation.
-/
namespace Cot

/-- what is done to the machine -/
inductive InstOp
  /-- `helpers[pm].install_package(package)` -/
  | package (pm : Str) (words : List Str)
  /-- `tempfile.mkdtemp` -/
  | tempDir
  /-- `requests.get(url)` into `helper.tgz` in the temporary directory -/
  | download (url : Str)
  /-- `tarf.extractall` -/
  | extract
  /-- `check_call(args, cwd=cwd, retry_with_sudo=sudo)` -/
  | call (args : List Str) (cwd : Str) (sudo : Bool)
  /-- `Helper.mkdir` -/
  | mkdir (dir : Str)
  /-- `Helper.copy_file` -/
  | copy (src dest : Str)
  /-- removal of the temporary directory -/
  | removeTemp
deriving DecidableEq

/-- the machine -/
structure InstWorld where
  /-- is the program found after this history?  (helper.py:220-238; its caching is not modelled) -/
  found : List InstOp → Str → Bool
  /-- does the operation fail? -/
  fails : List InstOp → InstOp → Option Err
  /-- the path of the temporary directory made after this history -/
  tmp : List InstOp → Str
  /-- `platform.system()` -/
  system : Str
  /-- `os.getenv` -/
  env : Str → Option Str

/-- carry out an operation; it is recorded whether or not it fails -/
def InstWorld.run (w : InstWorld) (h : List InstOp) (op : InstOp) : Except Err Unit × List InstOp :=
  match w.fails h op with
  | some e => (.error e, h ++ [op])
  | none => (.ok (), h ++ [op])

/-- one operation after the other, until one fails -/
def InstWorld.runAll (w : InstWorld) : List InstOp → List InstOp → Except Err Unit × List InstOp
  | h, [] => (.ok (), h)
  | h, op :: r => match w.run h op with
    | (.error e, h') => (.error e, h')
    | (.ok _, h') => w.runAll h' r

/-- a table written down -/
def provide (l : List (String × List String)) : List (Str × List Str) :=
  l.map (fun p => (p.1.toList, p.2.map String.toList))

/-- `_provider_package` of each helper: fatdisk.py:42-45, gcc.py:25-28, isoinfo.py:31-35, make.py:25-28,
mkisofs.py:41-44, 55-58, 73-75, qemu_img.py:28-33, vmdktool.py:38-41; {} (helper.py:204) for others.  In the order in which
they are written, which is that of the dictionary since Python 3.7. -/
def providerTable : List (Str × List (Str × List Str)) :=
  [("fatdisk".toList, provide [("brew", ["glennmatthews/fatdisk/fatdisk", "--devel"]), ("port", ["fatdisk"])]),
   ("gcc".toList, provide [("apt-get", ["gcc"]), ("yum", ["gcc"])]),
   ("isoinfo".toList, provide [("apt-get", ["genisoimage"]), ("brew", ["cdrtools"]), ("port", ["cdrtools"])]),
   ("make".toList, provide [("apt-get", ["make"]), ("yum", ["make"])]),
   ("mkisofs".toList, provide [("brew", ["cdrtools"]), ("port", ["cdrtools"])]),
   ("genisoimage".toList, provide [("apt-get", ["genisoimage"]), ("yum", ["genisoimage"])]),
   ("xorriso".toList, provide [("apt-get", ["xorriso"])]),
   ("qemu-img".toList, provide [("apt-get", ["qemu-utils"]), ("brew", ["qemu"]), ("port", ["qemu"]), ("yum", ["qemu-img"])]),
   ("vmdktool".toList, provide [("brew", ["vmdktool"]), ("port", ["vmdktool"])])]

/-- `helpers[name]._provider_package` -/
def providers (name : Str) : List (Str × List Str) := (dget? providerTable name).getD []

/-- `pm in self._provider_package` -/
def provides (name pm : Str) : Bool := (dget? (providers name) pm).isSome

/-- helper.py:240-246 `Helper.installable` -/
def InstWorld.ableBase (w : InstWorld) (h : List InstOp) (name : Str) : Bool :=
  (providers name).any (fun p => w.found h p.1)

/-- helper.py:360-389 `unsure_how_to_install()`, ovftool.py:43-53 -/
def InstWorld.unsure (w : InstWorld) (h : List InstOp) (name : Str) : Err :=
  if name = "ovftool".toList then .notImplementedError
  else if w.system = "Darwin".toList then
    if provides name "brew".toList ∨ provides name "port".toList then .runtimeError else .notImplementedError
  else if w.system = "Linux".toList ∧ (provides name "apt-get".toList ∨ provides name "yum".toList) ∧
      ¬ (w.found h "apt-get".toList ∨ w.found h "yum".toList) then .runtimeError
  else .notImplementedError

/-- helper.py:391-404 `Helper._install()` -/
def InstWorld.installBase (w : InstWorld) (h : List InstOp) (name : Str) : Except Err Unit × List InstOp :=
  match (providers name).find? (fun p => w.found h p.1) with
  | some (pm, words) => w.run h (.package pm words)
  | none => (.error (w.unsure h name), h)

/-- the helpers that need nothing but a package manager; no versions are asked for -/
def InstWorld.baseSys (w : InstWorld) : HelperSys (List InstOp) Unit where
  found := w.found
  version := fun _ _ => .ok ()
  installable := w.ableBase
  runInstall := w.installBase
  unsure := w.unsure
  parse := fun _ => .ok ()
  ge := fun _ _ => true

/-- helper.py:406-443 `with download_and_expand_tgz(url) as directory:` with the operations of the block.  That the removal
of the directory fails is left out. -/
def InstWorld.withTgz (w : InstWorld) (h : List InstOp) (url : Str) (block : Str → List InstOp) : Except Err Unit × List InstOp :=
  match w.run h .tempDir with
  | (.error e, h') => (.error e, h')
  | (.ok _, h') => match w.runAll h' (.download url :: .extract :: block (w.tmp h)) with
    | (r, h'') => (r, h'' ++ [.removeTemp])

/-- `os.getenv('DESTDIR', '')` -/
def InstWorld.destdir (w : InstWorld) : Str := (w.env "DESTDIR".toList).getD []
/-- `os.getenv('PREFIX', '/usr/local')` -/
def InstWorld.pfx (w : InstWorld) : Str := (w.env "PREFIX".toList).getD "/usr/local".toList
/-- fatdisk.py:81-84, vmdktool.py:95-101 `os.path.join(destdir, prefix)`, the prefix made relative if there is a DESTDIR -/
def InstWorld.target (w : InstWorld) : Str :=
  pathJoin w.destdir (if w.destdir ≠ [] then w.pfx.dropWhile (fun c => c = '/') else w.pfx)

/-- fatdisk.py:78-89 the `with` block -/
def InstWorld.fatdiskBlock (w : InstWorld) (directory : Str) : List InstOp :=
  let newD := pathJoin directory "fatdisk-1.0.0-beta".toList
  let destination := pathJoin w.target "bin".toList
  [.call ["./RUNME".toList] newD false, .mkdir destination, .copy (pathJoin newD "fatdisk".toList) destination]

/-- fatdisk.py:66-89 the installation from source -/
def InstWorld.fatdiskSource (w : InstWorld) (h : List InstOp) : Except Err Unit × List InstOp :=
  match w.baseSys.install h "make".toList with
  | (.error e, h) => (.error e, h)
  | (.ok _, h) => match w.baseSys.select h [("clang".toList, none), ("gcc".toList, none), ("g++".toList, none)] with
    | (.error e, h) => (.error e, h)
    | (.ok _, h) =>
      w.withTgz h "https://github.com/goblinhack/fatdisk/archive/v1.0.0-beta.tar.gz".toList w.fatdiskBlock

/-- vmdktool.py:83-107 the `with` block -/
def InstWorld.vmdktoolBlock (w : InstWorld) (directory : Str) : List InstOp :=
  let newD := pathJoin directory "vmdktool-1.4".toList
  [.call ["make".toList, "CFLAGS=\"-D_GNU_SOURCE -g -O -pipe\"".toList] newD false,
   .mkdir (pathJoin (pathJoin w.target "man".toList) "man8".toList), .mkdir (pathJoin w.target "bin".toList),
   .call (["make".toList, "install".toList, "PREFIX=".toList ++ w.pfx] ++
     (if w.destdir ≠ [] then ["DESTDIR=".toList ++ w.destdir] else [])) newD true]

/-- vmdktool.py:75-81 zlib -/
def InstWorld.zlib (w : InstWorld) (h : List InstOp) : Except Err Unit × List InstOp :=
  if w.found h "apt-get".toList then w.run h (.package "apt-get".toList ["zlib1g-dev".toList])
  else if w.found h "yum".toList then w.run h (.package "yum".toList ["zlib-devel".toList])
  else (.error .notImplementedError, h)

/-- vmdktool.py:70-107 the installation from source -/
def InstWorld.vmdktoolSource (w : InstWorld) (h : List InstOp) : Except Err Unit × List InstOp :=
  match w.baseSys.install h "make".toList with
  | (.error e, h) => (.error e, h)
  | (.ok _, h) => match w.zlib h with
    | (.error e, h) => (.error e, h)
    | (.ok _, h) =>
      w.withTgz h "http://people.freebsd.org/~brian/vmdktool/vmdktool-1.4.tar.gz".toList w.vmdktoolBlock

/-- fatdisk.py:56-66, vmdktool.py:59-70: from source if there is no package, on Linux -/
def InstWorld.orSource (w : InstWorld) (source : List InstOp → Except Err Unit × List InstOp) :
    Except Err Unit × List InstOp → Except Err Unit × List InstOp
  | (.error .notImplementedError, h) =>
    if w.system ≠ "Linux".toList then (.error .notImplementedError, h) else source h
  | r => r

/-- `_install()` of each helper -/
def InstWorld.runInstall (w : InstWorld) (h : List InstOp) (name : Str) : Except Err Unit × List InstOp :=
  if name = "fatdisk".toList then w.orSource w.fatdiskSource (w.installBase h name)
  else if name = "vmdktool".toList then w.orSource w.vmdktoolSource (w.installBase h name)
  else w.installBase h name

/-- `installable` of each helper: helper.py:240-246, ovftool.py:39-41, fatdisk.py:48-54, vmdktool.py:52-57 -/
def InstWorld.installable (w : InstWorld) (h : List InstOp) (name : Str) : Bool :=
  if name = "ovftool".toList then false
  else if name = "fatdisk".toList then
    w.found h "brew".toList || w.found h "port".toList || (decide (w.system = "Linux".toList) &&
      (w.found h "make".toList || w.ableBase h "make".toList) &&
      (w.found h "clang".toList || w.found h "gcc".toList || w.found h "g++".toList || w.ableBase h "gcc".toList))
  else if name = "vmdktool".toList then
    w.found h "apt-get".toList || w.found h "brew".toList || w.found h "port".toList || w.found h "yum".toList
  else w.ableBase h name

/-- all helpers -/
def InstWorld.sys (w : InstWorld) : HelperSys (List InstOp) Unit where
  found := w.found
  version := fun _ _ => .ok ()
  installable := w.installable
  runInstall := w.runInstall
  unsure := w.unsure
  parse := fun _ => .ok ()
  ge := fun _ _ => true

/-- helper.py:332-358 `helpers[name].install()` -/
def InstWorld.install (w : InstWorld) (h : List InstOp) (name : Str) : Except Err Unit × List InstOp := w.sys.install h name

end Cot
