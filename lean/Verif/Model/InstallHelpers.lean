import Verif.Model.Calls
import Verif.Model.NatSort
import Verif.Py.Path
/-
Model of COT/commands/install_helpers.py: the command install-helpers, with the manual pages, and of `Helper.mkdir` and
`Helper.copy_file` (COT/helpers/helper.py:445-501).

The machine is of an arbitrary type `W`.  How a program gets installed is `HelperSys.install`; the file operations are
parameters.  The line filling of the report (`textwrap`) is a parameter.
-/
namespace Cot

/-- what the report says of programs, besides `HelperSys` -/
structure InstallSys (W V : Type) extends HelperSys W V where
  /-- `str(helper.path)` -/
  path : W → Str → Str
  /-- `str(version)` -/
  showV : V → Str
  /-- `str(exc)` -/
  text : Err → Str

/-- install_helpers.py:181-184: NotImplementedError, HelperError, HelperNotFoundError are caught -/
def Err.isInstallTrouble : Err → Bool
  | .notImplementedError => true
  | .helperError => true
  | .helperNotFound => true
  | _ => false

/-- install_helpers.py:175-180 the `try` block: the installation and the version afterwards -/
def InstallSys.tryInstall {W V : Type} (sys : InstallSys W V) (w : W) (name : Str) : Except Err Str × W :=
  match sys.install w name with
  | (.error e, w') => (.error e, w')
  | (.ok _, w') => match sys.version w' name with
    | .error e => (.error e, w')
    | .ok v => (.ok ("successfully installed to ".toList ++ sys.path w' name ++ ", version ".toList ++ sys.showV v), w')

/-- install_helpers.py:159-185 `install_helper` -/
def InstallSys.installHelper {W V : Type} (sys : InstallSys W V) (verify : Bool) (w : W) (name : Str) :
    Except Err (Bool × Str) × W :=
  if sys.found w name then match sys.version w name with
    | .error e => (.error e, w)
    | .ok v => (.ok (true, "version ".toList ++ sys.showV v ++ ", present at ".toList ++ sys.path w name), w)
  else if verify then (.ok (true, "NOT FOUND".toList), w)
  else match sys.tryInstall w name with
    | (.ok msg, w') => (.ok (true, msg), w')
    | (.error e, w') =>
      if e.isInstallTrouble then (.ok (false, "INSTALLATION FAILED: ".toList ++ sys.text e), w')
      else (.error e, w')

/-! ### Files and manual pages -/

/-- `os.stat`, as filecmp looks at it: a regular file or not, size and time of modification -/
structure FileSig where
  regular : Bool
  size : Nat
  mtime : Nat
  deriving DecidableEq

/-- the file operations of the machine -/
structure ManFs (W : Type) where
  /-- `os.path.exists` -/
  pathExists : W → Str → Bool
  /-- `os.path.isdir` -/
  isDir : W → Str → Bool
  /-- `os.stat` of an existing file -/
  sig : W → Str → FileSig
  /-- what is in an existing regular file -/
  content : W → Str → Str
  /-- `os.makedirs(directory, 0o755)`: false is an OSError -/
  makedirs : W → Str → Bool × W
  /-- `shutil.copy(src, dest)`: false is an OSError or IOError -/
  copy : W → Str → Str → Bool × W
  /-- any other program -/
  exec : Exec W

/-- `filecmp.cmp(f1, f2)`: files with the same signature are taken to be the same without looking into them.  (The standard
library's memory of earlier comparisons, which is keyed by both signatures, is not modelled.) -/
def ManFs.cmp {W : Type} (fs : ManFs W) (w : W) (a b : Str) : Bool :=
  if (fs.sig w a).regular = false ∨ (fs.sig w b).regular = false then false
  else if fs.sig w a = fs.sig w b then true
  else if (fs.sig w a).size ≠ (fs.sig w b).size then false
  else decide (fs.content w a = fs.content w b)

/-- run a command with `check_call(cmd)` -/
def ManFs.call {W : Type} (fs : ManFs W) (w : W) (cmd : List Str) : Except Err Unit × W :=
  match checkCall fs.exec true false cmd ⟨w, []⟩ with
  | (r, s) => (r, s.w)

/-- helper.py:445-475 `Helper.mkdir(directory)`; 493 is 0o755 -/
def ManFs.mkdir {W : Type} (fs : ManFs W) (w : W) (dir : Str) : Except Err Unit × W :=
  if fs.isDir w dir then (.ok (), w)
  else if fs.pathExists w dir then (.error .runtimeError, w)
  else match fs.makedirs w dir with
    | (true, w') => (.ok (), w')
    | (false, w') => match fs.call w' ["sudo".toList, "mkdir".toList, "-p".toList, "-m".toList, "755".toList, dir] with
      | (.ok _, w'') => (.ok (), w'')
      | (.error .helperError, w'') => (.error .ioError, w'')
      | (.error e, w'') => (.error e, w'')

/-- helper.py:477-501 `Helper.copy_file(src, dest)` -/
def ManFs.copyFile {W : Type} (fs : ManFs W) (w : W) (src dest : Str) : Except Err Unit × W :=
  match fs.copy w src dest with
  | (true, w') => (.ok (), w')
  | (false, w') => match fs.call w' ["sudo".toList, "cp".toList, src, dest] with
    | (.ok _, w'') => (.ok (), w'')
    | (.error .helperError, w'') => (.error .ioError, w'')
    | (.error e, w'') => (.error e, w'')

/-- install_helpers.py:66-67, 96-97 the directory of a page: `man_dir/man1` for `cot.1` -/
def manDest (manDir page : Str) : Str := pathJoin manDir ("man".toList ++ (pathExt page).drop 1)

/-- install_helpers.py:35-49 `guess_manpath()`; `prog` is `os.path.abspath(sys.argv[0])` -/
def guessManpath (prog : Str) : Str :=
  let binDir := pathDir prog
  if pathBase binDir = "bin".toList then pathJoin (pathDir binDir) "man".toList
  else "/usr/local/man".toList

/-- install_helpers.py:52-78 `verify_manpages(man_dir)`; `docs` is the directory of the pages that come with COT -/
def verifyManpages {W : Type} (fs : ManFs W) (docs manDir : Str) (w : W) : List Str → Bool × Str
  | [] => (true, "already installed, no updates needed".toList)
  | page :: rest =>
    let dest := manDest manDir page
    if fs.pathExists w dest = false then (true, "DIRECTORY NOT FOUND: ".toList ++ dest)
    else if fs.pathExists w (pathJoin dest page) then
      if fs.cmp w (pathJoin docs page) (pathJoin dest page) then verifyManpages fs docs manDir w rest
      else (true, "NEEDS UPDATE".toList)
    else (true, "NOT FOUND".toList)

/-- install_helpers.py:81-108 `_install_manpage(src_path, man_dir)`: whether the page was there, and whether it was copied -/
def installManpage {W : Type} (fs : ManFs W) (src manDir : Str) (w : W) : Except Err (Bool × Bool) × W :=
  let page := pathBase src
  let dest := manDest manDir page
  match fs.mkdir w dest with
  | (.error e, w) => (.error e, w)
  | (.ok _, w) =>
    if fs.pathExists w (pathJoin dest page) ∧ fs.cmp w src (pathJoin dest page) then (.ok (true, false), w)
    else match fs.copyFile w src (pathJoin dest page) with
      | (.error e, w') => (.error e, w')
      | (.ok _, w') => (.ok (fs.pathExists w (pathJoin dest page), true), w')

/-- install_helpers.py:126-133 the loop: some page was there before, some page was copied -/
def installPages {W : Type} (fs : ManFs W) (docs manDir : Str) : List Str → Bool → Bool → W → Except Err (Bool × Bool) × W
  | [], prev, new, w => (.ok (prev, new), w)
  | page :: rest, prev, new, w => match installManpage fs (pathJoin docs page) manDir w with
    | (.error e, w) => (.error e, w)
    | (.ok (p, n), w) => installPages fs docs manDir rest (prev || p) (new || n) w

/-- install_helpers.py:134: IOError, OSError, HelperError (and HelperNotFoundError, which is an OSError) -/
def Err.isFileTrouble : Err → Bool
  | .ioError => true
  | .helperError => true
  | .helperNotFound => true
  | _ => false

/-- install_helpers.py:111-140 `install_manpages(man_dir)` -/
def installManpages {W : Type} (fs : ManFs W) (text : Err → Str) (docs manDir : Str) (pages : List Str) (w : W) :
    Except Err (Bool × Str) × W :=
  match installPages fs docs manDir pages false false w with
  | (.error e, w) =>
    if e.isFileTrouble then (.ok (false, "INSTALLATION FAILED: ".toList ++ text e), w) else (.error e, w)
  | (.ok (prev, new), w) =>
    (.ok (true, if prev then
        if new then "successfully updated in ".toList ++ manDir else "already installed, no updates needed".toList
      else "successfully installed to ".toList ++ manDir), w)

/-- what the command needs to know about the pages: the names in docs/man (an OSError if there is no such directory), the
directory, and the absolute path of the program -/
structure ManSource where
  pages : Option (List Str)
  docs : Str
  prog : Str

/-- install_helpers.py:186-202 `manpages_helper` -/
def manpagesHelper {W : Type} (fs : ManFs W) (text : Err → Str) (m : ManSource) (verify : Bool) (w : W) :
    Except Err (Bool × Str) × W :=
  match m.pages with
  | none => (.ok (false, "UNABLE TO FIND PAGES: ".toList ++ text .ioError), w)
  | some pages =>
    if verify then (.ok (verifyManpages fs m.docs (guessManpath m.prog) w pages), w)
    else installManpages fs text m.docs (guessManpath m.prog) pages w

/-! ### The command -/

/-- install_helpers.py:210-214: every one of these; the results and whether all succeeded -/
def InstallSys.installAll {W V : Type} (sys : InstallSys W V) (verify : Bool) :
    List Str → Bool → List (Str × Str) → W → Except Err (Bool × List (Str × Str)) × W
  | [], ok, res, w => (.ok (ok, res), w)
  | name :: rest, ok, res, w => match sys.installHelper verify w name with
    | (.error e, w) => (.error e, w)
    | (.ok (rc, msg), w) => sys.installAll verify rest (ok && rc) (dset res name msg) w

/-- install_helpers.py:216-222: the first of these that succeeds -/
def InstallSys.installOne {W V : Type} (sys : InstallSys W V) (verify : Bool) :
    List Str → List (Str × Str) → W → Except Err (Bool × List (Str × Str)) × W
  | [], res, w => (.ok (false, res), w)
  | name :: rest, res, w => match sys.installHelper verify w name with
    | (.error e, w) => (.error e, w)
    | (.ok (true, msg), w) => (.ok (true, dset res name msg), w)
    | (.ok (false, msg), w) => sys.installOne verify rest (dset res name msg) w

/-- `sorted(results)` -/
def insertName (x : Str × Str) : List (Str × Str) → List (Str × Str)
  | [] => [x]
  | y :: r => if strLe x.1 y.1 then x :: y :: r else y :: insertName x r
def sortNames (l : List (Str × Str)) : List (Str × Str) := l.foldr insertName []

/-- `"{0:13} {1}".format(name + ":", results[name])` -/
def helperLine (x : Str × Str) : Str :=
  let n := x.1 ++ [':']
  n ++ List.replicate (13 - n.length) ' ' ++ ' ' :: x.2

/-- what the command leaves behind: what it printed, how it ended, the machine -/
structure InstallOut (W : Type) where
  printed : List Str
  result : Except Err Unit
  w : W

/-- the programs that are needed -/
def neededTools : List Str := ["fatdisk".toList, "ovftool".toList, "qemu-img".toList, "vmdktool".toList]
/-- the programs of which one is needed -/
def isoTools : List Str := ["mkisofs".toList, "genisoimage".toList, "xorriso".toList]

/-- install_helpers.py:204-235 `run()`; `fill` is `wrapper.fill` -/
def installHelpersRun {W V : Type} (sys : InstallSys W V) (fs : ManFs W) (m : ManSource) (fill : Str → Str)
    (verify ignore : Bool) (w : W) : InstallOut W :=
  match sys.installAll verify neededTools true [] w with
  | (.error e, w) => ⟨[], .error e, w⟩
  | (.ok (ok1, res), w) => match sys.installOne verify isoTools res w with
    | (.error e, w) => ⟨[], .error e, w⟩
    | (.ok (ok2, res), w) => match manpagesHelper fs sys.text m verify w with
      | (.error e, w) => ⟨[], .error e, w⟩
      | (.ok (ok3, msg), w) =>
        ⟨["Results:".toList, "-------------".toList] ++
            (sortNames (dset res "COT manpages".toList msg)).map (fun x => fill (helperLine x)) ++ [[]],
          if (ok1 && ok2 && ok3) = false ∧ ignore = false then .error .ioError else .ok (), w⟩

end Cot
