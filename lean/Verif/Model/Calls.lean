import Verif.Model.Helper
import Verif.Py.Str
/-
Model of how helper programs are run: COT/helpers/helper.py `check_call`, `check_output`, `Helper.call`, and the package
managers COT/helpers/{apt_get,brew,port,yum}.py.

What a program does is a parameter: any function of the state of the machine and of the command.  Every command that is run
is recorded, with the way it ended.  What a program writes is taken to be text (bytes that are not UTF-8 are not modelled).
-/
namespace Cot

/-- How running a program ended: with an exit status, having written `out`; or it could not be started. -/
inductive ProcRes where
  | exit (code : Int) (out : Str)
  | osError (errno : Nat)
  deriving DecidableEq

/-- What the machine does when a command is run (`subprocess.check_call`, `subprocess.check_output`). -/
abbrev Exec (W : Type) := W → List Str → ProcRes × W

/-- the machine, and the commands that have been run on it with their ends -/
structure PSt (W : Type) where
  w : W
  log : List (List Str × ProcRes)

/-- errno.EPERM, ENOENT, ENOEXEC, EACCES -/
def ePerm : Nat := 1
def eNoEnt : Nat := 2
def eNoExec : Nat := 8
def eAcces : Nat := 13

def sudoWord : Str := "sudo".toList

/-- run a command -/
def Exec.run {W : Type} (ex : Exec W) (s : PSt W) (args : List Str) : ProcRes × PSt W :=
  ((ex s.w args).1, ⟨(ex s.w args).2, s.log ++ [(args, (ex s.w args).1)]⟩)

/-- helper.py:571-614 the body of `check_call`; `again` is the second attempt, if `retry_with_sudo` -/
def callStep {W : Type} (ex : Exec W) (require : Bool) (again : Option (PSt W → Except Err Unit × PSt W)) (args : List Str)
    (s : PSt W) : Except Err Unit × PSt W :=
  match ex.run s args with
  | (.osError n, s') =>
    if again.isSome ∧ (n = ePerm ∨ n = eAcces) then match again with
      | some f => f s'
      | none => (.ok (), s')
    else if n = eNoExec ∧ args.head? = some sudoWord then (.error .helperError, s')
    else if n ≠ eNoEnt then (.error .ioError, s')
    else (.error .helperNotFound, s')
  | (.exit c _, s') =>
    if c = 0 then (.ok (), s')
    else if require then match again with
      | some f => f s'
      | none => (.error .helperError, s')
    else (.ok (), s')

/-- helper.py:521-614 `check_call(args, require_success, retry_with_sudo)`; `args[0]` of an empty list is an IndexError -/
def checkCall {W : Type} (ex : Exec W) (require retry : Bool) (args : List Str) (s : PSt W) : Except Err Unit × PSt W :=
  if args = [] then (.error .indexError, s)
  else callStep ex require (if retry then some (callStep ex require none (sudoWord :: args)) else none) args s

/-- `.decode('ascii', 'ignore')` -/
def asciiOnly (s : Str) : Str := s.filter (fun c => c.toNat < 128)

/-- helper.py:671-705 the body of `check_output` -/
def outputStep {W : Type} (ex : Exec W) (require : Bool) (again : Option (PSt W → Except Err Str × PSt W)) (args : List Str)
    (s : PSt W) : Except Err Str × PSt W :=
  match ex.run s args with
  | (.osError n, s') => if n ≠ eNoEnt then (.error .ioError, s') else (.error .helperNotFound, s')
  | (.exit c out, s') =>
    if c = 0 then (.ok (asciiOnly out), s')
    else if require then match again with
      | some f => f s'
      | none => (.error .helperError, s')
    else (.ok out, s')

/-- helper.py:617-705 `check_output(args, require_success, retry_with_sudo)` -/
def checkOutput {W : Type} (ex : Exec W) (require retry : Bool) (args : List Str) (s : PSt W) : Except Err Str × PSt W :=
  if args = [] then (.error .indexError, s)
  else outputStep ex require (if retry then some (outputStep ex require none (sudoWord :: args)) else none) args s

/-- What else a helper object needs: whether the program is found (helper.py:220-231 `path`; the caching of the path is not
modelled), what the user answers (`none`: there is no user interface), and the installation (332-358, see `HelperSys.install`). -/
structure HelperUi (W : Type) where
  found : W → Str → Bool
  confirm : Option (W → Str → Bool)
  install : Str → PSt W → Except Err Unit × PSt W

/-- A helper object: its name, the outputs it remembers, and which it does remember (qemu_img.py:42-52, isoinfo.py:44-58;
other helpers remember nothing). -/
structure HelperObj where
  name : Str
  cache : List (List Str × Str)
  keeps : List Str → Bool

/-- qemu_img.py:50 -/
def qemuKeeps (args : List Str) : Bool := decide (args.head? = some "info".toList)
/-- isoinfo.py:56 -/
def isoinfoKeeps (args : List Str) : Bool :=
  args.contains "-d".toList || args.contains "-f".toList || args.contains "-l".toList

/-- helper.py:304-314: the program is there, or the user agrees and it gets installed -/
def helperReady {W : Type} (ui : HelperUi W) (name : Str) (s : PSt W) : Except Err Unit × PSt W :=
  if ui.found s.w name then (.ok (), s)
  else match ui.confirm with
    | none => ui.install name s
    | some f => if f s.w name then ui.install name s else (.error .helperNotFound, s)

/-- helper.py:263-330 `call(args, capture_output=True, use_cached=True, require_success, retry_with_sudo)`, with what
qemu_img.py:42-52 and isoinfo.py:44-58 add: output that is not empty is remembered.  (`args[0]` of an empty list is an
IndexError for qemu-img; no such call is made.) -/
def helperOutput {W : Type} (ex : Exec W) (ui : HelperUi W) (h : HelperObj) (require retry : Bool) (args : List Str) (s : PSt W) :
    Except Err Str × HelperObj × PSt W :=
  match helperReady ui h.name s with
  | (.error e, s) => (.error e, h, s)
  | (.ok _, s) => match dget? h.cache args with
    | some out => (.ok out, { h with cache := if out ≠ [] ∧ h.keeps args then dset h.cache args out else h.cache }, s)
    | none => match checkOutput ex require retry (h.name :: args) s with
      | (.error e, s) => (.error e, h, s)
      | (.ok out, s) => (.ok out, { h with cache := if out ≠ [] ∧ h.keeps args then dset h.cache args out else h.cache }, s)

/-- helper.py:263-330 `call(args, capture_output=False, require_success, retry_with_sudo)` -/
def helperCall {W : Type} (ex : Exec W) (ui : HelperUi W) (name : Str) (require retry : Bool) (args : List Str) (s : PSt W) :
    Except Err Unit × PSt W :=
  match helperReady ui name s with
  | (.error e, s) => (.error e, s)
  | (.ok _, s) => checkCall ex require retry (name :: args) s

/-! ### Package managers -/

def aptGet : Str := "apt-get".toList
def dpkg : Str := "dpkg".toList

/-- `re.search("install ok installed", output)` -/
def saysInstalled (out : Str) : Bool := hasSub "install ok installed".toList out

/-- apt_get.py:47-51: the update, unless it has been made -/
def aptUpdate {W : Type} (ex : Exec W) (ui : HelperUi W) (updated : Bool) (s : PSt W) : Except Err Unit × Bool × PSt W :=
  if updated then (.ok (), true, s)
  else match helperCall ex ui aptGet true true ["-q".toList, "update".toList] s with
    | (.error e, s) => (.error e, false, s)
    | (.ok _, s) => (.ok (), true, s)

/-- apt_get.py:36-53 `AptGet.install_package(package)`; `updated` is the class attribute `_updated` -/
def aptInstall {W : Type} (ex : Exec W) (ui : HelperUi W) (package : Str) (updated : Bool) (s : PSt W) :
    Except Err Unit × Bool × PSt W :=
  match helperOutput ex ui ⟨dpkg, [], fun _ => false⟩ false false ["-s".toList, package] s with
  | (.error e, _, s) => (.error e, updated, s)
  | (.ok out, _, s) =>
    if saysInstalled out then (.ok (), updated, s)
    else match aptUpdate ex ui updated s with
      | (.error e, u, s) => (.error e, u, s)
      | (.ok _, u, s) => match helperCall ex ui aptGet true true ["-q".toList, "install".toList, package] s with
        | (.error e, s) => (.error e, u, s)
        | (.ok _, s) => (.ok (), u, s)

/-- port.py:38-50 `Port.install_package(package)` -/
def portInstall {W : Type} (ex : Exec W) (ui : HelperUi W) (package : Str) (updated : Bool) (s : PSt W) :
    Except Err Unit × Bool × PSt W :=
  match (if updated then (.ok (), s) else helperCall ex ui "port".toList true true ["selfupdate".toList] s) with
  | (.error e, s) => (.error e, updated, s)
  | (.ok _, s) => match helperCall ex ui "port".toList true true ["install".toList, package] s with
    | (.error e, s) => (.error e, true, s)
    | (.ok _, s) => (.ok (), true, s)

/-- yum.py:33-40 `Yum.install_package(package)` -/
def yumInstall {W : Type} (ex : Exec W) (ui : HelperUi W) (package : Str) (s : PSt W) : Except Err Unit × PSt W :=
  helperCall ex ui "yum".toList true true ["--quiet".toList, "install".toList, package] s

/-- brew.py:37-49 `Brew.install_package(package)`; the package is one or several words -/
def brewInstall {W : Type} (ex : Exec W) (ui : HelperUi W) (package : List Str) (s : PSt W) : Except Err Unit × PSt W :=
  helperCall ex ui "brew".toList true false ("install".toList :: package) s

end Cot
