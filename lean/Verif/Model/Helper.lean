import Verif.Py.Basic
/-
Model of the selection and installation of helper programs: COT/helpers/helper.py.

The state of the machine is an arbitrary type `W`; which programs are found, their versions, which ones COT can
install and what an installation does are parameters.  The per-helper caches of path, installed flag and version
are not modelled: nothing but COT's own installations changes the machine while it runs.
-/
namespace Cot

/-- What the machine provides. -/
structure HelperSys (W V : Type) where
  /-- helper.py:220-238 `path`, `installed`: the executable is found -/
  found : W → Str → Bool
  /-- helper.py:248-261 `version` of an installed helper; RuntimeError if the output has no version -/
  version : W → Str → Except Err V
  /-- helper.py:241-246 `installable` -/
  installable : W → Str → Bool
  /-- helper.py:391-404 and subclasses, `_install()`: the outcome and the state after it -/
  runInstall : W → Str → Except Err Unit × W
  /-- helper.py:360-389 `unsure_how_to_install()`: RuntimeError or NotImplementedError -/
  unsure : W → Str → Err
  /-- `StrictVersion(vers)` -/
  parse : Str → Except Err V
  /-- `v >= w` for versions -/
  ge : V → V → Bool

/-- helper.py:332-358 `install()` -/
def HelperSys.install {W V : Type} (sys : HelperSys W V) (w : W) (name : Str) : Except Err Unit × W :=
  if sys.found w name then (.ok (), w)
  else if sys.installable w name = false then (.error (sys.unsure w name), w)
  else match sys.runInstall w name with
    | (.error e, w') => (.error e, w')
    | (.ok _, w') => if sys.found w' name then (.ok (), w') else (.error .helperNotFound, w')

/-- helper.py:726-737 `_name_min_ver_from_choice`: a choice is a name with an optional minimum version -/
def HelperSys.minVersion {W V : Type} (sys : HelperSys W V) : Option Str → Except Err (Option V)
  | none => .ok none
  | some v => match sys.parse v with
    | .error e => .error e
    | .ok x => .ok (some x)

/-- helper.py:742, 750: `min_version is None or helpers[name].version >= min_version` -/
def HelperSys.enough {W V : Type} (sys : HelperSys W V) (w : W) (name : Str) : Option V → Except Err Bool
  | none => .ok true
  | some m => match sys.version w name with
    | .error e => .error e
    | .ok v => .ok (sys.ge v m)

/-- helper.py:739-743: the first loop of `helper_select` -/
def HelperSys.firstInstalled {W V : Type} (sys : HelperSys W V) (w : W) :
    List (Str × Option Str) → Except Err (Option Str)
  | [] => .ok none
  | (name, vers) :: r => match sys.minVersion vers with
    | .error e => .error e
    | .ok m =>
      if sys.found w name then match sys.enough w name m with
        | .error e => .error e
        | .ok true => .ok (some name)
        | .ok false => sys.firstInstalled w r
      else sys.firstInstalled w r

/-- helper.py:745-751: the second loop -/
def HelperSys.firstInstallable {W V : Type} (sys : HelperSys W V) :
    List (Str × Option Str) → W → Except Err (Option Str) × W
  | [], w => (.ok none, w)
  | (name, vers) :: r, w => match sys.minVersion vers with
    | .error e => (.error e, w)
    | .ok m =>
      if sys.installable w name then match sys.install w name with
        | (.error e, w') => (.error e, w')
        | (.ok _, w') => match sys.enough w' name m with
          | .error e => (.error e, w')
          | .ok true => (.ok (some name), w')
          | .ok false => sys.firstInstallable r w'
      else sys.firstInstallable r w

/-- helper.py:708-759 `helper_select(choices)` -/
def HelperSys.select {W V : Type} (sys : HelperSys W V) (w : W) (choices : List (Str × Option Str)) :
    Except Err Str × W :=
  match sys.firstInstalled w choices with
  | .error e => (.error e, w)
  | .ok (some n) => (.ok n, w)
  | .ok none => match sys.firstInstallable choices w with
    | (.error e, w') => (.error e, w')
    | (.ok (some n), w') => (.ok n, w')
    | (.ok none, w') => (.error .helperNotFound, w')

end Cot
