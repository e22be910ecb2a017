import Verif.Py.Basic
/-
Model of what a helper object remembers about its program: COT/helpers/helper.py:180-182, 197-199, 220-261, 304-314, 332-358.

One object, and a machine that anything may change between the questions: for each question there is a view of the machine at
that time.  The question to the user before an installation in `call` is in Model/Calls.
-/
namespace Cot

/-- The machine at the time of a question: where the program is found; whether COT can install it, how an installation ends
and where the program is found then; what a run of the program says about its version. -/
structure HcView (V : Type) where
  found : Option Str
  able : Bool
  inst : Except Err Unit
  foundAfter : Option Str
  says : Except Err V

/-- `_path`, `_installed`, `_version` (helper.py:180-182) -/
structure HcObj (V : Type) where
  path : Option Str := none
  installed : Option Bool := none
  version : Option V := none

/-- helper.py:220-231 `path`; `found` is what `find_executable` gives -/
def HcObj.askPath {V : Type} (o : HcObj V) (found : Option Str) : Option Str × HcObj V :=
  match o.path with
  | some p => (some p, o)
  | none => match found with
    | some p => (some p, { o with path := some p, installed := some true })
    | none => (none, o)

/-- helper.py:233-238 `installed`, and 197-199 `bool(helper)` -/
def HcObj.askInstalled {V : Type} (o : HcObj V) (v : HcView V) : Bool × HcObj V :=
  match o.installed with
  | some b => (b, o)
  | none => match o.askPath v.found with
    | (p, o') => (p.isSome, { o' with installed := some p.isSome })

/-- helper.py:332-358 `install()` -/
def HcObj.install {V : Type} (o : HcObj V) (v : HcView V) : Except Err Unit × HcObj V :=
  match o.askInstalled v with
  | (true, o) => (.ok (), o)
  | (false, o) =>
    if v.able = false then (.error .notImplementedError, o)
    else match v.inst with
      | .error e => (.error e, o)
      | .ok _ => match o.askPath v.foundAfter with
        | (some _, o) => (.ok (), o)
        | (none, o) => (.error .helperNotFound, o)

/-- helper.py:304-314 the beginning of `call`: the program is there, or it gets installed -/
def HcObj.ready {V : Type} (o : HcObj V) (v : HcView V) : Except Err Unit × HcObj V :=
  match o.askPath v.found with
  | (some _, o) => (.ok (), o)
  | (none, o) => o.install v

/-- helper.py:248-261 `version` -/
def HcObj.askVersion {V : Type} (o : HcObj V) (v : HcView V) : Except Err (Option V) × HcObj V :=
  match o.askInstalled v with
  | (false, o) => (.ok o.version, o)
  | (true, o) => match o.version with
    | some x => (.ok (some x), o)
    | none => match o.ready v with
      | (.error e, o) => (.error e, o)
      | (.ok _, o) => match v.says with
        | .error e => (.error e, o)
        | .ok x => (.ok (some x), { o with version := some x })

/-- the questions -/
inductive HcOp | path | installed | version | install | ready
deriving DecidableEq

/-- the object after a question -/
def HcObj.step {V : Type} (o : HcObj V) (q : HcOp × HcView V) : HcObj V :=
  match q.1 with
  | .path => (o.askPath q.2.found).2
  | .installed => (o.askInstalled q.2).2
  | .version => (o.askVersion q.2).2
  | .install => (o.install q.2).2
  | .ready => (o.ready q.2).2

/-- the object after all these questions -/
def HcObj.after {V : Type} (qs : List (HcOp × HcView V)) : HcObj V := qs.foldl HcObj.step {}

end Cot
