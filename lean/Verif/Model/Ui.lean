import Verif.Model.DataValidation
/-
Model of the user interaction of COT/ui/ui.py and COT/ui/cli.py, and of the disk space check of
COT/commands/command.py.

The lines the user types are a list; a function that reads input returns the rest of the list, or `none` when
the list runs out (Python: EOFError).  Prompt texts and logging are not modelled.
-/
namespace Cot

/-- cli.py:342-357: the loop of `confirm` -/
def confirmLoop : List Str → Option (Bool × List Str)
  | [] => none
  | line :: r =>
    let ans := strip line
    if ans = [] ∨ ans = "y".toList ∨ ans = "Y".toList then some (true, r)
    else if ans = "n".toList ∨ ans = "N".toList then some (false, r)
    else confirmLoop r

/-- cli.py:326-357 `confirm(prompt)` -/
def confirm (force : Bool) (inp : List Str) : Option (Bool × List Str) :=
  if force then some (true, inp) else confirmLoop inp

/-- ui.py:129-141 `confirm_or_die(prompt)` -/
def confirmOrDie (force : Bool) (inp : List Str) : Option (Except Err Unit × List Str) :=
  match confirm force inp with
  | none => none
  | some (true, r) => some (.ok (), r)
  | some (false, r) => some (.error .systemExit, r)

/-- the exceptions that are ValueErrors -/
def Err.isValueError : Err → Bool
  | .valueError | .valueUnsupported | .valueTooLow | .valueTooHigh | .valueMismatch | .invalidInput => true
  | _ => false

/-- ui.py:143-158 `validate_value(helper_function, *args)`; the argument is the outcome of the call -/
def validateValue (force : Bool) (outcome : Except Err Unit) (inp : List Str) : Option (Except Err Unit × List Str) :=
  match outcome with
  | .ok _ => some (.ok (), inp)
  | .error e =>
    if e.isValueError then
      match confirm force inp with
      | none => none
      | some (true, r) => some (.ok (), r)
      | some (false, r) => some (.error e, r)
    else some (.error e, inp)

/-- cli.py:359-381 `get_input(prompt, default_value)` -/
def getInput (force : Bool) (dflt : Str) : List Str → Option (Str × List Str)
  | inp =>
    if force then some (dflt, inp)
    else match inp with
      | [] => none
      | line :: r => if line = [] then some (dflt, r) else some (line, r)

/-- `l[i]` for a Python list, with negative indices counting from the end -/
def pyIndex {α : Type} (l : List α) (i : Int) : Option α :=
  if 0 ≤ i then l[i.toNat]?
  else if 0 ≤ i + l.length then l[(i + l.length).toNat]?
  else none

/-- ui.py:188-190: the element of a list of length one -/
def onlyMatch : List Str → Option Str
  | [m] => some m
  | _ => none

/-- ui.py:182-196: what one input selects (`none`: ask again) -/
def chooseOne (opts : List Str) (dflt result : Str) : Option Str :=
  if result = dflt ∨ result ∈ opts then some result
  else
    match onlyMatch (opts.filter (fun o => startsWith o result)) with
    | some m => some m
    | none => match pyInt result with
      | none => none
      | some index => pyIndex opts (index - 1)

/-- ui.py:181-197: the loop of `choose_from_list`, when `force` is not set -/
def chooseLoop (opts : List Str) (dflt : Str) : List Str → Option (Str × List Str)
  | [] => none
  | line :: r =>
    match chooseOne opts dflt (if line = [] then dflt else line) with
    | some x => some (x, r)
    | none => chooseLoop opts dflt r

/-- ui.py:160-197 `choose_from_list(footer, option_list, default_value, ...)` -/
def chooseFromList (force : Bool) (opts : List Str) (dflt : Str) (inp : List Str) : Option (Str × List Str) :=
  if force then some (dflt, inp) else chooseLoop opts dflt inp

/-! ### check_disk_space -/

/-- command.py:81: `_cached_disk_requirements`, directory to (required, available) -/
abbrev DiskCache := List (Str × (Nat × Nat))

/-- One call of `check_disk_space`: the directory the location resolves to, the size required, and what the
world provides: the number of bytes available there now. -/
structure SpaceCall where
  dir : Str
  required : Nat
  forceCheck : Bool
  die : Bool
  available : Nat

/-- command.py:170-173: the answer found in the cache, if any -/
def cachedAnswer (cache : DiskCache) (c : SpaceCall) : Option Bool :=
  match dget? cache c.dir with
  | some (prevReq, prevAvail) =>
    if c.forceCheck = false ∧ c.required ≤ prevReq then some (decide (c.required ≤ prevAvail)) else none
  | none => none

/-- command.py:130-197 `check_disk_space(...)`.  The search for an existing parent directory (164-168) is the
field `dir`.  `forceUi` is the UI's `force` attribute. -/
def checkDiskSpace (forceUi : Bool) (cache : DiskCache) (c : SpaceCall) (inp : List Str) :
    Option (Except Err Bool × DiskCache × List Str) :=
  match cachedAnswer cache c with
  | some b => some (.ok b, cache, inp)
  | none =>
    let cache' := dset cache c.dir (c.required, c.available)
    if c.required ≤ c.available then some (.ok true, cache', inp)
    else if c.die then
      match confirmOrDie forceUi inp with
      | none => none
      | some (.ok _, r) => some (.ok true, cache', r)
      | some (.error e, r) => some (.error e, cache', r)
    else
      match confirm forceUi inp with
      | none => none
      | some (b, r) => some (.ok b, cache', r)

end Cot
