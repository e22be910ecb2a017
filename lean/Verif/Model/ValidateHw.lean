import Verif.Model.EditHardware
/-
Model of ovf.py `validate_hardware`: the check of the hardware of every profile against the platform's limits that is
made whenever a descriptor is written.
-/
namespace Cot

/-- ovf.py:478-480 and 1461-1463: the profiles, or only the default one if the package defines none -/
def profIds (env : Env) : List Prof := if env.configProfiles = [] then [none] else env.configProfiles.map some

/-- `int(value)` of what `get_value` returns; `int(None)` is a TypeError -/
def pyIntVal : Option Val → Except Err Int
  | some (.str s) => intOrErr s
  | _ => .error .typeError

/-- `find_item(rt, profile=p)`, and the item itself -/
def itemUnder (env : Env) (hw : Hw) (rt : Str) (p : Prof) : Except Err (Option Item) :=
  match findItem env hw (some rt) [] p with
  | .error e => .error e
  | .ok none => .ok none
  | .ok (some k) => match dget? hw k with
    | none => .error .keyError
    | some it => .ok (some it)

/-- ovf.py:515-518 and 1487-1489: `programmatic_bytes_to_int(get_value(VIRTUAL_QUANTITY, [p]),
get_value(ALLOCATION_UNITS, [p]))`.  Without a quantity it is a TypeError, unless the units are already bad. -/
def memBytes (env : Env) (it : Item) (p : Prof) : Except Err Int := do
  let q ← it.getValue env virtualQuantity (some {p})
  let u ← it.getValue env allocationUnits (some {p})
  let units := match u with | some (.str u) => u | _ => []
  match q with
  | some (.str s) => programmaticBytesToInt s units
  | _ => match programmaticBytesToInt "0".toList units with
    | .error e => .error e
    | .ok _ => .error .typeError

/-- ovf.py:518-521: `int(bytes / (1024 * 1024))`.  On Python 3 the quotient is the nearest double, and `int`
truncates; on Python 2 it is the floor. -/
def megabytesOf (py : PyVer) (z : Int) : Int :=
  match py with
  | .py2 => z / (1024 * 1024)
  | .py3 => match z with
    | .ofNat n => ((roundDouble n / (1024 * 1024) : Nat) : Int)
    | .negSucc n => - ((roundDouble (n + 1) / (1024 * 1024) : Nat) : Int)

/-- what a warning is about: a value under a profile, or the types of the NICs -/
inductive HwWarning where
  | value (p : Prof) (k : HwKind) (v : Int)
  | nicTypes (p : Prof)
  deriving DecidableEq

/-- the state of the check: the platform's record of values seen, the result so far, the warnings so far -/
structure VhSt where
  seen : ValCache
  ok : Bool
  warnings : List HwWarning

/-- ovf.py:484-500 `_validate_helper` and `result &=`: a ValueUnsupportedError (or one of its subclasses
ValueTooLowError, ValueTooHighError) becomes a warning, other exceptions pass -/
def vhNote (w : HwWarning) (r : Except Err Unit) (s : VhSt) : Except Err VhSt :=
  match r with
  | .ok _ => .ok s
  | .error e =>
    if e = .valueUnsupported ∨ e = .valueTooLow ∨ e = .valueTooHigh then
      .ok { s with ok := false, warnings := s.warnings ++ [w] }
    else .error e

/-- one call of `_validate_helper` for a number -/
def vhCheck (plat : Plat) (p : Prof) (k : HwKind) (v : Int) (s : VhSt) : Except Err VhSt :=
  vhNote (.value p k v) (validateHw plat k s.seen v).1 { s with seen := (validateHw plat k s.seen v).2 }

/-- ovf.py:508-513: the CPUs of a profile -/
def vhCpus (env : Env) (plat : Plat) (hw : Hw) (p : Prof) (s : VhSt) : Except Err VhSt := do
  match ← itemUnder env hw "cpu".toList p with
  | none => .ok s
  | some it =>
    let v ← pyIntVal (← it.getValue env virtualQuantity (some {p}))
    vhCheck plat p .cpus v s

/-- ovf.py:515-524: the memory of a profile -/
def vhMemory (env : Env) (py : PyVer) (plat : Plat) (hw : Hw) (p : Prof) (s : VhSt) : Except Err VhSt := do
  match ← itemUnder env hw "memory".toList p with
  | none => .ok s
  | some it =>
    let z ← memBytes env it p
    vhCheck plat p .memory (megabytesOf py z) s

/-- `get_item_count(rt, p)` (hardware.py:302-315) -/
def itemCount (env : Env) (hw : Hw) (rt : Str) (p : Prof) : Except Err Nat :=
  match itemCounts env hw rt [p] with
  | .error e => .error e
  | .ok d => .ok (d p)

/-- ovf.py:530-532, 1189-1197: `list_union` of the subtypes of all items of a type, whatever their profiles -/
def subtypesOf (env : Env) (hw : Hw) (rt : Str) : Except Err (List Str) :=
  match findAllItems env hw (some rt) [] [] with
  | .error e => .error e
  | .ok ids => .ok (listUnion (ids.map (fun id => match dget? hw id with
      | none => []
      | some it => it.getAllSubtypes)))

/-- ovf.py:502-536: one round of the loop over the profiles -/
def vhProfile (env : Env) (py : PyVer) (plat : Plat) (hw : Hw) (p : Prof) (s : VhSt) : Except Err VhSt := do
  let s ← vhCpus env plat hw p s
  let s ← vhMemory env py plat hw p s
  let n ← itemCount env hw "ethernet".toList p
  let s ← vhCheck plat p .nicCount n s
  let types ← subtypesOf env hw "ethernet".toList
  vhNote (.nicTypes p) (validateNicTypes plat types) s

/-- ovf.py:502-536, the loop -/
def vhLoop (env : Env) (py : PyVer) (plat : Plat) (hw : Hw) : List Prof → VhSt → Except Err VhSt
  | [], s => .ok s
  | p :: r, s => match vhProfile env py plat hw p s with
    | .error e => .error e
    | .ok s' => vhLoop env py plat hw r s'

/-- ovf.py:469-536 `validate_hardware`: the result and the warnings, in order.  `seen` is what the platform object
has been asked about before. -/
def validateHardware (env : Env) (py : PyVer) (plat : Plat) (hw : Hw) (seen : ValCache) :
    Except Err (Bool × List HwWarning) :=
  match vhLoop env py plat hw (profIds env) ⟨seen, true, []⟩ with
  | .error e => .error e
  | .ok s => .ok (s.ok, s.warnings)

end Cot
