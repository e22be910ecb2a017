/-
Python primitives shared by the whole model.

* `Str`  : a Python `str`, as the list of its code points.
* `Err`  : the exception classes raised by the modelled code (payload text is not modelled).
* dict   : insertion-ordered association list; `dset` overwrites in place or appends, `ddel` removes,
           exactly as CPython (>= 3.7) dictionaries iterate.
-/
namespace Cot

/-- A Python `str`. -/
abbrev Str := List Char

/-- Exception classes that the modelled code raises.  Messages are not modelled. -/
inductive Err where
  | runtimeError            -- builtin RuntimeError
  | keyError                -- builtin KeyError
  | indexError              -- builtin IndexError
  | typeError               -- builtin TypeError
  | valueError              -- builtin ValueError (incl. int('x'), list.index)
  | lookupError             -- builtin LookupError
  | attributeError          -- builtin AttributeError
  | notImplementedError     -- builtin NotImplementedError
  | ioError                 -- IOError / OSError / EnvironmentError
  | reError                 -- re.error
  | itemDataError           -- COT OVFItemDataError
  | hardwareDataError       -- COT OVFHardwareDataError
  | valueUnsupported        -- COT ValueUnsupportedError
  | valueTooLow             -- COT ValueTooLowError
  | valueTooHigh            -- COT ValueTooHighError
  | valueMismatch           -- COT ValueMismatchError
  | invalidInput            -- COT InvalidInputError
  | vmInitError             -- COT VMInitError
  | helperNotFound          -- COT HelperNotFoundError
  | helperError             -- COT HelperError
  | systemExit              -- sys.exit(...)
  deriving DecidableEq, Repr

/-! ### Dictionaries -/

section Dict
variable {κ ν : Type} [DecidableEq κ]

/-- `d.get(k)` -/
def dget? : List (κ × ν) → κ → Option ν
  | [], _ => none
  | (k, v) :: t, x => if k = x then some v else dget? t x

/-- `d[k] = v` (position kept when the key exists, appended otherwise) -/
def dset : List (κ × ν) → κ → ν → List (κ × ν)
  | [], x, w => [(x, w)]
  | (k, v) :: t, x, w => if k = x then (k, w) :: t else (k, v) :: dset t x w

/-- `del d[k]` for a key that is known to be present (no-op otherwise) -/
def ddel : List (κ × ν) → κ → List (κ × ν)
  | [], _ => []
  | (k, v) :: t, x => if k = x then ddel t x else (k, v) :: ddel t x

/-- `list(d.keys())` -/
def dkeys (d : List (κ × ν)) : List κ := d.map Prod.fst

end Dict

end Cot
