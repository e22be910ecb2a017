import Verif.Py.Path
import Verif.Py.Basic
/-
Model of the recognition of package files by their names: COT/vm_description/ovf/ovf.py `detect_type_from_name`,
COT/vm_description/vm_description.py `factory`.
-/
namespace Cot

/-- `[a-zA-Z0-9]` -/
def isAlnumA (c : Char) : Bool :=
  (decide ('a' ≤ c) && decide (c ≤ 'z')) || (decide ('A' ≤ c) && decide (c ≤ 'Z')) || (decide ('0' ≤ c) && decide (c ≤ '9'))

/-- ovf.py:114: `re.search(r"(\.ov[fa])[^a-zA-Z0-9]", filename)`, the first group -/
def midExtension : Str → Option Str
  | [] => none
  | c :: t => match c :: t with
    | '.' :: 'o' :: 'v' :: x :: y :: _ =>
      if (x = 'f' ∨ x = 'a') ∧ isAlnumA y = false then some ['.', 'o', 'v', x] else midExtension t
    | _ => midExtension t

/-- ovf.py:83-122 `detect_type_from_name(filename)` -/
def detectType (filename : Str) : Except Err Str :=
  let base := pathBase filename
  let ext := pathExt base
  if ext = ".ovf".toList ∨ ext = ".ova".toList ∨ ext = ".box".toList then .ok ext
  else match midExtension base with
    | some e => .ok e
    | none => .error .valueUnsupported

/-- vm_description.py:150-154, 163-166: an unsupported value is a `VMInitError` -/
def initError (e : Err) : Err := if e = .valueUnsupported then .vmInitError else e

/-- vm_description.py:124-169 `factory(input_file, ...)`; the only subclass is OVF (ovf.py:57).  `make` is its constructor. -/
def factory {α : Type} (make : Str → Except Err α) (input : Str) : Except Err α :=
  match detectType input with
  | .error e => .error (initError e)
  | .ok _ => match make input with
    | .error e => .error (initError e)
    | .ok v => .ok v

/-- ovf.py:124-144 `_ovf_descriptor_from_name`: where the descriptor is; `untar` unpacks an archive and gives the path of the
descriptor.  The last branch (None) is never reached. -/
def descriptorFrom {W : Type} (untar : W → Str → Except Err Str × W) (input : Str) (w : W) : Except Err Str × W :=
  match detectType input with
  | .error e => (.error e, w)
  | .ok ext => if ext = ".ova".toList ∨ ext = ".box".toList then untar w input else (.ok input, w)

end Cot
