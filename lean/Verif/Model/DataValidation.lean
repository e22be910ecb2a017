import Verif.Py.Re
import Verif.Py.Int
/-
Model of COT/data_validation.py (except alphanum_split and natural_sort, in Model/NatSort.lean).
-/
namespace Cot

/-- data_validation.py:117-141 `match_or_die` (labels and the message are not modelled) -/
def matchOrDie {α : Type} [DecidableEq α] (first second : α) : Except Err Unit :=
  if first ≠ second then .error .valueMismatch else .ok ()

/-! ### Canonical controller and NIC subtypes -/

/-- data_validation.py:159-162, the loop of `canonicalize_helper`. -/
def canonLoop (s : Str) : List (Re × Str) → Except Err (Option Str)
  | [] => .error .valueUnsupported
  | (expr, canonical) :: r =>
    match reMatch expr s with
    | some _ => .ok (some canonical)
    | none => canonLoop s r

/-- data_validation.py:144-163 `canonicalize_helper`; the input `none` is Python's None. -/
def canonicalizeHelper (mappings : List (Re × Str)) : Option Str → Except Err (Option Str)
  | none => .ok none
  | some s => if s = [] then .ok none else canonLoop s mappings

/-- a pattern such as "lsi *logic *sas" under re.IGNORECASE: literal words with ` *` in between -/
def spaced : List Str → Re
  | [] => .eps
  | [w] => Re.litI w
  | w :: v :: t => .seq (Re.litI w) (.seq (.star (Re.chr ' ')) (spaced (v :: t)))

/-- data_validation.py:190-194 -/
def ideMappings : List (Re × Str) :=
  [(spaced ["piix4".toList], "PIIX4".toList), (spaced ["virtio".toList], "virtio".toList)]

/-- data_validation.py:200-206 `_NIC_MAPPINGS` -/
def nicMappings : List (Re × Str) :=
  [(spaced ["e1000e".toList], "E1000e".toList),
   (spaced ["e1000".toList], "E1000".toList),
   (spaced ["pcnet32".toList], "PCNet32".toList),
   (spaced ["virtio".toList], "virtio".toList),
   (spaced ["vmxnet".toList, "3".toList], "VMXNET3".toList)]

/-- data_validation.py:270-276 -/
def scsiMappings : List (Re × Str) :=
  [(spaced ["bus".toList, "logic".toList], "buslogic".toList),
   (spaced ["lsi".toList, "logic".toList, "sas".toList], "lsilogicsas".toList),
   (spaced ["lsi".toList, "logic".toList], "lsilogic".toList),
   (spaced ["virtio".toList], "virtio".toList),
   (spaced ["virtual".toList, "scsi".toList], "VirtualSCSI".toList)]

/-- data_validation.py:166-197 `canonicalize_ide_subtype` -/
def canonicalizeIde (s : Option Str) : Except Err (Option Str) := canonicalizeHelper ideMappings s
/-- data_validation.py:212-238 `canonicalize_nic_subtype` -/
def canonicalizeNic (s : Option Str) : Except Err (Option Str) := canonicalizeHelper nicMappings s
/-- data_validation.py:241-278 `canonicalize_scsi_subtype` -/
def canonicalizeScsi (s : Option Str) : Except Err (Option Str) := canonicalizeHelper scsiMappings s

/-! ### check_for_conflict -/

/-- data_validation.py:304-317: the loop over the references; `obj` is the candidate so far. -/
def conflictLoop {α : Type} [DecidableEq α] : List (Option α) → Option α → Except Err (Option α)
  | [], obj => .ok obj
  | none :: r, obj => conflictLoop r obj
  | some a :: r, _ =>
    if r.any (fun b => decide (b ≠ none) && decide (b ≠ some a)) then .error .valueMismatch
    else conflictLoop r (some a)

/-- data_validation.py:281-318 `check_for_conflict` -/
def checkForConflict {α : Type} [DecidableEq α] (refs : List (Option α)) : Except Err (Option α) :=
  conflictLoop refs none

/-! ### file_checksum -/

/-- A hash object of `hashlib`: state, `update` and `hexdigest`.  The two laws are the documented
contract of `hash.update`: repeated calls are equivalent to one call with the concatenation. -/
structure HashAlg where
  State : Type
  init : State
  update : State → List UInt8 → State
  hexdigest : State → Str
  update_append : ∀ h a b, update (update h a) b = update h (a ++ b)
  update_nil : ∀ h, update h [] = h

/-- data_validation.py:346 -/
def blocksize : Nat := 65536

/-- What one `file_obj.read(blocksize)` returns when `content` is left and the operating system
delivers `k` bytes: at least one and at most `blocksize` bytes, or nothing at the end of the file. -/
def readLen (k : Nat) (content : List UInt8) : Nat := min (min (max k 1) blocksize) content.length

/-- data_validation.py:348-354, the loop; `sched i` is how many bytes the i-th read delivers.  The
first argument bounds the number of iterations; `none` when it is exhausted. -/
def checksumLoop (H : HashAlg) (sched : Nat → Nat) : Nat → Nat → H.State → List UInt8 → Option H.State
  | 0, _, _, _ => none
  | fuel + 1, i, h, content =>
    let buf := content.take (readLen (sched i) content)
    if buf.length = 0 then some h
    else checksumLoop H sched fuel (i + 1) (H.update h buf) (content.drop buf.length)

/-- data_validation.py:321-361 `file_checksum`; `algs` gives the supported hash constructors by name (md5, sha1, sha256);
the content is what is left to read of the file. -/
def fileChecksum (algs : Str → Option HashAlg) (sched : Nat → Nat) (content : List UInt8)
    (checksumType : Str) : Option (Except Err Str) :=
  match algs checksumType with
  | none => some (.error .notImplementedError)
  | some H => (checksumLoop H sched (content.length + 1) 0 H.init content).map
      (fun h => .ok (H.hexdigest h))

/-! ### Address and number arguments -/

/-- `[0-9a-fA-F]` -/
def isHex (c : Char) : Bool :=
  isDig c || (decide ('a' ≤ c) && decide (c ≤ 'f')) || (decide ('A' ≤ c) && decide (c ≤ 'F'))

/-- `([0-9a-fA-F]{n}<sep>){k}[0-9a-fA-F]{n}$` -/
def macRe (n : Nat) (sep : Char) (k : Nat) : Re :=
  .seq (Re.rep (.seq (Re.rep (.cls isHex) n) (Re.chr sep)) k) (.seq (Re.rep (.cls isHex) n) .eol)

/-- data_validation.py:364-388 `mac_address` -/
def macAddress (string : Str) : Except Err Str :=
  let s := strip string
  if (reMatch (macRe 2 ':' 5) s).isSome || (reMatch (macRe 2 '-' 5) s).isSome ||
      (reMatch (macRe 4 '.' 2) s).isSome then .ok s
  else .error .invalidInput

/-- data_validation.py:414 `\d+:\d+$` -/
def deviceRe : Re := .seq (Re.plus (.cls isDig)) (.seq (Re.chr ':') (.seq (Re.plus (.cls isDig)) .eol))

/-- data_validation.py:391-417 `device_address` -/
def deviceAddress (string : Str) : Except Err Str :=
  let s := strip string
  if (reMatch deviceRe s).isSome then .ok s else .error .invalidInput

/-- data_validation.py:420-444 `no_whitespace` -/
def noWhitespace (string : Str) : Except Err Str :=
  let s := strip string
  if (splitWs s).length > 1 then .error .invalidInput else .ok s

/-- data_validation.py:485 `minimum is not None and value < minimum` -/
def belowMin (value : Int) : Option Int → Bool
  | some lo => decide (value < lo)
  | none => false
/-- data_validation.py:487 `maximum is not None and value > maximum` -/
def aboveMax (value : Int) : Option Int → Bool
  | some hi => decide (value > hi)
  | none => false

/-- data_validation.py:447-492 `validate_int` for a string argument -/
def validateInt (string : Str) (minimum maximum : Option Int) : Except Err Int :=
  match pyInt string with
  | none => .error .valueUnsupported
  | some value =>
    if belowMin value minimum then .error .valueTooLow
    else if aboveMax value maximum then .error .valueTooHigh
    else .ok value

/-- data_validation.py:495-521 `non_negative_int` -/
def nonNegativeInt (s : Str) : Except Err Int := validateInt s (some 0) none
/-- data_validation.py:524-548 `positive_int` -/
def positiveInt (s : Str) : Except Err Int := validateInt s (some 1) none

/-- `distutils.util.strtobool` -/
def strtobool (s : Str) : Option Bool :=
  if lower s ∈ ["y".toList, "yes".toList, "t".toList, "true".toList, "on".toList, "1".toList] then some true
  else if lower s ∈ ["n".toList, "no".toList, "f".toList, "false".toList, "off".toList, "0".toList] then
    some false
  else none

/-- data_validation.py:551-589 `truth_value`: a bool is returned as it is, a string is parsed. -/
def truthValue : Bool ⊕ Str → Except Err Bool
  | .inl b => .ok b
  | .inr s => match strtobool s with
    | some b => .ok b
    | none => .error .valueUnsupported

end Cot
