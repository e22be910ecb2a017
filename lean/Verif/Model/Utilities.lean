import Verif.Py.Re
import Verif.Py.Int
/-
Model of COT/vm_description/ovf/utilities.py and COT/utilities.py, and of the parts of
COT/vm_description/ovf/ovf.py that use them for sizes and manifests.
-/
namespace Cot

/-! ### Manifests -/

/-- `[A-Z0-9]` -/
def isUpDig (c : Char) : Bool := isDig c || (decide ('A' ≤ c) && decide (c ≤ 'Z'))
/-- `[0-9a-f]` -/
def isLoHex (c : Char) : Bool := isDig c || (decide ('a' ≤ c) && decide (c ≤ 'f'))

/-- ovf/utilities.py:67, `^\s*([A-Z0-9]+)\s*\((.+)\)\s*=\s*([0-9a-f]+)\s*$` -/
def manifestRe : Re :=
  .cat [.star .ws, .grp 1 (.plus (.cls isUpDig)), .star .ws, .chr '(', .grp 2 (.plus .dot), .chr ')', .star .ws,
    .chr '=', .star .ws, .grp 3 (.plus (.cls isLoHex)), .star .ws, .eol]

/-- `match.group(n)`, which is never None for the groups of `manifestRe` -/
def Caps.groupD (m : Caps) (n : Nat) : Str := (m.group n).getD []

/-- ovf/utilities.py:58-73, the loop over the lines -/
def parseManifestLines : List Str → List (Str × Str × Str) → List (Str × Str × Str)
  | [], result => result
  | line :: rest, result =>
    if line = [] then parseManifestLines rest result
    else match reMatch manifestRe line with
      | some m => parseManifestLines rest (dset result (m.groupD 2) (m.groupD 1, m.groupD 3))
      | none => parseManifestLines rest result      -- logged as an error

/-- ovf/utilities.py:35-75 `parse_manifest`: file name ↦ (algorithm, checksum) -/
def parseManifest (text : Str) : List (Str × Str × Str) := parseManifestLines (splitOnChar '\n' text) []

/-- ASCII upper-casing. Simplification: non-ASCII letters are not modelled. -/
def upperC (c : Char) : Char := if 'a' ≤ c ∧ c ≤ 'z' then Char.ofNat (c.toNat - 32) else c
/-- `s.upper()` -/
def upper (s : Str) : Str := s.map upperC

/-- ovf.py:2726-2730 and 2736-2740: one manifest line -/
def manifestLine (algo file sum : Str) : Str :=
  upper algo ++ "(".toList ++ file ++ ")= ".toList ++ sum ++ "\n".toList

/-- ovf.py:2709-2742 `generate_manifest`, the text written: the descriptor first, then the referenced
files.  Simplification: reading and hashing the files is done by the caller (`files` gives the href
and checksum of each File element in document order); encoding to UTF-8 is not modelled. -/
def manifestText (algo : Str) (files : List (Str × Str)) : Str :=
  (files.map (fun f => manifestLine algo f.1 f.2)).flatten

/-! ### Units -/

/-- ovf/utilities.py:110, `2\^(\d+)` -/
def powerRe : Re := .cat [.chr '2', .chr '^', .grp 1 (.plus .dig)]

/-- ovf/utilities.py:116, `^(.*)bytes$` with IGNORECASE -/
def bytesRe : Re := .cat [.grp 1 (.star .dot), .litI "bytes".toList, .eol]

/-- ovf/utilities.py:115 `si_prefixes` -/
def siPrefixes : List Str := ["".toList, "kilo".toList, "mega".toList, "giga".toList, "tera".toList]

/-- `l.index(x)`: ValueError if absent -/
def listIndex {α : Type} [DecidableEq α] : List α → α → Option Nat
  | [], _ => none
  | y :: t, x => if y = x then some 0 else (listIndex t x).map (fun n : Nat => n + 1)

/-- `int(s)` raising ValueError -/
def intOrErr (s : Str) : Except Err Int := match pyInt s with | some z => .ok z | none => .error .valueError

/-- ovf/utilities.py:78-130 `programmatic_bytes_to_int` (the base value as a string; an int argument is
its own value and is passed as its numeral) -/
def programmaticBytesToInt (baseValue units : Str) : Except Err Int :=
  if units = [] then intOrErr baseValue
  else match reSearch powerRe units with
    | some m =>
      match intOrErr baseValue with
      | .error e => .error e
      | .ok b => .ok (b * 2 ^ digitsVal (m.groupD 1))
    | none =>
      match reMatch bytesRe units with
      | some m =>
        match listIndex siPrefixes (lower (m.groupD 1)) with
        | none => .error .valueError
        | some shift =>
          match intOrErr baseValue with
          | .error e => .error e
          | .ok b => .ok (b * 2 ^ (10 * shift))
      | none => intOrErr baseValue

/-- Round a natural number to the nearest IEEE double (53 significant bits, ties to even). -/
def roundDouble (m : Nat) : Nat :=
  let e := Nat.log2 m + 1 - 53
  if e = 0 then m
  else
    let q := m / 2 ^ e
    let r := m % 2 ^ e
    let q' := if 2 * r > 2 ^ e then q + 1 else if 2 * r = 2 ^ e ∧ q % 2 = 1 then q + 1 else q
    q' * 2 ^ e

/-- Which Python runs: on Python 3 `/=` on ints makes a double, on Python 2 it is integer division. -/
inductive PyVer | py2 | py3
  deriving DecidableEq

/-- ovf/utilities.py:160 `byte_value /= 1024` for a value divisible by 1024.  On Python 3 the result is
the nearest double, and an overflow is an error (an ArithmeticError, modelled as valueError); doubles
divide exactly from then on, which is what rounding an already rounded value does. -/
def div1024 (py : PyVer) (v : Nat) : Except Err Nat :=
  match py with
  | .py2 => .ok (v / 1024)
  | .py3 => if roundDouble (v / 1024) < 2 ^ 1024 then .ok (roundDouble (v / 1024)) else .error .valueError

/-- ovf/utilities.py:158-160, the loop; `none` is "did not stop within `fuel` rounds" -/
def unitsLoop (py : PyVer) : Nat → Nat → Nat → Option (Except Err (Nat × Nat))
  | 0, _, _ => none
  | fuel + 1, shift, v =>
    if v % 1024 = 0 then
      match div1024 py v with
      | .error e => some (.error e)
      | .ok v' => unitsLoop py fuel (shift + 10) v'
    else some (.ok (shift, v))

/-- ovf/utilities.py:133-164 `int_bytes_to_programmatic_units` for a non-negative count -/
def intBytesToUnits (py : PyVer) (fuel : Nat) (n : Nat) : Option (Except Err (Str × Str)) :=
  match unitsLoop py fuel 0 n with
  | none => none
  | some (.error e) => some (.error e)
  | some (.ok (shift, v)) =>
    some (.ok (natStr v, if shift = 0 then "byte".toList else "byte * 2^".toList ++ natStr shift))

/-! ### Archive sizes -/

/-- COT/utilities.py:163-188 `tar_entry_size` -/
def tarEntrySize (filesize : Int) : Int := 512 + filesize + (512 - filesize) % 512

/-- ovf.py:783-793: the approximate size of the manifest -/
def manifestSizeOf (v2 : Bool) : List (Str × Int) → Int → Int
  | [], n => n
  | (href, _) :: t, n => manifestSizeOf v2 t (n + ((if v2 then 76 else 50) + href.length))

/-- ovf.py:796: the sizes of the referenced files -/
def filesSizeOf : List (Str × Int) → Int → Int
  | [], n => n
  | (_, size) :: t, n => filesSizeOf t (n + tarEntrySize size)

/-- ovf.py:763-808 `predicted_output_size`.  `xmlLen` is `len(ET.tostring(root))`, `v2` is
`ovf_version >= 2.0`.  The loop's two accumulators are computed by two loops. -/
def predictedOutputSize (xmlLen : Int) (v2 : Bool) (files : List (Str × Int)) : Int :=
  let needed := tarEntrySize xmlLen
  let needed := filesSizeOf files needed
  let needed := needed + tarEntrySize (manifestSizeOf v2 files 0)
  let needed := needed + 1024
  needed + (10240 - needed) % 10240

end Cot
