import Verif.Model.Helper
import Verif.Py.Str
/-
Model of the versions of helper programs: COT/helpers/helper.py:248-261 `version` and `distutils.version.StrictVersion`
(standard library, Lib/distutils/version.py).
-/
namespace Cot

/-- a `StrictVersion`: `version` and `prerelease` -/
structure PyVersion where
  major : Nat
  minor : Nat
  patch : Nat
  pre : Option (Char × Nat)
  deriving DecidableEq, Repr

/-- `[0-9.]` -/
def isVerChar (c : Char) : Bool := isDig c || c == '.'

/-- helper.py:253 `re.search(self._version_regexp, output)` and `match.group(1)`: all the expressions are a literal text,
possibly empty, and `([0-9.]+)` -/
def findVersion (lit : Str) : Str → Option Str
  | [] => none
  | c :: t =>
    if lit.isPrefixOf (c :: t) && !(((c :: t).drop lit.length).takeWhile isVerChar).isEmpty
    then some (((c :: t).drop lit.length).takeWhile isVerChar)
    else findVersion lit t

/-- StrictVersion.version_re: `([ab](\d+))?$`.  (That `$` also allows a final line feed is not modelled.) -/
def parsePre : Str → Option (Option (Char × Nat))
  | [] => some none
  | c :: t => if (c = 'a' ∨ c = 'b') ∧ t ≠ [] ∧ t.all isDig = true then some (some (c, digitsVal t)) else none

/-- StrictVersion.version_re: `(\. (\d+))? ([ab](\d+))?$` after `(\d+) \. (\d+)` -/
def parsePatch : Str → Option (Nat × Option (Char × Nat))
  | '.' :: r =>
    if r.takeWhile isDig = [] then none
    else match parsePre (r.dropWhile isDig) with
      | none => none
      | some p => some (digitsVal (r.takeWhile isDig), p)
  | r => match parsePre r with
    | none => none
    | some p => some (0, p)

/-- `StrictVersion(vstring)`, `parse`: ValueError if the expression does not match -/
def parseVersion (s : Str) : Except Err PyVersion :=
  if s.takeWhile isDig = [] then .error .valueError
  else match s.dropWhile isDig with
    | '.' :: r =>
      if r.takeWhile isDig = [] then .error .valueError
      else match parsePatch (r.dropWhile isDig) with
        | none => .error .valueError
        | some (p, q) => .ok ⟨digitsVal (s.takeWhile isDig), digitsVal (r.takeWhile isDig), p, q⟩
    | _ => .error .valueError

/-- distutils/version.py `StrictVersion.__str__`: the prerelease -/
def showPre : Option (Char × Nat) → Str
  | none => []
  | some (c, n) => c :: natStr n

/-- `StrictVersion.__str__` -/
def showVersion (v : PyVersion) : Str :=
  natStr v.major ++ '.' :: natStr v.minor ++ (if v.patch = 0 then [] else '.' :: natStr v.patch) ++
    showPre v.pre

/-- comparison of tuples of integers, and of prereleases: -1, 0 or 1 as an `Ordering` -/
def cmpPre : Option (Char × Nat) → Option (Char × Nat) → Ordering
  | none, none => .eq
  | some _, none => .lt
  | none, some _ => .gt
  | some (c, m), some (d, n) => if c = d then compare m n else compare c.toNat d.toNat

/-- `StrictVersion._cmp` -/
def cmpVersion (a b : PyVersion) : Ordering :=
  if a.major ≠ b.major then compare a.major b.major
  else if a.minor ≠ b.minor then compare a.minor b.minor
  else if a.patch ≠ b.patch then compare a.patch b.patch
  else cmpPre a.pre b.pre

/-- `a >= b` -/
def verGe (a b : PyVersion) : Bool := cmpVersion a b != .lt

/-- helper.py:248-261 `version`: RuntimeError if the output has no version, ValueError if it is not one for StrictVersion.
`output` is what the program wrote. -/
def helperVersion (lit output : Str) : Except Err PyVersion :=
  match findVersion lit output with
  | none => .error .runtimeError
  | some t => parseVersion t

end Cot
