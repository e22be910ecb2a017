import Verif.Py.Re
import Verif.Model.NatSort
import Verif.Model.Utilities
/-
Model of the wildcard functions and the memory argument of COT/commands/edit_hardware.py.
-/
namespace Cot

/-- edit_hardware.py:769, `{(\d+)}` -/
def holeGrpRe : Re := .cat [.chr '{', .grp 1 (.plus .dig), .chr '}']
/-- edit_hardware.py:775, `{\d+}` -/
def holeRe : Re := .cat [.chr '{', .plus .dig, .chr '}']

/-- edit_hardware.py:774-776, the loop; `n` is the number of entries still to be added. -/
def fillLoop (pattern : Str) : Nat → Nat → List Str → List Str
  | 0, _, l => l
  | n + 1, value, l => fillLoop pattern n (value + 1) (l ++ [reSubst holeRe (natStr value) pattern])

/-- edit_hardware.py:769-773: the first number -/
def startValue (pattern : Str) : Nat :=
  match reSearch holeGrpRe pattern with
  | some m => digitsVal (m.groupD 1)
  | none => 0

/-- edit_hardware.py:732-780 `expand_list_wildcard`; None is passed as the empty list. -/
def expandListWildcard (names : List Str) (length : Nat) : List Str :=
  if names = [] then []
  else if names.length < length then
    let pattern := names.getLastD []
    let init := names.dropLast
    fillLoop pattern (length - init.length) (startValue pattern) init
  else names

/-- edit_hardware.py:817: `"".join([str(k) for k in split_val[i:]])` for the tokens after a number -/
def joinToks : List (Nat × Str) → Str
  | [] => []
  | (n, t) :: r => natStr n ++ t ++ joinToks r

/-- edit_hardware.py:811-832: the loop over the tokens of one name; `pre` is the text before the token. -/
def guessTokens (known : List Str) (idx : Nat) (pre : Str) : List (Nat × Str) → Option (List Str)
  | [] => none
  | (token, t) :: r =>
    let suffix := t ++ joinToks r
    if known[idx + 1]? = some (pre ++ natStr (token + 1) ++ suffix) then
      let possible := known.take idx ++ [pre ++ "{".toList ++ natStr token ++ "}".toList ++ suffix]
      if expandListWildcard possible known.length = known then some possible
      else guessTokens known idx (pre ++ natStr token ++ t) r
    else guessTokens known idx (pre ++ natStr token ++ t) r

/-- edit_hardware.py:808-810: the loop over the names -/
def guessFrom (known : List Str) : List Nat → Option (List Str)
  | [] => none
  | idx :: r =>
    let split := alphanumSplit (known.getD idx [])
    match guessTokens known idx split.1 split.2 with
    | some l => some l
    | none => guessFrom known r

/-- edit_hardware.py:783-835 `guess_list_wildcard` -/
def guessListWildcard (known : List Str) : Option (List Str) := guessFrom known (List.range (known.length - 1))

/-- `[mMgG]` -/
def isMG (c : Char) : Bool := c == 'm' || c == 'M' || c == 'g' || c == 'G'
/-- `[bB]` -/
def isBB (c : Char) : Bool := c == 'b' || c == 'B'

/-- edit_hardware.py:137 `MEMORY_REGEXP`, `^\s*(\d+)\s*([mMgG])?i?[bB]?\s*$` -/
def memoryRe : Re :=
  .cat [.star .ws, .grp 1 (.plus .dig), .star .ws, .opt (.grp 2 (.cls isMG)), .opt (.chr 'i'), .opt (.cls isBB),
    .star .ws, .eol]

/-- edit_hardware.py:144-174, the `memory` setter up to the platform's validation: megabytes. -/
def parseMemory (value : Str) : Except Err Nat :=
  match reMatch memoryRe value with
  | none => .error .invalidInput
  | some m =>
    let memValue := digitsVal (m.groupD 1)
    if memValue = 0 then .error .invalidInput
    else if m.group 2 = some ['M'] ∨ m.group 2 = some ['m'] then .ok memValue
    else if m.group 2 = some ['G'] ∨ m.group 2 = some ['g'] then .ok (memValue * 1024)
    else if memValue ≤ 64 then .ok (memValue * 1024)
    else .ok memValue

end Cot
