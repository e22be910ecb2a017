import Verif.Py.Basic
/-
Python string primitives used by the modelled code.
-/
namespace Cot

/-- `sep.join(parts)` -/
def joinWith (sep : Str) : List Str → Str
  | [] => []
  | [x] => x
  | x :: y :: t => x ++ sep ++ joinWith sep (y :: t)

/-- `s.split(c)` for a one-character separator: always at least one field. -/
def splitOnChar (c : Char) : Str → List Str
  | [] => [[]]
  | x :: t =>
    if x = c then [] :: splitOnChar c t
    else match splitOnChar c t with
      | [] => [[x]]          -- unreachable: splitOnChar never returns []
      | h :: r => (x :: h) :: r

/-- ASCII white space as recognised by `str.split()` / `str.strip()` / `\s`.
Simplification: Unicode white space outside ASCII is not treated as white space. -/
def isWs (c : Char) : Bool :=
  c == ' ' || c == '\t' || c == '\n' || c == '\r' || c == '\x0b' || c == '\x0c'
  || c == '\x1c' || c == '\x1d' || c == '\x1e' || c == '\x1f'

/-- `s.split()` (split on runs of white space, no empty fields).  `cur` is the field being read. -/
def splitWsAux : Str → Str → List Str
  | [], cur => if cur = [] then [] else [cur]
  | c :: t, cur =>
    if isWs c then (if cur = [] then splitWsAux t [] else cur :: splitWsAux t [])
    else splitWsAux t (cur ++ [c])

/-- `s.split()` -/
def splitWs (s : Str) : List Str := splitWsAux s []

/-- `s.lstrip()` -/
def lstrip (s : Str) : Str := s.dropWhile isWs

/-- `s.strip()` -/
def strip (s : Str) : Str := ((s.dropWhile isWs).reverse.dropWhile isWs).reverse

/-- ASCII decimal digit, `[0-9]`. -/
def isDig (c : Char) : Bool := decide ('0' ≤ c) && decide (c ≤ '9')

/-- Value of a decimal digit. -/
def digVal (c : Char) : Nat := c.toNat - 48

/-- Number written by a run of decimal digits. -/
def digitsVal (s : Str) : Nat := s.foldl (fun n c => n * 10 + digVal c) 0

/-- `str(n)` for a non-negative int. -/
def natStr (n : Nat) : Str := Nat.toDigits 10 n

/-- `str(z)` for an int. -/
def intStr : Int → Str
  | .ofNat n => natStr n
  | .negSucc n => '-' :: natStr (n + 1)

/-- `sub in s` (substring test). -/
def hasSub (sub : Str) : Str → Bool
  | [] => sub.isEmpty
  | c :: t => sub.isPrefixOf (c :: t) || hasSub sub t

/-- `s.startswith(p)` -/
def startsWith (s p : Str) : Bool := p.isPrefixOf s

/-- ASCII lower-casing of one character.
Simplification: `str.lower()` on non-ASCII letters is not modelled. -/
def lowerC (c : Char) : Char := if 'A' ≤ c ∧ c ≤ 'Z' then Char.ofNat (c.toNat + 32) else c

/-- `s.lower()` (ASCII). -/
def lower (s : Str) : Str := s.map lowerC

end Cot
