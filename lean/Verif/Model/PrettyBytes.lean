import Verif.Model.Utilities
/-
Model of COT/utilities.py `pretty_bytes`: sizes as they are shown to the user.
-/
namespace Cot

/-- COT/utilities.py:138 `tags` -/
def sizeTags : List Str :=
  ["B".toList, "KiB".toList, "MiB".toList, "GiB".toList, "TiB".toList, "PiB".toList, "EiB".toList, "ZiB".toList,
   "YiB".toList]

/-- COT/utilities.py:141-143, the first loop, on the double `m / 1024^k`: a division by 1024 is exact.  A finite
double is below 2^1024, so that 102 rounds are enough. -/
def sizeShift (m : Nat) : Nat → Nat → Nat
  | 0, k => k
  | fuel + 1, k => if 1024 * 1024 ^ k ≤ m then sizeShift m fuel (k + 1) else k

/-- `a / b` rounded to an integer, ties to even -/
def halfEven (a b : Nat) : Nat :=
  if 2 * (a % b) > b then a / b + 1 else if 2 * (a % b) = b ∧ (a / b) % 2 = 1 then a / b + 1 else a / b

/-- `n` written with at least `d` digits -/
def padDigits (d n : Nat) : Str := List.replicate (d - (natStr n).length) '0' ++ natStr n

/-- `q / 10^d` in decimal notation, without trailing zeros after the point (and without the point if nothing is left
after it) -/
def fixedText : Nat → Nat → Str
  | q, 0 => natStr q
  | q, d + 1 =>
    if q % 10 = 0 then fixedText (q / 10) d
    else natStr (q / 10 ^ (d + 1)) ++ '.' :: padDigits (d + 1) (q % 10 ^ (d + 1))

/-- how many decimals four significant digits of `a / b` have, for a value below 10000 -/
def decimals4 (a b : Nat) : Nat :=
  if a < 10 * b then 3 else if a < 100 * b then 2 else if a < 1000 * b then 1 else 0

/-- `"{0:.4g}".format(x)` for `x = a / b` with `x = 0` or `1 ≤ x < 1024`: four significant digits, correctly rounded,
trailing zeros removed.  (Where rounding adds a digit before the point, the digits after it are zeros.) -/
def fmt4g (a b : Nat) : Str := fixedText (halfEven (a * 10 ^ decimals4 a b) b) (decimals4 a b)

/-- COT/utilities.py:99-152 `pretty_bytes(byte_value)` for a non-negative integer, with `base_shift` 0 as in every
call of the program: then the second loop (144-146) does not run, and `round` (148-149) is applied to an integer.
`float(n)` for a value beyond the doubles raises OverflowError, an ArithmeticError, modelled as valueError;
`tags[shift]` raises IndexError from 1024^9 on. -/
def prettyBytes (n : Nat) : Except Err Str :=
  if roundDouble n < 2 ^ 1024 then
    match sizeTags[sizeShift (roundDouble n) 103 0]? with
    | none => .error .indexError
    | some u => .ok (fmt4g (roundDouble n) (1024 ^ sizeShift (roundDouble n) 103 0) ++ ' ' :: u)
  else .error .valueError

end Cot
