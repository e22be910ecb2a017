import Verif.Spec.DataValidation
import Mathlib.Data.List.Forall2
/-
Specification vocabulary for manifests, capacity units and archive sizes.
-/
namespace Cot

/-! ### Manifests -/

/-- `ls` are the lines of the text (as separated by newlines). -/
def LinesOf (text : Str) (ls : List Str) : Prop :=
  ls ≠ [] ∧ (∀ l ∈ ls, '\n' ∉ l) ∧ text = joinWith ['\n'] ls

/-- upper-case letters and digits -/
def UpperDigits (s : Str) : Prop := s ≠ [] ∧ ∀ c ∈ s, ('0' ≤ c ∧ c ≤ '9') ∨ ('A' ≤ c ∧ c ≤ 'Z')
/-- lower-case hexadecimal digits -/
def LowerHex (s : Str) : Prop := s ≠ [] ∧ ∀ c ∈ s, ('0' ≤ c ∧ c ≤ '9') ∨ ('a' ≤ c ∧ c ≤ 'f')
/-- non-empty, on one line -/
def FileName (s : Str) : Prop := s ≠ [] ∧ '\n' ∉ s
/-- letters and digits -/
def Alnum (s : Str) : Prop :=
  s ≠ [] ∧ ∀ c ∈ s, ('0' ≤ c ∧ c ≤ '9') ∨ ('a' ≤ c ∧ c ≤ 'z') ∨ ('A' ≤ c ∧ c ≤ 'Z')

/-- The line has the form `ALGO (name) = checksum`, with any white space around the parts. -/
def IsManifestLine (line algo name sum : Str) : Prop :=
  UpperDigits algo ∧ FileName name ∧ LowerHex sum ∧
  ∃ w1 w2 w3 w4 w5, Blank w1 ∧ Blank w2 ∧ Blank w3 ∧ Blank w4 ∧ Blank w5 ∧
    line = w1 ++ algo ++ w2 ++ '(' :: name ++ ')' :: w3 ++ '=' :: w4 ++ sum ++ w5

/-! ### Units -/

/-- Representable with a 53-bit significand. -/
def Fits53 (n : Nat) : Prop := ∃ m e, m < 2 ^ 53 ∧ n = m * 2 ^ e

/-- the unit words -/
def unitWords : List Str :=
  ["bytes".toList, "kilobytes".toList, "megabytes".toList, "gigabytes".toList, "terabytes".toList]

/-! ### Archive sizes -/

/-- `x` is the least multiple of `k` that is at least `y`. -/
def LeastMultiple (k y x : Int) : Prop := k ∣ x ∧ y ≤ x ∧ ∀ z, k ∣ z → y ≤ z → x ≤ z

/-- `total` is the size of a TAR archive whose entries hold files of the given sizes: each entry is a
512-byte header and the data padded to 512 bytes; two zero records follow; records of 10 kiB. -/
def TarSize (sizes : List Int) (total : Int) : Prop :=
  ∃ entries : List Int, List.Forall₂ (fun s e => LeastMultiple 512 (512 + s) e) sizes entries ∧
    LeastMultiple 10240 (entries.sum + 1024) total

end Cot
