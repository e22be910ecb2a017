import Verif.Py.Str
/-
Specification of the alternating text/number reading of a name and of natural order.
-/
namespace Cot

/-- A token of a split name. -/
inductive Tok where
  | txt (s : Str)
  | num (n : Nat)
  deriving DecidableEq

/-- `s` consists of a digit-free text `t0` followed by maximal runs of digits, each followed by a
digit-free text. -/
structure Runs (s t0 : Str) (rs : List (Str × Str)) : Prop where
  join : s = t0 ++ rs.flatMap (fun e => e.1 ++ e.2)
  text0 : ∀ c ∈ t0, isDig c = false
  parts : ∀ e ∈ rs, e.1 ≠ [] ∧ (∀ c ∈ e.1, isDig c = true) ∧ (∀ c ∈ e.2, isDig c = false)
  /-- runs are maximal: only the last one may be followed by an empty text -/
  maximal : ∀ a e b, rs = a ++ e :: b → b ≠ [] → e.2 ≠ []

/-- `toks` is the reading of `s` as text, number, text, ..., text: the texts and the decimal values
of the runs of digits. -/
def IsSplit (s : Str) (toks : List Tok) : Prop :=
  ∃ (t0 : Str) (rs : List (Str × Str)), Runs s t0 rs ∧
    toks = Tok.txt t0 :: rs.flatMap (fun e => [Tok.num (digitsVal e.1), Tok.txt e.2])

/-- Printing a token. -/
def unTok : Tok → Str
  | .txt s => s
  | .num n => natStr n

/-- Texts compare by code points, numbers by value. -/
inductive TokLt : Tok → Tok → Prop where
  | txt {s t} : List.Lex (fun a b : Char => a.toNat < b.toNat) s t → TokLt (.txt s) (.txt t)
  | num {m n} : m < n → TokLt (.num m) (.num n)

/-- `y` must come strictly before `x` in natural order: the reading of `y` is lexicographically
smaller. -/
def NatBefore (y x : Str) : Prop :=
  ∃ ky kx, IsSplit y ky ∧ IsSplit x kx ∧ List.Lex TokLt ky kx

/-- Same reading: natural order does not distinguish the two names. -/
def NatSame (x y : Str) : Prop := ∃ k, IsSplit x k ∧ IsSplit y k

end Cot
