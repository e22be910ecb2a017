import Verif.Spec.DataValidation
/-
Specification vocabulary for name patterns with `{N}` placeholders and for memory sizes.
-/
namespace Cot

/-- a placeholder `{N}` is at the start of the text -/
def StartsHole (s : Str) : Prop := ∃ d t, Digits d ∧ s = '{' :: d ++ '}' :: t

/-- a placeholder `{N}` is somewhere in the text -/
def HasHole (s : Str) : Prop := ∃ pre x, s = pre ++ x ∧ StartsHole x

/-- `r` is the pattern `s` with every placeholder, from left to right, replaced by `v` -/
inductive Subst (v : Str) : Str → Str → Prop
  | nil : Subst v [] []
  | hole {d t r : Str} : Digits d → Subst v t r → Subst v ('{' :: d ++ '}' :: t) (v ++ r)
  | char {c : Char} {t r : Str} : ¬ StartsHole (c :: t) → Subst v t r → Subst v (c :: t) (c :: r)

/-- `n` is the number in the first placeholder of the pattern, 0 if there is none -/
inductive FirstNumber : Str → Nat → Prop
  | nil : FirstNumber [] 0
  | hole {d t : Str} : Digits d → FirstNumber ('{' :: d ++ '}' :: t) (digitsVal d)
  | char {c : Char} {t : Str} {n : Nat} : ¬ StartsHole (c :: t) → FirstNumber t n → FirstNumber (c :: t) n

/-- the units a memory size may be written in -/
inductive MemUnit | none | mega | giga
  deriving DecidableEq

/-- how the units may be spelled -/
def memLetters : MemUnit → List Str
  | .none => [[]]
  | .mega => [['m'], ['M']]
  | .giga => [['g'], ['G']]

/-- `s` reads as the number `n` in units `u`: digits, then optionally M or G, `i`, and B, with white
space allowed at both ends and after the digits. -/
def IsMemory (s : Str) (n : Nat) (u : MemUnit) : Prop :=
  ∃ w1 d w2 l i b w3, s = w1 ++ d ++ w2 ++ l ++ i ++ b ++ w3 ∧ Blank w1 ∧ Blank w2 ∧ Blank w3 ∧ Digits d ∧
    n = digitsVal d ∧ l ∈ memLetters u ∧ i ∈ [[], ['i']] ∧ b ∈ [[], ['b'], ['B']]

end Cot
