import Verif.Py.Str
/-
Specification vocabulary for the argument validators: written forms of numbers and addresses.
Nothing here uses the model's validators.
-/
namespace Cot

/-- a run of white space (possibly empty) -/
def Blank (s : Str) : Prop := ∀ c ∈ s, isWs c = true

/-- `s` is `t` with white space around it. -/
def Padded (s t : Str) : Prop := ∃ a b, Blank a ∧ Blank b ∧ s = a ++ t ++ b

/-- non-empty string of decimal digits -/
def Digits (s : Str) : Prop := s ≠ [] ∧ ∀ c ∈ s, isDig c = true

/-- `s` is a decimal numeral, with optional sign and surrounding white space, denoting `z`. -/
def Numeral (s : Str) (z : Int) : Prop :=
  ∃ d, Digits d ∧ ((Padded s d ∧ z = digitsVal d) ∨ (Padded s ('+' :: d) ∧ z = digitsVal d) ∨
    (Padded s ('-' :: d) ∧ z = - (digitsVal d : Int)))

/-- a hexadecimal digit -/
def HexDigit (c : Char) : Prop := ('0' ≤ c ∧ c ≤ '9') ∨ ('a' ≤ c ∧ c ≤ 'f') ∨ ('A' ≤ c ∧ c ≤ 'F')

/-- `k` groups of `n` hexadecimal digits joined by `sep` -/
def HexGroups (k n : Nat) (sep : Char) (t : Str) : Prop :=
  ∃ gs : List Str, gs.length = k ∧ (∀ g ∈ gs, g.length = n ∧ ∀ c ∈ g, HexDigit c) ∧ t = joinWith [sep] gs

/-- the three documented forms of a MAC address -/
def IsMac (t : Str) : Prop := HexGroups 6 2 ':' t ∨ HexGroups 6 2 '-' t ∨ HexGroups 3 4 '.' t

/-- two decimal numbers joined by a colon -/
def IsDeviceAddress (t : Str) : Prop := ∃ a b, Digits a ∧ Digits b ∧ t = a ++ ':' :: b

/-- The string begins, ignoring letter case, with the given (lower-case) words, with any number of
blanks between consecutive words. -/
def StartsCI : List Str → Str → Prop
  | [], _ => True
  | [w], s => ∃ rest, lower s = w ++ rest
  | w :: v :: t, s => ∃ k rest, lower s = w ++ List.replicate k ' ' ++ rest ∧ StartsCI (v :: t) rest

end Cot

namespace Cot

/-- The documented NIC types with the words a user may write for them, in order of preference. -/
def nicWords : List (List Str × Str) :=
  [(["e1000e".toList], "E1000e".toList), (["e1000".toList], "E1000".toList),
   (["pcnet32".toList], "PCNet32".toList), (["virtio".toList], "virtio".toList),
   (["vmxnet".toList, "3".toList], "VMXNET3".toList)]

/-- The documented SCSI controller types. -/
def scsiWords : List (List Str × Str) :=
  [(["bus".toList, "logic".toList], "buslogic".toList),
   (["lsi".toList, "logic".toList, "sas".toList], "lsilogicsas".toList),
   (["lsi".toList, "logic".toList], "lsilogic".toList), (["virtio".toList], "virtio".toList),
   (["virtual".toList, "scsi".toList], "VirtualSCSI".toList)]

/-- The documented IDE controller types. -/
def ideWords : List (List Str × Str) :=
  [(["piix4".toList], "PIIX4".toList), (["virtio".toList], "virtio".toList)]

/-- `r` is the canonical name of the first entry of the table that the string starts with. -/
def FirstMatch (table : List (List Str × Str)) (s r : Str) : Prop :=
  ∃ pre ws post, table = pre ++ (ws, r) :: post ∧ StartsCI ws s ∧ ∀ e ∈ pre, ¬ StartsCI e.1 s

/-- What it means for a canonicalisation function to implement a table of types and the words for
them. -/
structure Canonicalizes (f : Option Str → Except Err (Option Str)) (table : List (List Str × Str)) : Prop where
  /-- no input, no type -/
  nothing : ∀ x, f x = .ok none ↔ x = none ∨ x = some []
  /-- otherwise the type of the first entry that the input starts with, ignoring case -/
  first : ∀ s, s ≠ [] → ∀ r, f (some s) = .ok (some r) ↔ FirstMatch table s r
  /-- an input that starts with none of them is rejected -/
  rejects : ∀ s, s ≠ [] → (f (some s) = .error .valueUnsupported ↔ ∀ e ∈ table, ¬ StartsCI e.1 s)
  /-- letter case does not matter -/
  caseless : ∀ s t, lower s = lower t → f (some s) = f (some t)
  /-- canonical names stand for themselves, so canonicalising twice is the same as once -/
  idempotent : ∀ x r, f x = .ok (some r) → f (some r) = .ok (some r)

/-- The optional inclusive bounds hold. -/
def InRange (lo hi : Option Int) (z : Int) : Prop := (∀ a, lo = some a → a ≤ z) ∧ (∀ b, hi = some b → z ≤ b)

/-- the documented words for true -/
def trueWords : List Str := ["y".toList, "yes".toList, "t".toList, "true".toList, "on".toList, "1".toList]
/-- the documented words for false -/
def falseWords : List Str := ["n".toList, "no".toList, "f".toList, "false".toList, "off".toList, "0".toList]

end Cot
