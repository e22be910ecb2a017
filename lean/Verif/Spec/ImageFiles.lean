import Verif.Py.Str
/-
Specification for C114: what the listings of the helper programs mean.
-/
namespace Cot

/-- The line consists of these words, with white space between them, and possibly before and after them. -/
inductive Columns : List Str → Str → Prop
  | blank {s : Str} : (∀ c ∈ s, isWs c = true) → Columns [] s
  | last {s w : Str} : (∀ c ∈ s, isWs c = true) → w ≠ [] → (∀ c ∈ w, isWs c = false) → Columns [w] (s ++ w)
  | word {s w r : Str} {c : Char} {ws : List Str} : (∀ c ∈ s, isWs c = true) → w ≠ [] → (∀ c ∈ w, isWs c = false) →
      isWs c = true → Columns ws r → Columns (w :: ws) (s ++ w ++ c :: r)

/-- What a line of the output of `fatdisk image ls` lists: nothing, or a file given by attributes, size, date and name. -/
inductive FatLine : Str → Option Str → Prop
  | blank {l : Str} : (∀ c ∈ l, isWs c = true) → FatLine l none
  | total {l : Str} : FatLine ("Listed".toList ++ l) none
  | file {l attrs size year month day name : Str} : Columns [attrs, size, year, month, day, name] l →
      ¬ "Listed".toList <+: l → FatLine l (some name)

/-- What a line of the output of `isoinfo -i image -f -R` lists: nothing, or a path.  Without Rock Ridge names, the names of
files are those of ISO 9660, in upper case and with the version number 1; directories have no version. -/
inductive IsoLine : Bool → Str → Option Str → Prop
  | other {rr : Bool} {l : Str} : (∀ p, l ≠ '/' :: p) → IsoLine rr l none
  | rockRidge {p : Str} : IsoLine true ('/' :: p) (some p)
  | directory {p : Str} : ¬ ";1".toList <:+: p → IsoLine false ('/' :: p) (some p)
  | file {p : Str} : (∀ c ∈ p, c ≠ ';') → IsoLine false ('/' :: p ++ ";1".toList) (some (p.map (fun c =>
      if 'A' ≤ c ∧ c ≤ 'Z' then Char.ofNat (c.toNat + 32) else c)))

/-- `isoinfo -d` says in one of its lines that Rock Ridge was found. -/
def FoundRockRidge (out : Str) : Prop :=
  ∃ before between after, out = before ++ "Rock Ridge".toList ++ between ++ "found".toList ++ after ∧ '\n' ∉ between

end Cot
