import Verif.Py.Str
/-
Model of `alphanum_split` and `natural_sort` (COT/data_validation.py:66-114).
-/
namespace Cot

/-- `re.split('([0-9]+)', key)`: alternating text and digit runs, starting and ending with text.
Returned as first text and a list of (digit run, following text).
`splitDigits` scans; a digit run is maximal because `+` is greedy. -/
def reSplitDigits : Str → Str × List (Str × Str)
  | [] => ([], [])
  | c :: t =>
    let (txt, rest) := reSplitDigits t
    if isDig c then
      match txt, rest with
      | [], (d, x) :: r => ([], (c :: d, x) :: r)   -- extend the digit run that starts right after
      | _, _ => ([], ([c], txt) :: rest)            -- start a new digit run
    else (c :: txt, rest)

/-- data_validation.py:66-91 `alphanum_split`: digit runs become ints, texts stay.
Result `(t0, [(n1, t1), ...])` stands for the Python list `[t0, n1, t1, ...]`.
Simplification: `text.isdigit()` is taken to be false for the text parts, i.e. non-ASCII digits
(for which Python may even raise) are not modelled. -/
def alphanumSplit (s : Str) : Str × List (Nat × Str) :=
  let (t0, rest) := reSplitDigits s
  (t0, rest.map (fun dx => (digitsVal dx.1, dx.2)))

/-- Comparison of Python `str` values: lexicographic by code point. -/
def strLe : Str → Str → Bool
  | [], _ => true
  | _ :: _, [] => false
  | a :: s, b :: t => if a = b then strLe s t else decide (a.toNat < b.toNat)

/-- Comparison (`<=`) of the tails of two keys: Python compares lists element by element, a proper
prefix being smaller. -/
def tailLe : List (Nat × Str) → List (Nat × Str) → Bool
  | [], _ => true
  | _ :: _, [] => false
  | (m, s) :: r, (n, t) :: r' =>
    if m = n then (if s = t then tailLe r r' else strLe s t) else decide (m < n)

/-- `key(a) <= key(b)` for the keys used by `natural_sort`. -/
def natKeyLe (a b : Str × List (Nat × Str)) : Bool :=
  if a.1 = b.1 then tailLe a.2 b.2 else strLe a.1 b.1

/-- Insert keeping the order, in front of the first element whose key is not smaller (the inserted
element comes from an earlier input position, so this is the stable choice). -/
def natInsert (x : Str) : List Str → List Str
  | [] => [x]
  | y :: t => if natKeyLe (alphanumSplit x) (alphanumSplit y) then x :: y :: t
              else y :: natInsert x t

/-- data_validation.py:94-114 `natural_sort`: `sorted(iterable, key=alphanum_split)`.
Python's `sorted` is modelled by (stable) insertion sort; any stable sort yields the same list
(`stable_sort_unique` in `Verif/Lemmas/NatSort.lean`). -/
def naturalSort : List Str → List Str
  | [] => []
  | x :: t => natInsert x (naturalSort t)

end Cot
