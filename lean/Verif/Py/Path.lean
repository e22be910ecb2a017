import Verif.Py.Str
/-
Python's `os.path` (posixpath) functions used by the modelled code.
-/
namespace Cot

/-- The characters after the last `/` (`os.path.basename`). -/
def pathBase (p : Str) : Str := (p.reverse.takeWhile (fun c => c != '/')).reverse
/-- The characters up to and including the last `/` (the unstripped part of `os.path.dirname`). -/
def pathHead (p : Str) : Str := (p.reverse.dropWhile (fun c => c != '/')).reverse

/-- `os.path.dirname`: trailing slashes are dropped unless the head is all slashes -/
def pathDir (p : Str) : Str :=
  let h := pathHead p
  if h.all (fun c => c == '/') then h else (h.reverse.dropWhile (fun c => c == '/')).reverse

/-- `os.path.join(a, b)` -/
def pathJoin (a b : Str) : Str :=
  if b.head? = some '/' then b
  else if a = [] ∨ a.getLast? = some '/' then a ++ b
  else a ++ '/' :: b

/-- posixpath.normpath, the loop over components; `acc` is `new_comps` reversed -/
def normComps (rooted : Bool) : List Str → List Str → List Str
  | [], acc => acc.reverse
  | c :: t, acc =>
    if c = [] ∨ c = ['.'] then normComps rooted t acc
    else if c ≠ ['.', '.'] ∨ (rooted = false ∧ acc = []) ∨ acc.head? = some ['.', '.'] then
      normComps rooted t (c :: acc)
    else normComps rooted t acc.tail

/-- number of slashes kept in front: two if there are exactly two -/
def initialSlashes : Str → Nat
  | '/' :: '/' :: '/' :: _ => 1
  | '/' :: '/' :: _ => 2
  | '/' :: _ => 1
  | _ => 0

/-- posixpath.normpath -/
def normpath (p : Str) : Str :=
  if p = [] then ['.']
  else
    let n := initialSlashes p
    let r := List.replicate n '/' ++ joinWith ['/'] (normComps (decide (n ≠ 0)) (splitOnChar '/' p) [])
    if r = [] then ['.'] else r

/-- `os.path.splitext(p)[1]`: from the last dot of the base name, ignoring its leading dots -/
def pathExt (p : Str) : Str :=
  let b := (pathBase p).dropWhile (fun c => c == '.')
  if '.' ∈ b then '.' :: (b.reverse.takeWhile (fun c => c != '.')).reverse else []

/-- `os.path.splitext(p)[0]` -/
def pathRoot (p : Str) : Str := p.take (p.length - (pathExt p).length)

end Cot
