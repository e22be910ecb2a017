import Verif.Py.Str
import Verif.Py.Basic
/-
Python's `textwrap.TextWrapper` with `break_long_words=False, break_on_hyphens=False` (and the other options at their
defaults: expand_tabs, replace_whitespace, drop_whitespace), as COT/vm_description/ovf/ovf.py:1391-1393 creates it.
This is a model of the standard library (Lib/textwrap.py), not of COT.  Simplification: the control characters U+001C to
U+001F, which XML does not allow, count as white space.
-/
namespace Cot

/-- `text.expandtabs(8)`; `col` is the column -/
def expandTabs : Nat → Str → Str
  | _, [] => []
  | col, c :: r =>
    if c = '\t' then List.replicate (8 - col % 8) ' ' ++ expandTabs (col + (8 - col % 8)) r
    else c :: expandTabs (if c = '\n' ∨ c = '\r' then 0 else col + 1) r

/-- `_munge_whitespace`: tabs are expanded, every other white space becomes a space -/
def munge (s : Str) : Str := (expandTabs 0 s).map (fun c => if isWs c then ' ' else c)

/-- `_split` with `wordsep_simple_re`: the text as a list of words and of runs of white space -/
def twChunks : Str → List Str
  | [] => []
  | c :: r => match twChunks r with
    | [] => [[c]]
    | k :: ks => if (k.all isWs) = isWs c then (c :: k) :: ks else [c] :: k :: ks

/-- `chunk.strip() == ''` -/
def blank (s : Str) : Bool := s.all isWs

/-- the inner loop of `_wrap_chunks`: the chunks that fit, and the rest -/
def takeFit (width : Int) : List Str → Nat → List Str × List Str
  | [], _ => ([], [])
  | c :: r, len =>
    if ((len + c.length : Nat) : Int) ≤ width then
      let t := takeFit width r (len + c.length)
      (c :: t.1, t.2)
    else ([], c :: r)

/-- a white chunk at the beginning of a line other than the first is dropped -/
def dropStart (started : Bool) (chunks : List Str) : List Str :=
  match chunks with
  | c :: r => if blank c && started then r else c :: r
  | [] => []

/-- a white chunk at the end of a line is dropped -/
def dropEnd (line : List Str) : List Str :=
  match line.getLast? with
  | some c => if blank c then line.dropLast else line
  | none => line

/-- one line: the chunks of the line, and the remaining chunks.  A word that is longer than the line stands alone
(`_handle_long_word` without breaking). -/
def twLine (width : Int) (chunks : List Str) : List Str × List Str :=
  match takeFit width chunks 0 with
  | ([], c :: r) => ([c], r)
  | x => x

/-- `_wrap_chunks`.  Every round takes at least one chunk; `fuel` is the number of chunks. -/
def twLoop (width : Int) (initial subsequent : Str) : Nat → Bool → List Str → List Str
  | 0, _, _ => []
  | fuel + 1, started, chunks =>
    match chunks with
    | [] => []
    | _ =>
      let indent := if started then subsequent else initial
      let x := twLine (width - indent.length) (dropStart started chunks)
      let line := dropEnd x.1
      if line = [] then twLoop width initial subsequent fuel started x.2
      else (indent ++ line.flatten) :: twLoop width initial subsequent fuel true x.2

/-- `wrapper.wrap(text)`; a width that is not positive is a ValueError -/
def textWrap (width : Int) (initial subsequent text : Str) : Except Err (List Str) :=
  if width ≤ 0 then .error .valueError
  else .ok (twLoop width initial subsequent (twChunks (munge text)).length false (twChunks (munge text)))

end Cot
