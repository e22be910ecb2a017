import Verif.Py.Str
/-
The part of Python's `re` module that the modelled code uses: a backtracking matcher on regular
expression trees.  `Re.run r s` lists all ways `r` can match a prefix of `s`, in the order in which
Python tries them; `re.match` takes the first.
-/
namespace Cot

/-- Regular expressions.  `cls p` is one character satisfying `p`; `star` is greedy `*`, `starL` is lazy
`*?`; `eol` is `$` (without MULTILINE); `grp n` is a capturing group. -/
inductive Re where
  | eps
  | cls (p : Char → Bool)
  | seq (a b : Re)
  | alt (a b : Re)
  | star (a : Re)
  | starL (a : Re)
  | grp (n : Nat) (a : Re)
  | eol

/-- captured groups, latest last -/
abbrev Caps := List (Nat × Str)

/-- greedy iteration of a matcher; an iteration must consume something; `n` bounds their number. -/
def starRun (f : Str → List (Str × Caps)) : Nat → Str → List (Str × Caps)
  | 0, s => [(s, [])]
  | n + 1, s =>
    ((f s).filter (fun x => decide (x.1.length < s.length))).flatMap
      (fun x => (starRun f n x.1).map (fun y => (y.1, x.2 ++ y.2))) ++ [(s, [])]

/-- lazy iteration -/
def starRunL (f : Str → List (Str × Caps)) : Nat → Str → List (Str × Caps)
  | 0, s => [(s, [])]
  | n + 1, s =>
    (s, []) :: ((f s).filter (fun x => decide (x.1.length < s.length))).flatMap
      (fun x => (starRunL f n x.1).map (fun y => (y.1, x.2 ++ y.2)))

/-- All matches of a prefix of the string, in Python's order: what is left, and the groups captured. -/
def Re.run : Re → Str → List (Str × Caps)
  | .eps, s => [(s, [])]
  | .cls _, [] => []
  | .cls p, c :: t => if p c then [(t, [])] else []
  | .seq a b, s => (a.run s).flatMap (fun x => (b.run x.1).map (fun y => (y.1, x.2 ++ y.2)))
  | .alt a b, s => a.run s ++ b.run s
  | .star a, s => starRun (fun t => a.run t) s.length s
  | .starL a, s => starRunL (fun t => a.run t) s.length s
  | .grp n a, s => (a.run s).map (fun x => (x.1, x.2 ++ [(n, s.take (s.length - x.1.length))]))
  | .eol, s => if s = [] ∨ s = ['\n'] then [(s, [])] else []

/-- `re.match(r, s)`: the captured groups of the first match at the start of the string. -/
def reMatch (r : Re) (s : Str) : Option Caps := (r.run s).head?.map Prod.snd

/-- `re.search(r, s)` for an expression without `^`: the first match at the leftmost position. -/
def reSearch (r : Re) : Str → Option Caps
  | [] => reMatch r []
  | c :: t => match reMatch r (c :: t) with
    | some m => some m
    | none => reSearch r t

/-- `re.sub(r, repl, s)` for a literal replacement text and an expression that never matches the empty
string: non-overlapping matches from left to right.  The number bounds the steps; the length of `s`
suffices. -/
def reSubAux (r : Re) (repl : Str) : Nat → Str → Str
  | 0, s => s
  | _ + 1, [] => []
  | n + 1, c :: t => match (r.run (c :: t)).head? with
    | some x => repl ++ reSubAux r repl n x.1
    | none => c :: reSubAux r repl n t

/-- `re.sub(r, repl, s)`, see `reSubAux` -/
def reSubst (r : Re) (repl s : Str) : Str := reSubAux r repl s.length s

/-- `m.group(n)`: the last capture; `none` if the group did not take part (Python's None). -/
def Caps.group (m : Caps) (n : Nat) : Option Str := dget? m.reverse n

namespace Re
/-- one literal character -/
def chr (c : Char) : Re := .cls (fun x => x == c)
/-- one literal character under `re.IGNORECASE` (ASCII) -/
def chrI (c : Char) : Re := .cls (fun x => lowerC x == lowerC c)
/-- `r+` -/
def plus (r : Re) : Re := .seq r (.star r)
/-- `r+?` -/
def plusL (r : Re) : Re := .seq r (.starL r)
/-- `r?` -/
def opt (r : Re) : Re := .alt r .eps
/-- `r{n}` -/
def rep (r : Re) : Nat → Re
  | 0 => .eps
  | n + 1 => .seq r (rep r n)
/-- concatenation -/
def cat : List Re → Re
  | [] => .eps
  | [r] => r
  | r :: s :: t => .seq r (cat (s :: t))
/-- a literal text -/
def lit (s : Str) : Re := cat (s.map chr)
/-- a literal text under `re.IGNORECASE` -/
def litI (s : Str) : Re := cat (s.map chrI)
/-- `.` -/
def dot : Re := .cls (fun x => x != '\n')
/-- `\d` (ASCII) -/
def dig : Re := .cls isDig
/-- `\s` (ASCII) -/
def ws : Re := .cls isWs
end Re

end Cot
