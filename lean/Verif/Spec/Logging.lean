import Verif.Model.Logging
/-
What is to be seen of the messages that are logged.
-/
namespace Cot

/-- the levels from the most to the least important -/
def levelsInOrder : List LogLevel := [.critical, .error, .warning, .notice, .info, .verbose, .debug, .spam]

/-- `-v` was given `d` times (or `-q` was given `-d` times): messages of the first four levels are shown, of one more for each `-v` and of one
less for each `-q`, but always those of the first. -/
def IsShown (d : Int) (l : LogLevel) : Prop := ∃ n : Nat, levelsInOrder[n]? = some l ∧ (n = 0 ∨ (n : Int) < 4 + d)

/-- The parts of a line besides the message: the level; with `-v` also the module; with `-vv` also the function; with more also the time and
the number of the line. -/
def lineParts (d : Int) (r : LogRecord) : List Str :=
  if d ≤ 0 then [padR 7 r.level.name]
  else if d = 1 then [padR 7 r.level.name, padR 15 r.modName]
  else if d = 2 then [padR 7 r.level.name, padR 15 r.modName, padL 31 r.func ++ "()".toList]
  else [padR 7 r.level.name, r.time ++ '.' :: natStr r.msecs, padR 15 r.modName, padL 4 (natStr r.line), padL 31 r.func ++ "()".toList]

/-- the line of a message -/
def LineFor (k : LogColours) (d : Int) (r : LogRecord) (l : Str) : Prop :=
  l = k.start r.level ++ joinWith " : ".toList (lineParts d r) ++ " :".toList ++ k.reset ++ ' ' :: r.message

/-- what there is to see of a message: one line, or nothing -/
def ShownOnce (k : LogColours) (d : Int) (r : LogRecord) (out : List Str) : Prop :=
  (IsShown d r.level ∧ ∃ l, out = [l] ∧ LineFor k d r l) ∨ (¬ IsShown d r.level ∧ out = [])

/-- the run ended in the regular way: a command was given and its object could be destroyed -/
def EndsWell (j : Nat) (h : List LogEvent) : Prop :=
  ∀ a d rs e b, h = a ++ .run j d rs e :: b → (∀ d' rs' e', .run j d' rs' e' ∉ b) → e = .regular

/-- a process in which nothing has run yet -/
def FreshProc (p : LogProc) : Prop := p.log.attached = [] ∧ ∀ i, (p.clis i).handler = none ∧ (p.clis i).master = false

end Cot
