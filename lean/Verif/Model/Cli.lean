import Verif.Py.Str
import Verif.Py.Basic
import Verif.Model.Info
/-
Model of parts of COT/ui/cli.py: the arguments handed to a command, and the layout of usage texts and examples.
-/
namespace Cot

/-! ### Arguments -/

/-- A parsed argument: None, a value that is not a list, or a list of values and lists. -/
inductive ArgElem (α : Type) where
  | one (x : α)
  | many (l : List α)

inductive ArgVal (α : Type) where
  | absent
  | one (x : α)
  | list (l : List (ArgElem α))

/-- cli.py:537-538 `[v for l in value for v in l]` for a list of lists -/
def flattenArgs {α : Type} : List (ArgElem α) → Option (List (ArgElem α))
  | [] => some []
  | .one _ :: _ => none
  | .many l :: r => (flattenArgs r).map (fun r' => l.map .one ++ r')

/-- cli.py:530-538: the loop body -/
def cleanArg {α : Type} : ArgVal α → ArgVal α
  | .list l => match flattenArgs l with
    | some l' => .list l'
    | none => .list l
  | v => v

/-- cli.py:517-539 `args_to_dict(args)`; a missing entry to delete is an AttributeError/KeyError -/
def argsToDict {α : Type} (args : List (Str × ArgVal α)) : Except Err (List (Str × ArgVal α)) :=
  if "_verbosity".toList ∈ dkeys args ∧ "_force".toList ∈ dkeys args ∧ "_subcommand".toList ∈ dkeys args then
    .ok ((args.filter (fun kv => decide (kv.1 ≠ "_verbosity".toList ∧ kv.1 ≠ "_force".toList ∧ kv.1 ≠ "_subcommand".toList))).map
      (fun kv => (kv.1, cleanArg kv.2)))
  else .error .keyError

/-- `c.isupper()` (ASCII) -/
def isUpperA (c : Char) : Bool := decide ('A' ≤ c) && decide (c ≤ 'Z')

/-- the loops of `set_instance_attributes`: `keep` says which arguments, `name` which attribute; `set` is `setattr` on the
command, which may refuse (its setters are modelled elsewhere) -/
def setLoop {α S : Type} (set : S → Str → ArgVal α → Except Err S) (keep : Str → Bool) (name : Str → Str) :
    List (Str × ArgVal α) → S → Except Err Unit × S
  | [], s => (.ok (), s)
  | (a, v) :: r, s =>
    if keep a then match v with
      | .absent => setLoop set keep name r s
      | v => match set s (name a) v with
        | .error e => (.error e, s)
        | .ok s' => setLoop set keep name r s'
    else setLoop set keep name r s

/-- cli.py:541-558 `set_instance_attributes(arg_dict)`; `arg[0]` of an empty name is not modelled -/
def setAttributes {α S : Type} (set : S → Str → ArgVal α → Except Err S) (d : List (Str × ArgVal α)) (s : S) : Except Err Unit × S :=
  match setLoop set (fun a => (a.head?.map isUpperA).getD false) lower d s with
  | (.error e, s) => (.error e, s)
  | (.ok _, s) => setLoop set (fun a => decide (a ≠ "instance".toList) && !(a.head?.map isUpperA).getD false) id d s

/-- cli.py:500-515 `parse_args`: --force is implied unless input and output are terminals -/
def impliedForce (force stdinTty stdoutTty : Bool) : Bool := if !(stdinTty && stdoutTty) then true else force

/-! ### Usage -/

def nonWs (c : Char) : Bool := !isWs c

/-- `.*?\)+` (or with another closing character) after the opening one: what is matched, and the rest.  `.` is not a newline. -/
def closedGroup (close : Char) (s : Str) : Option (Str × Str) :=
  let a := s.takeWhile (fun c => c != close && c != '\n')
  match s.dropWhile (fun c => c != close && c != '\n') with
  | [] => none
  | x :: r => if x = close then some (a ++ x :: r.takeWhile (· == close), r.dropWhile (· == close)) else none

/-- `-\S+\s+\S+`: the two classes exclude each other, so each run is taken as a whole -/
def dashGroup : Str → Option (Str × Str)
  | '-' :: t =>
    let a := t.takeWhile nonWs
    let r1 := t.dropWhile nonWs
    let w := r1.takeWhile isWs
    let r2 := r1.dropWhile isWs
    let b := r2.takeWhile nonWs
    if a ≠ [] ∧ w ≠ [] ∧ b ≠ [] then some ('-' :: a ++ w ++ b, r2.dropWhile nonWs) else none
  | _ => none

/-- `\S+` -/
def wordGroup (s : Str) : Option (Str × Str) :=
  if s.takeWhile nonWs = [] then none else some (s.takeWhile nonWs, s.dropWhile nonWs)

/-- the first two alternatives of the splitter, cli.py:157-158 -/
def openGroup : Str → Option (Str × Str)
  | '(' :: t => (closedGroup ')' t).map (fun x => ('(' :: x.1, x.2))
  | '[' :: t => (closedGroup ']' t).map (fun x => ('[' :: x.1, x.2))
  | _ => none

/-- cli.py:156-161: what the splitter matches here, and the rest -/
def usageGroup (s : Str) : Option (Str × Str) :=
  match openGroup s with
  | some x => some x
  | none => match dashGroup s with
    | some x => some x
    | none => wordGroup s

/-- `re.findall(splitter, text)`; every match has at least one character, so `fuel` is the length of the text -/
def findGroups (g : Str → Option (Str × Str)) : Nat → Str → List Str
  | 0, _ => []
  | _ + 1, [] => []
  | n + 1, c :: t => match g (c :: t) with
    | some (x, r) => x :: findGroups g n r
    | none => findGroups g n t

def usageGroups (line : Str) : List Str := findGroups usageGroup line.length line

/-- cli.py:184-191: the groups, as many on a line as fit -/
def wrapGroups (width : Nat) (indent : Str) : Str → List Str → List Str
  | line, [] => [line]
  | line, g :: gs =>
    if line.length + g.length ≥ width then line :: wrapGroups width indent (indent ++ ' ' :: g) gs
    else wrapGroups width indent (line ++ ' ' :: g) gs

/-- cli.py:148 -/
def usagePrefix (sub : Str) : Str := "  cot <opts> ".toList ++ sub

/-- cli.py:163-191: one usage string; `max` of an empty list is a ValueError -/
def usageLines (width : Nat) (sub line : Str) : Except Err (List Str) :=
  if usageGroups line = [] then .error .valueError
  else .ok (wrapGroups width
    (if (usagePrefix sub).length + maxLen (usageGroups line) ≥ width then List.replicate 5 ' '
      else List.replicate (usagePrefix sub).length ' ')
    (usagePrefix sub) (usageGroups line))

/-- the loop over the usage strings -/
def usageBlocks (width : Nat) (sub : Str) : List Str → Except Err (List (List Str))
  | [] => .ok []
  | l :: r => match usageLines width sub l with
    | .error e => .error e
    | .ok b => match usageBlocks width sub r with
      | .error e => .error e
      | .ok bs => .ok (b :: bs)

/-- cli.py:122-192 `fill_usage(subcommand, usage_list)` -/
def fillUsage (width : Nat) (sub : Str) (usages : List Str) : Except Err Str :=
  match usageBlocks width sub usages with
  | .error e => .error e
  | .ok bs => .ok (joinWith ['\n'] (("\n  cot ".toList ++ sub ++ " --help".toList) :: bs.flatten))

/-! ### Examples -/

/-- cli.py:236-240, the splitter.  `-\S+[ =]\S+`: a dashed word, one space and a word; or a dashed word with `=` inside, which is
then the whole word, as with the third alternative.  The second alternative (a quoted value) is never used: where it matches, the
first one does too, because a quote is a `\S`. -/
def paramGroup (s : Str) : Option (Str × Str) :=
  match s with
  | '-' :: t =>
    let a := t.takeWhile nonWs
    match t.dropWhile nonWs with
    | ' ' :: r =>
      if a ≠ [] ∧ r.takeWhile nonWs ≠ [] then some ('-' :: a ++ ' ' :: r.takeWhile nonWs, r.dropWhile nonWs)
      else wordGroup s
    | _ => wordGroup s
  | _ => wordGroup s

def exampleParams (s : Str) : List Str := findGroups paramGroup s.length s

/-- cli.py:259-266: the parameters, with a backslash at the end of lines that are continued -/
def wrapParams (width : Nat) : Str → List Str → List Str
  | line, [] => [line]
  | line, g :: gs =>
    if line.length + g.length + 4 ≥ width then (line ++ " \\".toList) :: wrapParams width ("       ".toList ++ ' ' :: g) gs
    else wrapParams width (line ++ ' ' :: g) gs

/-- cli.py:252-266: the lines of an example; several lines are only indented -/
def exampleLines (width : Nat) (ex : Str) : List Str :=
  if (splitLines ex).length > 1 then (splitLines ex).map (fun l => "    ".toList ++ l)
  else wrapParams width "   ".toList (exampleParams ex)

/-- cli.py:247-266, the loop; `wrap` is the wrapping of a description (textwrap, with words broken that are too long, which is
not modelled) -/
def examplesLoop (wrap : Str → List Str) (width : Nat) : List (Str × Str) → Bool → List Str
  | [], _ => []
  | (d, e) :: r, first =>
    (if first then [] else [[]]) ++ wrap d ++ [[]] ++ exampleLines width e ++ examplesLoop wrap width r false

/-- cli.py:196-266 `fill_examples(example_list)` -/
def fillExamples (wrap : Str → List Str) (width : Nat) (l : List (Str × Str)) : Str :=
  joinWith ['\n'] ("Examples:".toList :: examplesLoop wrap width l true)

end Cot
