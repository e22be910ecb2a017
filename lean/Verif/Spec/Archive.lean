import Verif.Py.Str
/-
Specification vocabulary for archive member paths: directories as lists of component names.
-/
namespace Cot

/-- Follow path components from directory `here`: empty components and `.` stay, `..` goes to the parent
(the root is its own parent), any other component is entered. -/
def walk (here : List Str) : List Str → List Str
  | [] => here
  | c :: t =>
    if c = [] ∨ c = ['.'] then walk here t
    else if c = ['.', '.'] then walk here.dropLast t
    else walk (here ++ [c]) t

/-- a plain component name -/
def PlainName (c : Str) : Prop := c ≠ [] ∧ c ≠ ['.'] ∧ c ≠ ['.', '.'] ∧ '/' ∉ c

/-- `cs` are the components of the path text `p`, as separated by slashes. -/
def ComponentsOf (p : Str) (cs : List Str) : Prop :=
  cs ≠ [] ∧ (∀ c ∈ cs, '/' ∉ c) ∧ p = joinWith ['/'] cs

/-- the absolute path text of a directory -/
def dirText (dir : List Str) : Str := '/' :: joinWith ['/'] dir

/-- Where a member name written in an archive points to when unpacked in `dir`. -/
def target (dir : List Str) (cs : List Str) : List Str :=
  if cs.head? = some [] ∧ cs.length > 1 then walk [] cs else walk dir cs

/-- at or below `dir` -/
def Inside (dir t : List Str) : Prop := dir <+: t

/-- the target goes through a directory beside `dir` whose name extends the name of `dir` -/
def NextTo (dir t : List Str) : Prop :=
  ∃ pre last sfx rest, dir = pre ++ [last] ∧ sfx ≠ [] ∧ t = pre ++ (last ++ sfx) :: rest

/-- The archive would be unpacked within the working directory. -/
def AllInside (dir : List Str) (names : List Str) : Prop :=
  ∀ n ∈ names, ∀ cs, ComponentsOf n cs → Inside dir (target dir cs)

end Cot
