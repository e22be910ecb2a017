import Verif.Model.Cli
/-
What commands are given, and how usage texts and examples are laid out.
-/
namespace Cot

/-! ### Arguments -/

/-- a mandatory argument: its name begins with a capital letter -/
def Mandatory (a : Str) : Prop := ∃ c t, a = c :: t ∧ 'A' ≤ c ∧ c ≤ 'Z'

instance (a : Str) : Decidable (Mandatory a) :=
  match a with
  | [] => isFalse (by rintro ⟨c, t, h, -⟩; cases h)
  | c :: t => decidable_of_iff ('A' ≤ c ∧ c ≤ 'Z')
      ⟨fun h => ⟨c, t, rfl, h⟩, by rintro ⟨c', t', h, hc⟩; cases h; exact hc⟩

/-- the argument was given -/
def Given {α : Type} : ArgVal α → Prop
  | .absent => False
  | _ => True

instance {α : Type} (v : ArgVal α) : Decidable (Given v) := by cases v <;> (unfold Given; infer_instance)

/-- the attributes that are to be set, in this order: the mandatory arguments that were given, under their names in lower case,
then the other ones that were given -/
def Assignments {α : Type} (d : List (Str × ArgVal α)) : List (Str × ArgVal α) :=
  (d.filter (fun kv => decide (Mandatory kv.1 ∧ Given kv.2))).map (fun kv => (lower kv.1, kv.2)) ++
  d.filter (fun kv => decide (¬ Mandatory kv.1 ∧ kv.1 ≠ "instance".toList ∧ Given kv.2))

/-- setting one attribute after the other -/
inductive Sets {α S : Type} (set : S → Str → ArgVal α → Except Err S) : S → List (Str × ArgVal α) → S → Prop
  | nil {s} : Sets set s [] s
  | cons {s s' s'' a v r} : set s a v = .ok s' → Sets set s' r s'' → Sets set s ((a, v) :: r) s''

/-! ### Layout -/

/-- `text` consists of the groups in this order, with nothing but blanks before, between and after them -/
inductive Interleaved : List Str → Str → Prop
  | nil : Interleaved [] []
  | blank {gs c t} : isWs c = true → Interleaved gs t → Interleaved gs (c :: t)
  | group {g gs t} : g ≠ [] → Interleaved gs t → Interleaved (g :: gs) (g ++ t)

/-- a line: its beginning, and the groups after it, each after a space -/
def lineOf (start : Str) (part : List Str) : Str := start ++ part.flatMap (fun g => ' ' :: g)

/-- Parameters distributed over lines in their order: the first line begins with the command; the others have at least one
parameter and begin with as many blanks, or with five if there is a parameter that would not fit after that many.  No line is
wider than the terminal unless it has just one parameter or is the command alone, and no line is begun while the next parameter
would leave a column free on the one before. -/
def Distributed (width : Nat) (sub : Str) (params block : List Str) : Prop :=
  ∃ (first : List Str) (more : List (List Str)) (k : Nat),
    let cmd := "  cot <opts> ".toList ++ sub
    let indent := List.replicate k ' '
    params = first ++ more.flatten ∧ (∀ p ∈ more, p ≠ []) ∧
    ((k = cmd.length ∧ ∀ g ∈ params, cmd.length + g.length < width) ∨ (k = 5 ∧ ∃ g ∈ params, width ≤ cmd.length + g.length)) ∧
    block = lineOf cmd first :: more.map (lineOf indent) ∧
    ((lineOf cmd first).length ≤ width ∨ first = []) ∧
    (∀ p ∈ more, (lineOf indent p).length ≤ width ∨ p.length = 1) ∧
    List.IsChain (fun a b => ∀ g, b.2.head? = some g → width ≤ (lineOf a.1 a.2).length + g.length)
      ((cmd, first) :: more.map (fun p => (indent, p)))

/-- The lines for a usage string: its text, divided at blanks into parameters, and these distributed over lines. -/
def UsageBlock (width : Nat) (sub usage : Str) (block : List Str) : Prop :=
  ∃ params : List Str, Interleaved params usage ∧ Distributed width sub params block

/-- A parameter of a usage string: a word that is not the beginning of one of the others, an option with a value, or a text in
brackets or parentheses that has neither inside. -/
inductive UsageItem : Str → Prop
  | word {w} : w ≠ [] → (∀ c ∈ w, isWs c = false) → (∀ c, w.head? = some c → c ≠ '(' ∧ c ≠ '[' ∧ c ≠ '-') → UsageItem w
  | option {a b} : a ≠ [] → b ≠ [] → (∀ c ∈ a, isWs c = false) → (∀ c ∈ b, isWs c = false) → UsageItem ('-' :: a ++ ' ' :: b)
  | brackets {x} : (∀ c ∈ x, c ≠ ']' ∧ c ≠ '\n') → UsageItem ('[' :: x ++ [']'])
  | parens {x} : (∀ c ∈ x, c ≠ ')' ∧ c ≠ '\n') → UsageItem ('(' :: x ++ [')'])

/-- The lines for an example of one line, when the continuation marks are taken away: the words of the example, in their order. -/
def Continued : List Str → List Str → Prop
  | [], _ => False
  | [l], ws => splitWs l = ws
  | l :: r, ws => ∃ body ws', l = body ++ " \\".toList ∧ ws = splitWs body ++ ws' ∧ Continued r ws'

/-- The lines for an example.  Several lines are as they were, indented.  A single line is broken at blanks and marked as
continued; a line does not come closer than two columns to the edge unless it has no more than an option with its value. -/
def ExampleBlock (width : Nat) (ex : Str) (ls : List Str) : Prop :=
  (1 < (splitLines ex).length ∧ ls = (splitLines ex).map (fun l => "    ".toList ++ l)) ∨
  ((splitLines ex).length ≤ 1 ∧ Continued ls (splitWs ex) ∧
    ∀ l ∈ ls, l.length + 2 ≤ width ∨ (splitWs l).length ≤ 3)

end Cot
