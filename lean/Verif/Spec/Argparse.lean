import Verif.Model.Argparse
import Verif.Spec.DataValidation
/-
Specification vocabulary for command lines: what a command line consists of, and what it says.  Only the tables of options
(`ArgOpt`, `ArgParser`) are taken from the model, none of its functions.
-/
namespace Cot

/-- one use of an option: the option and the values given with it -/
structure ArgUse where
  opt : ArgOpt
  vals : List Str

/-- a word: an argument that does not begin with a dash, or a single dash -/
def Word (s : Str) : Prop := s = ['-'] ∨ s.head? ≠ some '-'

/-- the number of values an option may have -/
def FitsNum : ArgNum → List Str → Prop
  | .zero, v => v = []
  | .one, v => v.length = 1
  | .opt, v => v.length ≤ 1
  | .plus, v => v ≠ []
  | .rest, _ => False

/-- would an option with these values take one more -/
def TakesMore : ArgNum → List Str → Prop
  | .opt, v => v = []
  | .plus, _ => True
  | _, _ => False

def StartsWithWord : List Str → Prop
  | [] => False
  | s :: _ => Word s

/-- `s` names the option `o`: it is one of its flags, or an abbreviation of one of its long flags and of no other flag -/
def NamesOpt (P : ArgParser) (s : Str) (o : ArgOpt) : Prop :=
  o ∈ P.opts ∧ (s ∈ o.flags ∨
    (['-', '-'] <+: s ∧ s ≠ ['-', '-'] ∧ '=' ∉ s ∧ ∃ f ∈ o.flags, s <+: f ∧ ∀ q ∈ P.opts, ∀ g ∈ q.flags, s <+: g → g = f))

/-- A command line, the uses of options in it and the words that belong to no option, both in order.  An option comes with its
values as words after it, or with one value attached to it by `=`, or attached directly to a flag of one letter.  Flags of one letter
can be put together behind one dash, the last of them may have values as words.  An option that
would take one more value is not followed by a word.  After two dashes everything is a word. -/
inductive CmdLine (P : ArgParser) : List Str → List ArgUse → List Str → Prop
  | done : CmdLine P [] [] []
  | word {w : Str} {l us ws} (hw : Word w) (h : CmdLine P l us ws) : CmdLine P (w :: l) us (w :: ws)
  | use {s : Str} {o : ArgOpt} {vals : List Str} {l us ws} (hs : NamesOpt P s o) (hv : ∀ v ∈ vals, Word v)
      (hn : FitsNum o.num vals) (hm : TakesMore o.num vals → ¬ StartsWithWord l) (h : CmdLine P l us ws) :
      CmdLine P (s :: (vals ++ l)) (⟨o, vals⟩ :: us) ws
  | attached {s v : Str} {o : ArgOpt} {l us ws} (hs : NamesOpt P s o) (hn : o.num ≠ .zero) (h : CmdLine P l us ws) :
      CmdLine P ((s ++ '=' :: v) :: l) (⟨o, [v]⟩ :: us) ws
  | glued {c : Char} {v : Str} {o : ArgOpt} {l us ws} (ho : o ∈ P.opts) (hf : ['-', c] ∈ o.flags) (hn : o.num ≠ .zero) (hv : v ≠ [])
      (h1 : ∀ q ∈ P.opts, ∀ g ∈ q.flags, g <+: '-' :: c :: v → g = ['-', c])
      (h2 : ∀ q ∈ P.opts, ∀ g ∈ q.flags, ¬ '-' :: c :: v <+: g) (heq : v.head? ≠ some '=') (h : CmdLine P l us ws) :
      CmdLine P (('-' :: c :: v) :: l) (⟨o, [v]⟩ :: us) ws
  | bundle {fl : List (Char × ArgOpt)} {c : Char} {o : ArgOpt} {vals : List Str} {l us ws} (hne : fl ≠ [])
      (hf : ∀ x ∈ fl, x.2 ∈ P.opts ∧ ['-', x.1] ∈ x.2.flags ∧ x.2.num = .zero) (ho : o ∈ P.opts) (hc : ['-', c] ∈ o.flags)
      (hx : ∀ q ∈ P.opts, ∀ g ∈ q.flags, ¬ '-' :: (fl.map (fun x => x.1) ++ [c]) <+: g) (hv : ∀ v ∈ vals, Word v)
      (hn : FitsNum o.num vals) (hm : TakesMore o.num vals → ¬ StartsWithWord l) (h : CmdLine P l us ws) :
      CmdLine P (('-' :: (fl.map (fun x => x.1) ++ [c])) :: (vals ++ l)) (fl.map (fun x => ⟨x.2, []⟩) ++ ⟨o, vals⟩ :: us) ws
  | dashes {ws : List Str} (hne : ws ≠ []) (hd : ∀ w ∈ ws, w ≠ ['-', '-']) : CmdLine P (['-', '-'] :: ws) [] ws

/-- the value that a text stands for -/
def ReadsAs : ArgType → Str → ArgAtom → Prop
  | .text, s, a => a = .text s
  | .positive, s, a => ∃ i, a = .int i ∧ Numeral s i ∧ 1 ≤ i
  | .nonNegative, s, a => ∃ i, a = .int i ∧ Numeral s i ∧ 0 ≤ i
  | .device, s, a => ∃ t, a = .text t ∧ Padded s t ∧ IsDeviceAddress t
  | .noSpace, s, a => ∃ t, a = .text t ∧ Padded s t ∧ ∀ c ∈ t, isWs c = false
  | .mac, s, a => ∃ t, a = .text t ∧ Padded s t ∧ IsMac t
  | .truth, s, a => (a = .truth true ∧ lower s ∈ trueWords) ∨ (a = .truth false ∧ lower s ∈ falseWords)

/-- the option accepts the text, as the value `a` -/
def Accepts (o : ArgOpt) (s : Str) (a : ArgAtom) : Prop := ReadsAs o.type s a ∧ ∀ cs, o.choices = some cs → ∃ c ∈ cs, a = .text c

/-- the texts that a use of an option has to get accepted; without a value, the constant of an option with `?` -/
def ArgUse.texts (u : ArgUse) : List Str := if u.opt.num = .opt ∧ u.vals = [] then [u.opt.const] else u.vals

/-- everything that is given with the option is accepted -/
def ArgUse.Good (u : ArgUse) : Prop := ∀ s ∈ u.texts, ∃ a, Accepts u.opt s a

/-- no two uses are of different options of one exclusive group -/
def NoConflict (us : List ArgUse) : Prop :=
  us.Pairwise (fun u w => u.opt.group ≠ 0 → u.opt.group = w.opt.group → u.opt.flags = w.opt.flags)

/-- What the namespace has for an option, given its uses in order: the last value that was given; for an option that may be
repeated, the lists of its values; whether a flag was given; how often. -/
def ArgOutcome (o : ArgOpt) (us : List ArgUse) (v : ArgVal ArgAtom) : Prop :=
  match o.act with
  | .store => (us = [] ∧ v = .absent) ∨ ∃ u s a, us.getLast? = some u ∧ u.texts = [s] ∧ Accepts o s a ∧ v = .one a
  | .append => (us = [] ∧ v = .absent) ∨
      (us ≠ [] ∧ ∃ ass : List (List ArgAtom), us.Forall₂ (fun u as => u.vals.Forall₂ (Accepts o) as) ass ∧ v = .list (ass.map .many))
  | .setTrue => v = .one (.truth (decide (us.length ≠ 0)))
  | .setConst _ => (us = [] ∧ v = .absent) ∨ ∃ u s, us.getLast? = some u ∧ u.opt.act = .setConst s ∧ v = .one (.text s)
  | .count => v = .one (.int us.length)
  | _ => True

instance (P : ArgParser) (s : Str) (o : ArgOpt) : Decidable (NamesOpt P s o) := by
  unfold NamesOpt
  infer_instance

instance (s : Str) : Decidable (Word s) := by
  unfold Word
  infer_instance

/-- the uses that set the same thing -/
def usesFor (d : Str) (us : List ArgUse) : List ArgUse := us.filter (fun u => decide (u.opt.dest = d))

/-- the option only prints a text -/
def OnlyPrints (o : ArgOpt) : Prop := o.act = .help ∨ o.act = .version

/-- the option prints the text and ends the program, successfully -/
def Prints (o : ArgOpt) : ArgStop → Prop
  | .help => o.act = .help
  | .version => o.act = .version
  | .usage => False

/-! ### Whole command lines -/

/-- as many words as there are mandatory arguments, every value accepted, no two options that exclude each other -/
def RightLine (P : ArgParser) (us : List ArgUse) (ws : List Str) : Prop :=
  ws.length = P.pos.length ∧ (∀ u ∈ us, u.Good) ∧ NoConflict us

/-- the namespace has what the options and words say -/
structure Means (P : ArgParser) (us : List ArgUse) (ws : List Str) (ns : ArgSpace) : Prop where
  opts : ∀ o ∈ P.opts, ¬ OnlyPrints o → ∃ v, dget? ns o.dest = some v ∧ ArgOutcome o (usesFor o.dest us) v
  words : ∀ (i : Nat) (p : ArgOpt) (w : Str), P.pos[i]? = some p → ws[i]? = some w → dget? ns p.dest = some (.one (.text w))

/-- the commands whose parser is of the plain kind: options and mandatory arguments of one word each -/
def PlainCommand (c : SubCommand) : Prop :=
  c ∈ cotCommands ∧ c.title ≠ "deploy".toList ∧ c.title ≠ "help".toList ∧ c.title ≠ "info".toList

/-- `p` is `s` up to the first `=`, if there is one -/
def Stem (s p : Str) : Prop := '=' ∉ p ∧ (s = p ∨ ∃ v, s = p ++ '=' :: v)

/-- `f` is a flag of the parser -/
def IsFlag (P : ArgParser) (f : Str) : Prop := ∃ o ∈ P.opts, f ∈ o.flags

/-- an abbreviation of two flags that is no flag itself -/
def AmbiguousIn (P : ArgParser) (s : Str) : Prop :=
  s ≠ ['-', '-'] ∧ ∃ p, Stem s p ∧ ['-', '-'] <+: p ∧ ¬ IsFlag P p ∧ ∃ f g, f ≠ g ∧ IsFlag P f ∧ IsFlag P g ∧ p <+: f ∧ p <+: g

/-- no argument before two dashes is an ambiguous abbreviation for the parser -/
def ClearFor (P : ArgParser) (l : List Str) : Prop := ∀ a s b, l = a ++ s :: b → ['-', '-'] ∉ a → ¬ AmbiguousIn P s

/-- an argument that looks like an option and neither is nor abbreviates nor begins with a flag of the parser -/
def UnknownIn (P : ArgParser) (s : Str) : Prop :=
  (∃ c t, s = '-' :: c :: t ∧ isDig c = false ∧ c ≠ '.') ∧ s ≠ ['-', '-'] ∧ ' ' ∉ s ∧
  (['-', '-'] <+: s → ∀ p f, Stem s p → IsFlag P f → ¬ p <+: f) ∧
  (¬ ['-', '-'] <+: s → ∀ f, IsFlag P f → f ≠ s.take 2 ∧ ¬ s <+: f ∧ ¬ Stem s f)

end Cot
