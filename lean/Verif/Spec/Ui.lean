import Verif.Model.Ui
import Verif.Spec.DataValidation
/-
Specification vocabulary for user interaction and disk space checks.
-/
namespace Cot

/-- The answers that mean yes, and those that mean no, up to surrounding blanks. -/
def MeansYes (line : Str) : Prop := ∃ a, Padded line a ∧ (a = [] ∨ a = "y".toList ∨ a = "Y".toList)
def MeansNo (line : Str) : Prop := ∃ a, Padded line a ∧ (a = "n".toList ∨ a = "N".toList)

/-- The options that start with what the user typed. -/
def Completes (typed opt : Str) : Prop := ∃ rest, opt = typed ++ rest

/-- `x` is the only option (counting repetitions) that starts with what the user typed. -/
def OnlyCompletion (opts : List Str) (typed x : Str) : Prop :=
  ∃ pre post, opts = pre ++ x :: post ∧ Completes typed x ∧ ∀ o ∈ pre ++ post, ¬ Completes typed o

/-- What a non-empty input should select: an option it equals (or the default), else the only option it
abbreviates, else the option with the number entered. -/
def Selects (opts : List Str) (dflt typed x : Str) : Prop :=
  ((typed = dflt ∨ typed ∈ opts) ∧ x = typed) ∨
  (¬ (typed = dflt ∨ typed ∈ opts) ∧
    (OnlyCompletion opts typed x ∨
     ((¬ ∃ y, OnlyCompletion opts typed y) ∧ ∃ k : Nat, 1 ≤ k ∧ Numeral typed k ∧ opts[k - 1]? = some x)))

/-- The number entered is zero or negative, but not further from 1 than the list is long. -/
def WrapsAround (opts : List Str) (typed : Str) : Prop :=
  ∃ z, Numeral typed z ∧ z ≤ 0 ∧ 1 - (opts.length : Int) ≤ z

/-- A history of disk space checks with their inputs, latest first; the state after it. -/
def spaceHistory (forceUi : Bool) : List (SpaceCall × List Str) → DiskCache
  | [] => []
  | (c, inp) :: r => match checkDiskSpace forceUi (spaceHistory forceUi r) c inp with
    | some (_, cache, _) => cache
    | none => dset (spaceHistory forceUi r) c.dir (c.required, c.available)   -- EOF while asking

/-- The exceptions COT's documentation calls value errors: Python's ValueError and its subclasses
(data_validation.py: ValueUnsupportedError, ValueTooLowError, ValueTooHighError, ValueMismatchError,
InvalidInputError). -/
def IsValueError (e : Err) : Prop :=
  e = .valueError ∨ e = .valueUnsupported ∨ e = .valueTooLow ∨ e = .valueTooHigh ∨ e = .valueMismatch ∨ e = .invalidInput

end Cot
