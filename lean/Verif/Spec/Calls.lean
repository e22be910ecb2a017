import Verif.Model.Calls
/-
What it means to run a helper program properly.
-/
namespace Cot

/-- The command did what was asked: it ended with status 0, or its status does not matter. -/
def Fine (require : Bool) : ProcRes → Prop
  | .exit c _ => c = 0 ∨ require = false
  | .osError _ => False

/-- More rights may help: the command failed with a status that matters, or the system denied permission
(errno 1 or 13). -/
def Denied (require : Bool) : ProcRes → Prop
  | .exit c _ => require = true ∧ c ≠ 0
  | .osError n => n = 1 ∨ n = 13

/-- The exception for a command that did not do what was asked: HelperNotFoundError if there is no such program (errno 2),
HelperError if it failed (or if it is `sudo` and cannot be executed, errno 8), else the system's own. -/
def Blame (cmd : List Str) : ProcRes → Err → Prop
  | .exit _ _, e => e = .helperError
  | .osError n, e =>
    (n = 2 ∧ e = .helperNotFound) ∨ (n = 8 ∧ cmd.head? = some "sudo".toList ∧ e = .helperError) ∨
    (n ≠ 2 ∧ ¬ (n = 8 ∧ cmd.head? = some "sudo".toList) ∧ e = .ioError)

/-- The outcome of running `cmd`, which ended with `x`. -/
def CmdOutcome (require : Bool) (cmd : List Str) (x : ProcRes) (r : Except Err Unit) : Prop :=
  (Fine require x ∧ r = .ok ()) ∨ (¬ Fine require x ∧ ∃ e, r = .error e ∧ Blame cmd x e)

/-- The text that is returned for a command that ended with `x`: what it wrote; of a successful command without the
characters that are not ASCII. -/
def Wrote : ProcRes → Str → Prop
  | .exit c out, t => (c = 0 ∧ t = out.filter (fun ch => ch.toNat < 128)) ∨ (c ≠ 0 ∧ t = out)
  | .osError _, _ => False

/-- The outcome of running `cmd` for its output. -/
def OutcomeText (require : Bool) (x : ProcRes) (r : Except Err Str) : Prop :=
  (Fine require x ∧ ∃ t, r = .ok t ∧ Wrote x t) ∨
  (¬ Fine require x ∧ ∃ e, r = .error e ∧ match x with
    | .exit _ _ => e = .helperError
    | .osError n => (n = 2 ∧ e = .helperNotFound) ∨ (n ≠ 2 ∧ e = .ioError))

/-- with or without sudo -/
def RunAs (cmd c : List Str) : Prop := c = cmd ∨ c = "sudo".toList :: cmd

/-- `out` is what an execution of `cmd` in the record gave -/
def FromRecord (log : List (List Str × ProcRes)) (cmd : List Str) (out : Str) : Prop :=
  ∃ c x, (c, x) ∈ log ∧ RunAs cmd c ∧ Wrote x out

/-- what may happen: the helper is called for its output, or something else changes the machine -/
inductive HelperEvent (W : Type) where
  | call (require retry : Bool) (args : List Str)
  | outside (f : W → W)

/-- a history, with the answers given -/
inductive HelperRun {W : Type} (ex : Exec W) (ui : HelperUi W) :
    HelperObj → PSt W → List (HelperEvent W) → List (List Str × Except Err Str) → HelperObj → PSt W → Prop
  | done (h s) : HelperRun ex ui h s [] [] h s
  | call {h s require retry args r h' s' evs as h'' s''} : helperOutput ex ui h require retry args s = (r, h', s') →
      HelperRun ex ui h' s' evs as h'' s'' →
      HelperRun ex ui h s (.call require retry args :: evs) ((args, r) :: as) h'' s''
  | outside {h s f evs as h'' s''} : HelperRun ex ui h ⟨f s.w, s.log⟩ evs as h'' s'' →
      HelperRun ex ui h s (.outside f :: evs) as h'' s''

/-- the commands of apt-get and dpkg -/
def updateCmd : List Str := ["apt-get".toList, "-q".toList, "update".toList]
def installCmd (p : Str) : List Str := ["apt-get".toList, "-q".toList, "install".toList, p]
def queryCmd (p : Str) : List Str := ["dpkg".toList, "-s".toList, p]

/-- this entry of the record is an update that succeeded -/
def ListsUpdated (e : List Str × ProcRes) : Prop := RunAs updateCmd e.1 ∧ ∃ out, e.2 = .exit 0 out

/-- In the record every installation comes after a successful update, and no update comes after one that succeeded. -/
def ProperOrder (log : List (List Str × ProcRes)) : Prop :=
  ∀ A e B, log = A ++ e :: B →
    ((∃ p, RunAs (installCmd p) e.1) → ∃ u ∈ A, ListsUpdated u) ∧
    (RunAs updateCmd e.1 → ∀ u ∈ A, ¬ ListsUpdated u)

/-- several installations one after the other, whatever becomes of each -/
inductive AptRun {W : Type} (ex : Exec W) (ui : HelperUi W) :
    List Str → Bool → PSt W → List (Except Err Unit) → Bool → PSt W → Prop
  | done (u s) : AptRun ex ui [] u s [] u s
  | install {p ps u s r u' s' rs u'' s''} : aptInstall ex ui p u s = (r, u', s') → AptRun ex ui ps u' s' rs u'' s'' →
      AptRun ex ui (p :: ps) u s (r :: rs) u'' s''

end Cot
