import Verif.Model.TempDirs
/-
What C110 means.
-/
namespace Cot

/-- a process before it opens anything: there are directories of others, all made earlier -/
def TmpStart (s : TmpSt) : Prop := (∀ d ∈ s.dirs, d < s.next) ∧ (∀ c, s.vm c = none) ∧ s.atexit = []

/-- the step is not disturbed: no removal of a directory fails, and the user does not interrupt loading once there is a
directory -/
def Undisturbed : TmpOp → Prop
  | .open_ _ e rm rm' => rm = true ∧ rm' = true ∧ e ≠ .interrupted .beforeRegister ∧ e ≠ .interrupted .later
  | .close _ rm | .destroy _ rm => rm = true
  | .look e rm => rm = true ∧ e ≠ .interrupted .beforeRegister ∧ e ≠ .interrupted .later
  | .missing _ => True

/-- the short time between making the directory and registering it for removal goes well: it is not interrupted, and if it
fails then the directory can be removed -/
def Registered : TmpOp → Prop
  | .open_ _ e _ rm' => e ≠ .interrupted .beforeRegister ∧ (e = .failed .beforeRegister → rm' = true)
  | .look e rm => e ≠ .interrupted .beforeRegister ∧ (e = .failed .beforeRegister → rm = true)
  | _ => True

end Cot
