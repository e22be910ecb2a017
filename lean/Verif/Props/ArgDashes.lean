import Verif.Props.Argparse
/-
C120: two dashes at the end of the command line.
-/
namespace Cot

/-- **C120 (false).** Two dashes at the end, which say that no more options follow, are accepted after the package but refused after the value of
an option, although both command lines say the same and are accepted without them. -/
theorem C120_trailing_fails :
    cotParse (["edit-hardware", "a.ovf", "--nics", "2", "--"].map String.toList) = .error .usage ∧
    (∃ ns, cotParse (["edit-hardware", "--nics", "2", "a.ovf", "--"].map String.toList) = .ok ns ∧
      cotParse (["edit-hardware", "--nics", "2", "a.ovf"].map String.toList) = .ok ns ∧
      cotParse (["edit-hardware", "a.ovf", "--nics", "2"].map String.toList) = .ok ns) := by
  refine ⟨by rfl, ?_⟩
  have h : (cotParse (["edit-hardware", "--nics", "2", "a.ovf"].map String.toList)).isOk = true := by decide +kernel
  cases hc : cotParse (["edit-hardware", "--nics", "2", "a.ovf"].map String.toList) with
  | error e => rw [hc] at h; cases h
  | ok ns =>
    refine ⟨ns, ?_, rfl, ?_⟩
    · rw [← hc]; rfl
    · rw [← hc]; rfl

end Cot
