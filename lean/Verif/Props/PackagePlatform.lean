import Verif.Props.PackageDisk
import Verif.Model.Platform
import Verif.Lemmas.Units
/-
C67: the controllers that the platforms ask for are ones that add-disk can make; numbers can be read back.
-/
namespace Cot

/-- **C67 (platforms).** The controller that a platform asks for is SCSI for hard disks of CSR1000V and C9800-CL, and IDE
otherwise, so that it is always of a kind that add-disk knows how to make. -/
theorem C67_platform (pl : Plat) (drive : Str) :
    (∃ code, ControllerCode (controllerTypeFor pl drive) code) ∧
    (controllerTypeFor pl drive = "scsi".toList ↔ (pl = .csr ∨ pl = .c9800) ∧ drive = "harddisk".toList) ∧
    (controllerTypeFor pl drive ≠ "scsi".toList → controllerTypeFor pl drive = "ide".toList) := by
  by_cases hd : drive = "harddisk".toList
  · subst hd
    cases pl <;> refine ⟨?_, by decide, by decide⟩ <;>
      first
      | exact ⟨"6".toList, Or.inr (Or.inl ⟨rfl, rfl⟩)⟩
      | exact ⟨"5".toList, Or.inl ⟨rfl, rfl⟩⟩
  · have he : controllerTypeFor pl drive = "ide".toList := by
      unfold controllerTypeFor
      cases pl <;> first | rfl | (dsimp only; rw [if_neg hd])
    rw [he]
    exact ⟨⟨"5".toList, Or.inl ⟨rfl, rfl⟩⟩, ⟨fun h => absurd h (by decide), fun h => absurd h.2 hd⟩, fun _ => rfl⟩

/-- a number that was written can be read back -/
theorem pyInt_intStr (z : Int) : pyInt (intStr z) = some z := by
  cases z with
  | ofNat n => exact pyInt_natStr n
  | negSucc n =>
    rw [pyInt_iff]
    refine ⟨natStr (n + 1), ⟨natStr_ne_nil _, isDig_natStr _⟩, Or.inr (Or.inr ⟨⟨[], [], by simp [Blank], by simp [Blank], ?_⟩, ?_⟩)⟩
    · simp [intStr]
    · rw [digitsVal_natStr]
      rfl

end Cot
