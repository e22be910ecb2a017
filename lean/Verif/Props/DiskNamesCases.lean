import Verif.Props.DiskNames
import Verif.Props.PackageDiskCases
import Verif.Props.RoundTripNames
/-
C67, names and descriptions: the hypotheses are met.
-/
namespace Cot

def exNameCtx : Ctx := { exCtx with env := exEnvL }

/-- a disk with a name and a description that contains the name -/
def exNamedDisk : DiskReq := { exNew with name := some "boot disk".toList, descr := some "the boot disk of the box".toList }

example : ∃ k p' it, addDiskCmd exNameCtx exPlat (fun _ => true) exPkg exNamedDisk = .ok (k, p') ∧ dget? p'.hw k = some it ∧
    it.tab (elementName exEnvL.ver) = [(.str "boot disk".toList, {none})] ∧
    it.getValue exEnvL itemDescription (some {none}) = .ok (some (.str "the boot disk of the box".toList)) := by
  have hwf : HwWF exEnvL exPkg.hw := simpleHw_wf exEnvL (by decide +kernel) (by
    have : ∀ kl ∈ exDiskHwL, (dkeys kl.2).Nodup ∧ (∀ ns ∈ kl.2, ns.2 ≠ [] ∧ ns.1 ≠ resourceSubType) ∧
        dget? kl.2 (instanceId exEnvL.ver) = some kl.1 := by decide +kernel
    intro id l h
    obtain ⟨h1, h2, h3⟩ := this _ h
    exact ⟨h1, fun n s hm => h2 _ hm, h3⟩)
  obtain ⟨k, p', h, hk⟩ : ∃ k p', addDiskCmd exNameCtx exPlat (fun _ => true) exPkg exNamedDisk = .ok (k, p') ∧ k ∉ dkeys exPkg.hw :=
    ⟨_, _, rfl, by decide +kernel⟩
  obtain ⟨it, nm, h1, h2, h3, -, -, h5⟩ := C67_names (c := exNameCtx) hwf hk h
  obtain rfl : nm = "boot disk".toList := by
    rcases h2 with h2 | ⟨h2, -⟩
    · exact (Option.some.inj h2).symm
    · cases h2
  exact ⟨k, p', it, h, h1, h3 (by decide), h5 exEnvL_literal ⟨by decide, by decide +kernel⟩
    ⟨by decide, by decide +kernel, 'b', by decide, by decide⟩ _ rfl
    ⟨by decide, by decide +kernel⟩ (by decide) _⟩

end Cot
