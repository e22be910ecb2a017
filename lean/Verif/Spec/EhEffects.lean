import Verif.Spec.EhCommand
import Verif.Spec.EditHardware
import Verif.Spec.Wildcard
/-
Specification for C123: which devices the options of edit-hardware are about.
-/
namespace Cot

/-- one of these flags was used -/
def UsesFlag (us : List ArgUse) (fs : List String) : Prop := ∃ f ∈ fs, withFlag f us ≠ []

/-- The type of device (CIM resource code) is named by the options: processors 3, memory 4, network adapters 10, serial ports 21, SCSI
controllers 6, IDE controllers 5. -/
def TypeNamed (us : List ArgUse) (code : Str) : Prop :=
  (code = "3".toList ∧ UsesFlag us ["--cpus"]) ∨ (code = "4".toList ∧ UsesFlag us ["--memory"]) ∨
  (code = "10".toList ∧ UsesFlag us ["--nics", "--nic-types", "--mac-addresses-list", "--nic-networks", "--nic-names"]) ∨
  (code = "21".toList ∧ UsesFlag us ["--serial-ports", "--serial-connectivity"]) ∨ (code = "6".toList ∧ UsesFlag us ["--scsi-subtypes"]) ∨
  (code = "5".toList ∧ UsesFlag us ["--ide-subtypes"])

/-- The list is what the names stand for when there are `n` of the things that they are for: the names themselves if these are enough;
else the last of them is a pattern that is repeated, with its number counting up, until there are enough. -/
def Expanded (names : List Str) (n : Nat) (l : List Str) : Prop :=
  ((names = [] ∨ n ≤ names.length) ∧ l = names) ∨
  ∃ init pat rs first, names = init ++ [pat] ∧ names.length < n ∧ l = init ++ rs ∧ l.length = n ∧ FirstNumber pat first ∧
    ∀ i r, rs[i]? = some r → Subst (natStr (first + i)) pat r

end Cot
