import Verif.Props.EditHardware
/-
Where edit-hardware does not do what its options promise: concrete runs.
-/
namespace Cot

/-- the user's answers do not matter: they agree to everything -/
def exCsr : EhCtx := { exEhCtx with plat := .csr }

/-- **A NIC type that the user insists on is refused all the same.**  On a CSR1000V the option `--nic-types PCNet32` is
accepted when the user confirms that it is to be used although it is not supported, but `set_nic_types` validates once more
without asking, and the command ends with an error. -/
theorem C79_confirmed_nic_type_fails :
    setNicTypesArg exCsr ["PCNet32".toList] = .ok ["PCNet32".toList] ∧
    editHardware exCsr { nicTypes := some ["PCNet32".toList] } exEhSt = .error .valueUnsupported :=
  ⟨rfl, rfl⟩

/-- **So is a number of CPUs.**  Three CPUs on a CSR1000V: accepted by the option after confirmation, refused by
`set_cpu_count`.  (Values above the platform's limit are accepted, because the platform remembers that it was asked about
them before, but the list of supported numbers is always checked.) -/
theorem C79_confirmed_cpus_fails :
    ∃ seen, setCpusArg exCsr (fun _ => []) "3".toList = .ok (3, seen) ∧
      editHardware exCsr { cpus := some 3 } { exEhSt with seen := seen } = .error .valueUnsupported ∧
      (∃ seen', setCountArg exCsr .nicCount (fun _ => []) "99".toList = .ok (99, seen') ∧
        vmValidate exCsr .nicCount 99 { exEhSt with seen := seen' } = .ok { exEhSt with seen := seen' }) :=
  ⟨_, rfl, rfl, _, rfl, rfl⟩

/-- hardware with a CPU in profile y only -/
def exHwCpuY : Hw := [("1".toList,
  { props := [("InstanceID".toList, [(.str "1".toList, {pY})]), ("ResourceType".toList, [(.str "3".toList, {pY})]),
              ("VirtualQuantity".toList, [(.str "1".toList, {pY})])], ns := rasd, modified := false })]

/-- **A CPU for a profile that has none is not created** if there is a CPU item for another profile: after
`--profiles x --cpus 2` profile x still has no CPU. -/
theorem C79_cpu_of_other_profile_fails :
    ∃ s', editHardware exEhCtx { profiles := some ["x".toList], cpus := some 2 } { exEhSt with hw := exHwCpuY } = .ok s' ∧
      countOf exEnv s'.hw "3".toList pX = 0 ∧ countOf exEnv s'.hw "3".toList pY = 1 :=
  ⟨_, rfl, by decide +kernel, by decide +kernel⟩

/-- hardware with NIC 11 in profile y and NIC 12 in profile x -/
def exHwNicsXY : Hw := [("11".toList, exNic "11" {pY}), ("12".toList, exNic "12" {pX})]

/-- **Values for NICs that a profile does not have are used up.**  Profile x has one NIC, number 12; y has number 11.
`--profiles x --mac-addresses-list M1 M2` gives the only NIC of x the second address. -/
theorem C79_values_skipped_fails :
    ∃ s', editHardware exEhCtx { profiles := some ["x".toList], macs := some ["M1".toList, "M2".toList] }
        { exEhSt with hw := exHwNicsXY } = .ok s' ∧
      countOf exEnv s'.hw "10".toList pX = 1 ∧
      ((dget? s'.hw "12".toList).bind (fun it => it.getRaw address (some {pX}))) = some (.str "M2".toList) :=
  ⟨_, rfl, by decide +kernel, by decide +kernel⟩

/-- **An empty list of NIC names names all NICs "None"**, and an empty list of MAC addresses or networks is an IndexError. -/
theorem C79_empty_lists_fails :
    (∃ s', editHardware exEhCtx { nicNames := some [] } exEhSt = .ok s' ∧
      ((dget? s'.hw "11".toList).bind (fun it => it.getRaw (elementName .v1) (some {none}))) = some (.str "None".toList)) ∧
    editHardware exEhCtx { macs := some [] } exEhSt = .error .indexError ∧
    editHardware exEhCtx { networks := some [] } exEhSt = .error .indexError :=
  ⟨⟨_, rfl, by decide +kernel⟩, rfl, rfl⟩

/-- **New NICs may be connected to nothing.**  The package declares network A and has no NIC; after `--nics 2` there are two
NICs without a Connection. -/
theorem C81_new_nics_unconnected_fails :
    ∃ s', editHardware exEhCtx { nics := some 2 } { exEhSt with hw := [("1".toList, exItem)] } = .ok s' ∧
      countOf exEnv s'.hw "10".toList none = 2 ∧ networks .v1 s'.envl = .ok [some "A".toList] ∧
      ∀ id it, dget? s'.hw id = some it → it.tab connection = [] := by
  refine ⟨_, rfl, by decide +kernel, rfl, ?_⟩
  intro id it h
  have hm := dget?_mem h
  revert hm
  have key : ∀ kv ∈ (match editHardware exEhCtx { nics := some 2 } { exEhSt with hw := [("1".toList, exItem)] } with
    | .ok s => s.hw | .error _ => []), kv.2.tab connection = [] := by decide +kernel
  intro hm
  exact key _ hm

end Cot
