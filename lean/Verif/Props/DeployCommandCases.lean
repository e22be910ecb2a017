import Verif.Props.CommandRunsCases
import Verif.Props.DeployCommand
/-
C127: a command line that meets the hypotheses of the theorems.
-/
namespace Cot

def exUserOpt : ArgOpt := textOpt ["-u".toList, "--username".toList] "username".toList
def exConfOpt : ArgOpt := textOpt ["-c".toList, "--configuration".toList] "configuration".toList
def exPowerOpt : ArgOpt := flagOpt ["-P".toList, "--power-on".toList] "power_on".toList 0
def exMapOpt : ArgOpt := listOpt ["-N".toList, "--network-map".toList] "network_map".toList

/-- `host1/folder -u admin -c y -P -N a=b "c=VM Network"` -/
def exDeployLine : List Str :=
  ["host1/folder".toList, "-u".toList, "admin".toList, "-c".toList, "y".toList, "-P".toList, "-N".toList, "a=b".toList, "c=VM Network".toList]

def exDeployUses : List ArgUse :=
  [⟨exUserOpt, ["admin".toList]⟩, ⟨exConfOpt, ["y".toList]⟩, ⟨exPowerOpt, []⟩, ⟨exMapOpt, ["a=b".toList, "c=VM Network".toList]⟩]

theorem exDeployLine_ok : CmdLine esxiParser exDeployLine exDeployUses ["host1/folder".toList] :=
  .word (by decide)
    (.text1 (by decide +kernel) (by decide +kernel)
    (.text1 (by decide +kernel) (by decide +kernel)
    (.flag (vals := []) (by decide +kernel) (by decide +kernel) (by rfl) (by simp [TakesMore, exPowerOpt, flagOpt])
    (.flag (vals := ["a=b".toList, "c=VM Network".toList]) (by decide +kernel) (by decide +kernel)
      (by simp [FitsNum, exMapOpt, listOpt]) (fun _ => by simp [StartsWithWord]) .done rfl) rfl)))

theorem exDeployClear (h : Str) (hh : h = "esxi".toList ∨ h = "vsphere".toList) : ClearFor mainParser ("vm.ova".toList :: h :: exDeployLine) := by
  rcases hh with rfl | rfl
  · exact clear_of_isOk main_top.opts.flags (by decide +kernel)
  · exact clear_of_isOk main_top.opts.flags (by decide +kernel)

/-- `cot -f deploy vm.ova esxi host1/folder -u admin -c y -P -N a=b "c=VM Network"`: it is handed over -/
example (shlex : Str → Except Err (List Str)) : ∃ cmd, pkgCommand exEhFiles (deploySetters shlex exDepVm.env.configProfiles) newDeployCmd
    ([] ++ "deploy".toList :: "vm.ova".toList :: "esxi".toList :: exDeployLine) = .ok cmd :=
  C127_runs .done (by decide) exDeployLine_ok (noPrints (by decide +kernel)) (exDeployClear _ (.inl rfl)) noConflict_nil
    (rightLine_texts rfl (by decide +kernel)) rfl
    (by
      intro p hp
      rw [show lastGiven "--configuration" exDeployUses = some "y".toList by decide +kernel] at hp
      cases hp
      decide +kernel)
    (by
      rw [show allGiven "--network-map" exDeployUses = ["a=b".toList, "c=VM Network".toList] by decide +kernel]
      intro s hs
      simp only [List.mem_cons, List.not_mem_nil, or_false] at hs
      rcases hs with rfl | rfl
      · exact ⟨"a".toList, "b".toList, rfl, by decide, by decide, by decide⟩
      · exact ⟨"c".toList, "VM Network".toList, rfl, by decide, by decide, by decide⟩)
    (by decide +kernel) (by
      rw [show allGiven "--serial-connection" exDeployUses = [] by decide +kernel]
      intro s hs
      cases hs)
    (by
      rw [show lastGiven "--ovftool-args" exDeployUses = none by decide +kernel]
      intro s hs
      cases hs)

/-- the same line, carried out: the password is asked for, the certificate of the server is accepted -/
example : deployMain exEhFiles (fun _ => .error .valueError) exDepWorld exDepVm
      ([] ++ "deploy".toList :: "vm.ova".toList :: "esxi".toList :: exDeployLine) (exDepSt ["y".toList]) =
    (.ok (), ⟨⟨(), [(["ovftool".toList, "--version".toList], .exit 0 "VMware ovftool 4.1.0 (build-2)".toList),
      (CallFor exDeployUses "vm.ova".toList "host1/folder".toList "admin".toList "secret".toList [] (some "y".toList) true,
        .exit 0 "VMware ovftool 4.1.0 (build-2)".toList)]⟩, [], false,
      [.connect "host1".toList true, .question "host1".toList, .connect "host1".toList false,
       .reconfigure 1 [.uri "tcp://localhost:2222".toList true], .disconnect]⟩) ∧
    CallFor exDeployUses "vm.ova".toList "host1/folder".toList "admin".toList "secret".toList [] (some "y".toList) true =
      ["ovftool".toList, "--X:injectOvfEnv".toList, "--deploymentOption=y".toList, "--net:a=b".toList, "--net:c=VM Network".toList,
        "--name=vm".toList, "--powerOn".toList, "vm.ova".toList, "vi://admin:secret@host1/folder".toList] := ⟨rfl, by decide +kernel⟩

/-- the hypotheses of the theorem about what is done are met by it -/
example (s : DeploySt Unit) := C127_deploys_partial (f := exEhFiles) (shlex := fun _ => .error .valueError) (d := exDepWorld) (vm := exDepVm) (s := s)
  (h := "esxi".toList) List.mem_cons_self .done (by decide) exDeployLine_ok (noPrints (by decide +kernel)) (exDeployClear _ (.inl rfl)) exDepHw_wf
  (fun _ => rfl) rfl

/-- and with the other name of the hypervisor nothing is done -/
example (s : DeploySt Unit) : ∃ e, deployMain exEhFiles (fun _ => .error .valueError) exDepWorld exDepVm
    ([] ++ "deploy".toList :: "vm.ova".toList :: "vsphere".toList :: exDeployLine) s = (.error e, s) :=
  (C127_alias_fails (by decide) .done (by decide) exDeployLine_ok (noPrints (by decide +kernel)) (exDeployClear _ (.inr rfl))).2

end Cot
