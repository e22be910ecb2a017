import Verif.Model.DeployCommand
import Verif.Spec.Commands
import Verif.Spec.DeployRun
/-
Specification for C127: what a command line asks `cot deploy ... esxi` to do.
-/
namespace Cot

/-- What the options of `cot deploy PACKAGE esxi LOCATOR` ask for. -/
structure DeployAsks (shlex : Str → Except Err (List Str)) (profiles : List Str) (us : List ArgUse) (locator : Str) (q : DeployCmd) : Prop where
  hypervisor : q.hypervisor = some "esxi".toList
  locator : q.locator = some locator
  username : q.username = lastGiven "--username" us
  password : q.password = lastGiven "--password" us
  vmName : q.vmName = lastGiven "--vm-name" us
  datastore : q.datastore = lastGiven "--datastore" us
  configuration : q.configuration = lastGiven "--configuration" us
  declared : ∀ p, lastGiven "--configuration" us = some p → p ∈ profiles
  powerOn : q.powerOn = true ↔ withFlag "--power-on" us ≠ []
  networkMap : q.networkMap.getD [] = allGiven "--network-map" us
  pairs : ∀ s ∈ allGiven "--network-map" us, ∃ n t, s = n ++ '=' :: t ∧ n ≠ [] ∧ '=' ∉ n ∧ t ≠ []
  four : (allGiven "--serial-connection" us).length ≤ 4
  serial : ∃ rs : List (Option SerialConn), (allGiven "--serial-connection" us).Forall₂ (fun s r => fromCli (some s) = .ok r) rs ∧
    q.serial = rs.flatMap Option.toList
  ovftoolArgs : (lastGiven "--ovftool-args" us = none ∧ q.ovftoolArgs = []) ∨
    ∃ s, lastGiven "--ovftool-args" us = some s ∧ shlex s = .ok q.ovftoolArgs

/-- The arguments that ovftool gets: those handed through (`extra`), the decision about the environment, the profile, the networks, the
name, whether to power on, the datastore, the package and the target. -/
def CallFor (us : List ArgUse) (package locator user pw : Str) (extra : List Str) (p : Prof) (inject : Bool) : List Str :=
  "ovftool".toList :: (extra ++ (if inject then ["--X:injectOvfEnv".toList] else []) ++
    (p.map (fun x => "--deploymentOption=".toList ++ x)).toList ++ ((allGiven "--network-map" us).map (fun n => "--net:".toList ++ n)) ++
    ["--name=".toList ++ (lastGiven "--vm-name" us).getD (pathRoot (pathBase package))] ++
    (if withFlag "--power-on" us ≠ [] then ["--powerOn".toList] else []) ++
    ((lastGiven "--datastore" us).map (fun x => "--datastore=".toList ++ x)).toList ++
    [package, "vi://".toList ++ user ++ ":".toList ++ pw ++ "@".toList ++ locator])

end Cot
