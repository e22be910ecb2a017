import Verif.Model.Commands
import Verif.Model.DeployRun
/-
Model of the command `deploy ... esxi` from the command line to the calls of ovftool and the server: COT/ui/cli.py and the attributes of
COT/commands/deploy.py and deploy_esxi.py.
-/
namespace Cot

/-- deploy.py:214-247 and deploy_esxi.py:232-248: the attributes of a new command; the package is kept by `PkgCmd` -/
def newDeployCmd : DeployCmd :=
  { hypervisor := none, locator := none, package := none, configuration := none, serial := [], username := none, password := none,
    ovftoolArgs := [], networkMap := none, vmName := none, powerOn := false, datastore := none }

/-- deploy.py:258-263, the setter of `hypervisor` -/
def setHypervisor (s : Str) : Except Err Str := if s ≠ "esxi".toList then .error .invalidInput else .ok s

/-- deploy.py:274-283, the setter of `configuration`; `profiles` are those of the package, which is set before (arguments in capitals come
first) -/
def setConfiguration (profiles : List Str) (s : Str) : Except Err Str := if s ∉ profiles then .error .invalidInput else .ok s

/-- The attributes: deploy.py:225-329, deploy_esxi.py:239-285.  `shlex` is `shlex.split`.  What the setter of `locator` derives from it
(deploy_esxi.py:266-272) is computed where it is used. -/
def deploySetters (shlex : Str → Except Err (List Str)) (profiles : List Str) : List (Str × Setter DeployCmd) :=
  [("hypervisor".toList, storeTextVia setHypervisor (fun q s => { q with hypervisor := some s })),
   ("configuration".toList, storeTextVia (setConfiguration profiles) (fun q s => { q with configuration := some s })),
   ("username".toList, storeText (fun q s => { q with username := some s })),
   ("password".toList, storeText (fun q s => { q with password := some s })),
   ("power_on".toList, storeTruth (fun q b => { q with powerOn := b })),
   ("vm_name".toList, storeText (fun q s => { q with vmName := some s })),
   ("network_map".toList, storeListVia setNetworkMap (fun q l => { q with networkMap := some l })),
   ("serial_connection".toList, storeListVia (fun l => esxiSerialConnections (l.map some)) (fun q l => { q with serial := l })),
   ("datastore".toList, storeText (fun q s => { q with datastore := some s })),
   ("ovftool_args".toList, storeTextVia shlex (fun q l => { q with ovftoolArgs := l })),
   ("locator".toList, storeText (fun q s => { q with locator := some s }))]

/-- cli.py:313-324 `run` and 560-608 `main` for `deploy ... esxi`: the command line is parsed, the attributes are set, and the command is
run; `vm` is the package as it was opened. -/
def deployMain {W : Type} (f : EhFiles) (shlex : Str → Except Err (List Str)) (d : DeployWorld W) (vm : DeployVm) (argv : List Str)
    (s : DeploySt W) : Except Err Unit × DeploySt W :=
  match pkgCommand f (deploySetters shlex vm.env.configProfiles) newDeployCmd argv with
  | .error e => (.error e, s)
  | .ok cmd => deployEsxi d vm { cmd.req with package := cmd.package } s

end Cot
