import Verif.Model.Deploy
import Verif.Model.Hardware
import Verif.Model.Ui
import Verif.Model.Calls
import Verif.Model.Version
/-
Model of the `deploy ... esxi` command as a whole: COT/commands/deploy.py `COTDeploy.run`, COT/commands/deploy_esxi.py.

ovftool and the vSphere server are parameters.  EOFError while reading input is written as `systemExit`: both end the program
(cli.py:624-625).  Texts of prompts and logging are not modelled.
-/
namespace Cot

/-! ### Serial ports and profile: deploy.py -/

/-- what `get_value` gives for an address; other than texts do not occur (a tuple has no `strip`) -/
def addressText : Option Val → Except Err (Option Str)
  | none => .ok none
  | some (.str s) => .ok (some s)
  | some (.tup _) => .error .attributeError

/-- ovf.py:1779-1780, the loop over the items found -/
def serialAddresses (env : Env) (hw : Hw) : List Str → Except Err (List (Option Str))
  | [] => .ok []
  | id :: r => match dget? hw id with
    | none => .error .keyError
    | some it => match it.getValue env address none with
      | .error e => .error e
      | .ok v => match addressText v with
        | .error e => .error e
        | .ok a => match serialAddresses env hw r with
          | .error e => .error e
          | .ok l => .ok (a :: l)

/-- ovf.py:1770-1780 `get_serial_connectivity(profile)` -/
def serialConnectivity (env : Env) (hw : Hw) (p : Prof) : Except Err (List (Option Str)) :=
  match findAllItems env hw (some "serial".toList) [] [p] with
  | .error e => .error e
  | .ok ids => serialAddresses env hw ids

/-- deploy.py:345-366: the profile; the setter of `configuration` (274-283) refuses what is not declared -/
def deployProfile (force : Bool) (env : Env) (conf : Prof) (inp : List Str) : Except Err Prof × List Str :=
  match conf with
  | some p => (.ok (some p), inp)
  | none => match env.configProfiles with
    | [] => (.ok none, inp)
    | [p] => (.ok (some p), inp)
    | p :: q :: r => match chooseFromList force (p :: q :: r) p inp with
      | none => (.error .systemExit, [])
      | some (x, rest) => if x ∈ p :: q :: r then (.ok (some x), rest) else (.error .invalidInput, rest)

/-- deploy.py:368-371: the serial connections; the setter is that of deploy_esxi.py:274-285 -/
def deploySerial (env : Env) (hw : Hw) (p : Prof) (given : List SerialConn) : Except Err (List SerialConn) :=
  if given ≠ [] then .ok given
  else match serialConnectivity env hw p with
    | .error e => .error e
    | .ok l => esxiSerialConnections l

/-- `ui.confirm_or_die`, with the end of input as an exit -/
def dieUnless (force : Bool) (inp : List Str) : Except Err Unit × List Str :=
  match confirmOrDie force inp with
  | none => (.error .systemExit, [])
  | some x => x

/-- deploy.py:373-385: are there enough serial ports? -/
def deployCount (force : Bool) (env : Env) (hw : Hw) (p : Prof) (cs : List SerialConn) (inp : List Str) :
    Except Err Unit × List Str :=
  match itemCounts env hw "serial".toList [p] with
  | .error e => (.error e, inp)
  | .ok d => if cs.length > d p then dieUnless force inp else (.ok (), inp)

/-- deploy.py:341-385 `COTDeploy.run`, after the check that the command is ready -/
def deployPlan (force : Bool) (env : Env) (hw : Hw) (conf : Prof) (given : List SerialConn) (inp : List Str) :
    Except Err (Prof × List SerialConn) × List Str :=
  match deployProfile force env conf inp with
  | (.error e, inp) => (.error e, inp)
  | (.ok p, inp) => match deploySerial env hw p given with
    | .error e => (.error e, inp)
    | .ok cs => match deployCount force env hw p cs inp with
      | (.error e, inp) => (.error e, inp)
      | (.ok _, inp) => (.ok (p, cs), inp)

/-! ### The server: deploy_esxi.py:48-205, 412-433 -/

/-- How an attempt to connect ends: the certificate is not accepted, another fault, or an error of the connection (deploy_esxi.py:80-105) -/
inductive ConnRes where
  | ok
  | badCertificate
  | fault
  deriving DecidableEq

/-- What is done on the server. -/
inductive VsEv where
  /-- an attempt to connect, with or without verification of certificates -/
  | connect (server : Str) (verify : Bool)
  /-- the user is asked whether to accept the certificate of the server -/
  | question (server : Str)
  /-- `ReconfigVM_Task` for a machine (its place among all machines), with the serial ports to add -/
  | reconfigure (vm : Nat) (ports : List Backing)
  | disconnect
  deriving DecidableEq

/-- The vSphere server. -/
structure VSphere (W : Type) where
  /-- `SmartConnect(host, user, pwd, port)` with or without verification of certificates -/
  connect : W → Bool → Str → Str → Str → ConnRes × W
  /-- deploy_esxi.py:199-201: the names of the machines -/
  machines : W → List Str
  /-- `ReconfigVM_Task(spec)`: the task is submitted; how it ends is not looked at (deploy_esxi.py:188) -/
  reconfig : W → Nat → List Backing → Except Err Unit × W

/-- The state: the machine with the record of programs, the user's input, whether certificates are verified in this process
(deploy_esxi.py:94-97), and what has been done on the server. -/
structure DeploySt (W : Type) where
  ps : PSt W
  inp : List Str
  verify : Bool
  evs : List VsEv

/-- the state after something has been done on the server -/
def DeploySt.did {W : Type} (s : DeploySt W) (w : W) (inp : List Str) (verify : Bool) (new : List VsEv) : DeploySt W :=
  ⟨⟨w, s.ps.log⟩, inp, verify, s.evs ++ new⟩

/-- deploy_esxi.py:67-105 `SmarterConnection.__enter__`: errors of the connection and other faults go on (`ioError`) -/
def vsEnter {W : Type} (vs : VSphere W) (force : Bool) (server user pw : Str) (s : DeploySt W) : Except Err Unit × DeploySt W :=
  match vs.connect s.ps.w s.verify server user pw with
  | (.ok, w) => (.ok (), s.did w s.inp s.verify [.connect server s.verify])
  | (.fault, w) => (.error .ioError, s.did w s.inp s.verify [.connect server s.verify])
  | (.badCertificate, w) =>
    match dieUnless force s.inp with
    | (.error e, inp) => (.error e, s.did w inp s.verify [.connect server s.verify, .question server])
    | (.ok _, inp) => match vs.connect w false server user pw with
      | (.ok, w) => (.ok (), s.did w inp false [.connect server s.verify, .question server, .connect server false])
      | (_, w) => (.error .ioError, s.did w inp false [.connect server s.verify, .question server, .connect server false])

/-- deploy_esxi.py:190-205 `lookup_object`: the place of the first machine with the name -/
def findMachine (name : Str) : List Str → Nat → Option Nat
  | [], _ => none
  | n :: r, i => if n = name then some i else findMachine name r (i + 1)

/-- deploy_esxi.py:158-188, 423-431: what is done while connected -/
def vsBody {W : Type} (vs : VSphere W) (name : Str) (cs : List SerialConn) (s : DeploySt W) : Except Err Unit × DeploySt W :=
  match findMachine name (vs.machines s.ps.w) 0 with
  | none => (.error .lookupError, s)
  | some i => match serialBackings cs with
    | .error e => (.error e, s)
    | .ok bs => match vs.reconfig s.ps.w i bs with
      | (r, w) => (r, s.did w s.inp s.verify [.reconfigure i bs])

/-- deploy_esxi.py:412-433 `fixup_serial_ports`, with `SmarterConnection.__exit__` (107-115); that disconnecting fails is not
modelled -/
def fixupPorts {W : Type} (vs : VSphere W) (force : Bool) (server user pw name : Str) (cs : List SerialConn) (s : DeploySt W) :
    Except Err Unit × DeploySt W :=
  match vsEnter vs force server user pw s with
  | (.error e, s) => (.error e, s)
  | (.ok _, s) => match vsBody vs name cs s with
    | (r, s) => (r, s.did s.ps.w s.inp s.verify [.disconnect])

/-! ### The command -/

/-- The attributes of the command. -/
structure DeployCmd where
  hypervisor : Option Str
  locator : Option Str
  package : Option Str
  configuration : Prof
  serial : List SerialConn
  username : Option Str
  password : Option Str
  ovftoolArgs : List Str
  networkMap : Option (List Str)
  vmName : Option Str
  powerOn : Bool
  datastore : Option Str

/-- The surroundings: programs, the server, the user's name, and what `getpass` reads (`none`: end of input). -/
structure DeployWorld (W : Type) where
  ex : Exec W
  ui : HelperUi W
  vs : VSphere W
  force : Bool
  getuser : Str
  getpass : Option Str

/-- The package: profiles and hardware, and whether it has environment properties. -/
structure DeployVm where
  env : Env
  hw : Hw
  hasProps : Bool

/-- deploy_esxi.py:346-349, cli.py:383-400 `get_password` -/
def deployPassword {W : Type} (d : DeployWorld W) : Option Str → Except Err Str
  | some p => .ok p
  | none => if d.force then .error .invalidInput else match d.getpass with
    | none => .error .systemExit
    | some p => .ok p

def ovftoolName : Str := "ovftool".toList

/-- helper.py:248-261 `version` of ovftool (ovftool.py:31-36), None if it is not there -/
def ovftoolVersion {W : Type} (d : DeployWorld W) (s : PSt W) : Except Err (Option PyVersion) × PSt W :=
  if d.ui.found s.w ovftoolName then
    match helperOutput d.ex d.ui ⟨ovftoolName, [], fun _ => false⟩ false false ["--version".toList] s with
    | (.error e, _, s) => (.error e, s)
    | (.ok out, _, s) => match helperVersion "ovftool ".toList out with
      | .error e => (.error e, s)
      | .ok v => (.ok (some v), s)
  else (.ok none, s)

/-- deploy_esxi.py:356-392: is `--X:injectOvfEnv` to be given?  `None < StrictVersion(...)` is a TypeError on Python 3. -/
def deployInject {W : Type} (d : DeployWorld W) (vm : DeployVm) (locator : Str) (powerOn : Bool) (s : DeploySt W) :
    Except Err Bool × DeploySt W :=
  if vm.hasProps = true ∧ hasSub "/host/".toList locator = false then
    match ovftoolVersion d s.ps with
    | (.error e, ps) => (.error e, { s with ps := ps })
    | (.ok none, ps) => (.error .typeError, { s with ps := ps })
    | (.ok (some v), ps) =>
      if verGe v ⟨4, 0, 0, none⟩ = false ∨ powerOn = false then
        match dieUnless d.force s.inp with
        | (.error e, inp) => (.error e, { s with ps := ps, inp := inp })
        | (.ok _, inp) => (.ok false, { s with ps := ps, inp := inp })
      else (.ok true, { s with ps := ps })
  else (.ok false, s)

/-- deploy_esxi.py:351-352 -/
def deployTarget (user pw locator : Str) : Str :=
  "vi://".toList ++ user ++ ":".toList ++ pw ++ "@".toList ++ locator

/-- deploy_esxi.py:318-319: the name of the machine -/
def deployName (c : DeployCmd) (package : Str) : Str := c.vmName.getD (pathRoot (pathBase package))

/-- deploy_esxi.py:354-408: deployment, once profile, connections, user and password are known -/
def deployRest {W : Type} (d : DeployWorld W) (vm : DeployVm) (c : DeployCmd) (locator package user pw : Str) (p : Prof)
    (cs : List SerialConn) (s : DeploySt W) : Except Err Unit × DeploySt W :=
  match deployInject d vm locator c.powerOn s with
  | (.error e, s) => (.error e, s)
  | (.ok inject, s) =>
    match helperCall d.ex d.ui ovftoolName true false
        (fixupArgs ⟨p, c.networkMap, c.vmName, package, c.powerOn, c.datastore⟩
          (if inject then c.ovftoolArgs ++ ["--X:injectOvfEnv".toList] else c.ovftoolArgs) (deployTarget user pw locator)) s.ps with
    | (.error e, ps) => (.error e, { s with ps := ps })
    | (.ok _, ps) =>
      if cs = [] then (.ok (), { s with ps := ps })
      else fixupPorts d.vs d.force (locator.takeWhile (· != '/')) user pw (deployName c package) cs { s with ps := ps }

/-- deploy_esxi.py:338-408 `COTDeployESXi.run` with the check that the command is ready (287-295, deploy.py:331-339,
command.py:66-96, 244-252) -/
def deployEsxi {W : Type} (d : DeployWorld W) (vm : DeployVm) (c : DeployCmd) (s : DeploySt W) : Except Err Unit × DeploySt W :=
  match c.locator, c.hypervisor, c.package with
  | some locator, some _, some package =>
    match deployPlan d.force vm.env vm.hw c.configuration c.serial s.inp with
    | (.error e, inp) => (.error e, { s with inp := inp })
    | (.ok (p, cs), inp) => match deployPassword d c.password with
      | .error e => (.error e, { s with inp := inp })
      | .ok pw => deployRest d vm c locator package (c.username.getD d.getuser) pw p cs { s with inp := inp }
  | _, _, _ => (.error .invalidInput, s)

end Cot
