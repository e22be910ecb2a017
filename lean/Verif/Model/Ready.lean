import Verif.Model.Ui
import Verif.Model.Disks
import Verif.Model.EditHardware
import Verif.Model.EditProperties
import Verif.Model.InjectConfig
/-
Model of `ready_to_run` and of the start of `run` of every command: COT/commands/command.py and its subclasses.
-/
namespace Cot

/-- The commands, with the attributes that `ready_to_run` looks at.  For inject-config also whether the platform boots from
a CD, and the size of all the files given. -/
inductive CmdArgs
  | addDisk (image controller address : Option Str)
  | addFile (file : Option Str)
  | removeFile (path id : Option Str)
  | deployEsxi (locator hypervisor : Option Str)
  | editHardware (q : EhReq)
  | editProduct (q : ProductReq)
  | editProperties (q : PropReq)
  | injectConfig (q : IcReq) (cdrom : Bool) (size : Nat)
  | info (packages : List Str)
  | installHelpers
  | help

/-- What the subclass itself checks before it calls `ready_to_run` of its base class: add_disk.py:187-191, add_file.py:78-79,
remove_file.py:65-66, deploy_esxi.py:293-294 with deploy.py:337-338, edit_hardware.py:311-329, edit_product.py:83-94,
edit_properties.py:186-201, inject_config.py:127-130, info.py:83-84 -/
def CmdArgs.complete : CmdArgs → Bool
  | .addDisk image controller address => image.isSome && !(address.isSome && controller.isNone)
  | .addFile file => file.isSome
  | .removeFile path id => !(path.isNone && id.isNone)
  | .deployEsxi locator hypervisor => locator.isSome && hypervisor.isSome
  | .editHardware q => q.ready
  | .editProduct q => productReady q
  | .editProperties q => propsReady q
  | .injectConfig q _ _ => q.ready
  | .info packages => decide (packages ≠ [])
  | .installHelpers => true
  | .help => true

/-- is the class a ReadCommand? -/
def CmdArgs.reads : CmdArgs → Bool
  | .info _ | .installHelpers | .help => false
  | _ => true

/-- is the class a ReadWriteCommand? -/
def CmdArgs.writes : CmdArgs → Bool
  | .info _ | .installHelpers | .help | .deployEsxi .. => false
  | _ => true

/-- A package that is open: its working directory and `predicted_output_size()`. -/
structure OpenVm where
  dir : Str
  size : Nat

/-- The attributes of the base classes. -/
structure CmdVm where
  package : Option Str
  output : Str
  vm : Option OpenVm

/-- The file system: the existing directory that a location is in or is (command.py:163-168), and the bytes available there. -/
structure SpaceWorld where
  place : Str → Str
  available : Str → Nat

/-- `check_disk_space(required, location)` -/
def SpaceWorld.check (w : SpaceWorld) (force : Bool) (cache : DiskCache) (required : Nat) (location : Str) (inp : List Str) :
    Option (Except Err Bool × DiskCache × List Str) :=
  checkDiskSpace force cache ⟨w.place location, required, false, false, w.available (w.place location)⟩ inp

/-- command.py:117-128 `working_dir_disk_space_required`, and inject_config.py:133-166 -/
def CmdArgs.extra : CmdArgs → Nat
  | .injectConfig _ cdrom size => (configDiskEstimate cdrom size).toNat
  | _ => 0

/-- command.py:67-86 `Command.ready_to_run` -/
def baseReady (w : SpaceWorld) (force : Bool) (a : CmdArgs) (s : CmdVm) (cache : DiskCache) (inp : List Str) :
    Option (Except Err Bool × DiskCache × List Str) :=
  match s.vm with
  | none => some (.ok true, cache, inp)
  | some vm => w.check force cache (vm.size + a.extra) vm.dir inp

/-- command.py:244-252 `ReadCommand.ready_to_run` -/
def readReady (w : SpaceWorld) (force : Bool) (a : CmdArgs) (s : CmdVm) (cache : DiskCache) (inp : List Str) :
    Option (Except Err Bool × DiskCache × List Str) :=
  if s.package = none then some (.ok false, cache, inp) else baseReady w force a s cache inp

/-- command.py:346-365 `ReadWriteCommand.ready_to_run`; without a VM it ends in an AttributeError -/
def writeReady (w : SpaceWorld) (force : Bool) (a : CmdArgs) (s : CmdVm) (cache : DiskCache) (inp : List Str) :
    Option (Except Err Bool × DiskCache × List Str) :=
  match readReady w force a s cache inp with
  | some (.ok true, cache', inp') => match s.vm with
    | none => some (.error .attributeError, cache', inp')
    | some vm => w.check force cache' (2 * vm.size) (if s.output = [] then s.package.getD [] else s.output) inp'
  | r => r

/-- `ready_to_run()` of the command: what it returns, without the message.  `none`: the answers do not end the questions. -/
def readyToRun (w : SpaceWorld) (force : Bool) (a : CmdArgs) (s : CmdVm) (cache : DiskCache) (inp : List Str) :
    Option (Except Err Bool × DiskCache × List Str) :=
  if a.complete = false then some (.ok false, cache, inp)
  else if a.writes then writeReady w force a s cache inp
  else if a.reads then readReady w force a s cache inp
  else baseReady w force a s cache inp

/-- command.py:88-97 `run`, followed by what the subclass does (`work`) on the machine and the user's further answers -/
def runCommand {W : Type} (w : SpaceWorld) (force : Bool) (a : CmdArgs) (s : CmdVm) (cache : DiskCache)
    (work : W → List Str → Except Err Unit × W) (m : W) (inp : List Str) : Option (Except Err Unit × W) :=
  match readyToRun w force a s cache inp with
  | none => none
  | some (.error e, _, _) => some (.error e, m)
  | some (.ok false, _, _) => some (.error .invalidInput, m)
  | some (.ok true, _, inp') => some (work m inp')

end Cot
