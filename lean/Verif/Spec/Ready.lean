import Verif.Model.Ready
import Verif.Spec.DeployRun
/-
What C109 means: what each command cannot do without.
-/
namespace Cot

/-- a text that was given and is not empty -/
def GivenText (o : Option Str) : Prop := ∃ s, o = some s ∧ s ≠ []

/-- What the command needs besides the package, and something to do. -/
def Complete : CmdArgs → Prop
  -- add-disk: the image; and the kind of controller, if an address on it is given
  | .addDisk image controller address => image ≠ none ∧ (address ≠ none → controller ≠ none)
  | .addFile file => file ≠ none
  -- remove-file: a path or an identifier
  | .removeFile path id => path ≠ none ∨ id ≠ none
  | .deployEsxi locator hypervisor => locator ≠ none ∧ hypervisor ≠ none
  -- edit-hardware: at least one option
  | .editHardware q => q.profiles ≠ none ∨ q.deleteOthers = true ∨ q.cpus ≠ none ∨ q.memory ≠ none ∨ q.nics ≠ none ∨
      q.nicTypes ≠ none ∨ q.macs ≠ none ∨ q.networks ≠ none ∨ q.nicNames ≠ none ∨ q.descriptions ≠ none ∨
      q.serialPorts ≠ none ∨ q.serialConn ≠ none ∨ q.scsi ≠ none ∨ q.ide ≠ none ∨ q.systemTypes ≠ none
  -- edit-product: at least one text
  | .editProduct q => GivenText q.cls ∨ GivenText q.product ∨ GivenText q.vendor ∨ GivenText q.version ∨ GivenText q.fullVersion ∨
      GivenText q.productUrl ∨ GivenText q.vendorUrl ∨ GivenText q.appUrl
  -- edit-properties: no labels or descriptions, or one for each property
  | .editProperties q => (q.labels = [] ∨ q.labels.length = q.props.length) ∧ (q.descs = [] ∨ q.descs.length = q.props.length)
  -- inject-config: at least one file
  | .injectConfig q _ _ => GivenText q.config ∨ GivenText q.secondary ∨ q.extra ≠ []
  | .info packages => packages ≠ []
  | .installHelpers => True
  | .help => True

/-- commands that work on one package -/
def NeedsPackage : CmdArgs → Prop
  | .info _ | .installHelpers | .help => False
  | _ => True

/-- commands that write the package -/
def ChangesPackage : CmdArgs → Prop
  | .info _ | .installHelpers | .help | .deployEsxi .. => False
  | _ => True

/-- the space needed in the working directory: the package, and for inject-config the disk with the files -/
def WorkSpace (a : CmdArgs) (size need : Nat) : Prop :=
  match a with
  | .injectConfig _ true files => need = size + files
  | .injectConfig _ false files => ∃ d, need = size + d ∧ files ≤ d ∧ 8388608 ∣ d ∧ d < files + 8388608
  | _ => need = size

/-- where the package is going to be written -/
def outputPlace (s : CmdVm) (p : Str) : Prop := if s.output = [] then s.package = some p else s.output = p

/-- there is room for so much, or the user, with these answers, agrees to go on without; `rest` are the answers left -/
def RoomOrAgreed (force : Bool) (available need : Nat) (inp rest : List Str) : Prop :=
  (need ≤ available ∧ rest = inp) ∨ (available < need ∧ Agrees force inp rest)

end Cot
