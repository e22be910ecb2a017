import Verif.Spec.Hardware
import Verif.Lemmas.NatSort
import Verif.Model.EditHardware
import Verif.Spec.OvfSections
import Verif.Spec.Placeholder
/-
Specification vocabulary for edits of the hardware as a whole.
-/
namespace Cot

/-- Profile `q` describes the same machine in `hw` (with the profiles of `env`) as in `hw'` (with those of `env'`): it
has the same items, and each of their properties has the same value under `q`. -/
def SameIn (env env' : Env) (q : Prof) (hw hw' : Hw) : Prop :=
  (∀ id it, dget? hw id = some it → it.hasProfile env q = true →
    ∃ it', dget? hw' id = some it' ∧ it'.hasProfile env' q = true ∧
      ∀ n, it'.getValue env' n (some {q}) = it.getValue env n (some {q})) ∧
  (∀ id it', dget? hw' id = some it' → it'.hasProfile env' q = true →
    ∃ it, dget? hw id = some it ∧ it.hasProfile env q = true)

/-- The items of types other than `codes` are the same in both collections. -/
def SameExcept (v : Ver) (codes : List Str) (hw hw' : Hw) : Prop :=
  (∀ id it, dget? hw id = some it → (∀ c ∈ codes, ¬ OfType it c) → dget? hw' id = some it) ∧
  (∀ id it', dget? hw' id = some it' → Live v it' → (∀ c ∈ codes, ¬ OfType it' c) → dget? hw id = some it')

/-- what `set_item_count_per_profile` needs in order to work as documented: a list of different configured profiles, or
none and then only items that are there by default -/
structure Countable (env : Env) (code : Str) (P : List Prof) (hw : Hw) : Prop where
  twin : ∀ id it, dget? hw id = some it → OfType it code → Twin env.ver it
  nodup : P.Nodup
  cfgNodup : env.configProfiles.Nodup
  known : ∀ p ∈ P, ∃ c ∈ env.configProfiles, p = some c
  dflt : P = [] → ∀ id it, dget? hw id = some it → OfType it code → it.hasProfile env none = true

/-- The device types (CIM resource codes) that a request is about: processors 3, memory 4, network adapters 10, serial
ports 21, SCSI controllers 6, IDE controllers 5.  When the package declares no network, every request is also about the
network adapters, which will be connected to "VM Network". -/
def EhReq.types (q : EhReq) (noNetworks : Bool) : List Str :=
  (if q.cpus.isSome then ["3".toList] else []) ++
  (if q.memory.isSome then ["4".toList] else []) ++
  (if q.nics.isSome || q.nicTypes.isSome || q.macs.isSome || q.networks.isSome || q.nicNames.isSome || noNetworks
    then ["10".toList] else []) ++
  (if q.serialPorts.isSome || q.serialConn.isSome then ["21".toList] else []) ++
  (if q.scsi.isSome then ["6".toList] else []) ++
  (if q.ide.isSome then ["5".toList] else [])

/-- The profiles that a request is about: the named ones or, if profiles are not named, all of them and the default. -/
def EhReq.targets (q : EhReq) (env : Env) : List Prof :=
  match q.profiles with
  | none => env.configProfiles.map some ++ [none]
  | some P => P.map some

/-- the largest number of devices of a type in one of the profiles that a request is about -/
def maxDevices (env : Env) (code : Str) (L : List Prof) (hw : Hw) : Nat :=
  maxCount (fun p => countOf env hw code p) L

/-- Every device of the type has the value `v` of a property in the profiles `P`; if `P` is empty then it has this value
and no other, whatever the profile. -/
def Everywhere (env : Env) (code name : Str) (v : Val) (P : List Prof) (hw : Hw) : Prop :=
  ∀ id it, dget? hw id = some it → OfType it code →
    (∀ p ∈ P, it.getValue env name (some {p}) = .ok (some v)) ∧
    (P = [] → (∃ p, it.getValue env name (some {p}) = .ok (some v)) ∧
      ∀ p w, it.getValue env name (some {p}) = .ok (some w) → w = v)

/-- Wherever a device of the type had a value of the property in `hw`, it has the value `v` in `hw'`. -/
def ReplacedAll (env : Env) (code name : Str) (v : Val) (hw hw' : Hw) : Prop :=
  ∀ id it, dget? hw id = some it → OfType it code → ∀ p w, it.getValue env name (some {p}) = .ok (some w) →
    ∃ it', dget? hw' id = some it' ∧ it'.getValue env name (some {p}) = .ok (some v)

/-- The devices of the type, in natural order of their identifiers, have these values of a property, in each of the
profiles `L` in which they exist; devices beyond the end of the list have the value `rest`.  (Nothing is said about
devices that are given the empty string, which removes the property.) -/
def InOrder (env : Env) (code name : Str) (vs : List Str) (rest : Str) (L : List Prof) (hw : Hw) : Prop :=
  ∃ ids : List Str, ids.Nodup ∧ ids.Pairwise NatLe ∧ (∀ id, id ∈ ids ↔ ∃ it, dget? hw id = some it ∧ OfType it code) ∧
    ∀ (i : Nat) (hi : i < ids.length), ∃ it, dget? hw ids[i] = some it ∧ ∀ p ∈ L, it.hasProfile env p = true →
      vs[i]?.getD rest ≠ [] → it.getValue env name (some {p}) = .ok (some (.str (vs[i]?.getD rest)))

/-- Names can be given to an item under the profiles `L`: the values that may be abbreviated in them are tame, and if the
default is among the profiles then they are the same in all of them. -/
structure NameReady (env : Env) (it : Item) (L : List Prof) : Prop where
  quantity : ∀ p ∈ L, ∀ v, Reads (it.tab virtualQuantity) p v → TameVal (env.valStr v)
  subtype : ∀ p ∈ L, ∀ v, Reads (it.tab resourceSubType) p v → TameVal (slashJoin env v)
  conn : ∀ p ∈ L, ∀ v, Reads (it.tab connection) p v → TameVal (env.valStr v)
  same : none ∈ L → ∀ p ∈ L, ∀ n ∈ [virtualQuantity, resourceSubType, connection], ∀ v,
    Reads (it.tab n) p v ↔ Reads (it.tab n) none v

/-- the element that declares the profile `p` in the descriptor -/
def DeclaresProfile (v : Ver) (e : Elem) (p : Str) (x : Elem) : Prop :=
  ∃ s, kids e (ovfTag v "DeploymentOptionSection".toList) = [s] ∧
    named s (ovfTag v "Configuration".toList) (ovfTag v "id".toList) p = [x]

/-- the network `n` is declared in the descriptor with the description `d` -/
def Described (v : Ver) (e : Elem) (n d : Str) : Prop :=
  ∃ s x, kids e (ovfTag v "NetworkSection".toList) = [s] ∧
    named s (ovfTag v "Network".toList) (ovfTag v "name".toList) n = [x] ∧
    TextIs x (ovfTag v "Description".toList) (some d)

/-- New networks are inferred: the networks are not given, NICs are to be added, there are at least two of them and just as
many networks (in a package with at most `m` NICs in a profile), and a pattern is found in the names of the networks. -/
def Infers (q : EhReq) (m : Nat) (nets : List (Option Str)) (pats : List Str) : Prop :=
  q.networks = none ∧ ∃ n names, q.nics = some n ∧ nets = names.map some ∧ m = names.length ∧ 2 ≤ m ∧ m < n ∧
    guessListWildcard names = some pats

/-- What a request needs of the collection in order to work as documented: it is consistent, and if devices are to be
added or removed then `Countable` holds. -/
structure EhReady (env : Env) (q : EhReq) (hw : Hw) : Prop where
  wf : HwWF env hw
  nics : q.nics.isSome = true → Countable env "10".toList q.profList hw
  serial : q.serialPorts.isSome = true → Countable env "21".toList q.profList hw

/-- the items of a type have matching profile sets -/
def TwinType (ver : Ver) (code : Str) (hw : Hw) : Prop := ∀ id it, dget? hw id = some it → OfType it code → Twin ver it

/-- the items of a type are there by default -/
def DefaultType (env : Env) (code : Str) (hw : Hw) : Prop :=
  ∀ id it, dget? hw id = some it → OfType it code → it.hasProfile env none = true

/-- The profiles that are deleted: with `--delete-all-other-profiles`, those that are not named and, when there are
named ones, that the user agreed to delete. -/
def Deleted (c : EhCtx) (q : EhReq) (p : Str) : Prop :=
  q.deleteOthers = true ∧ p ∉ q.profiles.getD [] ∧ (q.profiles = none ∨ c.ask (.deleteProfile p) = true)

instance (c : EhCtx) (q : EhReq) (p : Str) : Decidable (Deleted c q p) := by unfold Deleted; infer_instance

/-- `setOrder` lists every element once -/
def OrdersSets (f : List Str → List Str) : Prop := ∀ l, (f l).Nodup ∧ ∀ x, x ∈ f l ↔ x ∈ l

/-- A package on which a request can be carried out as documented (`env` has its profiles): it is not of version 0.9,
profiles and networks are not declared twice, and the hardware is consistent.  If NICs (or serial ports) are to be added or
removed, no profile is named twice, each of these devices has its identifier and its type for the same profiles, and if no
profile is named then each is there by default. -/
structure EhStart (c : EhCtx) (q : EhReq) (env : Env) (s : EhSt) : Prop where
  cfg : curEnv c s.envl = .ok env
  ver : c.env.ver ≠ .v0
  order : OrdersSets c.setOrder
  configs : ConfigsWF c.env.ver s.envl
  nodup : env.configProfiles.Nodup
  nets : NetsWF c.env.ver s.envl
  wf : HwWF env s.hw
  nics : q.nics.isSome = true → (q.profiles.getD []).Nodup ∧ TwinType c.env.ver "10".toList s.hw ∧
    (q.profiles.getD [] = [] → DefaultType env "10".toList s.hw)
  serial : q.serialPorts.isSome = true → (q.profiles.getD []).Nodup ∧ TwinType c.env.ver "21".toList s.hw ∧
    (q.profiles.getD [] = [] → DefaultType env "21".toList s.hw)

end Cot
