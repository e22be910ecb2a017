import Verif.Model.OvfSections
import Verif.Model.Wildcard
import Verif.Model.Platform
import Verif.Model.Ui
/-
Model of COT/commands/edit_hardware.py (class COTEditHardware) and of the methods of COT/vm_description/ovf/ovf.py
that it calls (set_cpu_count ... set_ide_subtypes).
-/
namespace Cot

/-- What the user is asked to confirm. -/
inductive EhAsk
  | badValue (k : HwKind) (v : Int)            -- edit_hardware.py:133, 172, 188, 235 through ui.validate_value
  | badNicTypes (l : List Str)                 -- edit_hardware.py:220 through ui.validate_value
  | systemTypesForAll                          -- edit_hardware.py:380
  | descriptionsForAll                         -- edit_hardware.py:386
  | createProfile (p : Str)                    -- edit_hardware.py:341
  | deleteAllProfiles                          -- edit_hardware.py:359
  | deleteProfile (p : Str)                    -- edit_hardware.py:369
  | deleteNics (p : Prof) (count n : Nat)      -- edit_hardware.py:456
  | createNetwork (n : Str)                    -- edit_hardware.py:505
  | deleteSerial (p : Prof) (count n : Nat)    -- edit_hardware.py:532
  | unreachable (p : Prof) (count n : Nat)     -- edit_hardware.py:543
  deriving DecidableEq

/-- What the user is asked to enter. -/
inductive EhInput
  | profileLabel (p : Str)                     -- edit_hardware.py:344
  | profileDesc (label : Str)                  -- edit_hardware.py:347
  | networkDesc (n : Str)                      -- edit_hardware.py:509
  deriving DecidableEq

/-- The surroundings of the command: the OVF version and external functions (the `configProfiles` field of `env` is not
used), the platform, and the user's answers, which are a function of the question.  `setOrder l` is the order in which
Python runs through `set(l)`. -/
structure EhCtx where
  env : Env
  plat : Plat
  ask : EhAsk → Bool
  input : EhInput → Str
  setOrder : List Str → List Str

/-- What the command edits: the envelope, the VirtualHardwareSection (which lies inside the VirtualSystem child of the
envelope; only its System child is changed here), the hardware items, and the platform object's record of values that
were validated before. -/
structure EhSt where
  envl : Elem
  hws : Option Elem
  hw : Hw
  seen : ValCache

/-- The attributes of the command when `run` starts. -/
structure EhReq where
  profiles : Option (List Str) := none
  deleteOthers : Bool := false
  systemTypes : Option (List Str) := none
  cpus : Option Int := none
  memory : Option Nat := none
  nics : Option Nat := none
  nicTypes : Option (List Str) := none
  macs : Option (List Str) := none
  networks : Option (List Str) := none
  descriptions : Option (List Str) := none
  nicNames : Option (List Str) := none
  serialPorts : Option Nat := none
  serialConn : Option (List Str) := none
  scsi : Option (List Str) := none
  ide : Option (List Str) := none

/-- ui.py:129-141 `confirm_or_die` -/
def ehOrDie (c : EhCtx) (q : EhAsk) : Except Err Unit := if c.ask q then .ok () else .error .systemExit

/-! ### The attributes -/

/-- ui.py:143-158 `validate_value` -/
def ehValidate (c : EhCtx) (q : EhAsk) : Except Err Unit → Except Err Unit
  | .ok _ => .ok ()
  | .error e => if e.isValueError then (if c.ask q then .ok () else .error e) else .error e

/-- `self.ui.validate_value(self.vm.platform.validate_..., value)` -/
def ehCheck (c : EhCtx) (k : HwKind) (seen : ValCache) (v : Int) : Except Err ValCache :=
  match ehValidate c (.badValue k v) (validateHw c.plat k seen v).1 with
  | .error e => .error e
  | .ok _ => .ok (validateHw c.plat k seen v).2

/-- edit_hardware.py:125-134, the setter of `cpus` -/
def setCpusArg (c : EhCtx) (seen : ValCache) (value : Str) : Except Err (Int × ValCache) :=
  match pyInt value with
  | none => .error .invalidInput
  | some n => if n < 1 then .error .invalidInput else match ehCheck c .cpus seen n with
    | .error e => .error e
    | .ok seen' => .ok (n, seen')

/-- edit_hardware.py:144-174, the setter of `memory` -/
def setMemoryArg (c : EhCtx) (seen : ValCache) (value : Str) : Except Err (Nat × ValCache) :=
  match parseMemory value with
  | .error e => .error e
  | .ok n => match ehCheck c .memory seen n with
    | .error e => .error e
    | .ok seen' => .ok (n, seen')

/-- edit_hardware.py:181-189 and 228-236, the setters of `nics` and `serial_ports` -/
def setCountArg (c : EhCtx) (k : HwKind) (seen : ValCache) (value : Str) : Except Err (Nat × ValCache) :=
  match pyInt value with
  | none => .error .invalidInput
  | some n => if n < 0 then .error .valueTooLow else match ehCheck c k seen n with
    | .error e => .error e
    | .ok seen' => .ok (n.toNat, seen')

/-- `[canonicalize(v) for v in value]` without the entries that are None (edit_hardware.py:266-267, 299-300) -/
def canonList (f : Option Str → Except Err (Option Str)) : List Str → Except Err (List Str)
  | [] => .ok []
  | t :: r => match f (some t) with
    | .error e => .error e
    | .ok o => match canonList f r with
      | .error e => .error e
      | .ok l => .ok (o.toList ++ l)

/-- edit_hardware.py:264-269, the setter of `scsi_subtypes` -/
def setScsiArg (value : List Str) : Except Err (List Str) := canonList canonicalizeScsi value

/-- edit_hardware.py:297-302, the setter of `ide_subtypes` -/
def setIdeArg (value : List Str) : Except Err (List Str) := canonList canonicalizeIde value

/-- `[canonicalize_nic_subtype(v) for v in value]` (edit_hardware.py:219, ovf.py:1642).  An empty string becomes
None, which no platform supports; here the refusal is immediate. -/
def canonNics : List Str → Except Err (List Str)
  | [] => .ok []
  | t :: r => match canonicalizeNic (some t) with
    | .error e => .error e
    | .ok none => .error .valueUnsupported
    | .ok (some s) => match canonNics r with
      | .error e => .error e
      | .ok l => .ok (s :: l)

/-- edit_hardware.py:217-221, the setter of `nic_types` -/
def setNicTypesArg (c : EhCtx) (value : List Str) : Except Err (List Str) :=
  match canonNics value with
  | .error e => .error e
  | .ok l => match ehValidate c (.badNicTypes l) (validateNicTypes c.plat l) with
    | .error e => .error e
    | .ok _ => .ok l

/-- edit_hardware.py:304-330 `ready_to_run`, without the base class's check of the package -/
def EhReq.ready (q : EhReq) : Bool :=
  q.profiles.isSome || q.deleteOthers || q.cpus.isSome || q.memory.isSome || q.nics.isSome || q.nicTypes.isSome ||
  q.macs.isSome || q.networks.isSome || q.nicNames.isSome || q.descriptions.isSome || q.serialPorts.isSome ||
  q.serialConn.isSome || q.scsi.isSome || q.ide.isSome || q.systemTypes.isSome

/-! ### Profiles -/

/-- all entries, if none of them is None -/
def allSome : List (Option Str) → Option (List Str)
  | [] => some []
  | none :: _ => none
  | some x :: r => (allSome r).map (x :: ·)

/-- `vm.config_profiles` as the hardware functions see it.  Simplification: a Configuration without id, which is not
valid, is an error here. -/
def curEnv (c : EhCtx) (envl : Elem) : Except Err Env :=
  match configProfiles c.env.ver envl with
  | .error e => .error e
  | .ok l => match allSome l with
    | none => .error .typeError
    | some ids => .ok { c.env with configProfiles := ids }

/-- edit_hardware.py:338-351: the loop of `_run_create_new_profiles` -/
def createLoop (c : EhCtx) (known : List Str) : List Str → Elem → Except Err Elem
  | [], e => .ok e
  | p :: r, e =>
    if p ∈ known then createLoop c known r e
    else match ehOrDie c (.createProfile p) with
      | .error x => .error x
      | .ok _ =>
        let label := c.input (.profileLabel p)
        let desc := c.input (.profileDesc label)
        match createProfile c.env.ver e p label desc with
        | .error x => .error x
        | .ok e' => createLoop c known r e'

/-- edit_hardware.py:367-373: the loop of `_run_delete_other_profiles`; `named` is `self.profiles is not None` -/
def deleteLoop (c : EhCtx) (named : Bool) : List Str → EhSt → Except Err EhSt
  | [], s => .ok s
  | p :: r, s =>
    if named = true ∧ c.ask (.deleteProfile p) = false then deleteLoop c named r s
    else match curEnv c s.envl with
      | .error x => .error x
      | .ok env => match deleteProfile env s.envl s.hw p with
        | .error x => .error x
        | .ok (e', hw') => deleteLoop c named r { s with envl := e', hw := hw' }

/-- edit_hardware.py:353-373 `_run_delete_other_profiles` -/
def deleteOthersStep (c : EhCtx) (q : EhReq) (s : EhSt) : Except Err EhSt := do
  let env ← curEnv c s.envl
  match q.profiles with
  | none =>
    let _ ← ehOrDie c .deleteAllProfiles
    deleteLoop c false env.configProfiles s
  | some P => deleteLoop c true (c.setOrder (env.configProfiles.filter (fun p => p ∉ P))) s

/-- edit_hardware.py:375-395 `_run_update_profiles` -/
def updateProfiles (c : EhCtx) (q : EhReq) (s : EhSt) : Except Err EhSt := do
  let s ← (match q.profiles with
    | none => .ok s
    | some P => do
      let _ ← (if q.systemTypes.isSome then ehOrDie c .systemTypesForAll else .ok () : Except Err Unit)
      let _ ← (if q.descriptions.isSome then ehOrDie c .descriptionsForAll else .ok () : Except Err Unit)
      let env ← curEnv c s.envl
      let e ← createLoop c env.configProfiles P s.envl
      .ok { s with envl := e } : Except Err EhSt)
  if q.deleteOthers then deleteOthersStep c q s else .ok s

/-! ### The setters of the VM description -/

/-- `profile_list` for the functions that treat None and [] alike -/
def EhReq.profList (q : EhReq) : List Prof := (q.profiles.getD []).map some
/-- `profile_list` for `set_item_values_per_profile` -/
def EhReq.profOpt (q : EhReq) : Option (List Prof) := q.profiles.map (fun l => l.map some)

/-- `self.platform.validate_...(value)` in ovf.py:1609, 1624, 1670 -/
def vmValidate (c : EhCtx) (k : HwKind) (v : Int) (s : EhSt) : Except Err EhSt :=
  match validateHw c.plat k s.seen v with
  | (.error e, _) => .error e
  | (.ok _, seen') => .ok { s with seen := seen' }

/-- name_helper.py `ALLOCATION_UNITS` -/
def allocationUnits : Str := "AllocationUnits".toList

/-- edit_hardware.py:565-566, ovf.py:645-658, the setter of `system_types` -/
def systemTypesStep (c : EhCtx) (q : EhReq) (s : EhSt) : Except Err EhSt :=
  match q.systemTypes with
  | none => .ok s
  | some L => match setSystemTypes c.env.ver s.hws L with
    | .error e => .error e
    | .ok h => .ok { s with hws := some h }

/-- edit_hardware.py:568-569, ovf.py:1600-1613 `set_cpu_count` -/
def cpuStep (c : EhCtx) (q : EhReq) (s : EhSt) : Except Err EhSt :=
  match q.cpus with
  | none => .ok s
  | some n => do
    let s ← vmValidate c .cpus n s
    let env ← curEnv c s.envl
    let hw ← setValueForAll env s.hw "cpu".toList virtualQuantity (.str (intStr n)) q.profList true
    .ok { s with hw := hw }

/-- edit_hardware.py:571-572, ovf.py:1615-1632 `set_memory` -/
def memoryStep (c : EhCtx) (q : EhReq) (s : EhSt) : Except Err EhSt :=
  match q.memory with
  | none => .ok s
  | some n => do
    let s ← vmValidate c .memory n s
    let env ← curEnv c s.envl
    let hw ← setValueForAll env s.hw "memory".toList virtualQuantity (.str (natStr n)) q.profList true
    let hw ← setValueForAll env hw "memory".toList allocationUnits (.str "byte * 2^20".toList) q.profList false
    .ok { s with hw := hw }

/-- `max(d.values())`; the dictionary is never empty -/
def maxCount (d : Prof → Nat) (L : List Prof) : Nat := L.foldl (fun m p => max m (d p)) 0

/-- edit_hardware.py:397-446 `_run_infer_networks_from_nics`: the networks and descriptions afterwards.
Simplification: a Network without name, which is not valid, is an error here when a pattern is looked for. -/
def inferNetworks (c : EhCtx) (q : EhReq) (s : EhSt) : Except Err EhReq :=
  match q.nics, q.networks with
  | none, _ => .ok q
  | _, some _ => .ok q
  | some n, none => do
    let env ← curEnv c s.envl
    let d ← itemCounts env s.hw "ethernet".toList q.profList
    let m := maxCount d (allProfilesIfEmpty env q.profList)
    if n ≤ m ∨ m < 2 then .ok q
    else do
      let nets ← networks c.env.ver s.envl
      if m ≠ nets.length then .ok q
      else match allSome nets with
        | none => .error .typeError
        | some names => do
          let descs ← networkDescriptions c.env.ver s.envl
          .ok { q with networks := guessListWildcard names,
                       descriptions := match q.descriptions with
                         | some d => some d
                         | none => guessListWildcard descs }

/-- edit_hardware.py:454-460, 530-536 and 541-549: ask about each profile that has more devices than the limit.  The
dictionary has each profile once; asking the same question again changes nothing. -/
def askEach (c : EhCtx) (mk : Prof → Nat → EhAsk) (d : Prof → Nat) (limit : Nat) : List Prof → Except Err Unit
  | [] => .ok ()
  | p :: r => if limit < d p then (match ehOrDie c (mk p (d p)) with
      | .error e => .error e
      | .ok _ => askEach c mk d limit r) else askEach c mk d limit r

/-- `platform.guess_nic_name` -/
def EhCtx.nicName (c : EhCtx) (n : Nat) : Str := guessNicName c.plat n

/-- edit_hardware.py:452-461, with ovf.py:1649-1672 `set_nic_count` -/
def nicCountStep (c : EhCtx) (q : EhReq) (s : EhSt) : Except Err EhSt := do
  let env ← curEnv c s.envl
  let d ← itemCounts env s.hw "ethernet".toList q.profList
  match q.nics with
  | none => .ok s
  | some n => do
    let _ ← askEach c (fun p k => .deleteNics p k n) d n (allProfilesIfEmpty env q.profList)
    let s ← vmValidate c .nicCount n s
    let hw ← setItemCount env c.nicName s.hw "ethernet".toList n q.profList
    .ok { s with hw := hw }

/-- edit_hardware.py:463-464, ovf.py:1634-1647 `set_nic_types` -/
def nicTypesStep (c : EhCtx) (q : EhReq) (s : EhSt) : Except Err EhSt :=
  match q.nicTypes with
  | none => .ok s
  | some l => do
    let l ← canonNics l
    let _ ← validateNicTypes c.plat l
    let env ← curEnv c s.envl
    let hw ← setValueForAll env s.hw "ethernet".toList resourceSubType (.list l) q.profList false
    .ok { s with hw := hw }

/-- ovf.py:1691-1706, 1708-1723: `set_nic_networks` and `set_nic_mac_addresses`; the last value is for the NICs that
are left, and an empty list is an IndexError -/
def setNicValues (env : Env) (hw : Hw) (name : Str) (vs : List Str) (P : Option (List Prof)) : Except Err Hw :=
  match vs.getLast? with
  | none => .error .indexError
  | some x => setItemValues env hw "ethernet".toList name (vs.map InVal.str) P (.str x)

/-- edit_hardware.py:466-467 -/
def macsStep (c : EhCtx) (q : EhReq) (s : EhSt) : Except Err EhSt :=
  match q.macs with
  | none => .ok s
  | some l => do
    let env ← curEnv c s.envl
    let hw ← setNicValues env s.hw address l q.profOpt
    .ok { s with hw := hw }

/-- edit_hardware.py:490-493: new descriptions for the existing networks, in order -/
def describeLoop (v : Ver) : List (Option Str × Str) → Elem → Except Err Elem
  | [], e => .ok e
  | (none, _) :: _, _ => .error .typeError      -- a Network without name, not valid
  | (some n, d) :: r, e => match createNetwork v e n (some d) with
    | .error x => .error x
    | .ok e' => describeLoop v r e'

/-- edit_hardware.py:499-511: what the description of a network will be -/
def netDescFor (c : EhCtx) (existing : List (Option Str)) (n : Str) (d : Option Str) : Except Err (Option Str) :=
  if some n ∈ existing then .ok d
  else match ehOrDie c (.createNetwork n) with
    | .error x => .error x
    | .ok _ => match d with
      | none => .ok (some (c.input (.networkDesc n)))
      | some [] => .ok (some (c.input (.networkDesc n)))
      | some (a :: t) => .ok (some (a :: t))

/-- edit_hardware.py:498-513: the loop over the networks; `descs` is what is left of `new_descs` -/
def networkLoop (c : EhCtx) (existing : List (Option Str)) : List Str → List Str → Elem → Except Err Elem
  | [], _, e => .ok e
  | n :: r, descs, e => match netDescFor c existing n descs.head? with
    | .error x => .error x
    | .ok d => match createNetwork c.env.ver e n d with
      | .error x => .error x
      | .ok e' => networkLoop c existing r descs.tail e'

/-- edit_hardware.py:479-483 -/
def effNetworks (q : EhReq) (maxNics : Nat) (existing : List (Option Str)) : Option (List Str) :=
  if 0 < maxNics ∧ existing = [] ∧ q.networks = none then some ["VM Network".toList] else q.networks

/-- edit_hardware.py:469-515 `_run_update_networks` -/
def networksStep (c : EhCtx) (q : EhReq) (s : EhSt) : Except Err EhSt := do
  let env ← curEnv c s.envl
  let d ← itemCounts env s.hw "ethernet".toList q.profList
  let m := maxCount d (allProfilesIfEmpty env q.profList)
  let existing ← networks c.env.ver s.envl
  let descs := expandListWildcard (q.descriptions.getD []) m
  match effNetworks q m existing with
  | none => (match q.descriptions with
    | none => .ok s
    | some _ => do
      let e ← describeLoop c.env.ver (existing.zip descs) s.envl
      .ok { s with envl := e })
  | some nets => do
    let new := expandListWildcard nets m
    let e ← networkLoop c existing new descs s.envl
    let hw ← setNicValues env s.hw connection new q.profOpt
    .ok { s with envl := e, hw := hw }

/-- edit_hardware.py:517-524 `_run_update_nic_names`, ovf.py:1725-1735 `set_nic_names` -/
def nicNamesStep (c : EhCtx) (q : EhReq) (s : EhSt) : Except Err EhSt :=
  match q.nicNames with
  | none => .ok s
  | some l => do
    let env ← curEnv c s.envl
    let d ← itemCounts env s.hw "ethernet".toList q.profList
    let names := expandListWildcard l (maxCount d (allProfilesIfEmpty env q.profList))
    let hw ← setItemValues env s.hw "ethernet".toList (elementName c.env.ver) (names.map InVal.str) q.profOpt .none
    .ok { s with hw := hw }

/-- edit_hardware.py:528-537, ovf.py:1748-1757 `set_serial_count` -/
def serialCountStep (c : EhCtx) (q : EhReq) (s : EhSt) : Except Err EhSt :=
  match q.serialPorts with
  | none => .ok s
  | some n => do
    let env ← curEnv c s.envl
    let d ← itemCounts env s.hw "serial".toList q.profList
    let _ ← askEach c (fun p k => .deleteSerial p k n) d n (allProfilesIfEmpty env q.profList)
    let hw ← setItemCount env c.nicName s.hw "serial".toList n q.profList
    .ok { s with hw := hw }

/-- edit_hardware.py:539-551, ovf.py:1759-1768 `set_serial_connectivity` -/
def serialConnStep (c : EhCtx) (q : EhReq) (s : EhSt) : Except Err EhSt :=
  match q.serialConn with
  | none => .ok s
  | some l => do
    let env ← curEnv c s.envl
    let d ← itemCounts env s.hw "serial".toList q.profList
    let _ ← askEach c (fun p k => .unreachable p k l.length) d l.length (allProfilesIfEmpty env q.profList)
    let hw ← setItemValues env s.hw "serial".toList address (l.map InVal.str) q.profOpt (.str [])
    .ok { s with hw := hw }

/-- edit_hardware.py:586-590, ovf.py:1782-1807 `set_scsi_subtypes` and `set_ide_subtypes` -/
def subtypesStep (c : EhCtx) (q : EhReq) (rt : Str) (types : Option (List Str)) (s : EhSt) : Except Err EhSt :=
  match types with
  | none => .ok s
  | some l => do
    let env ← curEnv c s.envl
    let hw ← setValueForAll env s.hw rt resourceSubType (.list l) q.profList false
    .ok { s with hw := hw }

/-- edit_hardware.py:568-590: the hardware edits, after the profiles and the system types -/
def editItems (c : EhCtx) (q : EhReq) (s : EhSt) : Except Err EhSt := do
  let s ← cpuStep c q s
  let s ← memoryStep c q s
  let q ← inferNetworks c q s
  let s ← nicCountStep c q s
  let s ← nicTypesStep c q s
  let s ← macsStep c q s
  let s ← networksStep c q s
  let s ← nicNamesStep c q s
  let s ← serialCountStep c q s
  let s ← serialConnStep c q s
  let s ← subtypesStep c q "scsi".toList q.scsi s
  subtypesStep c q "ide".toList q.ide s

/-- edit_hardware.py:553-590 `run`.  When Python raises, the package may be half edited; it is not written then
(C41, C50). -/
def editHardware (c : EhCtx) (q : EhReq) (s : EhSt) : Except Err EhSt :=
  if q.ready = false then .error .invalidInput
  else do
    let s ← updateProfiles c q s
    let s ← systemTypesStep c q s
    editItems c q s

end Cot
