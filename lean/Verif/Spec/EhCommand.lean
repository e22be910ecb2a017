import Verif.Spec.Manual
import Verif.Spec.DataValidation
import Verif.Spec.Wildcard
import Verif.Model.EditHardware
/-
Specification for C123: what a command line asks edit-hardware to do.
-/
namespace Cot

/-- the values that were given with the option of this flag, for each use of the option in order -/
def withFlag (f : String) (us : List ArgUse) : List (List Str) := (us.filter (fun u => decide (f.toList ∈ u.opt.flags))).map ArgUse.vals

/-- the number asked for is that of the last use; none without a use -/
def AskedNumber (least : Int) (given : List (List Str)) (x : Option Int) : Prop :=
  (given = [] ∧ x = none) ∨ ∃ s n, given.getLast? = some [s] ∧ Numeral s n ∧ least ≤ n ∧ x = some n

/-- the list asked for is that of all values of all uses in order, each as `R` says; none without a use -/
def AskedList (R : Str → Str → Prop) (given : List (List Str)) (x : Option (List Str)) : Prop :=
  (given = [] ∧ x = none) ∨ (given ≠ [] ∧ ∃ l, given.flatten.Forall₂ R l ∧ x = some l)

/-- the megabytes that a memory size means -/
def MemoryMeans (s : Str) (m : Nat) : Prop := ∃ n u, IsMemory s n u ∧ n ≠ 0 ∧ m = match u with
  | .mega => n
  | .giga => n * 1024
  | .none => if n ≤ 64 then n * 1024 else n

/-- What the options ask for. -/
structure EhAsks (us : List ArgUse) (q : EhReq) : Prop where
  profiles : AskedList (fun s t => Padded s t ∧ ∀ c ∈ t, isWs c = false) (withFlag "--profiles" us) q.profiles
  deleteOthers : q.deleteOthers = true ↔ withFlag "--delete-all-other-profiles" us ≠ []
  systemTypes : AskedList (fun s t => Padded s t ∧ ∀ c ∈ t, isWs c = false) (withFlag "--virtual-system-type" us) q.systemTypes
  cpus : AskedNumber 1 (withFlag "--cpus" us) q.cpus
  memory : (withFlag "--memory" us = [] ∧ q.memory = none) ∨
    ∃ s m, (withFlag "--memory" us).getLast? = some [s] ∧ MemoryMeans s m ∧ q.memory = some m
  nics : AskedNumber 0 (withFlag "--nics" us) (q.nics.map Int.ofNat)
  nicTypes : AskedList (FirstMatch nicWords) (withFlag "--nic-types" us) q.nicTypes
  macs : AskedList (fun s t => Padded s t ∧ IsMac t) (withFlag "--mac-addresses-list" us) q.macs
  networks : AskedList Eq (withFlag "--nic-networks" us) q.networks
  descriptions : AskedList Eq (withFlag "--network-descriptions" us) q.descriptions
  nicNames : AskedList Eq (withFlag "--nic-names" us) q.nicNames
  serialPorts : AskedNumber 0 (withFlag "--serial-ports" us) (q.serialPorts.map Int.ofNat)
  serialConn : AskedList Eq (withFlag "--serial-connectivity" us) q.serialConn
  scsi : AskedList (FirstMatch scsiWords) ((withFlag "--scsi-subtypes" us).map (·.filter (fun t => decide (t ≠ [])))) q.scsi
  ide : AskedList (FirstMatch ideWords) ((withFlag "--ide-subtypes" us).map (·.filter (fun t => decide (t ≠ [])))) q.ide

/-- the output asked for is that of the last use; without a use none, which means the package itself -/
def AskedOutput (given : List (List Str)) (x : Option Str) : Prop := (given = [] ∧ x = none) ∨ ∃ p, given.getLast? = some [p] ∧ x = some p

end Cot
