import Verif.Spec.Hardware
import Verif.Spec.Platform
import Verif.Model.ValidateHw
/-
Specification for C88: what hardware a profile has, and whether a platform supports it.
-/
namespace Cot

/-- The device `it`, of the type with this CIM code, exists under the profile. -/
def DeviceUnder (env : Env) (hw : Hw) (code : Str) (p : Prof) (it : Item) : Prop :=
  (∃ id, dget? hw id = some it) ∧ OfType it code ∧ it.hasProfile env p = true

/-- The processors of the profile (CIM type 3): its CPU item says `v` there. -/
def HasCpus (env : Env) (hw : Hw) (p : Prof) (v : Int) : Prop :=
  ∃ it s, DeviceUnder env hw "3".toList p it ∧ Reads (it.tab virtualQuantity) p (.str s) ∧ pyInt s = some v

/-- The memory of the profile (CIM type 4) in bytes: the quantity, in its units if it has any. -/
def HasMemory (env : Env) (hw : Hw) (p : Prof) (bytes : Int) : Prop :=
  ∃ it s, DeviceUnder env hw "4".toList p it ∧ Reads (it.tab virtualQuantity) p (.str s) ∧
    ((∃ u, Reads (it.tab allocationUnits) p (.str u) ∧ programmaticBytesToInt s u = .ok bytes) ∨
     ((∀ u, ¬ Reads (it.tab allocationUnits) p u) ∧ pyInt s = some bytes))

/-- One of the package's NICs (CIM type 10), in any profile, lists the type `t`. -/
def NicTypeIn (hw : Hw) (t : Str) : Prop :=
  ∃ id it l S, dget? hw id = some it ∧ OfType it "10".toList ∧ (Val.tup l, S) ∈ it.tab resourceSubType ∧ t ∈ l

/-- The hardware of the profile is within what the platform supports. -/
def Fits (env : Env) (plat : Plat) (hw : Hw) (p : Prof) : Prop :=
  (∀ v, HasCpus env hw p v → Supported plat .cpus v) ∧
  (∀ z, HasMemory env hw p z → Supported plat .memory (z / 2 ^ 20)) ∧
  Supported plat .nicCount (countOf env hw "10".toList p) ∧
  ∀ t, NicTypeIn hw t → NicSupported plat t

/-- The profiles of the package; a package that defines none has only the default. -/
def IsProfile (env : Env) (p : Prof) : Prop :=
  (∃ q ∈ env.configProfiles, p = some q) ∨ (env.configProfiles = [] ∧ p = none)

/-- A profile whose processors and memory are stated properly: at most one item of each, with a number. -/
structure PlainHardware (env : Env) (hw : Hw) (p : Prof) : Prop where
  cpuIds : ∀ id id' it it', dget? hw id = some it → dget? hw id' = some it' → OfType it "3".toList →
    OfType it' "3".toList → it.hasProfile env p = true → it'.hasProfile env p = true → id = id'
  memIds : ∀ id id' it it', dget? hw id = some it → dget? hw id' = some it' → OfType it "4".toList →
    OfType it' "4".toList → it.hasProfile env p = true → it'.hasProfile env p = true → id = id'
  cpus : ∀ it, DeviceUnder env hw "3".toList p it → ∃ v, HasCpus env hw p v
  memory : ∀ it, DeviceUnder env hw "4".toList p it → ∃ z, HasMemory env hw p z

end Cot
