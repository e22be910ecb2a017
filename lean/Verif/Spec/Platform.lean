import Verif.Model.Platform
/-
Published limits of the platforms, independent of the validation code: the sets of supported values.
-/
namespace Cot

/-- The values of each kind of hardware that each platform supports (the platform classes' documentation:
number of CPUs, MiB of memory, number of NICs, number of serial ports). -/
def Supported : Plat → HwKind → Int → Prop
  | .generic, .cpus, v => 1 ≤ v
  | .generic, .memory, v => 1 ≤ v
  | .generic, .nicCount, v => 0 ≤ v
  | .generic, .serialCount, v => 0 ≤ v
  | .csr, .cpus, v => v = 1 ∨ v = 2 ∨ v = 4 ∨ v = 8
  | .csr, .memory, v => 2560 ≤ v ∧ v ≤ 8192
  | .csr, .nicCount, v => 3 ≤ v ∧ v ≤ 26
  | .csr, .serialCount, v => 0 ≤ v ∧ v ≤ 2
  | .iosv, .cpus, v => v = 1
  | .iosv, .memory, v => 192 ≤ v ∧ v ≤ 3072
  | .iosv, .nicCount, v => 0 ≤ v ∧ v ≤ 16
  | .iosv, .serialCount, v => v = 1 ∨ v = 2
  | .xrv, .cpus, v => 1 ≤ v ∧ v ≤ 8
  | .xrv, .memory, v => 3072 ≤ v ∧ v ≤ 8192
  | .xrv, .nicCount, v => 1 ≤ v
  | .xrv, .serialCount, v => 1 ≤ v ∧ v ≤ 4
  | .xrvRP, .cpus, v => 1 ≤ v ∧ v ≤ 8
  | .xrvRP, .memory, v => 3072 ≤ v ∧ v ≤ 8192
  | .xrvRP, .nicCount, v => v = 1 ∨ v = 2
  | .xrvRP, .serialCount, v => 1 ≤ v ∧ v ≤ 4
  | .xrvLC, .cpus, v => 1 ≤ v ∧ v ≤ 8
  | .xrvLC, .memory, v => 3072 ≤ v ∧ v ≤ 8192
  | .xrvLC, .nicCount, v => 1 ≤ v
  | .xrvLC, .serialCount, v => 0 ≤ v ∧ v ≤ 4
  | .xrv9k, .cpus, v => 1 ≤ v ∧ v ≤ 32
  | .xrv9k, .memory, v => 8192 ≤ v
  | .xrv9k, .nicCount, v => 4 ≤ v
  | .xrv9k, .serialCount, v => 1 ≤ v ∧ v ≤ 4
  | .n9k, .cpus, v => 1 ≤ v ∧ v ≤ 4
  | .n9k, .memory, v => 8192 ≤ v
  | .n9k, .nicCount, v => 1 ≤ v ∧ v ≤ 65
  | .n9k, .serialCount, v => v = 1
  | .nxosv, .cpus, v => 1 ≤ v ∧ v ≤ 8
  | .nxosv, .memory, v => 2048 ≤ v ∧ v ≤ 8192
  | .nxosv, .nicCount, v => 0 ≤ v
  | .nxosv, .serialCount, v => v = 1 ∨ v = 2
  | .c9800, .cpus, v => v = 4 ∨ v = 6 ∨ v = 10
  | .c9800, .memory, v => 8192 ≤ v ∧ v ≤ 32768
  | .c9800, .nicCount, v => 1 ≤ v ∧ v ≤ 3
  | .c9800, .serialCount, v => 0 ≤ v ∧ v ≤ 2

/-- The platforms that list their CPU counts, instead of having a range of them. -/
def ListsCpus (p : Plat) (k : HwKind) : Prop := k = .cpus ∧ (p = .csr ∨ p = .c9800)

/-- The state of the validator after a history of calls (latest first), whatever their outcomes. -/
def afterCalls (p : Plat) : List (HwKind × Int) → ValCache
  | [] => fun _ => []
  | (k, v) :: r => (validateHw p k (afterCalls p r) v).2

/-- NIC types supported by each platform (the class attributes SUPPORTED_NIC_TYPES), platform by platform. -/
def NicSupported (p : Plat) (t : Str) : Prop :=
  match p with
  | .generic => t = "E1000e".toList ∨ t = "E1000".toList ∨ t = "PCNet32".toList ∨ t = "virtio".toList ∨
      t = "VMXNET3".toList
  | .csr => t = "E1000".toList ∨ t = "virtio".toList ∨ t = "VMXNET3".toList
  | .c9800 => t = "E1000".toList ∨ t = "virtio".toList ∨ t = "VMXNET3".toList
  | .xrv9k => t = "E1000".toList ∨ t = "virtio".toList ∨ t = "VMXNET3".toList
  | .iosv => t = "E1000".toList
  | .xrv | .xrvRP | .xrvLC | .nxosv => t = "E1000".toList ∨ t = "virtio".toList
  | .n9k => t = "E1000".toList ∨ t = "VMXNET3".toList

end Cot
