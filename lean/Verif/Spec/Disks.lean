import Verif.Model.Disks
/-
What the properties of disk images say.
-/
namespace Cot

/-- `h` is the first among the handlers with maximal confidence, and that confidence is not zero. -/
def Picks {α : Type} (conf : α → Except Err Nat) (hs : List α) (h : α) : Prop :=
  ∃ pre post k, hs = pre ++ h :: post ∧ conf h = .ok k ∧ 0 < k ∧
    (∀ x ∈ pre, ∃ j, conf x = .ok j ∧ j < k) ∧ (∀ x ∈ post, ∃ j, conf x = .ok j ∧ j ≤ k)

/-- `x` is what a program's output says after its first "file format: ". -/
def ReportsFormat (out x : Str) : Prop :=
  ∃ pre post, out = pre ++ "file format: ".toList ++ x ++ post ∧ (∀ c ∈ x, isWs c = false) ∧
    (∀ c ∈ post.head?, isWs c = true) ∧
    ∀ pre' post', out = pre' ++ "file format: ".toList ++ post' → pre.length ≤ pre'.length

/-- The file is recognised as an ISO image: isoinfo accepts it or, without isoinfo, one of the volume descriptors
carries the standard identifier. -/
def LooksIso (w : DiskWorld) (path : Str) : Prop :=
  (w.hasIsoinfo = true ∧ ∃ out, w.isoinfo path = .ok out) ∨
  (w.hasIsoinfo = false ∧ ∃ off, (off = 32769 ∨ off = 34817 ∨ off = 36865) ∧
    ((w.bytes path).drop off).take 5 = [67, 68, 48, 48, 49])

/-- The paths a command or removal changes: the output argument of the conversion programs. -/
def DiskOp.changes : DiskOp → List Str
  | .remove p => [p]
  | .call h args =>
    if h = "qemu-img".toList then args.getLast?.toList
    else if h = "vmdktool".toList then (args.reverse.tail.head?).toList
    else []

end Cot
