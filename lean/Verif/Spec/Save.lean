import Verif.Spec.Refresh
import Verif.Spec.Load
import Verif.Spec.OvfSections
import Verif.Model.Save
/-
Specification for C113: what saving may change in the descriptor.
-/
namespace Cot

/-- Each Item of the hardware section has an InstanceID of its own. -/
def OneItemEach (v : Ver) (hws : Elem) : Prop :=
  ((hws.children.filter (fun e => isItemTag v e.tag)).map (itemId v)).Nodup

/-- Every File entry is for a file that is there, with its size; and every Disk on such a file that is not in an archive
states the capacity that the image has. -/
structure Accurate (c : Ctx) (capOf : Str → Except Err Nat) (refs : Elem) (disks : List Elem) (files : List (Str × FRef)) : Prop where
  present : ∀ e ∈ refs.children, Retains c.env.ver c.fs files e
  size : ∀ e ∈ refs.children, ∀ h r b, FileWith c.env.ver (fileHref c.env.ver) h e → dget? files h = some r → Leads c.fs r b →
    e.get (fileSize c.env.ver) = some (natStr b.length)
  capacity : ∀ e ∈ refs.children, ∀ d ∈ disks, ∀ h fid r cap, FileWith c.env.ver (fileHref c.env.ver) h e →
    e.get (fileId c.env.ver) = some fid → DiskWith c.env.ver (diskFileRef c.env.ver) fid d → dget? files h = some r →
    r.inTar = false → capOf (pathJoin r.container r.filename) = .ok cap → capacityOf c.env.ver d = .ok (cap : Int)

/-- There is a network, and each of the networks is used by an adapter. -/
def AllUsed (v : Ver) (hws nets : Elem) : Prop :=
  kids nets (ovfTag v "Network".toList) ≠ [] ∧ ∀ n ∈ kids nets (ovfTag v "Network".toList), NetworkUsed v hws n

/-- each adapter has at most one connection -/
def OneConnection (v : Ver) (hws : Elem) : Prop := ∀ i ∈ kids hws (nicItemTag v), (kids i (nicConnTag v)).length ≤ 1

/-- the elements of the envelope that saving works on -/
def savedParts (v : Ver) : List Str :=
  ["References", "DiskSection", "NetworkSection", "VirtualSystem"].map (fun n => ovfTag v n.toList)

/-- The rest of the descriptor: the envelope itself, and its other elements in order. -/
def SameRest (v : Ver) (root root' : Elem) : Prop :=
  root'.tag = root.tag ∧ root'.attrib = root.attrib ∧ root'.text = root.text ∧ root'.tail = root.tail ∧
  root'.children.filter (fun e => e.tag ∉ savedParts v) = root.children.filter (fun e => e.tag ∉ savedParts v)

/-- Apart from its Items, the hardware section is the same. -/
def SameButItems (v : Ver) (s s' : Elem) : Prop :=
  s'.tag = s.tag ∧ s'.attrib = s.attrib ∧ s'.text = s.text ∧ s'.tail = s.tail ∧
  s'.children.filter (fun e => !isItemTag v e.tag) = s.children.filter (fun e => !isItemTag v e.tag)

end Cot
