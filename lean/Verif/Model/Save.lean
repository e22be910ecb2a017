import Verif.Model.Names
import Verif.Model.Package
import Verif.Model.OvfSections
/-
Model of what saving does to the descriptor as a whole: COT/vm_description/ovf/ovf.py:810-831, before the tree is written.

The elements that Python keeps pointers to are found again by their tags, as when the descriptor was opened (Model/Names):
they stay where they are.  `validate_hardware` (824) changes nothing (C88).  The indentation at the end is C29, the files
that are written C72 to C74.
-/
namespace Cot

/-- the tree with another hardware section in the virtual system; ovf.py:221-239 is where these pointers come from -/
def putHardware (v : Ver) (root sys hws : Elem) : Elem :=
  updateFirst root (virtualSystemTag v) (sectionAttrib v "VirtualSystem".toList) (fun _ =>
    updateFirst sys (sectionTag v "VirtualHardwareSection".toList) (sectionAttrib v "VirtualHardwareSection".toList) (fun _ => hws))

/-- the tree with another virtual system: what edits of the product information and annotation do, ovf.py:660-742, 2845-2864 -/
def putSystem (v : Ver) (root sys : Elem) : Elem :=
  updateFirst root (virtualSystemTag v) (sectionAttrib v "VirtualSystem".toList) (fun _ => sys)

/-- the tree with other references -/
def putReferences (v : Ver) (root refs : Elem) : Elem :=
  updateFirst root (ovfTag v "References".toList) [] (fun _ => refs)

/-- the tree with another disk section, if there is one -/
def putDisks (v : Ver) (root : Elem) : Option Elem → Elem
  | none => root
  | some d => updateFirst root (sectionTag v "DiskSection".toList) (sectionAttrib v "DiskSection".toList) (fun _ => d)

/-- ovf.py:820-831: `root` is the tree and `parts` are its parts at the time of saving.  The hardware section is updated, then the references and disks, then the networks -/
def saveTree (c : Ctx) (o : Orders) (capOf : Str → Except Err Nat) (root : Elem) (parts : Parts) (hw : Hw)
    (files : List (Str × FRef)) : Except Err (Elem × List (Str × FRef)) := do
  let hws ← updateXml c.env o hw parts.hardware
  let p ← refreshFiles c capOf ⟨parts.references, parts.disks, hw, files⟩
  let root' ← refreshNetworks parts.version
    (putDisks parts.version (putReferences parts.version (putHardware parts.version root parts.system hws) p.refs) p.disks) hws
  .ok (root', p.files)

end Cot
