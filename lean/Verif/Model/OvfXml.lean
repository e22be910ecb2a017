import Verif.Model.NameHelper
/-
Model of the section handling of COT/vm_description/ovf/ovf.py on the XML tree.

Python keeps a pointer to each section element; here a section is the unique child with the section's tag and
attributes, which is how the pointers are initialised (ovf.py:200-239) and refreshed (ovf.py:2802-2843).
-/
namespace Cot

/-- `"{" + NSM['xsi'] + "}type"`, name_helper.py:503 -/
def xsiType : Str := braced "http://www.w3.org/2001/XMLSchema-instance".toList ++ "type".toList

/-- name_helper.py:187-270, 453-462: NETWORK_SECTION, DISK_SECTION, ANNOTATION_SECTION, PRODUCT_SECTION,
EULA_SECTION, VIRTUAL_HW_SECTION; in version 0.9 they are all "Section" -/
def sectionTag (v : Ver) (name : Str) : Str :=
  match v with
  | .v0 => ovfTag .v0 "Section".toList
  | v => ovfTag v name

/-- name_helper.py:375-383, 503-525: the `*_SECTION_ATTRIB` of a section -/
def sectionAttrib (v : Ver) (name : Str) : List (Str × Str) :=
  match v with
  | .v0 => [(xsiType, "ovf:".toList ++ name ++ "_Type".toList)]
  | _ => []

/-- name_helper.py:235, 458 `VIRTUAL_SYSTEM` -/
def virtualSystemTag : Ver → Str
  | .v0 => ovfTag .v0 "Content".toList
  | v => ovfTag v "VirtualSystem".toList

/-- name_helper.py:186 `INFO` -/
def infoTag (v : Ver) : Str := ovfTag v "Info".toList

/-- ovf.py:2832-2837: insertion before the first child with this tag, or at the end -/
def insertBeforeTag (tag : Str) (new : Elem) : List Elem → List Elem
  | [] => [new]
  | e :: r => if e.tag = tag then new :: e :: r else e :: insertBeforeTag tag new r

/-- ovf.py:2802-2843 `_ensure_section(section_tag, info_string, attrib, parent)`: the updated parent, which
then has such a section. -/
def ensureSection (v : Ver) (parent : Elem) (tag : Str) (attrib : List (Str × Str)) (info : Str) : Except Err Elem :=
  match findChild parent tag attrib false with
  | .error e => .error e
  | .ok (some _) => .ok parent
  | .ok none => match setOrMakeChild (Elem.new tag attrib) (infoTag v) (some info) [] [] with
    | .error e => .error e
    | .ok s => .ok (parent.setChildren (insertBeforeTag (virtualSystemTag v) s parent.children))

/-- in-place change of the first child with this tag and these attributes (an element found by `find_child`
and then mutated) -/
def updateFirst (parent : Elem) (tag : Str) (attrib : List (Str × Str)) (f : Elem → Elem) : Elem :=
  parent.setChildren (mapFirst (fun e => e.tag == tag && attribMatch e attrib) f parent.children)

end Cot
