import Verif.Model.Xml
import Verif.Model.NameHelper
/-
Specification vocabulary for sections of an OVF descriptor: only elements, their tags, attributes, texts and
children are used.
-/
namespace Cot

/-- the children with this tag -/
def kids (e : Elem) (tag : Str) : List Elem := e.children.filter (fun c => c.tag = tag)

/-- Apart from its children with this tag, the element is the same. -/
def SameButKids (tag : Str) (e e' : Elem) : Prop :=
  e'.tag = e.tag ∧ e'.attrib = e.attrib ∧ e'.text = e.text ∧ e'.tail = e.tail ∧
  e'.children.filter (fun c => c.tag ≠ tag) = e.children.filter (fun c => c.tag ≠ tag)

/-- the text of a child with this tag: absent, or the text of the only such child ("" if it has none) -/
def TextIs (e : Elem) (tag : Str) (x : Option Str) : Prop :=
  (x = none ∧ kids e tag = []) ∨ ∃ c, kids e tag = [c] ∧ x = some (c.text.getD [])

/-- A list of words that can be told apart when written with spaces between them: there is a word, no word
has a space in it, and the list is not just one empty word. -/
def SpaceSafe (L : List Str) : Prop := L ≠ [] ∧ L ≠ [[]] ∧ ∀ x ∈ L, ' ' ∉ x

/-- the children with this tag whose attribute has this value -/
def named (e : Elem) (tag attr x : Str) : List Elem := e.children.filter (fun c => c.tag = tag ∧ c.get attr = some x)

/-- the tag of network adapters in the hardware section: EthernetPortItem in OVF 2, Item before -/
def nicItemTag : Ver → Str
  | .v0 => "{http://www.vmware.com/schema/ovf/1/envelope}Item".toList
  | .v1 => "{http://schemas.dmtf.org/ovf/envelope/1}Item".toList
  | .v2 => "{http://schemas.dmtf.org/ovf/envelope/2}EthernetPortItem".toList

/-- the tag of a connection in a network adapter -/
def nicConnTag : Ver → Str
  | .v2 => "{http://schemas.dmtf.org/wbem/wscim/1/cim-schema/2/CIM_EthernetPortAllocationSettingData.xsd}Connection".toList
  | _ => "{http://schemas.dmtf.org/wbem/wscim/1/cim-schema/2/CIM_ResourceAllocationSettingData}Connection".toList

/-- some network adapter has a connection whose text is the name of this network -/
def NetworkUsed (v : Ver) (hws net : Elem) : Prop :=
  ∃ item ∈ kids hws (nicItemTag v), ∃ c ∈ kids item (nicConnTag v), c.text = net.get (ovfTag v "name".toList)

/-- At most one network section, in it at most one network of each name, with at most one description. -/
def NetsWF (v : Ver) (env : Elem) : Prop :=
  (kids env (ovfTag v "NetworkSection".toList)).length ≤ 1 ∧
  ∀ s ∈ kids env (ovfTag v "NetworkSection".toList),
    (∀ x, (named s (ovfTag v "Network".toList) (ovfTag v "name".toList) x).length ≤ 1) ∧
    ∀ n ∈ kids s (ovfTag v "Network".toList), (kids n (ovfTag v "Description".toList)).length ≤ 1

/-- At most one DeploymentOptionSection, with at most one Configuration for each id, each with at most one
label and description. -/
def ConfigsWF (v : Ver) (env : Elem) : Prop :=
  (kids env (ovfTag v "DeploymentOptionSection".toList)).length ≤ 1 ∧
  ∀ s ∈ kids env (ovfTag v "DeploymentOptionSection".toList),
    (∀ x, (named s (ovfTag v "Configuration".toList) (ovfTag v "id".toList) x).length ≤ 1) ∧
    ∀ c ∈ kids s (ovfTag v "Configuration".toList),
      (kids c (ovfTag v "Label".toList)).length ≤ 1 ∧ (kids c (ovfTag v "Description".toList)).length ≤ 1

end Cot
