import Verif.Model.OvfXml
import Verif.Model.Hardware
/-
Model of the parts of COT/vm_description/ovf/ovf.py that read and edit environment transports, system types,
product information, networks and configuration profiles.
-/
namespace Cot

/-- name_helper.py:135 `VSSD` -/
def vssd : Str := braced (cimUri ++ "/cim-schema/2/CIM_VirtualSystemSettingData".toList)

/-- `ElementTree.find(tag)`: the first child with this tag -/
def findFirst (e : Elem) (tag : Str) : Option Elem := e.children.find? (fun c => c.tag == tag)

/-- `ElementTree.findtext(tag, None)`: its text, or "" if it has none -/
def findText (e : Elem) (tag : Str) : Option Str := (findFirst e tag).map (fun c => c.text.getD [])

/-- `value.split(" ")` if value is a non-empty string, else None (ovf.py:595-597, 641-643) -/
def splitList : Option Str → Option (List Str)
  | none => none
  | some [] => none
  | some (c :: s) => some (splitOnChar ' ' (c :: s))

/-! ### Environment transports -/

/-- name_helper.py:262 `ENVIRONMENT_TRANSPORT` -/
def transportAttr (v : Ver) : Str := ovfTag v "transport".toList

/-- ovf.py:588-597, the getter of `environment_transports`; `hws` is the virtual hardware section, if any -/
def getTransports (v : Ver) (hws : Option Elem) : Option (List Str) :=
  match v with
  | .v0 => none
  | v => match hws with
    | none => none
    | some h => splitList (h.get (transportAttr v))

/-- ovf.py:600-608, the setter of `environment_transports` -/
def setTransports (v : Ver) (hws : Option Elem) (L : List Str) : Except Err Elem :=
  match v with
  | .v0 => .error .notImplementedError
  | v => match hws with
    | none => .error .attributeError
    | some h => .ok (h.set (transportAttr v) (joinWith [' '] L))

/-- commands/edit_properties.py:156-161 `_KNOWN_TRANSPORTS` -/
def knownTransports : List (Str × Str) :=
  [("iso".toList, "iso".toList), ("vmware".toList, "com.vmware.guestInfo".toList),
   ("ibm".toList, "http://www.ibm.com/xmlns/ovf/transport/filesystem/etc/ovf-transport".toList)]

/-- commands/edit_properties.py:168-178, the setter of `transports` (the warning is not modelled) -/
def cliTransports (L : List Str) : List Str := L.map (fun x => (dget? knownTransports x).getD x)

/-! ### Virtual system types -/

/-- name_helper.py:280 `SYSTEM` -/
def systemTag (v : Ver) : Str := ovfTag v "System".toList
/-- name_helper.py:281 `VIRTUAL_SYSTEM_TYPE` -/
def vstTag : Str := vssd ++ "VirtualSystemType".toList

/-- ovf.py:630-642, the getter of `system_types` -/
def getSystemTypes (v : Ver) (hws : Option Elem) : Option (List Str) :=
  match hws with
  | none => none
  | some h => match findFirst h (systemTag v) with
    | none => none
    | some s => splitList (findText s vstTag)

/-- ovf.py:650-657: a new System element with the children it must have -/
def newSystem (v : Ver) : Elem :=
  (Elem.new (systemTag v)).setChildren
    [(Elem.new (vssd ++ "ElementName".toList)).setText (some "Virtual System Type".toList),
     (Elem.new (vssd ++ "InstanceID".toList)).setText (some "0".toList)]

/-- ovf.py:645-658, the setter of `system_types`.  The new System is completed before it is inserted; Python
inserts it first, which is the same since insertion depends on its tag only. -/
def setSystemTypes (v : Ver) (hws : Option Elem) (L : List Str) : Except Err Elem :=
  match hws with
  | none => .error .attributeError
  | some h => match findFirst h (systemTag v) with
    | some s => match setOrMakeChild s vstTag (some (joinWith [' '] L)) [] [] with
      | .error e => .error e
      | .ok s' => .ok (h.setChildren (mapFirst (fun c => c.tag == systemTag v) (fun _ => s') h.children))
    | none => match setOrMakeChild (newSystem v) vstTag (some (joinWith [' '] L)) [] [] with
      | .error e => .error e
      | .ok s' => .ok (addChild h s' [infoTag v, systemTag v, itemTag v])

/-! ### Product information -/

/-- the product fields and their tags: name_helper.py:242-248 PRODUCT, VENDOR, VERSION, FULL_VERSION,
PRODUCT_URL, VENDOR_URL, APPLICATION_URL -/
inductive Field | product | vendor | version | fullVersion | productUrl | vendorUrl | appUrl
  deriving DecidableEq

/-- name_helper.py:242-248 -/
def fieldTag (v : Ver) : Field → Str
  | .product => ovfTag v "Product".toList
  | .vendor => ovfTag v "Vendor".toList
  | .version => ovfTag v "Version".toList
  | .fullVersion => ovfTag v "FullVersion".toList
  | .productUrl => ovfTag v "ProductUrl".toList
  | .vendorUrl => ovfTag v "VendorUrl".toList
  | .appUrl => ovfTag v "AppUrl".toList

/-- the product section of the virtual system, ovf.py:226-229 -/
def prodSec (v : Ver) (vs : Elem) : Except Err (Option Elem) :=
  findChild vs (sectionTag v "ProductSection".toList) (sectionAttrib v "ProductSection".toList) false

/-- ovf.py:660-742, the getters -/
def getField (v : Ver) (vs : Elem) (f : Field) : Except Err (Option Str) :=
  match prodSec v vs with
  | .error e => .error e
  | .ok none => .ok none
  | .ok (some s) => .ok (findText s (fieldTag v f))

/-- ovf.py:2845-2864 `_set_product_section_child`, and the setters of ovf.py:660-742 -/
def setField (v : Ver) (vs : Elem) (f : Field) (text : Str) : Except Err Elem :=
  match ensureSection v vs (sectionTag v "ProductSection".toList) (sectionAttrib v "ProductSection".toList)
      "Product Information".toList with
  | .error e => .error e
  | .ok vs1 => match prodSec v vs1 with
    | .error e => .error e
    | .ok none => .error .attributeError       -- not reached: the section is there now
    | .ok (some s) => match setOrMakeChild s (fieldTag v f) (some text) [] [] with
      | .error e => .error e
      | .ok s' => .ok (updateFirst vs1 (sectionTag v "ProductSection".toList) (sectionAttrib v "ProductSection".toList)
          (fun _ => s'))

/-! ### Networks -/

/-- name_helper.py:190 `NETWORK` -/
def networkTag (v : Ver) : Str := ovfTag v "Network".toList
/-- name_helper.py:193 `NETWORK_NAME` -/
def networkName (v : Ver) : Str := ovfTag v "name".toList
/-- name_helper.py:196 `NWK_DESC` -/
def networkDesc (v : Ver) : Str := ovfTag v "Description".toList
/-- NETWORK_SECTION and NETWORK_SECTION_ATTRIB -/
def netSecTag (v : Ver) : Str := sectionTag v "NetworkSection".toList
/-- NETWORK_SECTION_ATTRIB -/
def netSecAttrib (v : Ver) : List (Str × Str) := sectionAttrib v "NetworkSection".toList

/-- ovf.py:611-616 `networks` -/
def networks (v : Ver) (env : Elem) : Except Err (List (Option Str)) :=
  match findChild env (netSecTag v) (netSecAttrib v) false with
  | .error e => .error e
  | .ok none => .ok []
  | .ok (some s) => .ok ((findAllChildren s (networkTag v) []).map (fun n => n.get (networkName v)))

/-- ovf.py:618-628 `network_descriptions` -/
def networkDescriptions (v : Ver) (env : Elem) : Except Err (List Str) :=
  match findChild env (netSecTag v) (netSecAttrib v) false with
  | .error e => .error e
  | .ok none => .ok []
  | .ok (some s) => .ok ((findAllChildren s (networkTag v) []).map (fun n => (findText n (networkDesc v)).getD []))

/-- ovf.py:923-928: the texts of the first Connection of each NIC item -/
def connectedNetworks (v : Ver) (hws : Elem) : List (Option Str) :=
  (findAllChildren hws (ethernetPortItemTag v) []).filterMap
    (fun i => (findFirst i (epasd v ++ connection)).map (fun c => c.text))

/-- ovf.py:912-937 `_refresh_networks`; the virtual hardware section is passed separately from the envelope
(it lies inside the VirtualSystem child of the envelope, which is not changed here) -/
def refreshNetworks (v : Ver) (env hws : Elem) : Except Err Elem :=
  match findChild env (netSecTag v) (netSecAttrib v) false with
  | .error e => .error e
  | .ok none => .ok env
  | .ok (some s) =>
    let s' := s.setChildren (s.children.filter (fun n =>
      !(n.tag == networkTag v) || decide (n.get (networkName v) ∈ connectedNetworks v hws)))
    if findAllChildren s' (networkTag v) [] = [] then
      .ok (env.setChildren (env.children.filter (fun c => !(c.tag == netSecTag v && attribMatch c (netSecAttrib v)))))
    else .ok (updateFirst env (netSecTag v) (netSecAttrib v) (fun _ => s'))

/-- ovf.py:1674-1689 `create_network(label, description)`; the description may be None -/
def createNetwork (v : Ver) (env : Elem) (label : Str) (desc : Option Str) : Except Err Elem :=
  match ensureSection v env (netSecTag v) (netSecAttrib v) "Logical networks".toList with
  | .error e => .error e
  | .ok env1 => match findChild env1 (netSecTag v) (netSecAttrib v) false with
    | .error e => .error e
    | .ok none => .error .attributeError       -- not reached
    | .ok (some s) => match setOrMakeChild s (networkTag v) none [(networkName v, label)] [] with
      | .error e => .error e
      | .ok s1 => match findChild s1 (networkTag v) [(networkName v, label)] false with
        | .error e => .error e
        | .ok none => .error .attributeError   -- not reached
        | .ok (some n) => match setOrMakeChild n (networkDesc v) desc [] [] with
          | .error e => .error e
          | .ok n' => .ok (updateFirst env1 (netSecTag v) (netSecAttrib v)
              (fun _ => updateFirst s1 (networkTag v) [(networkName v, label)] (fun _ => n')))

/-! ### Configuration profiles -/

/-- name_helper.py:199 `DEPLOY_OPT_SECTION` -/
def deployTag (v : Ver) : Str := ovfTag v "DeploymentOptionSection".toList
/-- name_helper.py:200 `CONFIG` -/
def configTag (v : Ver) : Str := ovfTag v "Configuration".toList
/-- name_helper.py:203 `CONFIG_ID` -/
def configId (v : Ver) : Str := ovfTag v "id".toList
/-- name_helper.py:204 `CONFIG_DEFAULT` -/
def configDefault (v : Ver) : Str := ovfTag v "default".toList
/-- name_helper.py:207 `CFG_LABEL` -/
def configLabel (v : Ver) : Str := ovfTag v "Label".toList
/-- name_helper.py:208 `CFG_DESC` -/
def configDesc (v : Ver) : Str := ovfTag v "Description".toList

/-- ovf.py:550-556: one step of the loop over the Configuration elements -/
def addProfileId (v : Ver) (ids : List (Option Str)) (c : Elem) : List (Option Str) :=
  if c.get (configDefault v) = some "true".toList ∨ c.get (configDefault v) = some "1".toList then
    c.get (configId v) :: ids
  else ids ++ [c.get (configId v)]

/-- ovf.py:538-559 `config_profiles`, recomputed (the cache is cleared whenever the section changes,
ovf.py:1562 and 1594) -/
def configProfiles (v : Ver) (env : Elem) : Except Err (List (Option Str)) :=
  match findChild env (deployTag v) [] false with
  | .error e => .error e
  | .ok none => .ok []
  | .ok (some s) => .ok ((findAllChildren s (configTag v) []).foldl (addProfileId v) [])

/-- ovf.py:1539-1562 `create_configuration_profile(pid, label, description)` -/
def createProfile (v : Ver) (env : Elem) (pid label desc : Str) : Except Err Elem :=
  match ensureSection v env (deployTag v) [] "Configuration Profiles".toList with
  | .error e => .error e
  | .ok env1 => match findChild env1 (deployTag v) [] false with
    | .error e => .error e
    | .ok none => .error .attributeError       -- not reached
    | .ok (some s) => match findChild s (configTag v) [(configId v, pid)] false with
      | .error e => .error e
      | .ok found =>
        let s1 := match found with
          | some _ => s
          | none => s.setChildren (s.children ++ [Elem.new (configTag v) [(configId v, pid)]])
        let c := found.getD (Elem.new (configTag v) [(configId v, pid)])
        match setOrMakeChild c (configLabel v) (some label) [] [] with
        | .error e => .error e
        | .ok c1 => match setOrMakeChild c1 (configDesc v) (some desc) [] [] with
          | .error e => .error e
          | .ok c2 => .ok (updateFirst env1 (deployTag v) []
              (fun _ => updateFirst s1 (configTag v) [(configId v, pid)] (fun _ => c2)))

/-- ovf.py:1582-1585: remove the profile from each of the items found -/
def removeProfileEach (env : Env) (p : Str) : List Str → Hw → Except Err Hw
  | [], hw => .ok hw
  | id :: r, hw => match dget? hw id with
    | none => .error .keyError
    | some it => match it.removeProfile env (some p) false with
      | .error e => .error e
      | .ok it' => removeProfileEach env p r (dset hw id it')

/-- ovf.py:1564-1596 `delete_configuration_profile(profile)`: the new envelope and hardware.  Without a
DeploymentOptionSection `find_child(None, …)` raises AttributeError. -/
def deleteProfile (e : Env) (env : Elem) (hw : Hw) (p : Str) : Except Err (Elem × Hw) :=
  match findChild env (deployTag e.ver) [] false with
  | .error x => .error x
  | .ok none => .error .attributeError
  | .ok (some s) => match findChild s (configTag e.ver) [(configId e.ver, p)] false with
    | .error x => .error x
    | .ok none => .error .lookupError
    | .ok (some _) => match findAllItems e hw none [] [some p] with
      | .error x => .error x
      | .ok ids => match removeProfileEach e p ids hw with
        | .error x => .error x
        | .ok hw' =>
          let s' := s.setChildren (s.children.filter (fun c =>
            !(c.tag == configTag e.ver && attribMatch c [(configId e.ver, p)])))
          if findAllChildren s' (configTag e.ver) [] = [] then
            .ok (env.setChildren (env.children.filter (fun c => !(c.tag == deployTag e.ver))), hw')
          else .ok (updateFirst env (deployTag e.ver) [] (fun _ => s'), hw')

end Cot
