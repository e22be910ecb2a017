import Verif.Model.OvfSections
import Verif.Model.Package
import Verif.Py.Str
/-
Model of COT/vm_description/ovf/name_helper.py as the code runs: the tables of the three helper classes and the lookup of
a name with its cache (`__getattr__`), and of the part of `OVF.__init__` that recognises the descriptor and its sections.
The rest of the model uses the names as constants; `Props/Names` shows that these are the ones that the lookup gives.
-/
namespace Cot

/-- `dict(base, **changes)` -/
def dupdate {ν : Type} (base changes : List (Str × ν)) : List (Str × ν) :=
  changes.foldl (fun d kv => dset d kv.1 kv.2) base

/-- a dictionary written down with its keys -/
def dictOf (l : List (String × String)) : List (Str × Str) := l.map (fun kv => (kv.1.toList, kv.2.toList))

/-- name_helper.py:131-141 `OVFNameHelper1.NSM` -/
def nsm1 : List (Str × Str) :=
  [("xsi".toList, "http://www.w3.org/2001/XMLSchema-instance".toList),
   ("cim".toList, cimUri ++ "/common".toList),
   ("rasd".toList, cimUri ++ "/cim-schema/2/CIM_ResourceAllocationSettingData".toList),
   ("vssd".toList, cimUri ++ "/cim-schema/2/CIM_VirtualSystemSettingData".toList),
   ("ovf".toList, "http://schemas.dmtf.org/ovf/envelope/1".toList)]

/-- name_helper.py:131-141, 446-449, 534-542 `NSM` of each class -/
def nsm : Ver → List (Str × Str)
  | .v0 => dupdate nsm1 [("ovf".toList, "http://www.vmware.com/schema/ovf/1/envelope".toList)]
  | .v1 => nsm1
  | .v2 => dupdate nsm1 [("ovf".toList, "http://schemas.dmtf.org/ovf/envelope/2".toList),
      ("epasd".toList, cimUri ++ "/cim-schema/2/CIM_EthernetPortAllocationSettingData.xsd".toList),
      ("sasd".toList, cimUri ++ "/cim-schema/2/CIM_StorageAllocationSettingData.xsd".toList)]

/-- name_helper.py:175-282 `OVFNameHelper1._raw`: name ↦ (namespace name, tag).  `_Tag` turns the namespace name into upper
case (108), which is done here. -/
def raw1 : List (Str × (Str × Str)) :=
  ([("ENVELOPE", "OVF", "Envelope"), ("INFO", "OVF", "Info"), ("NETWORK_SECTION", "OVF", "NetworkSection"),
    ("NETWORK", "OVF", "Network"), ("NETWORK_NAME", "OVF", "name"), ("NWK_DESC", "OVF", "Description"),
    ("DEPLOY_OPT_SECTION", "OVF", "DeploymentOptionSection"), ("CONFIG", "OVF", "Configuration"),
    ("CONFIG_ID", "OVF", "id"), ("CONFIG_DEFAULT", "OVF", "default"), ("CFG_LABEL", "OVF", "Label"),
    ("CFG_DESC", "OVF", "Description"), ("REFERENCES", "OVF", "References"), ("FILE", "OVF", "File"),
    ("FILE_ID", "OVF", "id"), ("FILE_HREF", "OVF", "href"), ("FILE_SIZE", "OVF", "size"),
    ("DISK_SECTION", "OVF", "DiskSection"), ("DISK", "OVF", "Disk"), ("DISK_ID", "OVF", "diskId"),
    ("DISK_FILE_REF", "OVF", "fileRef"), ("DISK_CAPACITY", "OVF", "capacity"),
    ("DISK_CAP_UNITS", "OVF", "capacityAllocationUnits"), ("DISK_FORMAT", "OVF", "format"),
    ("ANNOTATION_SECTION", "OVF", "AnnotationSection"), ("ANNOTATION", "OVF", "Annotation"),
    ("VIRTUAL_SYSTEM", "OVF", "VirtualSystem"), ("PRODUCT_SECTION", "OVF", "ProductSection"),
    ("PRODUCT_CLASS", "OVF", "class"), ("PRODUCT", "OVF", "Product"), ("VENDOR", "OVF", "Vendor"),
    ("VERSION", "OVF", "Version"), ("FULL_VERSION", "OVF", "FullVersion"), ("PRODUCT_URL", "OVF", "ProductUrl"),
    ("VENDOR_URL", "OVF", "VendorUrl"), ("APPLICATION_URL", "OVF", "AppUrl"), ("PROPERTY", "OVF", "Property"),
    ("PROP_KEY", "OVF", "key"), ("PROP_VALUE", "OVF", "value"), ("PROP_QUAL", "OVF", "qualifiers"),
    ("PROP_TYPE", "OVF", "type"), ("PROP_USER_CONFIGABLE", "OVF", "userConfigurable"),
    ("PROPERTY_LABEL", "OVF", "Label"), ("PROPERTY_DESC", "OVF", "Description"),
    ("ENVIRONMENT_TRANSPORT", "OVF", "transport"), ("EULA_SECTION", "OVF", "EulaSection"),
    ("EULA_LICENSE", "OVF", "License"), ("VIRTUAL_HW_SECTION", "OVF", "VirtualHardwareSection"),
    ("ITEM", "OVF", "Item"), ("STORAGE_ITEM", "OVF", "Item"), ("ETHERNET_PORT_ITEM", "OVF", "Item"),
    ("ITEM_CONFIG", "OVF", "configuration"), ("SYSTEM", "OVF", "System"),
    ("VIRTUAL_SYSTEM_TYPE", "VSSD", "VirtualSystemType")] : List (String × String × String)).map
    (fun r => (r.1.toList, r.2.1.toList, r.2.2.toList))

/-- name_helper.py:175-282, 452-464, 546-550 `_raw` of each class -/
def rawTags : Ver → List (Str × (Str × Str))
  | .v0 => dupdate raw1 (([("NETWORK_SECTION", "OVF", "Section"), ("DISK_SECTION", "OVF", "Section"),
      ("ANNOTATION_SECTION", "OVF", "Section"), ("VIRTUAL_SYSTEM", "OVF", "Content"),
      ("PRODUCT_SECTION", "OVF", "Section"), ("PROP_VALUE", "OVF", "defaultValue"),
      ("PROP_USER_CONFIGABLE", "OVF", "configurableByUser"), ("EULA_SECTION", "OVF", "Section"),
      ("VIRTUAL_HW_SECTION", "OVF", "Section")] : List (String × String × String)).map
      (fun r => (r.1.toList, r.2.1.toList, r.2.2.toList)))
  | .v1 => raw1
  | .v2 => dupdate raw1 (([("STORAGE_ITEM", "OVF", "StorageItem"),
      ("ETHERNET_PORT_ITEM", "OVF", "EthernetPortItem")] : List (String × String × String)).map
      (fun r => (r.1.toList, r.2.1.toList, r.2.2.toList)))

/-- name_helper.py:287-314 `OVFNameHelper1._item_children` -/
def itemWords1 : List (Str × Str) := dictOf
  [("ADDRESS", "Address"), ("ADDRESS_ON_PARENT", "AddressOnParent"), ("ALLOCATION_UNITS", "AllocationUnits"),
   ("AUTOMATIC_ALLOCATION", "AutomaticAllocation"), ("AUTOMATIC_DEALLOCATION", "AutomaticDeallocation"),
   ("CAPTION", "Caption"), ("CONNECTION", "Connection"), ("CONSUMER_VISIBILITY", "ConsumerVisibility"),
   ("ITEM_DESCRIPTION", "Description"), ("ELEMENT_NAME", "ElementName"), ("HOST_RESOURCE", "HostResource"),
   ("OLD_HOST_RSRC_FILE_REF", "/file/"), ("OLD_HOST_RSRC_DISK_REF", "/disk/"),
   ("HOST_RSRC_FILE_REF", "ovf:/file/"), ("HOST_RSRC_DISK_REF", "ovf:/disk/"), ("INSTANCE_ID", "InstanceID"),
   ("LIMIT", "Limit"), ("MAPPING_BEHAVIOR", "MappingBehavior"), ("OTHER_RESOURCE_TYPE", "OtherResourceType"),
   ("PARENT", "Parent"), ("POOL_ID", "PoolID"), ("RESERVATION", "Reservation"),
   ("RESOURCE_SUB_TYPE", "ResourceSubType"), ("RESOURCE_TYPE", "ResourceType"),
   ("VIRTUAL_QUANTITY", "VirtualQuantity"), ("WEIGHT", "Weight")]

/-- name_helper.py:287-314, 465-473 `_item_children` of each class (`OVFNameHelper2` inherits that of 1.x) -/
def itemWords : Ver → List (Str × Str)
  | .v0 => dupdate itemWords1 (dictOf [("BUS_NUMBER", "BusNumber"), ("ELEMENT_NAME", "Caption"),
      ("HOST_RSRC_FILE_REF", "/file/"), ("HOST_RSRC_DISK_REF", "/disk/"), ("INSTANCE_ID", "InstanceId")])
  | _ => itemWords1

/-- The `_cache` dictionaries (name_helper.py:172, 451, 545): one for each of the three classes, shared by all of its
instances. -/
structure Caches where
  c0 : List (Str × Str) := []
  c1 : List (Str × Str) := []
  c2 : List (Str × Str) := []

/-- `self._cache` -/
def Caches.of (c : Caches) : Ver → List (Str × Str)
  | .v0 => c.c0
  | .v1 => c.c1
  | .v2 => c.c2

/-- `self._cache[name] = value` -/
def Caches.put (c : Caches) (v : Ver) (name value : Str) : Caches :=
  match v with
  | .v0 => { c with c0 := dset c.c0 name value }
  | .v1 => { c with c1 := dset c.c1 name value }
  | .v2 => { c with c2 := dset c.c2 name value }

/-- name_helper.py:316-339 `__getattr__(name)`: the result and the caches afterwards.  The code calls itself for the
namespace of a name; `fuel` bounds the depth of these calls (`Props/Names` shows that two levels are enough).
Simplification: the attributes that Python finds without `__getattr__` (`NSM`, `RES_MAP`, `ITEM_CHILDREN`, the
`*_ATTRIB` dictionaries, methods) are not asked for here. -/
def getName : Nat → Caches → Ver → Str → Except Err Str × Caches
  | 0, c, _, _ => (.error .runtimeError, c)
  | fuel + 1, c, v, name =>
    match dget? (itemWords v) name with
    | some w => (.ok w, c)
    | none => match dget? (c.of v) name with
      | some w => (.ok w, c)
      | none => match dget? (nsm v) (lower name) with
        | some uri => (.ok (braced uri), c.put v name (braced uri))
        | none =>
          if name = "EPASD".toList ∨ name = "SASD".toList then
            match getName fuel c v "RASD".toList with
            | (.ok r, c) => (.ok r, c.put v name r)
            | (.error e, c) => (.error e, c)
          else match dget? (rawTags v) name with
            | none => (.error .attributeError, c)
            | some (ns, tag) => match getName fuel c v ns with
              | (.ok r, c) => (.ok (r ++ tag), c.put v name (r ++ tag))
              | (.error e, c) => (.error e, c)

/-- a lookup as the rest of the program does it -/
def nameOf (c : Caches) (v : Ver) (name : Str) : Except Err Str × Caches := getName 2 c v name

/-! ### Recognising the descriptor (ovf.py:147-240) -/

/-- ovf.py:394-418 `ovf_version`: the version by the namespace of the top-level element.  The version numbers 0.9, 1.0 and
2.0 that the code passes to `name_helper` are given here by the class which that function then chooses. -/
def ovfVersion (root : Elem) : Except Err Ver :=
  if getNs root.tag = "http://www.vmware.com/schema/ovf/1/envelope".toList then .ok (nameHelper 0)
  else if getNs root.tag = "http://schemas.dmtf.org/ovf/envelope/1".toList then .ok (nameHelper 1)
  else if getNs root.tag = "http://schemas.dmtf.org/ovf/envelope/2".toList then .ok (nameHelper 2)
  else .error .vmInitError

/-- the elements that `OVF.__init__` keeps pointers to (ovf.py:200-239) -/
structure Parts where
  version : Ver
  references : Elem
  disks : Option Elem
  networks : Option Elem
  deployment : Option Elem
  system : Elem
  product : Option Elem
  annotation : Option Elem
  hardware : Elem

/-- `self.find_child(parent, tag, attrib=attrib, required=True)`: it never gives None -/
def requireChild (parent : Elem) (tag : Str) (attrib : List (Str × Str)) : Except Err Elem :=
  match findChild parent tag attrib true with
  | .ok (some e) => .ok e
  | .ok none => .error .keyError
  | .error e => .error e

/-- ovf.py:183-184: the check of the top-level element -/
def looksLikeOvf (root : Elem) : Bool :=
  hasSub "Envelope".toList root.tag && decide (stripNs root.tag = "Envelope".toList)

/-- ovf.py:183-239: from the parsed XML to the pointers.  Simplification: the registration of name space prefixes (195-206)
is left out. -/
def openDescriptor (root : Elem) : Except Err Parts :=
  if looksLikeOvf root then do
    let v ← ovfVersion root
    let refs ← requireChild root (ovfTag v "References".toList) []
    let disks ← findChild root (sectionTag v "DiskSection".toList) (sectionAttrib v "DiskSection".toList) false
    let nets ← findChild root (sectionTag v "NetworkSection".toList) (sectionAttrib v "NetworkSection".toList) false
    let depl ← findChild root (deployTag v) [] false
    let sys ← requireChild root (virtualSystemTag v) (sectionAttrib v "VirtualSystem".toList)
    let prod ← findChild sys (sectionTag v "ProductSection".toList) (sectionAttrib v "ProductSection".toList) false
    let ann ← findChild sys (sectionTag v "AnnotationSection".toList) (sectionAttrib v "AnnotationSection".toList) false
    let hw ← requireChild sys (sectionTag v "VirtualHardwareSection".toList)
      (sectionAttrib v "VirtualHardwareSection".toList)
    .ok ⟨v, refs, disks, nets, depl, sys, prod, ann, hw⟩
  else .error .vmInitError

end Cot
