import Verif.Model.Names
/-
What C106 and C107 mean: the names that the OVF schemas of the three versions use for the things which the program deals
with, and what a descriptor must look like to be opened.  The tables are written out in full for each version.
-/
namespace Cot

/-- the namespace of the OVF schema of this version, as the DMTF (or, before, VMware) published it -/
def schemaUri : Ver → String
  | .v0 => "http://www.vmware.com/schema/ovf/1/envelope"
  | .v1 => "http://schemas.dmtf.org/ovf/envelope/1"
  | .v2 => "http://schemas.dmtf.org/ovf/envelope/2"

/-- the other namespaces that occur in a descriptor; since OVF 2 there are two more, for Ethernet ports and storage -/
def otherSpaces : Ver → List (String × String)
  | .v2 => [("xsi", "http://www.w3.org/2001/XMLSchema-instance"),
      ("cim", "http://schemas.dmtf.org/wbem/wscim/1/common"),
      ("rasd", "http://schemas.dmtf.org/wbem/wscim/1/cim-schema/2/CIM_ResourceAllocationSettingData"),
      ("vssd", "http://schemas.dmtf.org/wbem/wscim/1/cim-schema/2/CIM_VirtualSystemSettingData"),
      ("epasd", "http://schemas.dmtf.org/wbem/wscim/1/cim-schema/2/CIM_EthernetPortAllocationSettingData.xsd"),
      ("sasd", "http://schemas.dmtf.org/wbem/wscim/1/cim-schema/2/CIM_StorageAllocationSettingData.xsd")]
  | _ => [("xsi", "http://www.w3.org/2001/XMLSchema-instance"),
      ("cim", "http://schemas.dmtf.org/wbem/wscim/1/common"),
      ("rasd", "http://schemas.dmtf.org/wbem/wscim/1/cim-schema/2/CIM_ResourceAllocationSettingData"),
      ("vssd", "http://schemas.dmtf.org/wbem/wscim/1/cim-schema/2/CIM_VirtualSystemSettingData")]

/-- An element or attribute of the OVF namespace: what the program calls it, and its names in OVF 0.9, 1.x and 2.x. -/
def ovfNames : List (String × String × String × String) :=
  [-- the sections are all called `Section` in OVF 0.9, and the machine is called `Content`
   ("NETWORK_SECTION", "Section", "NetworkSection", "NetworkSection"),
   ("DISK_SECTION", "Section", "DiskSection", "DiskSection"),
   ("ANNOTATION_SECTION", "Section", "AnnotationSection", "AnnotationSection"),
   ("PRODUCT_SECTION", "Section", "ProductSection", "ProductSection"),
   ("EULA_SECTION", "Section", "EulaSection", "EulaSection"),
   ("VIRTUAL_HW_SECTION", "Section", "VirtualHardwareSection", "VirtualHardwareSection"),
   ("VIRTUAL_SYSTEM", "Content", "VirtualSystem", "VirtualSystem"),
   -- OVF 0.9 has other names for two attributes of a property
   ("PROP_VALUE", "defaultValue", "value", "value"),
   ("PROP_USER_CONFIGABLE", "configurableByUser", "userConfigurable", "userConfigurable"),
   -- OVF 2 has own kinds of Item
   ("ITEM", "Item", "Item", "Item"),
   ("STORAGE_ITEM", "Item", "Item", "StorageItem"),
   ("ETHERNET_PORT_ITEM", "Item", "Item", "EthernetPortItem"),
   -- everything else is the same in all versions
   ("ENVELOPE", "Envelope", "Envelope", "Envelope"), ("INFO", "Info", "Info", "Info"),
   ("NETWORK", "Network", "Network", "Network"), ("NETWORK_NAME", "name", "name", "name"),
   ("NWK_DESC", "Description", "Description", "Description"),
   ("DEPLOY_OPT_SECTION", "DeploymentOptionSection", "DeploymentOptionSection", "DeploymentOptionSection"),
   ("CONFIG", "Configuration", "Configuration", "Configuration"), ("CONFIG_ID", "id", "id", "id"),
   ("CONFIG_DEFAULT", "default", "default", "default"), ("CFG_LABEL", "Label", "Label", "Label"),
   ("CFG_DESC", "Description", "Description", "Description"),
   ("REFERENCES", "References", "References", "References"), ("FILE", "File", "File", "File"),
   ("FILE_ID", "id", "id", "id"), ("FILE_HREF", "href", "href", "href"), ("FILE_SIZE", "size", "size", "size"),
   ("DISK", "Disk", "Disk", "Disk"), ("DISK_ID", "diskId", "diskId", "diskId"),
   ("DISK_FILE_REF", "fileRef", "fileRef", "fileRef"), ("DISK_CAPACITY", "capacity", "capacity", "capacity"),
   ("DISK_CAP_UNITS", "capacityAllocationUnits", "capacityAllocationUnits", "capacityAllocationUnits"),
   ("DISK_FORMAT", "format", "format", "format"), ("ANNOTATION", "Annotation", "Annotation", "Annotation"),
   ("PRODUCT_CLASS", "class", "class", "class"), ("PRODUCT", "Product", "Product", "Product"),
   ("VENDOR", "Vendor", "Vendor", "Vendor"), ("VERSION", "Version", "Version", "Version"),
   ("FULL_VERSION", "FullVersion", "FullVersion", "FullVersion"),
   ("PRODUCT_URL", "ProductUrl", "ProductUrl", "ProductUrl"), ("VENDOR_URL", "VendorUrl", "VendorUrl", "VendorUrl"),
   ("APPLICATION_URL", "AppUrl", "AppUrl", "AppUrl"), ("PROPERTY", "Property", "Property", "Property"),
   ("PROP_KEY", "key", "key", "key"), ("PROP_QUAL", "qualifiers", "qualifiers", "qualifiers"),
   ("PROP_TYPE", "type", "type", "type"), ("PROPERTY_LABEL", "Label", "Label", "Label"),
   ("PROPERTY_DESC", "Description", "Description", "Description"),
   ("ENVIRONMENT_TRANSPORT", "transport", "transport", "transport"), ("EULA_LICENSE", "License", "License", "License"),
   ("ITEM_CONFIG", "configuration", "configuration", "configuration"), ("SYSTEM", "System", "System", "System")]

/-- The words below an Item, whose namespace depends on the kind of Item, and the beginnings of references: what the program
calls them, and what they are in OVF 0.9 and since OVF 1. -/
def itemVocabulary : List (String × String × String) :=
  [("ELEMENT_NAME", "Caption", "ElementName"), ("INSTANCE_ID", "InstanceId", "InstanceID"),
   ("HOST_RSRC_FILE_REF", "/file/", "ovf:/file/"), ("HOST_RSRC_DISK_REF", "/disk/", "ovf:/disk/"),
   ("OLD_HOST_RSRC_FILE_REF", "/file/", "/file/"), ("OLD_HOST_RSRC_DISK_REF", "/disk/", "/disk/"),
   ("ADDRESS", "Address", "Address"), ("ADDRESS_ON_PARENT", "AddressOnParent", "AddressOnParent"),
   ("ALLOCATION_UNITS", "AllocationUnits", "AllocationUnits"),
   ("AUTOMATIC_ALLOCATION", "AutomaticAllocation", "AutomaticAllocation"),
   ("AUTOMATIC_DEALLOCATION", "AutomaticDeallocation", "AutomaticDeallocation"), ("CAPTION", "Caption", "Caption"),
   ("CONNECTION", "Connection", "Connection"), ("CONSUMER_VISIBILITY", "ConsumerVisibility", "ConsumerVisibility"),
   ("ITEM_DESCRIPTION", "Description", "Description"), ("HOST_RESOURCE", "HostResource", "HostResource"),
   ("LIMIT", "Limit", "Limit"), ("MAPPING_BEHAVIOR", "MappingBehavior", "MappingBehavior"),
   ("OTHER_RESOURCE_TYPE", "OtherResourceType", "OtherResourceType"), ("PARENT", "Parent", "Parent"),
   ("POOL_ID", "PoolID", "PoolID"), ("RESERVATION", "Reservation", "Reservation"),
   ("RESOURCE_SUB_TYPE", "ResourceSubType", "ResourceSubType"), ("RESOURCE_TYPE", "ResourceType", "ResourceType"),
   ("VIRTUAL_QUANTITY", "VirtualQuantity", "VirtualQuantity"), ("WEIGHT", "Weight", "Weight")]

/-- The namespace of virtual systems, where the type of the virtual hardware is stated. -/
def vssdUri : String := "http://schemas.dmtf.org/wbem/wscim/1/cim-schema/2/CIM_VirtualSystemSettingData"
def rasdUri : String := "http://schemas.dmtf.org/wbem/wscim/1/cim-schema/2/CIM_ResourceAllocationSettingData"

/-- In a document of version `v`, that which the program calls `name` is called `s`. -/
inductive NameIs (v : Ver) : Str → Str → Prop
  /-- an element or attribute of the OVF namespace -/
  | ovf {n a b c : String} : (n, a, b, c) ∈ ovfNames →
      NameIs v n.toList ("{".toList ++ (schemaUri v).toList ++ "}".toList ++
        (match v with | .v0 => a | .v1 => b | .v2 => c).toList)
  /-- the type of the virtual system -/
  | vst : NameIs v "VIRTUAL_SYSTEM_TYPE".toList ("{".toList ++ vssdUri.toList ++ "}VirtualSystemType".toList)
  /-- a word below an Item -/
  | word {n a b : String} : (n, a, b) ∈ itemVocabulary →
      NameIs v n.toList (match v with | .v0 => a | _ => b).toList
  /-- the number of a bus, in OVF 0.9 only -/
  | bus : v = .v0 → NameIs v "BUS_NUMBER".toList "BusNumber".toList
  /-- a namespace, in any mixture of upper and lower case -/
  | space {n : Str} {p u : String} : (p, u) ∈ ("ovf", schemaUri v) :: otherSpaces v → lower n = p.toList →
      NameIs v n ("{".toList ++ u.toList ++ "}".toList)
  /-- before OVF 2, Ethernet ports and storage are in the namespace of all hardware -/
  | shared {n : Str} : v ≠ .v2 → n = "EPASD".toList ∨ n = "SASD".toList →
      NameIs v n ("{".toList ++ rasdUri.toList ++ "}".toList)

/-- the caches after any number of lookups in documents of any versions -/
inductive LookedUp : Caches → Prop
  | none : LookedUp {}
  | next {c : Caches} (v : Ver) (name : Str) : LookedUp c → LookedUp (nameOf c v name).2

/-! ### C107 -/

/-- The children of `e` with this tag which, in OVF 0.9, are of this type (there, all sections have the same tag). -/
def childrenCalled (v : Ver) (e : Elem) (tag : Str) (type : String) : List Elem :=
  e.children.filter (fun c => c.tag = tag ∧
    (v = .v0 → c.get "{http://www.w3.org/2001/XMLSchema-instance}type".toList = some ("ovf:" ++ type ++ "_Type").toList))

/-- `root` is a descriptor of version `v`: an Envelope of the OVF namespace of that version -/
def IsEnvelope (v : Ver) (root : Elem) : Prop :=
  root.tag = "{".toList ++ (schemaUri v).toList ++ "}Envelope".toList

/-- `p` are the parts of the envelope `root`: the one and only References, VirtualSystem and VirtualHardwareSection, and of
the optional sections the only one if there is one. -/
def HasParts (v : Ver) (root : Elem) (p : Parts) : Prop :=
  let name (n : String) := "{".toList ++ (schemaUri v).toList ++ "}".toList ++ n.toList
  let section_ (e : Elem) (n : String) := childrenCalled v e (name (if v = .v0 then "Section" else n)) n
  root.children.filter (fun c => c.tag = name "References") = [p.references] ∧
  childrenCalled v root (name (if v = .v0 then "Content" else "VirtualSystem")) "VirtualSystem" = [p.system] ∧
  section_ p.system "VirtualHardwareSection" = [p.hardware] ∧
  section_ root "DiskSection" = p.disks.toList ∧
  section_ root "NetworkSection" = p.networks.toList ∧
  root.children.filter (fun c => c.tag = name "DeploymentOptionSection") = p.deployment.toList ∧
  section_ p.system "ProductSection" = p.product.toList ∧
  section_ p.system "AnnotationSection" = p.annotation.toList

end Cot
