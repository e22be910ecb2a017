import Verif.Model.Xml
/-
Model of COT/vm_description/ovf/name_helper.py: the constants and mappings the rest of the model uses.
-/
namespace Cot

/-- COT/vm_description/ovf/name_helper.py:86-100 `name_helper(version)`: which of the three helper
classes is used (`OVFNameHelper0`, `OVFNameHelper1`, `OVFNameHelper2`). -/
inductive Ver | v0 | v1 | v2
  deriving DecidableEq, Repr

/-- name_helper.py:86-100.  Versions are modelled by major/minor numbers: `major < 1` is 0.x, etc. -/
def nameHelper (major : Nat) : Ver :=
  if major < 1 then .v0 else if major < 2 then .v1 else .v2

/-- name_helper.py:117 -/
def cimUri : Str := "http://schemas.dmtf.org/wbem/wscim/1".toList

/-- name_helper.py:131-141, 446-449, 534-542: `NSM['ovf']` per version. -/
def nsOvf : Ver → Str
  | .v0 => "http://www.vmware.com/schema/ovf/1/envelope".toList
  | .v1 => "http://schemas.dmtf.org/ovf/envelope/1".toList
  | .v2 => "http://schemas.dmtf.org/ovf/envelope/2".toList

/-- name_helper.py:329-330: `"{%s}" % NSM[...]` -/
def braced (s : Str) : Str := '{' :: s ++ ['}']

/-- name_helper.py:336-338: `OVF` prefix + tag. -/
def ovfTag (v : Ver) (t : Str) : Str := braced (nsOvf v) ++ t

/-- name_helper.py:134 `RASD` -/
def rasd : Str := braced (cimUri ++ "/cim-schema/2/CIM_ResourceAllocationSettingData".toList)

/-- name_helper.py:540-541 and 331-332 `SASD` (equals RASD before version 2) -/
def sasd : Ver → Str
  | .v2 => braced (cimUri ++ "/cim-schema/2/CIM_StorageAllocationSettingData.xsd".toList)
  | _ => rasd

/-- name_helper.py:538-539 and 331-332 `EPASD` (equals RASD before version 2) -/
def epasd : Ver → Str
  | .v2 => braced (cimUri ++ "/cim-schema/2/CIM_EthernetPortAllocationSettingData.xsd".toList)
  | _ => rasd

/-- name_helper.py:271 `ITEM` -/
def itemTag (v : Ver) : Str := ovfTag v "Item".toList
/-- name_helper.py:273, 548 `STORAGE_ITEM` -/
def storageItemTag : Ver → Str
  | .v2 => ovfTag .v2 "StorageItem".toList
  | v => ovfTag v "Item".toList
/-- name_helper.py:274, 549 `ETHERNET_PORT_ITEM` -/
def ethernetPortItemTag : Ver → Str
  | .v2 => ovfTag .v2 "EthernetPortItem".toList
  | v => ovfTag v "Item".toList
/-- name_helper.py:277 `ITEM_CONFIG` -/
def itemConfig (v : Ver) : Str := ovfTag v "configuration".toList

/-- name_helper.py:297, 469 `ELEMENT_NAME` -/
def elementName : Ver → Str
  | .v0 => "Caption".toList
  | _ => "ElementName".toList
/-- name_helper.py:296 `ITEM_DESCRIPTION` -/
def itemDescription : Str := "Description".toList
/-- name_helper.py:312 `VIRTUAL_QUANTITY` -/
def virtualQuantity : Str := "VirtualQuantity".toList
/-- name_helper.py:310 `RESOURCE_SUB_TYPE` -/
def resourceSubType : Str := "ResourceSubType".toList
/-- name_helper.py:311 `RESOURCE_TYPE` -/
def resourceType : Str := "ResourceType".toList
/-- name_helper.py:294 `CONNECTION` -/
def connection : Str := "Connection".toList
/-- name_helper.py:303, 472 `INSTANCE_ID` -/
def instanceId : Ver → Str
  | .v0 => "InstanceId".toList
  | _ => "InstanceID".toList
/-- name_helper.py:288 `ADDRESS` -/
def address : Str := "Address".toList
/-- name_helper.py:289 `ADDRESS_ON_PARENT` -/
def addressOnParent : Str := "AddressOnParent".toList
/-- name_helper.py:307 `PARENT` -/
def parentName : Str := "Parent".toList
/-- name_helper.py:298 `HOST_RESOURCE` -/
def hostResource : Str := "HostResource".toList

/-- name_helper.py:350-373 (v1, v2), 478-501 (v0) `ITEM_CHILDREN` -/
def itemChildren : Ver → List Str
  | .v0 => ["Caption", "Description", "InstanceId", "ResourceType", "OtherResourceType",
      "ResourceSubType", "PoolID", "ConsumerVisibility", "HostResource", "AllocationUnits",
      "VirtualQuantity", "Reservation", "Limit", "Weight", "AutomaticAllocation",
      "AutomaticDeallocation", "Parent", "Connection", "Address", "MappingBehavior",
      "AddressOnParent", "BusNumber"].map String.toList
  | _ => ["Address", "AddressOnParent", "AllocationUnits", "AutomaticAllocation",
      "AutomaticDeallocation", "Caption", "Connection", "ConsumerVisibility", "Description",
      "ElementName", "HostResource", "InstanceID", "Limit", "MappingBehavior",
      "OtherResourceType", "Parent", "PoolID", "Reservation", "ResourceSubType",
      "ResourceType", "VirtualQuantity", "Weight"].map String.toList

/-- name_helper.py:151-168 `RES_MAP` -/
def resMap : List (Str × Str) :=
  [("cpu", "3"), ("memory", "4"), ("ide", "5"), ("scsi", "6"), ("fc", "7"), ("iscsi", "8"),
   ("ib", "9"), ("ethernet", "10"), ("floppy", "14"), ("cdrom", "15"), ("dvd", "16"),
   ("harddisk", "17"), ("sata", "20"), ("serial", "21"), ("parallel", "22"),
   ("usb", "23")].map (fun kv => (kv.1.toList, kv.2.toList))

/-- name_helper.py:385-399 `namespace_for_item_tag` -/
def namespaceForItemTag (v : Ver) (tag : Str) : Option Str :=
  if tag = itemTag v then some rasd
  else if tag = storageItemTag v then some (sasd v)
  else if tag = ethernetPortItemTag v then some (epasd v)
  else none

/-- name_helper.py:401-415 `namespace_for_resource_type` -/
def namespaceForResourceType (v : Ver) (rt : Str) : Str :=
  if rt = "10".toList then epasd v
  else if rt = "17".toList ∨ rt = "15".toList then sasd v
  else rasd

/-- name_helper.py:417-436 `item_tag_for_namespace` -/
def itemTagForNamespace (v : Ver) (ns : Str) : Except Err Str :=
  if ns = rasd then .ok (itemTag v)
  else if ns = sasd v then .ok (storageItemTag v)
  else if ns = epasd v then .ok (ethernetPortItemTag v)
  else .error .valueUnsupported

end Cot
