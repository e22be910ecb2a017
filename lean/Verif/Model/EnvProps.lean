import Verif.Model.OvfXml
import Verif.Model.Platform
import Verif.Py.Re
/-
Model of the environment property functions of COT/vm_description/ovf/ovf.py, on the VirtualSystem element.
Values, types, labels and descriptions are strings or None, as the commands pass them.  A function that changes
the document returns it along with the outcome, since changes made before an exception stay.
-/
namespace Cot

/-- name_helper.py:236 `PRODUCT_SECTION` -/
def productSection (v : Ver) : Str := sectionTag v "ProductSection".toList
/-- name_helper.py:249 `PROPERTY` -/
def propertyTag (v : Ver) : Str := ovfTag v "Property".toList
/-- name_helper.py:252 `PROP_KEY` -/
def propKey (v : Ver) : Str := ovfTag v "key".toList
/-- name_helper.py:253, 460 `PROP_VALUE` -/
def propValue : Ver → Str
  | .v0 => ovfTag .v0 "defaultValue".toList
  | v => ovfTag v "value".toList
/-- name_helper.py:254 `PROP_QUAL` -/
def propQual (v : Ver) : Str := ovfTag v "qualifiers".toList
/-- name_helper.py:255 `PROP_TYPE` -/
def propType (v : Ver) : Str := ovfTag v "type".toList
/-- name_helper.py:256, 461 `PROP_USER_CONFIGABLE` -/
def propUserConf : Ver → Str
  | .v0 => ovfTag .v0 "configurableByUser".toList
  | v => ovfTag v "userConfigurable".toList
/-- name_helper.py:259 `PROPERTY_LABEL` -/
def propLabel (v : Ver) : Str := ovfTag v "Label".toList
/-- name_helper.py:260 `PROPERTY_DESC` -/
def propDesc (v : Ver) : Str := ovfTag v "Description".toList

/-- ovf.py:1808-1823 `get_property_value(key)` -/
def getPropertyValue (v : Ver) (vs : Elem) (key : Str) : Except Err (Option Str) :=
  if v = .v0 then .ok none
  else match findChild vs (productSection v) (sectionAttrib v "ProductSection".toList) false with
    | .error e => .error e
    | .ok none => .ok none
    | .ok (some sec) => match findChild sec (propertyTag v) [(propKey v, key)] false with
      | .error e => .error e
      | .ok none => .ok none
      | .ok (some p) => .ok (p.get (propValue v))

/-- ovf.py:1858, 1865: `MaxLen\((\d+)\)` and `MinLen\((\d+)\)` -/
def qualRe (name : Str) : Re :=
  .seq (.lit (name ++ ['('])) (.seq (.grp 1 (.plus .dig)) (.chr ')'))

/-- ovf.py:1858-1860: the limit given by a qualifier -/
def qualLimit (name qual : Str) : Option Nat :=
  match reSearch (qualRe name) qual with
  | none => none
  | some m => match m.group 1 with
    | none => none
    | some d => some (digitsVal d)

/-- ovf.py:1843-1853: conversion according to the property type -/
def convertForType (ty value : Str) : Except Err Str :=
  if ty = "boolean".toList then
    if lower value ∈ ["true".toList, "1".toList, "t".toList, "y".toList, "yes".toList] then .ok "true".toList
    else if lower value ∈ ["false".toList, "0".toList, "f".toList, "n".toList, "no".toList] then .ok "false".toList
    else .error .valueUnsupported
  else .ok value

/-- ovf.py:1855-1873: the length qualifiers -/
def checkQualifiers (qual value : Str) : Except Err Unit :=
  match qualLimit "MaxLen".toList qual with
  | some m =>
    if value.length > m then .error .valueUnsupported
    else match qualLimit "MinLen".toList qual with
      | some n => if value.length < n then .error .valueUnsupported else .ok ()
      | none => .ok ()
  | none => match qualLimit "MinLen".toList qual with
    | some n => if value.length < n then .error .valueUnsupported else .ok ()
    | none => .ok ()

/-- ovf.py:1825-1875 `_validate_value_for_property(prop, value)` -/
def validateForProperty (v : Ver) (prop : Elem) (value : Str) : Except Err Str :=
  match convertForType ((prop.get (propType v)).getD []) value with
  | .error e => .error e
  | .ok w => match checkQualifiers ((prop.get (propQual v)).getD []) w with
    | .error e => .error e
    | .ok _ => .ok w

/-- `str(b).lower()` for a bool -/
def boolStr (b : Bool) : Str := if b then "true".toList else "false".toList

/-- `elem.set(name, value)` if a value is given -/
def setOpt (e : Elem) (name : Str) : Option Str → Elem
  | none => e
  | some x => e.set name x

/-- `set_or_make_child(elem, tag, text)` if a text is given -/
def childOpt (e : Elem) (tag : Str) : Option Str → Except Err Elem
  | none => .ok e
  | some x => setOrMakeChild e tag (some x) [] []

/-- ovf.py:1928-1931: label and description -/
def labelProp (v : Ver) (p : Elem) (label desc result : Option Str) : Except Err (Option Str) × Elem :=
  match childOpt p (propLabel v) label with
  | .error e => (.error e, p)
  | .ok p1 => match childOpt p1 (propDesc v) desc with
    | .error e => (.error e, p1)
    | .ok p2 => (.ok result, p2)

/-- ovf.py:1914-1921: the value to be set, which is the old value if only a type is given -/
def valueToSet (v : Ver) (p : Elem) (value ptype : Option Str) : Option Str :=
  match value with
  | some x => some x
  | none => match ptype with
    | none => none
    | some _ => p.get (propValue v)

/-- ovf.py:1912-1933: the changes to the Property element -/
def editProp (v : Ver) (p : Elem) (value : Option Str) (uc : Option Bool) (ptype label desc : Option Str) :
    Except Err (Option Str) × Elem :=
  let p1 := setOpt (setOpt p (propUserConf v) (uc.map boolStr)) (propType v) ptype
  match valueToSet v p1 value ptype with
  | none => labelProp v p1 label desc none
  | some x => match validateForProperty v p1 x with
    | .error e => (.error e, p1)
    | .ok w => labelProp v (p1.set (propValue v) w) label desc (some w)

/-- ovf.py:1909-1910: a new property has a type -/
def newType : Option Str → Option Str
  | none => some "string".toList
  | some t => some t

/-- ovf.py:1877-1933 `set_property_value(key, value, user_configurable, property_type, label, description)`:
the value returned or the exception, and the VirtualSystem element afterwards. -/
def setPropertyValue (v : Ver) (vs : Elem) (key : Str) (value : Option Str) (uc : Option Bool)
    (ptype label desc : Option Str) : Except Err (Option Str) × Elem :=
  if v = .v0 then (.error .notImplementedError, vs)
  else match ensureSection v vs (productSection v) (sectionAttrib v "ProductSection".toList) "Product Information".toList with
    | .error e => (.error e, vs)
    | .ok vs1 => match findChild vs1 (productSection v) (sectionAttrib v "ProductSection".toList) false with
      | .error e => (.error e, vs1)
      | .ok none => (.error .lookupError, vs1)
      | .ok (some sec) => match findChild sec (propertyTag v) [(propKey v, key)] false with
        | .error e => (.error e, vs1)
        | .ok (some p) =>
          let r := editProp v p value uc ptype label desc
          (r.1, updateFirst vs1 (productSection v) (sectionAttrib v "ProductSection".toList)
            (fun s => updateFirst s (propertyTag v) [(propKey v, key)] (fun _ => r.2)))
        | .ok none =>
          let r := editProp v ((Elem.new (propertyTag v)).set (propKey v) key) value uc (newType ptype) label desc
          (r.1, updateFirst vs1 (productSection v) (sectionAttrib v "ProductSection".toList)
            (fun s => s.setChildren (s.children ++ [r.2])))

/-- `LITERAL_CLI_STRING`: platform.py:62, cisco_csr1000v.py:29, cisco_c9800cl.py:29, cisco_iosv.py:29,
cisco_iosxrv.py:40, cisco_nexus_9000v.py:29, cisco_nxosv.py:29 -/
def literalCli : Plat → Option Str
  | .generic => some "config".toList
  | .csr => some "ios-config".toList
  | .c9800 => some "ios-config".toList
  | _ => none

/-- `"{0:04d}".format(n)` -/
def pad4 (n : Nat) : Str := List.replicate (4 - (natStr n).length) '0' ++ natStr n

/-- ovf.py:1959-1960: the key of the n-th line -/
def configKey (lit : Str) (n : Nat) : Str := lit ++ '-' :: pad4 n

/-- ovf.py:1955-1957: a line that is skipped -/
def skipLine (line : Str) : Bool :=
  match strip line with
  | [] => true
  | c :: _ => c == '!'

/-- ovf.py:1953-1963: the loop over the lines; `n` is `property_num` -/
def configLoop (v : Ver) (lit : Str) (uc : Option Bool) : Nat → List Str → Elem → Except Err Unit × Elem
  | _, [], vs => (.ok (), vs)
  | n, line :: r, vs =>
    if skipLine line then configLoop v lit uc n r vs
    else match setPropertyValue v vs (configKey lit (n + 1)) (some (strip line)) uc none none none with
      | (.error e, vs') => (.error e, vs')
      | (.ok _, vs') => configLoop v lit uc (n + 1) r vs'

/-- ovf.py:1935-1963 `config_file_to_properties(file_path, user_configurable)`; the argument is the list of
lines of the file. -/
def configFileToProperties (v : Ver) (p : Plat) (lines : List Str) (uc : Option Bool) (vs : Elem) :
    Except Err Unit × Elem :=
  match literalCli p with
  | none => (.error .notImplementedError, vs)
  | some lit => configLoop v lit uc 0 lines vs

end Cot
