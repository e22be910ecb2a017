import Verif.Model.EnvProps
import Verif.Model.OvfSections
import Verif.Model.Ui
/-
Model of the commands edit-properties (COT/commands/edit_properties.py) and edit-product
(COT/commands/edit_product.py) on an opened package.

The document is the VirtualSystem element; the VirtualHardwareSection, of which only the transport attribute
matters here, is kept beside it (in Python it is another child of the same element).
-/
namespace Cot

/-! ### edit-product -/

/-- name_helper.py:239 `PRODUCT_CLASS` -/
def productClassAttr (v : Ver) : Str := ovfTag v "class".toList

/-- ovf.py:430-435, the getter of `product_class`.  The value is cached in Python once it is not None; the only
code that changes the attribute is the setter, which updates the cache as well. -/
def getProductClass (v : Ver) (vs : Elem) : Except Err (Option Str) :=
  match prodSec v vs with
  | .error e => .error e
  | .ok none => .ok none
  | .ok (some s) => .ok (s.get (productClassAttr v))

/-- ovf.py:437-454, the setter of `product_class` -/
def setProductClass (v : Ver) (vs : Elem) (c : Str) : Except Err Elem :=
  match getProductClass v vs with
  | .error e => .error e
  | .ok old =>
    if old = some c then .ok vs
    else match ensureSection v vs (sectionTag v "ProductSection".toList) (sectionAttrib v "ProductSection".toList)
        "Product Information".toList with
      | .error e => .error e
      | .ok vs1 => match prodSec v vs1 with
        | .error e => .error e
        | .ok none => .error .attributeError       -- not reached: the section is there now
        | .ok (some s) => .ok (updateFirst vs1 (sectionTag v "ProductSection".toList)
            (sectionAttrib v "ProductSection".toList) (fun _ => s.set (productClassAttr v) c))

/-- ovf.py:456-467 `platform`: it follows the product class (the setter drops the cached platform) -/
def platformOf (v : Ver) (vs : Elem) : Except Err Plat :=
  match getProductClass v vs with
  | .error e => .error e
  | .ok c => .ok (forProductString c)

/-- edit_product.py:60-75, the attributes of the command -/
structure ProductReq where
  cls : Option Str := none
  product : Option Str := none
  vendor : Option Str := none
  version : Option Str := none
  fullVersion : Option Str := none
  productUrl : Option Str := none
  vendorUrl : Option Str := none
  appUrl : Option Str := none

/-- Python truth of an optional string -/
def truthy : Option Str → Bool
  | none => false
  | some s => s ≠ []

/-- edit_product.py:77-95 `ready_to_run` (without the checks of the base class) -/
def productReady (q : ProductReq) : Bool :=
  truthy q.cls || truthy q.product || truthy q.vendor || truthy q.version || truthy q.fullVersion ||
    truthy q.productUrl || truthy q.vendorUrl || truthy q.appUrl

/-- edit_product.py:105-144: `if self.x is not None: self.vm.x = self.x` -/
def setFieldOpt (v : Ver) (f : Field) (x : Option Str) (vs : Elem) : Except Err Elem :=
  match x with
  | none => .ok vs
  | some s => setField v vs f s

/-- edit_product.py:105-108 -/
def setClassOpt (v : Ver) (x : Option Str) (vs : Elem) : Except Err Elem :=
  match x with
  | none => .ok vs
  | some s => setProductClass v vs s

/-- edit_product.py:97-144 `run` (command.py: `run` of the base class raises InvalidInputError unless ready) -/
def editProduct (v : Ver) (q : ProductReq) (vs : Elem) : Except Err Elem :=
  if productReady q = false then .error .invalidInput
  else do
    let vs ← setClassOpt v q.cls vs
    let vs ← setFieldOpt v .product q.product vs
    let vs ← setFieldOpt v .vendor q.vendor vs
    let vs ← setFieldOpt v .version q.version vs
    let vs ← setFieldOpt v .fullVersion q.fullVersion vs
    let vs ← setFieldOpt v .productUrl q.productUrl vs
    let vs ← setFieldOpt v .vendorUrl q.vendorUrl vs
    setFieldOpt v .appUrl q.appUrl vs

/-! ### edit-properties -/

/-- one property given on the command line, with the label and description given for it -/
structure PropEntry where
  key : Str
  value : Option Str
  ptype : Option Str
  label : Option Str
  desc : Option Str

/-- edit_properties.py:57-71, the attributes of the command.  `config` is the lines of the configuration file. -/
structure PropReq where
  config : Option (List Str) := none
  props : List (Str × Option Str × Option Str) := []
  labels : List Str := []
  descs : List Str := []
  uc : Option Bool := none
  transports : List Str := []

/-- edit_properties.py:180-202 `ready_to_run` (without the checks of the base class) -/
def propsReady (q : PropReq) : Bool :=
  if q.labels ≠ [] ∧ q.props = [] then false
  else if q.descs ≠ [] ∧ q.props = [] then false
  else if q.labels ≠ [] ∧ q.labels.length ≠ q.props.length then false
  else if q.descs ≠ [] ∧ q.descs.length ≠ q.props.length then false
  else true

/-- edit_properties.py:226-229: the i-th property with the i-th label and description, if there are any
(`l[i]?` is None if the list is empty; it is long enough otherwise, see `propsReady`) -/
def entriesFrom (q : PropReq) : Nat → List (Str × Option Str × Option Str) → List PropEntry
  | _, [] => []
  | i, p :: r => ⟨p.1, p.2.1, p.2.2, q.labels[i]?, q.descs[i]?⟩ :: entriesFrom q (i + 1) r

/-- edit_properties.py:219-241, the loop over the properties.  `ask` is the answer to "Property … does not yet
exist. Create it?". -/
def propLoop (v : Ver) (ask : Str → Bool) (uc : Option Bool) : List PropEntry → Elem → Except Err Elem
  | [], vs => .ok vs
  | e :: r, vs => match getPropertyValue v vs e.key with
    | .error x => .error x
    | .ok cur =>
      if cur = none ∧ ask e.key = false then .error .systemExit
      else match setPropertyValue v vs e.key e.value uc e.ptype e.label e.desc with
        | (.error x, _) => .error x
        | (.ok _, vs') => propLoop v ask uc r vs'

/-- ovf.py:562-586 `environment_properties`: the keys and values (only these are used to decide anything) -/
def envProperties (v : Ver) (vs : Elem) : Except Err (List (Option Str × Option Str)) :=
  if v = .v0 then .ok []
  else match prodSec v vs with
    | .error e => .error e
    | .ok none => .ok []
    | .ok (some s) => .ok ((findAllChildren s (propertyTag v) []).map (fun p => (p.get (propKey v), p.get (propValue v))))

/-- edit_properties.py:261-263: `key_list`.  Formatting a missing key with a width raises TypeError (Python 3). -/
def keyList : List (Option Str × Option Str) → Except Err (List (Str × Option Str))
  | [] => .ok []
  | (none, _) :: _ => .error .typeError
  | (some k, x) :: r => match keyList r with
    | .error e => .error e
    | .ok t => .ok ((k, x) :: t)

/-- where the interactive editor is: at the list of properties, or asking for a value of a property -/
inductive EditAt
  | list
  | value (key : Str) (old : Option Str)

/-- edit_properties.py:243-300 `edit_properties_interactive`, on the lines typed (cli.py:359-381: an empty line
stands for the default).  `ps` is `proparray`: the properties as of the last change.  `none`: the input ends
before the user quits (EOFError). -/
def interactive (v : Ver) (uc : Option Bool) : List Str → EditAt → List (Str × Option Str) → Elem → Option (Except Err Elem)
  | [], _, _, _ => none
  | line :: r, .list, ps, vs =>
    match chooseOne (ps.map Prod.fst) "q".toList (if line = [] then "q".toList else line) with
    | none => interactive v uc r .list ps vs
    | some x =>
      if x = "q".toList ∨ x = "Q".toList then some (.ok vs)
      else match ps.find? (fun p => p.1 == x) with
        | none => some (.error .runtimeError)     -- StopIteration; not reached, x is one of the keys
        | some p => interactive v uc r (.value p.1 p.2) ps vs
  | line :: r, .value key old, ps, vs =>
    if line = [] ∨ some line = old then interactive v uc r .list ps vs
    else match setPropertyValue v vs key (some line) uc none none none with
      | (.error .valueUnsupported, vs') => interactive v uc r (.value key old) ps vs'
      | (.error e, _) => some (.error e)
      | (.ok _, vs') => match envProperties v vs' with
        | .error e => some (.error e)
        | .ok l => match keyList l with
          | .error e => some (.error e)
          | .ok ps' => interactive v uc r .list ps' vs'

/-- edit_properties.py:243-300: the start of the editor.  With `force` the default, 'q', is taken at once. -/
def editInteractive (v : Ver) (force : Bool) (uc : Option Bool) (inp : List Str) (vs : Elem) : Option (Except Err Elem) :=
  match envProperties v vs with
  | .error e => some (.error e)
  | .ok l => match keyList l with
    | .error e => some (.error e)
    | .ok ps => if force then some (.ok vs) else interactive v uc inp .list ps vs

/-- edit_properties.py:220-223: the configuration file comes first.  The platform is that of the package. -/
def configStep (v : Ver) (uc : Option Bool) (config : Option (List Str)) (vs : Elem) : Except Err Elem :=
  match config with
  | none => .ok vs
  | some lines => match platformOf v vs with
    | .error e => .error e
    | .ok plat => match configFileToProperties v plat lines uc vs with
      | (.error e, _) => .error e
      | (.ok _, vs') => .ok vs'

/-- edit_properties.py:244-245 -/
def transportStep (v : Ver) (hws : Option Elem) (L : List Str) : Except Err (Option Elem) :=
  if L = [] then .ok hws
  else match setTransports v hws L with
    | .error e => .error e
    | .ok h => .ok (some h)

/-- edit_properties.py:204-241 `run`: the VirtualSystem and the VirtualHardwareSection afterwards.  `transports`
are as the setter left them (`cliTransports`).  A configuration file whose name is empty does not exist, so
`not self.config_file` is the same as `self.config_file is None`. -/
def editProperties (v : Ver) (ask : Str → Bool) (force : Bool) (inp : List Str) (q : PropReq) (vs : Elem) (hws : Option Elem) :
    Option (Except Err (Elem × Option Elem)) :=
  if propsReady q = false then some (.error .invalidInput)
  else match configStep v q.uc q.config vs with
    | .error e => some (.error e)
    | .ok vs1 => match propLoop v ask q.uc (entriesFrom q 0 q.props) vs1 with
      | .error e => some (.error e)
      | .ok vs2 => match transportStep v hws q.transports with
        | .error e => some (.error e)
        | .ok hws' =>
          if q.config.isNone ∧ q.props = [] ∧ q.transports = [] then
            match editInteractive v force q.uc inp vs2 with
            | none => none
            | some (.error e) => some (.error e)
            | some (.ok vs3) => some (.ok (vs3, hws'))
          else some (.ok (vs2, hws'))

end Cot
