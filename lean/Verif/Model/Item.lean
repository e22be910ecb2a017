import Verif.Model.NameHelper
import Verif.Model.NatSort
import Mathlib.Data.Finset.Basic
import Mathlib.Data.Finset.Card
import Mathlib.Data.Finset.Union
/-
Model of COT/vm_description/ovf/item.py (class OVFItem).
-/
namespace Cot

/-- A configuration profile; `none` is Python's `None`, the default profile. -/
abbrev Prof := Option Str
/-- A Python `set` of profiles. -/
abbrev PSet := Finset Prof

/-- Values stored in `OVFItem.properties[name]` (dict keys): strings, or tuples of strings for
ResourceSubType (item.py:444-459). -/
inductive Val where
  | str (s : Str)
  | tup (l : List Str)
  deriving DecidableEq, Repr

/-- Python truthiness of a stored value. -/
def Val.truthy : Val → Bool
  | .str s => !s.isEmpty
  | .tup l => !l.isEmpty

/-- Values passed by callers to `set_property`. -/
inductive InVal where
  | none
  | str (s : Str)
  | list (l : List Str)      -- list or tuple
  deriving DecidableEq, Repr

/-- A stored value handed back to `set_property` (item.py:520). -/
def Val.toIn : Val → InVal
  | .str s => .str s
  | .tup l => .list l

/-- `properties[name]`: dict from value to set of profiles. -/
abbrev Tab := List (Val × PSet)

/-- COT/vm_description/ovf/item.py:96-113: state of an `OVFItem`. -/
structure Item where
  props : List (Str × Tab)
  ns : Str
  modified : Bool
  deriving DecidableEq

/-- What an item sees of its surroundings: the OVF version (name constants), `ovf.config_profiles`,
and the external functions it calls.  `reSub pat repl s` is Python's `re.sub` (arbitrary, may raise);
`strOfList` is Python's `str([...])`; `toXml` is `ET.tostring(e).decode()` and `ofXml` is
`ET.fromstring(s)` (which may raise ParseError). -/
structure Env where
  ver : Ver
  configProfiles : List Str
  reSub : Str → Str → Str → Except Err Str
  strOfList : List Str → Str
  toXml : Elem → Str
  ofXml : Str → Except Err Elem

/-- `set(ovf.config_profiles)` as profiles. -/
def Env.cfgSet (env : Env) : PSet := (env.configProfiles.map some).toFinset

/-- item.py:96-113 `OVFItem.__init__` without an Item element. -/
def emptyItem : Item := { props := [], ns := rasd, modified := false }

/-- item.py:180-190 etc.: `self.properties.get(name, {})` -/
def Item.tab (it : Item) (name : Str) : Tab := (dget? it.props name).getD []

/-- `set.union(*value_dict.values())` -/
def tabUnion (t : Tab) : PSet := t.foldr (fun e acc => e.2 ∪ acc) ∅

/-- item.py:192-205 `all_profiles(name, default)`: `none` when there is no value. -/
def Item.allProfiles (it : Item) (name : Str) : Option PSet :=
  match dget? it.props name with
  | none => none
  | some [] => none
  | some t => some (tabUnion t)

/-- item.py:664-697, inner loop of `validate` over the values of one property. -/
def validateTab : Tab → PSet → Except Err Tab
  | [], _ => .ok []
  | (v, S) :: t, sofar =>
    let S' : PSet := if none ∈ S ∧ 1 < S.card then {none} else S
    if sofar ∩ S' ≠ ∅ then .error .runtimeError
    else match validateTab t (sofar ∪ S') with
      | .error e => .error e
      | .ok t' => .ok ((v, S') :: t')

/-- item.py:682-697, outer loop of `validate`. -/
def validateProps : List (Str × Tab) → Except Err (List (Str × Tab))
  | [] => .ok []
  | (n, t) :: r =>
    match validateTab t ∅ with
    | .error e => .error e
    | .ok t' => match validateProps r with
      | .error e => .error e
      | .ok r' => .ok ((n, t') :: r')

/-- item.py:664-697 `validate` -/
def Item.validate (env : Env) (it : Item) : Except Err Item :=
  if (it.tab (instanceId env.ver)).length > 1 then .error .runtimeError
  else if (it.tab resourceType).length > 1 then .error .runtimeError
  else match validateProps it.props with
    | .error e => .error e
    | .ok ps => .ok { it with props := ps }

/-- item.py:614-621, the scan of `_get_value` for an explicit profile set. -/
def getScan (profiles : PSet) : Tab → Option Val → Option Val
  | [], dflt => dflt
  | (v, S) :: t, dflt =>
    if profiles ⊆ S then some v
    else if none ∈ S then getScan profiles t (some v)
    else if S ∩ profiles ≠ ∅ then none
    else getScan profiles t dflt

/-- item.py:583-621 `_get_value(tag, profiles)`; `profiles = none` is Python's `None`. -/
def Item.getRaw (it : Item) (name : Str) (profiles : Option PSet) : Option Val :=
  match profiles with
  | none => match it.tab name with
    | [(v, _)] => some v
    | _ => none
  | some P => getScan P (it.tab name) none

/-- `str(value)` of a stored value. -/
def Env.valStr (env : Env) : Val → Str
  | .str s => s
  | .tup l => env.strOfList l

/-- item.py:311-312, 343-344: tuples are joined with "/". -/
def slashJoin (env : Env) : Val → Str
  | .tup l => joinWith ['/'] l
  | v => env.valStr v

/-- `re.sub(pat, repl, value)` if the replaced value is known. -/
def subIf (env : Env) (pat : Str) (repl : Option Str) (s : Str) : Except Err Str :=
  match repl with
  | none => .ok s
  | some r => env.reSub pat r s

/-- item.py:320-353 `value_replace_wildcards` for a (non-empty) value. -/
def Item.replaceWildcards (env : Env) (it : Item) (name : Str) (value : Val)
    (profiles : Option PSet) : Except Err Val :=
  if !value.truthy then .ok value
  else if name = elementName env.ver ∨ name = itemDescription then do
    let mut s := env.valStr value
    if name = itemDescription then
      s ← subIf env "_EN_".toList ((it.getRaw (elementName env.ver) profiles).map env.valStr) s
    s ← subIf env "_RST_".toList ((it.getRaw resourceSubType profiles).map (slashJoin env)) s
    s ← subIf env "_VQ_".toList ((it.getRaw virtualQuantity profiles).map env.valStr) s
    s ← subIf env "_CONN_".toList ((it.getRaw connection profiles).map env.valStr) s
    return .str s
  else .ok value

/-- item.py:644: `re.search(r"_RST_|_VQ_|_CONN_|_EN_", val)` -/
def hasWildcard (s : Str) : Bool :=
  hasSub "_RST_".toList s || hasSub "_VQ_".toList s || hasSub "_CONN_".toList s ||
  hasSub "_EN_".toList s

/-- item.py:623-648 `get_value(tag, profiles)` -/
def Item.getValue (env : Env) (it : Item) (name : Str) (profiles : Option PSet) :
    Except Err (Option Val) :=
  match it.getRaw name profiles with
  | none => .ok none
  | some v => do
    let v' ← it.replaceWildcards env name v profiles
    if name = elementName env.ver ∨ name = itemDescription then
      match v' with
      | .str s => if hasWildcard s then throw Err.itemDataError
      | .tup _ => pure ()
    return some v'

/-- item.py:303-316: `re.sub(known_value, placeholder, value)` if the value is known. -/
def addOne (env : Env) (pat : Option Str) (placeholder : Str) (s : Str) : Except Err Str :=
  match pat with
  | none => .ok s
  | some p => env.reSub p placeholder s

/-- item.py:280-318 `value_add_wildcards` (only strings reach the substituting branches). -/
def Item.addWildcards (env : Env) (it : Item) (name : Str) (value : Val) (profiles : PSet) :
    Except Err Val :=
  if name = elementName env.ver ∨ name = itemDescription then do
    let mut s := env.valStr value
    if name = itemDescription then
      let en ← it.getValue env (elementName env.ver) (some profiles)
      s ← addOne env (en.map env.valStr) "_EN_".toList s
    let vq ← it.getValue env virtualQuantity (some profiles)
    s ← addOne env (vq.map env.valStr) "_VQ_".toList s
    let rst ← it.getValue env resourceSubType (some profiles)
    s ← addOne env (rst.map (slashJoin env)) "_RST_".toList s
    let conn ← it.getValue env connection (some profiles)
    s ← addOne env (conn.map env.valStr) "_CONN_".toList s
    return .str s
  else .ok value

/-- item.py:448-459: normalisation of the value passed to `set_property`. -/
def normValue (env : Env) (name : Str) (v : InVal) : Val :=
  if name = resourceSubType then
    match v with
    | .none => .tup []
    | .str [] => .tup []
    | .str s => .tup (splitOnChar ' ' s)
    | .list l => .tup l
  else
    match v with
    | .none => .str "None".toList       -- str(None)
    | .str s => .str s
    | .list l => .str (env.strOfList l)

/-- item.py:389-418, the loop of `_set_existing_property`.  Each iteration only touches the entry it
visits, so the loop is a traversal producing the new entries and whether something changed. -/
def setExistingLoop (value : Val) (profiles : PSet) (overwrite : Bool) :
    Tab → Except Err (Tab × Bool)
  | [] => .ok ([], false)
  | (kv, S) :: t =>
    if !overwrite ∧ S ∩ profiles ≠ ∅ then .error .itemDataError
    else
      let S' : PSet := if kv ≠ value then S \ profiles
                       else if none ∈ S then S
                       else S ∪ profiles
      match setExistingLoop value profiles overwrite t with
      | .error e => .error e
      | .ok (t', ch) =>
        if S' ≠ S then
          (if S' = ∅ then .ok (t', true) else .ok ((kv, S') :: t', true))
        else .ok ((kv, S) :: t', ch)

/-- item.py:374-427 `_set_existing_property` on the value table: new table (`none`: the property is
deleted) and whether the item was modified. -/
def setExisting (value : Val) (profiles : PSet) (overwrite : Bool) (t : Tab) :
    Except Err (Option Tab × Bool) :=
  match setExistingLoop value profiles overwrite t with
  | .error e => .error e
  | .ok (t', ch) =>
    if value.truthy ∧ value ∉ dkeys t' then .ok (some (t' ++ [(value, profiles)]), true)
    else if t' = [] then .ok (none, true)
    else .ok (some t', ch)

/-- item.py:355-372 `_set_new_property` -/
def Item.setNew (it : Item) (name : Str) (value : Val) (profiles : PSet) : Item :=
  if !value.truthy then it
  else
    let S : PSet := if none ∈ profiles then {none} else profiles
    { it with props := dset it.props name [(value, S)], modified := true }

/-- item.py:464-471: the effective profile set (`profiles` empty means not specified). -/
def Item.effProfiles (it : Item) (name : Str) (profiles : PSet) : PSet :=
  if profiles = ∅ then (it.allProfiles name).getD {none} else profiles

/-- item.py:461-462 -/
def Item.updNs (env : Env) (it : Item) (name : Str) (value : Val) : Item :=
  if name = resourceType then { it with ns := namespaceForResourceType env.ver (env.valStr value) }
  else it

/-- item.py:476-479: dispatch on whether the property exists. -/
def Item.storeProperty (it : Item) (name : Str) (value : Val) (profiles : PSet)
    (overwrite : Bool) : Except Err Item :=
  match dget? it.props name with
  | none => .ok (it.setNew name value profiles)
  | some t => match setExisting value profiles overwrite t with
    | .error e => .error e
    | .ok (none, ch) => .ok { it with props := ddel it.props name, modified := it.modified || ch }
    | .ok (some t', ch) => .ok { it with props := dset it.props name t', modified := it.modified || ch }

/-- item.py:429-482 `set_property(name, value, profiles, overwrite)`.
When Python raises, the item may be left half-updated; the model only returns the error. -/
def Item.setProperty (env : Env) (it : Item) (name : Str) (value : InVal) (profiles : PSet)
    (overwrite : Bool) : Except Err Item := do
  let v := normValue env name value
  let it := it.updNs env name v
  let P := it.effProfiles name profiles
  let v ← it.addWildcards env name v P
  let it ← it.storeProperty name v P overwrite
  if it.modified then it.validate env else .ok it

/-- item.py:699-715 `has_profile(profile)` -/
def Item.hasProfile (env : Env) (it : Item) (p : Prof) : Bool :=
  match it.allProfiles (instanceId env.ver) with
  | none => false
  | some S => decide (p ∈ S) || (decide (none ∈ S) && decide (p ∈ env.cfgSet))

/-- item.py:517-522: the value `add_profile` clones for one property: the first one that is the
default or is the only value. -/
def cloneValue (t : Tab) : Option Val :=
  (t.find? (fun e => decide (none ∈ e.2) || t.length == 1)).map Prod.fst

/-- item.py:511-526, the loop of `add_profile`.  `src = none` means `from_item is self`. -/
def addProfileLoop (env : Env) (p : Prof) (src : Option Item) :
    List Str → Item → Except Err Item
  | [], it => .ok it
  | name :: rest, it =>
    let t := (src.getD it).tab name
    if t = [] then addProfileLoop env p src rest it
    else match cloneValue t with
      | none => .error .runtimeError
      | some v => match it.setProperty env name v.toIn {p} true with
        | .error e => .error e
        | .ok it' => addProfileLoop env p src rest it'

/-- item.py:484-528 `add_profile(new_profile, from_item)` -/
def Item.addProfile (env : Env) (it : Item) (p : Prof) (src : Option Item) : Except Err Item :=
  if it.hasProfile env p then .ok it
  else match dget? (src.getD it).props (instanceId env.ver) with
    | none => .error .keyError         -- item.py:509, from_item.properties[self.INSTANCE_ID]
    | some _ =>
      match addProfileLoop env p src (dkeys (src.getD it).props) it with
      | .error e => .error e
      | .ok it' => Item.validate env { it' with modified := true }

/-- item.py:549-568, the inner loop of `remove_profile` over the values of one property: `done` are
the entries already processed (as they are in the dict now), the second list is still to do. -/
def removeLoop (p : Prof) (cfg : PSet) (split : Bool) : Tab → Tab → Tab
  | done, [] => done
  | done, (v, S) :: rest =>
    let S1 := S \ {p}
    let S2 := if none ∈ S1 ∧ split = true then
        (((S1 ∪ cfg) \ {none}) \ {p}) \ tabUnion (done ++ rest)
      else S1
    if S2 = ∅ then removeLoop p cfg split done rest
    else removeLoop p cfg split (done ++ [(v, S2)]) rest

/-- item.py:530-570 `remove_profile(profile, split_default)` -/
def Item.removeProfile (env : Env) (it : Item) (p : Prof) (split : Bool) : Except Err Item :=
  if it.hasProfile env p then
    Item.validate env { it with
      props := it.props.map (fun nt => (nt.1, removeLoop p env.cfgSet split [] nt.2))
      modified := true }
  else .ok it

/-- item.py:50-73 `list_union(*lists)`: note the membership test is against the result *before* the
current list is appended. -/
def listUnion {α : Type} [DecidableEq α] (lists : List (List α)) : List α :=
  lists.foldl (fun res l => res ++ l.filter (fun x => x ∉ res)) []

/-- item.py:650-662 `get_all_values(tag)` for a tag other than ResourceSubType. -/
def Item.getAllValues (it : Item) (name : Str) : List Val := dkeys (it.tab name)

/-- item.py:650-662 `get_all_values` for ResourceSubType: union of the tuples. -/
def Item.getAllSubtypes (it : Item) : List Str :=
  listUnion ((dkeys (it.tab resourceSubType)).map (fun v => match v with
    | .tup l => l
    | .str s => s.map (fun c => [c])))

end Cot
