import Verif.Model.ItemXml
import Verif.Py.Int
/-
Model of COT/vm_description/ovf/hardware.py (class OVFHardware).

`OVFItem` objects are only reachable through `item_dict` in these functions, so mutation of an item
is modelled as replacement of the dict entry, and a reference held by a loop is modelled by the
dict key.  Where Python raises, the model returns the error only (the partially updated state is not
modelled).

Simplification: `clone_item` uses `copy.deepcopy`, which also copies the whole OVF object the item
refers to; the copy's `config_profiles` are the ones at the time of the copy.  The model lets the clone
see the current environment.  Within one call of the functions below the two agree.
-/
namespace Cot

/-- hardware.py:54-63 `item_dict` -/
abbrev Hw := List (Str × Item)

/-! ### Loading (hardware.py:54-100) -/

/-- the names of the Item's profiles, hardware.py:78 -/
def elemNames (v : Ver) (e : Elem) : List Str := splitWs ((e.get (itemConfig v)).getD [])

/-- hardware.py:65-93: one Item element.  Simplification: an empty InstanceID element (`text` is None,
which Python accepts as a dict key here and trips over later) is reported as a TypeError. -/
def loadOne (env : Env) (hw : Hw) (e : Elem) : Except Err Hw :=
  match namespaceForItemTag env.ver e.tag with
  | none => .ok hw
  | some ns =>
    match e.children.find? (fun c => c.tag == ns ++ instanceId env.ver) with
    | none => .error .attributeError           -- None.text
    | some c => match c.text with
      | none => .error .typeError
      | some id =>
        if ∃ p ∈ elemNames env.ver e, p ∉ env.configProfiles then .error .hardwareDataError
        else match dget? hw id with
          | none => match emptyItem.addItem env e with
            | .error x => .error x
            | .ok it => .ok (dset hw id it)
          | some it => match it.addItem env e with
            | .error .itemDataError => .error .hardwareDataError
            | .error x => .error x
            | .ok it' => .ok (dset hw id it')

/-- hardware.py:65-93: the loop over the children of the hardware section. -/
def loadLoop (env : Env) : List Elem → Hw → Except Err Hw
  | [], hw => .ok hw
  | e :: r, hw => match loadOne env hw e with
    | .error x => .error x
    | .ok hw' => loadLoop env r hw'

/-- hardware.py:54-100 `OVFHardware(ovf)` -/
def loadHardware (env : Env) (section_ : Elem) : Except Err Hw :=
  match loadLoop env section_.children [] with
  | .error x => .error x
  | .ok hw => .ok (hw.map (fun kv => (kv.1, { kv.2 with modified := false })))

/-! ### Writing (hardware.py:102-144) -/

/-- hardware.py:109-111, 124-126: is this child an Item element? -/
def isItemTag (v : Ver) (t : Str) : Bool :=
  t == itemTag v || t == storageItemTag v || t == ethernetPortItemTag v

/-- the two tags that precede Items in the section, hardware.py:131 (`INFO`, `SYSTEM`) -/
def sectionOrder (v : Ver) : List Str :=
  [ovfTag v "Info".toList, ovfTag v "System".toList, itemTag v]

/-- hardware.py:108-119: does anything need to be regenerated?
`find_all_children` over a set of tags finds each Item element once. -/
def hwModified (v : Ver) (hw : Hw) (section_ : Elem) : Bool :=
  decide (hw.length ≠ (section_.children.filter (fun e => isItemTag v e.tag)).length) ||
  hw.any (fun kv => kv.2.modified)

/-- hardware.py:132-139: generate and insert the items of the given instances, in this order. -/
def emitHw (env : Env) (o : Orders) (hw : Hw) : List Str → Elem → Except Err Elem
  | [], s => .ok s
  | id :: r, s =>
    match dget? hw id with
    | none => .error .keyError
    | some it => match it.generateItems env o with
      | .error x => .error x
      | .ok els => emitHw env o hw r
          (els.foldl (fun s e => addChild s e (sectionOrder env.ver)) s)

/-- hardware.py:102-144 `update_xml`, returning the new section. -/
def updateXml (env : Env) (o : Orders) (hw : Hw) (section_ : Elem) : Except Err Elem :=
  if hwModified env.ver hw section_ = false then .ok section_
  else emitHw env o hw (naturalSort (dkeys hw))
    (section_.setChildren (section_.children.filter (fun e => !isItemTag env.ver e.tag)))

/-! ### Identifiers (hardware.py:146-159) -/

/-- hardware.py:157-158, the `while` loop, with a bound on the number of iterations; `none` when the
bound is exhausted (which is shown never to happen for the bound used). -/
def unusedLoop (keys : List Str) : Nat → Int → Option Str
  | 0, z => if intStr z ∈ keys then none else some (intStr z)
  | k + 1, z => if intStr z ∈ keys then unusedLoop keys k (z + 1) else some (intStr z)

/-- hardware.py:146-159 `find_unused_instance_id(start)` for an int `start`. -/
def findUnusedId (hw : Hw) (start : Int) : Option Str := unusedLoop (dkeys hw) hw.length start

/-! ### Queries (hardware.py:229-345) -/

/-- hardware.py:243 `RES_MAP[resource_type]` -/
def resourceCode (rt : Str) : Except Err Str :=
  match dget? resMap rt with
  | none => .error .keyError
  | some c => .ok c

/-- hardware.py:247-250: the property filters. -/
def propsMatch (env : Env) (it : Item) : List (Str × Option Val) → Except Err Bool
  | [] => .ok true
  | (n, v) :: r => match it.getValue env n none with
    | .error x => .error x
    | .ok w => if w ≠ v then .ok false else propsMatch env it r

/-- hardware.py:241-243: the type filter.  `resource_type` is `None` or a string; an empty string is
treated like `None`.  `get_value(RESOURCE_TYPE)` cannot raise. -/
def typeMatch (it : Item) : Option Str → Except Err Bool
  | none => .ok true
  | some rt =>
    if rt = [] then .ok true
    else match resourceCode rt with
      | .error x => .error x
      | .ok code => .ok (decide (it.getRaw resourceType none = some (.str code)))

/-- hardware.py:229-251 `item_match` -/
def itemMatch (env : Env) (it : Item) (rt : Option Str) (props : List (Str × Option Val))
    (profs : List Prof) : Except Err Bool :=
  match typeMatch it rt with
  | .error x => .error x
  | .ok false => .ok false
  | .ok true => if profs.any (fun p => !it.hasProfile env p) then .ok false else propsMatch env it props

/-- filter with early exit on an exception -/
def filterE {α : Type} (f : α → Except Err Bool) : List α → Except Err (List α)
  | [] => .ok []
  | x :: r => match f x with
    | .error e => .error e
    | .ok b => match filterE f r with
      | .error e => .error e
      | .ok l => .ok (if b then x :: l else l)

/-- hardware.py:253-276 `find_all_items`, returning the instances (dict keys) of the items found. -/
def findAllItems (env : Env) (hw : Hw) (rt : Option Str) (props : List (Str × Option Val))
    (profs : List Prof) : Except Err (List Str) :=
  filterE (fun id => match dget? hw id with
    | none => .error .keyError
    | some it => itemMatch env it rt props profs) (naturalSort (dkeys hw))

/-- hardware.py:278-300 `find_item` -/
def findItem (env : Env) (hw : Hw) (rt : Option Str) (props : List (Str × Option Val)) (p : Prof) :
    Except Err (Option Str) :=
  match findAllItems env hw rt props [p] with
  | .error x => .error x
  | .ok [] => .ok none
  | .ok [id] => .ok (some id)
  | .ok (_ :: _ :: _) => .error .lookupError

/-- hardware.py:333-335 / 475-477: an empty list means all profiles including the default. -/
def allProfilesIfEmpty (env : Env) (L : List Prof) : List Prof :=
  if L = [] then env.configProfiles.map some ++ [none] else L

/-- `d[p] += 1` on a counter dict keyed by profile -/
def bump (d : Prof → Nat) (p : Prof) : Prof → Nat := fun q => if q = p then d q + 1 else d q

/-- hardware.py:338-341: count one item for each profile of the list -/
def countItem (env : Env) (it : Item) (L : List Prof) (d : Prof → Nat) : Prof → Nat :=
  L.foldl (fun d p => if it.hasProfile env p then bump d p else d) d

/-- hardware.py:317-345 `get_item_count_per_profile` (the returned dict as a function, meaningful on
the profiles of the list). -/
def itemCounts (env : Env) (hw : Hw) (rt : Str) (L : List Prof) : Except Err (Prof → Nat) :=
  match findAllItems env hw (some rt) [] [] with
  | .error x => .error x
  | .ok ids => .ok (ids.foldl (fun d id => match dget? hw id with
      | none => d
      | some it => countItem env it (allProfilesIfEmpty env L) d) (fun _ => 0))

/-! ### Edits -/

/-- hardware.py:161-187 `new_item`; returns the new instance and the collection. -/
def newItem (env : Env) (hw : Hw) (rt : Str) (P : List Prof) : Except Err (Str × Hw) :=
  match findUnusedId hw 1 with
  | none => .error .runtimeError        -- never happens
  | some id => do
    let it ← emptyItem.setProperty env (instanceId env.ver) (.str id) P.toFinset true
    let code ← resourceCode rt
    let it ← it.setProperty env resourceType (.str code) P.toFinset true
    let it ← it.setProperty env (elementName env.ver) (.str rt) P.toFinset true
    return (id, dset hw id { it with modified := true })

/-- hardware.py:189-197 `delete_item(item)`, for an item taken from the collection under key `id`.
`==` on items is object identity. `item_dict[None]` is a KeyError. -/
def deleteItem (env : Env) (hw : Hw) (id : Str) : Except Err Hw :=
  match dget? hw id with
  | none => .error .keyError
  | some it => match it.getRaw (instanceId env.ver) none with
    | some (.str s) =>
      if s ∈ dkeys hw then .ok (if s = id then ddel hw id else hw) else .error .keyError
    | _ => .error .keyError

/-- hardware.py:219-221: the loop of `clone_item` that removes unwanted profiles. -/
def cloneStrip (env : Env) (P : List Prof) : List Str → Item → Except Err Item
  | [], it => .ok it
  | p :: r, it =>
    if it.hasProfile env (some p) ∧ some p ∉ P then
      match it.removeProfile env (some p) true with
      | .error x => .error x
      | .ok it' => cloneStrip env P r it'
    else cloneStrip env P r it

/-- hardware.py:200-227 `clone_item(parent, profile_list)` for a parent held under key `id`.
`int(None)` is a TypeError, `int('x')` a ValueError. -/
def cloneItem (env : Env) (hw : Hw) (parent : Str) (P : List Prof) : Except Err (Str × Hw) :=
  match dget? hw parent with
  | none => .error .keyError
  | some pit => match pit.getRaw (instanceId env.ver) none with
    | none => .error .typeError
    | some (.tup _) => .error .typeError
    | some (.str s) => match pyInt s with
      | none => .error .valueError
      | some z => match findUnusedId hw z with
        | none => .error .runtimeError        -- never happens
        | some id => do
          let it ← cloneStrip env P env.configProfiles pit
          let it ← it.setProperty env (instanceId env.ver) (.str id) P.toFinset true
          return (id, dset hw id { it with modified := true })

/-- state of the loop of `_update_existing_item_profiles`: the item, `count_dict`, `items_seen` -/
abbrev LoopSt := Item × (Prof → Nat) × (Prof → Nat)

/-- hardware.py:374-385: the inner loop over the profiles for one item. -/
def profLoop (env : Env) (count : Nat) : List Prof → LoopSt → Except Err LoopSt
  | [], st => .ok st
  | p :: r, (it, cd, seen) =>
    if it.hasProfile env p then
      if seen p ≥ count then
        match it.removeProfile env p true with
        | .error x => .error x
        | .ok it' => profLoop env count r (it', cd, seen)
      else profLoop env count r (it, cd, bump seen p)
    else if cd p < count then
      match it.addProfile env p none with
      | .error x => .error x
      | .ok it' => profLoop env count r (it', bump cd p, bump seen p)
    else profLoop env count r (it, cd, seen)

/-- hardware.py:372-385: the loop over the existing items. -/
def existingLoop (env : Env) (count : Nat) (L : List Prof) :
    List Str → Hw → (Prof → Nat) → (Prof → Nat) → Except Err (Hw × (Prof → Nat) × (Prof → Nat))
  | [], hw, cd, seen => .ok (hw, cd, seen)
  | id :: r, hw, cd, seen =>
    match dget? hw id with
    | none => .error .keyError
    | some it => match profLoop env count L (it, cd, seen) with
      | .error x => .error x
      | .ok (it', cd', seen') => existingLoop env count L r (dset hw id it') cd' seen'

/-- hardware.py:387-392: how many items to create. -/
def itemsToAdd (count : Nat) (L : List Prof) (seen : Prof → Nat) : Nat :=
  L.foldl (fun m p => if count - seen p > m then count - seen p else m) 0

/-- hardware.py:397-454 `_update_cloned_item`; `nicName` is `ovf.platform.guess_nic_name`. -/
def updateCloned (env : Env) (nicName : Nat → Str) (it : Item) (P : List Prof) (n : Nat) :
    Except Err Item :=
  if it.tab address ≠ [] then .error .notImplementedError
  else do
    let it ← (match it.tab addressOnParent with
      | [] => .ok it
      | [(v, _)] => match pyInt (env.valStr v) with
        | none => .error .notImplementedError
        | some z => it.setProperty env addressOnParent (.str (intStr (z + 1))) P.toFinset true
      | _ :: _ :: _ => .error .notImplementedError : Except Err Item)
    if it.getRaw resourceType none = some (.str "10".toList) then
      it.setProperty env (elementName env.ver) (.str (nicName n)) P.toFinset true
    else .ok it

/-- hardware.py:486-490: which profiles the next new item belongs to. -/
def pickProfiles (count : Nat) : List Prof → (Prof → Nat) → List Prof × (Prof → Nat)
  | [], cd => ([], cd)
  | p :: r, cd =>
    if cd p < count then
      let (l, cd') := pickProfiles count r (bump cd p)
      (p :: l, cd')
    else pickProfiles count r cd

/-- hardware.py:484-503: the loop creating new items; `last` is the key of `last_item`. -/
def addLoop (env : Env) (nicName : Nat → Str) (rt : Str) (count : Nat) (L : List Prof) :
    Nat → Hw → (Prof → Nat) → Option Str → Except Err Hw
  | 0, hw, _, _ => .ok hw
  | k + 1, hw, cd, last => do
    let (P, cd') := pickProfiles count L cd
    let (id, hw') ← (match last with
      | none => newItem env hw rt P
      | some l => cloneItem env hw l P)
    match P with
    | [] => .error .indexError              -- new_item_profiles[0]
    | p :: _ => match dget? hw' id with
      | none => .error .keyError
      | some it => do
        let it' ← updateCloned env nicName it P (cd' p)
        addLoop env nicName rt count L k (dset hw' id it') cd' (some id)

/-- hardware.py:456-503 `set_item_count_per_profile`, with 347-395 inlined.
Simplification: `count` is a natural number (all callers pass a validated non-negative count). -/
def setItemCount (env : Env) (nicName : Nat → Str) (hw : Hw) (rt : Str) (count : Nat)
    (profiles : List Prof) : Except Err Hw := do
  let L := allProfilesIfEmpty env profiles
  let cd ← itemCounts env hw rt L
  let ids ← findAllItems env hw (some rt) [] []
  let (hw, cd, seen) ← existingLoop env count L ids hw cd (fun _ => 0)
  addLoop env nicName rt count L (itemsToAdd count L seen) hw cd ids.getLast?

/-- hardware.py:533-534: the loop of `set_value_for_all_items`. -/
def setEach (env : Env) (name : Str) (v : InVal) (P : List Prof) : List Str → Hw → Except Err Hw
  | [], hw => .ok hw
  | id :: r, hw => match dget? hw id with
    | none => .error .keyError
    | some it => match it.setProperty env name v P.toFinset true with
      | .error x => .error x
      | .ok it' => setEach env name v P r (dset hw id it')

/-- hardware.py:505-536 `set_value_for_all_items` (`profile_list = None` and `[]` behave alike). -/
def setValueForAll (env : Env) (hw : Hw) (rt name : Str) (v : InVal) (P : List Prof)
    (createNew : Bool) : Except Err Hw := do
  let ids ← findAllItems env hw (some rt) [] []
  if ids = [] then
    if createNew = false then return hw
    let (id, hw') ← newItem env hw rt P
    setEach env name v P [id] hw'
  else setEach env name v P ids hw

/-- hardware.py:560-562: set the property under each profile the item exists in. -/
def setUnder (env : Env) (name : Str) (v : InVal) : List Prof → Item → Except Err Item
  | [], it => .ok it
  | p :: r, it =>
    if it.hasProfile env p then
      match it.setProperty env name v {p} true with
      | .error x => .error x
      | .ok it' => setUnder env name v r it'
    else setUnder env name v r it

/-- hardware.py:555-562: the loop of `set_item_values_per_profile`. -/
def setValuesLoop (env : Env) (name : Str) (dflt : InVal) (L : List Prof) :
    List Str → List InVal → Hw → Except Err Hw
  | [], _, hw => .ok hw
  | id :: r, vs, hw => match dget? hw id with
    | none => .error .keyError
    | some it => match setUnder env name (vs.head?.getD dflt) L it with
      | .error x => .error x
      | .ok it' => setValuesLoop env name dflt L r vs.tail (dset hw id it')

/-- hardware.py:538-567 `set_item_values_per_profile`; `profiles = none` is Python's `None`. -/
def setItemValues (env : Env) (hw : Hw) (rt name : Str) (vs : List InVal)
    (profiles : Option (List Prof)) (dflt : InVal) : Except Err Hw := do
  let L := profiles.getD (env.configProfiles.map some ++ [none])
  let ids ← findAllItems env hw (some rt) [] []
  setValuesLoop env name dflt L ids vs hw

end Cot
