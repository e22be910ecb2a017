import Verif.Model.Item
/-
Model of the XML side of COT/vm_description/ovf/item.py: `add_item`, `get_nonintersecting_set_list`
and `generate_items`.
-/
namespace Cot

/-- item.py:93 `ATTRIB_KEY_SUFFIX` -/
def attribKeySuffix : Str := " {Item attribute}".toList
/-- item.py:94 `ELEMENT_KEY_SUFFIX` -/
def elementKeySuffix : Str := " {custom element}".toList
/-- the infix used for attributes of child elements, item.py:272 -/
def childAttribInfix : Str := "_attrib_".toList

/-! ### add_item -/

/-- item.py:226 `set(item.get(self.ITEM_CONFIG, "").split())` -/
def elemProfiles (v : Ver) (e : Elem) : PSet :=
  ((splitWs ((e.get (itemConfig v)).getD [])).map some).toFinset

/-- item.py:238-253: move the first element satisfying `q` to the end of the list. -/
def moveToEnd (q : Elem → Bool) (l : List Elem) : List Elem :=
  match l.find? q with
  | none => l
  | some e => l.eraseP q ++ [e]

/-- item.py:238-253: the children in the order in which they are processed: the first ElementName
child, then the first Description child, come last.  Both are looked up before anything is moved,
which makes no difference since their tags differ. -/
def orderedChildren (v : Ver) (e : Elem) : List Elem :=
  moveToEnd (fun c => stripNs c.tag == itemDescription)
    (moveToEnd (fun c => stripNs c.tag == elementName v) e.children)

/-- item.py:228-232: the calls of `set_property` made for the attributes of the Item. -/
def attribCalls (v : Ver) (e : Elem) : List (Str × InVal) :=
  (e.attrib.filter (fun kv => kv.1 ≠ itemConfig v)).map
    (fun kv => (kv.1 ++ attribKeySuffix, InVal.str kv.2))

/-- `child.text` as an argument of `set_property` -/
def textIn : Option Str → InVal
  | none => .none
  | some s => .str s

/-- item.py:255-274: the calls of `set_property` made for one child element. -/
def childCalls (env : Env) (c : Elem) : List (Str × InVal) :=
  let tag := stripNs c.tag
  if tag ∉ itemChildren env.ver then
    [(strip (env.toXml c) ++ elementKeySuffix, InVal.str (env.toXml c))]
  else
    (tag, textIn c.text) ::
      c.attrib.map (fun kv => (tag ++ childAttribInfix ++ kv.1, InVal.str kv.2))

/-- all `set_property(.., profiles, overwrite=False)` calls made by `add_item`, in order. -/
def addItemCalls (env : Env) (e : Elem) : List (Str × InVal) :=
  attribCalls env.ver e ++ (orderedChildren env.ver e).flatMap (childCalls env)

/-- a sequence of `set_property(name, value, profiles, overwrite=False)` calls. -/
def setAll (env : Env) (P : PSet) : List (Str × InVal) → Item → Except Err Item
  | [], it => .ok it
  | (n, v) :: r, it =>
    match it.setProperty env n v P false with
    | .error e => .error e
    | .ok it' => setAll env P r it'

/-- item.py:207-278 `add_item(item)` -/
def Item.addItem (env : Env) (it : Item) (e : Elem) : Except Err Item :=
  match namespaceForItemTag env.ver e.tag with
  | none => .error .valueUnsupported
  | some ns =>
    match setAll env (elemProfiles env.ver e) (addItemCalls env e) { it with ns := ns } with
    | .error x => .error x
    | .ok it' => Item.validate env { it' with modified := true }

/-- loading several Item elements of one instance into an item, hardware.py:65-93 -/
def addItems (env : Env) : List Elem → Item → Except Err Item
  | [], it => .ok it
  | e :: r, it => match it.addItem env e with
    | .error x => .error x
    | .ok it' => addItems env r it'

/-! ### get_nonintersecting_set_list -/

/-- An iteration order of Python sets: any enumeration without repetition.  The theorems quantify
over it, so they hold for every hash seed. -/
structure SetOrder (α : Type) [DecidableEq α] where
  enum : Finset α → List α
  nodup : ∀ s, (enum s).Nodup
  mem : ∀ s x, x ∈ enum s ↔ x ∈ s

/-- the iteration orders used by one run: of sets of profile sets and of profile sets -/
structure Orders where
  sets : SetOrder PSet
  profs : SetOrder Prof

/-- item.py:726-740: the loop over `set_list`; returns `new_set_list` and the remaining `new_set`. -/
def splitLoop : List PSet → PSet → List PSet × PSet
  | [], new => ([], new)
  | ex :: r, new =>
    if new = ex ∨ new ∩ ex = ∅ then
      let (l, n) := splitLoop r new
      (ex :: l, n)
    else
      let (l, n) := splitLoop r (new \ ex)
      ((ex \ new) :: (ex ∩ new) :: l, n)

/-- item.py:726-744: one refinement step. -/
def refineStep (o : Orders) (setList : List PSet) (new : PSet) : List PSet :=
  let (l, n) := splitLoop setList new
  (o.sets.enum (l ++ [n]).toFinset).filter (fun s => s ≠ ∅)

/-- item.py:723-744: `set_list` after all values of all properties. -/
def Item.setList (o : Orders) (it : Item) : List PSet :=
  (it.props.flatMap (fun nt => nt.2.map Prod.snd)).foldl (refineStep o) []

/-- item.py:751-754 the profile string of one set; `natural_sort` is applied to a set of strings
enumerated in arbitrary order. -/
def setString (o : Orders) (s : PSet) : Str :=
  if none ∈ s then [] else joinWith [' '] (naturalSort ((o.profs.enum s).filterMap id))

/-- item.py:717-759 `get_nonintersecting_set_list` -/
def Item.setStrings (o : Orders) (it : Item) : List Str :=
  naturalSort ((it.setList o).map (setString o))

/-! ### generate_items -/

/-- the last occurrence of `pat` in `s`: text before and after it. -/
def splitLast (pat : Str) : Str → Option (Str × Str)
  | [] => if pat = [] then some ([], []) else none
  | c :: t => match splitLast pat t with
    | some (a, b) => some (c :: a, b)
    | none => if pat.isPrefixOf (c :: t) then some ([], (c :: t).drop pat.length) else none

/-- `re.match(r"(.*)" + pat, s)` (also with a following `(.*)`) for a literal one-line `pat`: the
greedy `.*` reaches the last occurrence of `pat` in the first line. -/
def matchLast (pat s : Str) : Option (Str × Str) := splitLast pat (s.takeWhile (· ≠ '\n'))

/-- Insertion into a list sorted by code points. -/
def strInsert (x : Str) : List Str → List Str
  | [] => [x]
  | y :: t => if strLe x y then x :: y :: t else y :: strInsert x t

/-- `sorted(list of str)` -/
def strSort : List Str → List Str
  | [] => []
  | x :: t => strInsert x (strSort t)

/-- item.py:791-794 -/
def outStr (env : Env) (name : Str) (v : Val) : Str :=
  if name = resourceSubType then
    match v with
    | .tup l => joinWith [' '] l
    | .str s => joinWith [' '] (s.map (fun c => [c]))
  else env.valStr v

/-- item.py:796-819: emit one property value into the Item element. -/
def emitProp (env : Env) (ns : Str) (e : Elem) (name : Str) (val : Str) : Except Err Elem :=
  let ordering := (itemChildren env.ver).map (fun i => ns ++ i)
  match matchLast attribKeySuffix name with
  | some (a, _) => .ok (e.set a val)
  | none =>
    match matchLast childAttribInfix name with
    | some (tag, k) =>
      -- set_or_make_child(item, tag, None), then child.set(k, val) on the unique child found/made
      match setOrMakeChild e tag none [] ordering with
      | .error x => .error x
      | .ok e' => .ok (e'.setChildren
          (mapFirst (fun c => c.tag == tag) (fun c => c.set k val) e'.children))
    | none =>
      match matchLast elementKeySuffix name with
      | some _ =>
        match env.ofXml val with
        | .error x => .error x
        | .ok c => .ok (e.setChildren (e.children ++ [c]))
      | none => setOrMakeChild e (ns ++ name) (some val) [] ordering

/-- item.py:783-819: the loop over the sorted property names. -/
def emitAll (env : Env) (it : Item) (P : PSet) : List Str → Elem → Except Err Elem
  | [], e => .ok e
  | name :: r, e =>
    match it.getValue env name (some P) with
    | .error x => .error x
    | .ok none => emitAll env it P r e
    | .ok (some v) =>
      if !v.truthy then emitAll env it P r e
      else match emitProp env it.ns e name (outStr env name v) with
        | .error x => .error x
        | .ok e' => emitAll env it P r e'

/-- item.py:774-781: the profile set denoted by a set string. -/
def stringSet (s : Str) : PSet :=
  if s = [] then {none} else ((splitWs s).map some).toFinset

/-- item.py:773-821: one generated Item element. -/
def Item.genItem (env : Env) (it : Item) (itemTag : Str) (s : Str) : Except Err Elem :=
  let e := if s = [] then Elem.new itemTag else Elem.new itemTag [(itemConfig env.ver, s)]
  emitAll env it (stringSet s) (strSort (dkeys it.props)) e

/-- map with early exit on an exception -/
def mapE {α β : Type} (f : α → Except Err β) : List α → Except Err (List β)
  | [] => .ok []
  | x :: r => match f x with
    | .error e => .error e
    | .ok y => match mapE f r with
      | .error e => .error e
      | .ok ys => .ok (y :: ys)

/-- item.py:761-823 `generate_items` -/
def Item.generateItems (env : Env) (o : Orders) (it : Item) : Except Err (List Elem) :=
  match itemTagForNamespace env.ver it.ns with
  | .error x => .error x
  | .ok tag => mapE (it.genItem env tag) (it.setStrings o)

end Cot
