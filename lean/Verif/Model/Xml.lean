import Verif.Py.Str
/-
Model of COT/xml_file.py on an inductive XML element tree (xml.etree.ElementTree.Element).
-/
namespace Cot

/-- `xml.etree.ElementTree.Element`: tag, attributes (insertion ordered), text, tail, children.
Object identity is not modelled: functions that mutate an element return the new element. -/
inductive Elem where
  | mk (tag : Str) (attrib : List (Str × Str)) (text tail : Option Str) (children : List Elem)

namespace Elem
/-- `elem.tag` -/
def tag : Elem → Str | mk t _ _ _ _ => t
/-- `elem.attrib` -/
def attrib : Elem → List (Str × Str) | mk _ a _ _ _ => a
/-- `elem.text` -/
def text : Elem → Option Str | mk _ _ x _ _ => x
/-- `elem.tail` -/
def tail : Elem → Option Str | mk _ _ _ x _ => x
/-- `list(elem)` -/
def children : Elem → List Elem | mk _ _ _ _ c => c
/-- `elem.get(key)` -/
def get (e : Elem) (k : Str) : Option Str := dget? e.attrib k
/-- `elem.set(key, value)` -/
def set : Elem → Str → Str → Elem
  | mk t a x l c, k, v => mk t (dset a k v) x l c
/-- `elem.text = s` -/
def setText : Elem → Option Str → Elem
  | mk t a _ l c, s => mk t a s l c
/-- `elem.tail = s` -/
def setTail : Elem → Option Str → Elem
  | mk t a x _ c, s => mk t a x s c
/-- replace the child list -/
def setChildren : Elem → List Elem → Elem
  | mk t a x l _, c => mk t a x l c
/-- `ET.Element(tag, attrib)` -/
def new (t : Str) (a : List (Str × Str) := []) : Elem := mk t a none none []
end Elem

/-- The part of a string after its last `c`, if `c` occurs. -/
def afterLast (c : Char) : Str → Option Str
  | [] => none
  | x :: t => match afterLast c t with
    | some r => some r
    | none => if x = c then some t else none

/-- The part of a string before its last `c`, if `c` occurs. -/
def beforeLast (c : Char) : Str → Option Str
  | [] => none
  | x :: t => match beforeLast c t with
    | some r => some (x :: r)
    | none => if x = c then some [] else none

/-- COT/xml_file.py:46-61 `XML.strip_ns`: `re.match(r"\{.*\}(.*)", text)`, greedy, so up to the last '}'.
Simplification: tags contain no newline. -/
def stripNs : Str → Str
  | '{' :: t => match afterLast '}' t with
    | some r => r
    | none => '{' :: t
  | s => s

/-- COT/xml_file.py:29-44 `XML.get_ns`: `re.match(r"\{(.*)\}", text)`.
Simplification: tags contain no newline. -/
def getNs : Str → Str
  | '{' :: t => match beforeLast '}' t with
    | some r => r
    | none => []
  | _ => []

/-- COT/xml_file.py:196-210, the attribute filter inside `find_all_children`: every requested
attribute is present with the requested value. -/
def attribMatch (e : Elem) (attrib : List (Str × Str)) : Bool :=
  attrib.all (fun kv => e.get kv.1 == some kv.2)

/-- COT/xml_file.py:166-212 `XML.find_all_children` for a single tag (`parent.findall(tag)` returns
the direct children with exactly this tag, in document order; XPath metacharacters in tags are not
modelled). -/
def findAllChildren (parent : Elem) (tag : Str) (attrib : List (Str × Str)) : List Elem :=
  parent.children.filter (fun e => e.tag == tag && attribMatch e attrib)

/-- COT/xml_file.py:131-164 `XML.find_child`. -/
def findChild (parent : Elem) (tag : Str) (attrib : List (Str × Str)) (required : Bool) :
    Except Err (Option Elem) :=
  match findAllChildren parent tag attrib with
  | [] => if required then .error .keyError else .ok none
  | [e] => .ok (some e)
  | _ :: _ :: _ => .error .lookupError

/-- COT/xml_file.py:253-278, the scan for the insertion position in `add_child`: insert before the
first child that is ordered after the new one or whose tag is not in `ordering`; append otherwise.
`newIdx` is `ordering.index(new_child.tag)`. -/
def insertChild (ordering : List Str) (newIdx : Nat) (c : Elem) : List Elem → List Elem
  | [] => [c]
  | e :: t =>
    if e.tag ∈ ordering then
      if ordering.idxOf e.tag > newIdx then c :: e :: t
      else e :: insertChild ordering newIdx c t
    else c :: e :: t

/-- COT/xml_file.py:214-278 `XML.add_child` (the warnings about unknown tags are not modelled). -/
def addChild (parent c : Elem) (ordering : List Str) : Elem :=
  if ordering = [] ∨ c.tag ∉ ordering then
    parent.setChildren (parent.children ++ [c])
  else
    parent.setChildren (insertChild ordering (ordering.idxOf c.tag) c parent.children)

/-- Apply `f` to the first element of the list satisfying `p` (mutation of an element found by a
previous search). -/
def mapFirst (p : Elem → Bool) (f : Elem → Elem) : List Elem → List Elem
  | [] => []
  | e :: t => if p e then f e :: t else e :: mapFirst p f t

/-- COT/xml_file.py:306-309, the update of the found or created element in `set_or_make_child`. -/
def updateElem (e : Elem) (text : Option Str) (attrib : List (Str × Str)) : Elem :=
  let e := match text with
    | none => e
    | some s => e.setText (some s)
  attrib.foldl (fun e kv => e.set kv.1 kv.2) e

/-- COT/xml_file.py:280-310 `XML.set_or_make_child`, returning the updated parent.
The element that is created is completed (text, attributes) before it is inserted; Python inserts it
first and then mutates it, which is the same since insertion depends on its tag only. -/
def setOrMakeChild (parent : Elem) (tag : Str) (text : Option Str) (attrib : List (Str × Str))
    (ordering : List Str) : Except Err Elem :=
  match findChild parent tag attrib false with
  | .error e => .error e
  | .ok none => .ok (addChild parent (updateElem (Elem.new tag) text attrib) ordering)
  | .ok (some _) =>
    .ok (parent.setChildren
      (mapFirst (fun e => e.tag == tag && attribMatch e attrib)
        (fun e => updateElem e text attrib) parent.children))

/-- `"\n" + " " * depth` -/
def nlIndent (depth : Nat) : Str := '\n' :: List.replicate depth ' '

mutual
/-- COT/xml_file.py:104-129 `XML.xml_reindent(parent, depth)`; returns the mutated parent.  The last
`if depth == 0` sees the value of `depth` after `depth -= 2`, which only happens when there are
children. -/
def reindent : Elem → Nat → Elem
  | .mk tag attrib text tail children, depth =>
    let cs := reindentList children (depth + 2)
    match children with
    | [] =>
      -- depth is depth+2 here, never 0
      .mk tag attrib text tail cs
    | _ :: _ =>
      .mk tag attrib (some (nlIndent (depth + 2)))
        (if depth = 0 then some (nlIndent 0) else tail) cs

/-- The loop of COT/xml_file.py:115-125 over the children: every child gets tail "\n" + indentation
and is re-indented; the last one's tail is then reset to the parent's indentation (depth - 2). -/
def reindentList : List Elem → Nat → List Elem
  | [], _ => []
  | e :: t, depth =>
    let e' := reindent e depth
    match t with
    | [] => [e'.setTail (some (nlIndent (depth - 2)))]
    | _ :: _ => e'.setTail (some (nlIndent depth)) :: reindentList t depth
end

end Cot
