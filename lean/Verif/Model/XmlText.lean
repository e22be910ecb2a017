import Verif.Model.Names
import Verif.Model.NatSort
/-
Model of how a descriptor becomes text and how text becomes a descriptor: COT/xml_file.py `XML.write_xml` and
`XML.__init__`, COT/vm_description/ovf/ovf.py 199-208 (namespace prefixes), and of what these call in Python's
xml.etree.ElementTree (`ElementTree.write`, `parse`, `register_namespace`; line numbers "ET" are those of
Lib/xml/etree/ElementTree.py of Python 3.11) and in the expat parser.  A text is a list of characters; its UTF-8 encoding
(encoding='utf-8', xml_file.py:102) is not part of this file.
-/
namespace Cot

/-! ### Prefixes for namespaces -/

/-- ET 1003-1015 `_namespace_map`: URI ↦ prefix, as it is when Python starts -/
def etDefault : List (Str × Str) :=
  [("http://www.w3.org/XML/1998/namespace".toList, "xml".toList),
   ("http://www.w3.org/1999/xhtml".toList, "html".toList),
   ("http://www.w3.org/1999/02/22-rdf-syntax-ns#".toList, "rdf".toList),
   ("http://schemas.xmlsoap.org/wsdl/".toList, "wsdl".toList),
   ("http://www.w3.org/2001/XMLSchema".toList, "xs".toList),
   ("http://www.w3.org/2001/XMLSchema-instance".toList, "xsi".toList),
   ("http://purl.org/dc/elements/1.1/".toList, "dc".toList)]

/-- ET 996: `re.match(r"ns\d+$", prefix)` (for prefixes without newline) -/
def nsNumber : Str → Bool
  | 'n' :: 's' :: d => decide (d ≠ []) && d.all isDig
  | _ => false

/-- ET 984-1001 `register_namespace(prefix, uri)`; called in COT/vm_description/ovf/ovf.py:200-208 -/
def registerNs (reg : List (Str × Str)) (pre uri : Str) : Except Err (List (Str × Str)) :=
  if nsNumber pre then .error .valueError
  else .ok (dset (reg.filter (fun kv => !(decide (kv.1 = uri) || decide (kv.2 = pre)))) uri pre)

/-- ovf.py:199-208: the prefixes that opening a descriptor of version `v` registers, with their URIs -/
def openPrefixes (v : Ver) : List (Str × Str) :=
  nsm v ++
  [("vmw".toList, "http://www.vmware.com/schema/ovf".toList),
   ("vbox".toList, "http://www.virtualbox.org/ovf/machine".toList),
   ("pasd".toList, cimUri ++ "/cim-schema/2/CIM_ProcessorAllocationSettingData".toList)]

/-- ovf.py:199-208: `_namespace_map`, which all of the process shares, after opening a descriptor of version `v` -/
def registerAll (reg : List (Str × Str)) (v : Ver) : Except Err (List (Str × Str)) :=
  (openPrefixes v).foldlM (fun r pu => registerNs r pu.1 pu.2) reg

/-! ### Writing -/

/-- ET 804-862: the two tables of `_namespaces`: name ↦ name as written, and URI ↦ prefix -/
structure NsTab where
  qnames : List (Str × Str)
  spaces : List (Str × Str)

/-- ET 817-818: `qname[1:].rsplit("}", 1)` if the name begins with a brace -/
def splitQname : Str → Option (Except Err (Str × Str))
  | '{' :: t => match beforeLast '}' t, afterLast '}' t with
    | some u, some l => some (.ok (u, l))
    | _, _ => some (.error .valueError)
  | _ => none

/-- ET 826-829: the name as written -/
def prefixed (pre loc : Str) : Str := if pre ≠ [] then pre ++ ':' :: loc else loc

/-- ET 814-839 `add_qname` (called from COT/xml_file.py:102 without default namespace) -/
def addQname (reg : List (Str × Str)) (t : NsTab) (q : Str) : Except Err NsTab :=
  match splitQname q with
  | none => .ok { t with qnames := dset t.qnames q q }
  | some (.error e) => .error e
  | some (.ok (uri, loc)) =>
    match dget? t.spaces uri with
    | some pre => .ok { t with qnames := dset t.qnames q (prefixed pre loc) }
    | none =>
      let pre := (dget? reg uri).getD ("ns".toList ++ natStr t.spaces.length)
      .ok ⟨dset t.qnames q (prefixed pre loc), if pre ≠ "xml".toList then dset t.spaces uri pre else t.spaces⟩

/-- ET 847-856: a name that is in the table is not added again -/
def useQname (reg : List (Str × Str)) (t : NsTab) (q : Str) : Except Err NsTab :=
  if q ∈ dkeys t.qnames then .ok t else addQname reg t q

mutual
/-- ET 842-856: the names of a tree in the order of `elem.iter()` -/
def Elem.names : Elem → List Str
  | .mk tag attrib _ _ cs => tag :: dkeys attrib ++ Elem.namesL cs
/-- of a list of children -/
def Elem.namesL : List Elem → List Str
  | [] => []
  | e :: r => e.names ++ Elem.namesL r
end

/-- ET 804-862 `_namespaces(elem)` -/
def collectNames (reg : List (Str × Str)) (e : Elem) : Except Err NsTab :=
  e.names.foldlM (useQname reg) ⟨[], []⟩

/-- Which `_escape_attrib` there is: that of Python 2.7, which knows only the line feed, or that of later versions (ET 1039-1065),
which also knows tabulators and carriage returns.  Simplification: versions in between are not modelled. -/
inductive EtVer | py27 | py3
deriving DecidableEq

/-- ET 1023-1037 `_escape_cdata`.  The replacements are made one after the other, "&" first; as the results of the later ones
contain no character that is replaced afterwards, this is the same as replacing each character. -/
def escData (c : Char) : Str :=
  if c = '&' then "&amp;".toList else if c = '<' then "&lt;".toList else if c = '>' then "&gt;".toList else [c]

/-- ET 1039-1065 `_escape_attrib` -/
def escAttr (py : EtVer) (c : Char) : Str :=
  if c = '&' then "&amp;".toList else if c = '<' then "&lt;".toList else if c = '>' then "&gt;".toList
  else if c = '"' then "&quot;".toList
  else if c = '\r' ∧ py = .py3 then "&#13;".toList
  else if c = '\n' then "&#10;".toList
  else if c = '\t' ∧ py = .py3 then "&#09;".toList
  else [c]

/-- ET 893-896, 906: an attribute as written -/
def serAttr (py : EtVer) (kv : Str × Str) : Str :=
  ' ' :: kv.1 ++ '=' :: '"' :: kv.2.flatMap (escAttr py) ++ ['"']

/-- insertion before the first entry whose prefix is not smaller -/
def insertSpace (x : Str × Str) : List (Str × Str) → List (Str × Str)
  | [] => [x]
  | y :: r => if strLe x.2 y.2 then x :: y :: r else y :: insertSpace x r

/-- ET 890-892: `sorted(namespaces.items(), key=lambda x: x[1])`, the order in which namespaces are declared -/
def sortSpaces (l : List (Str × Str)) : List (Str × Str) := l.foldr insertSpace []

/-- ET 893-899: the declarations, as attributes -/
def declarations (spaces : List (Str × Str)) : List (Str × Str) :=
  (sortSpaces spaces).map (fun up => (if up.2 ≠ [] then "xmlns".toList ++ ':' :: up.2 else "xmlns".toList, up.1))

/-- `qnames[name]`; every name of the tree is in the table -/
def NsTab.written (t : NsTab) (q : Str) : Str := (dget? t.qnames q).getD []

mutual
/-- ET 865-917 `_serialize_xml` with `short_empty_elements=True`; `decls` are the declarations, given for the root only.
Comments and processing instructions do not occur in trees that were read (ET: `insert_comments=False`). -/
def serElem (py : EtVer) (qn : Str → Str) (decls : List (Str × Str)) : Elem → Str
  | .mk tag attrib text tail cs =>
    '<' :: qn tag ++ (decls ++ attrib.map (fun kv => (qn kv.1, kv.2))).flatMap (serAttr py) ++
      (if text.getD [] ≠ [] ∨ cs ≠ [] then
        '>' :: (text.getD []).flatMap escData ++ serElems py qn cs ++ '<' :: '/' :: qn tag ++ ['>']
      else " />".toList) ++
      (tail.getD []).flatMap escData
/-- the children one after the other -/
def serElems (py : EtVer) (qn : Str → Str) : List Elem → Str
  | [] => []
  | e :: r => serElem py qn [] e ++ serElems py qn r
end

/-- ET `ElementTree.write(file, xml_declaration=True, encoding='utf-8')`, called in COT/xml_file.py:102 -/
def treeText (py : EtVer) (reg : List (Str × Str)) (root : Elem) : Except Err Str := do
  let t ← collectNames reg root
  .ok ("<?xml version='1.0' encoding='utf-8'?>\n".toList ++ serElem py t.written (declarations t.spaces) root)

/-- COT/xml_file.py:81-102 `XML.write_xml` -/
def writeXml (py : EtVer) (reg : List (Str × Str)) (root : Elem) : Except Err Str := treeText py reg (reindent root 0)

/-! ### Reading

`ET.parse(xml_file)` (COT/xml_file.py:76) is the expat parser with namespaces, and `TreeBuilder`.  Modelled are elements, attributes,
namespaces, character data, references to characters and to the five predefined entities, comments and processing
instructions (which are skipped, as is the XML declaration).  Document type declarations and CDATA sections are not modelled (such a
text is refused here), nor are names with characters that are not ASCII. -/

/-- expat: line ends are unified before anything else (XML 1.0, 2.11) -/
def unifyLines : Str → Str
  | '\r' :: '\n' :: t => '\n' :: unifyLines t
  | '\r' :: t => '\n' :: unifyLines t
  | c :: t => c :: unifyLines t
  | [] => []

/-- expat: the characters that may occur in a document (XML 1.0, 2.2) -/
def xmlChar (c : Char) : Bool :=
  c = '\t' || c = '\n' || c = '\r' || (decide (32 ≤ c.toNat) && c.toNat != 0xFFFE && c.toNat != 0xFFFF)

/-- expat: white space between the parts of a tag (XML 1.0, 2.3) -/
def xmlWs (c : Char) : Bool := c = ' ' || c = '\t' || c = '\n' || c = '\r'

/-- expat: characters of names.  Simplification: only those of ASCII. -/
def nameChar (c : Char) : Bool :=
  (decide ('a' ≤ c) && decide (c ≤ 'z')) || (decide ('A' ≤ c) && decide (c ≤ 'Z')) || isDig c || c = '_' || c = '-' || c = '.' ||
    c = ':'

/-- expat: characters that names begin with -/
def nameStart (c : Char) : Bool := nameChar c && !(isDig c) && c != '-' && c != '.'

/-- expat: a name is not empty and begins properly -/
def properName : Str → Bool
  | [] => false
  | c :: _ => nameStart c

/-- the value of a hexadecimal digit -/
def hexVal (c : Char) : Option Nat :=
  if isDig c then some (digVal c)
  else if 'a' ≤ c ∧ c ≤ 'f' then some (c.toNat - 87)
  else if 'A' ≤ c ∧ c ≤ 'F' then some (c.toNat - 55) else none

/-- the character with a number, if it may occur -/
def charOf (n : Nat) : Option Char :=
  if n.isValidChar ∧ xmlChar (Char.ofNat n) then some (Char.ofNat n) else none

/-- expat: what a reference stands for (between "&" and ";") -/
def entity : Str → Option Char
  | '#' :: 'x' :: h => if h = [] then none else
      match h.mapM hexVal with
      | some ds => charOf (ds.foldl (fun n d => n * 16 + d) 0)
      | none => none
  | '#' :: d => if d ≠ [] ∧ d.all isDig then charOf (digitsVal d) else none
  | s => if s = "amp".toList then some '&' else if s = "lt".toList then some '<' else if s = "gt".toList then some '>'
      else if s = "quot".toList then some '"' else if s = "apos".toList then some '\'' else none

/-- expat: character data and attribute values with references; `raw` says what a character that is not part of a
reference stands for. -/
def decodeRefs (raw : Char → Option Char) : Nat → Str → Option Str
  | _, [] => some []
  | 0, _ :: _ => none
  | n + 1, c :: t =>
    if c = '&' then
      match t.dropWhile (fun x => x != ';') with
      | [] => none
      | _ :: r => match entity (t.takeWhile (fun x => x != ';')), decodeRefs raw n r with
        | some x, some s => some (x :: s)
        | _, _ => none
    else match raw c, decodeRefs raw n t with
      | some x, some s => some (x :: s)
      | _, _ => none

/-- expat: character data.  "]]>" must not occur in it (XML 1.0, 2.4). -/
def decodeData (s : Str) : Option Str :=
  if hasSub "]]>".toList s then none
  else decodeRefs (fun c => if xmlChar c then some c else none) s.length s

/-- expat: attribute values; white space becomes a blank unless it is written as a reference (XML 1.0, 3.3.3) -/
def decodeAttr (s : Str) : Option Str :=
  decodeRefs (fun c => if c = '<' then none else if xmlWs c then some ' ' else if xmlChar c then some c else none) s.length s

/-- the rest after the first occurrence of `sub` -/
def afterSub (sub : Str) : Str → Option Str
  | [] => none
  | c :: t => if sub.isPrefixOf (c :: t) then some ((c :: t).drop sub.length) else afterSub sub t

/-- what expat reports: start of an element (with attributes as written, and whether it ends at once), end, data -/
inductive XmlTok
  | start (name : Str) (attrs : List (Str × Str)) (ends : Bool)
  | stop (name : Str)
  | data (s : Str)

/-- expat: the attributes in a start tag, the end of the tag, and the rest -/
def lexAttrs : Nat → Str → Option (List (Str × Str) × Bool × Str)
  | 0, _ => none
  | n + 1, s =>
    match s.dropWhile xmlWs with
    | [] => none
    | c :: t =>
      if c = '>' then some ([], false, t)
      else if c = '/' then (match t with
        | d :: r => if d = '>' then some ([], true, r) else none
        | [] => none)
      else if s.takeWhile xmlWs = [] then none
      else
        let name := (c :: t).takeWhile nameChar
        if properName name = false then none
        else match ((c :: t).dropWhile nameChar).dropWhile xmlWs with
          | [] => none
          | e :: r1 => if e ≠ '=' then none else
            match r1.dropWhile xmlWs with
            | [] => none
            | q :: r2 => if q ≠ '"' ∧ q ≠ '\'' then none else
              match r2.dropWhile (fun x => x != q) with
              | [] => none
              | _ :: r3 => match decodeAttr (r2.takeWhile (fun x => x != q)), lexAttrs n r3 with
                | some v, some (as, b, rest) => some ((name, v) :: as, b, rest)
                | _, _ => none

/-- expat: the parts of a document -/
def lexXml : Nat → Str → Option (List XmlTok)
  | _, [] => some []
  | 0, _ :: _ => none
  | n + 1, c :: t =>
    if c ≠ '<' then
      match decodeData ((c :: t).takeWhile (fun x => x != '<')), lexXml n ((c :: t).dropWhile (fun x => x != '<')) with
      | some s, some r => some (.data s :: r)
      | _, _ => none
    else match t with
      | [] => none
      | d :: t' =>
        if d = '/' then
          let name := t'.takeWhile nameChar
          match (t'.dropWhile nameChar).dropWhile xmlWs with
          | [] => none
          | e :: r => if e ≠ '>' ∨ properName name = false then none else (lexXml n r).map (fun ts => .stop name :: ts)
        else if d = '!' then
          if startsWith t' "--".toList then match afterSub "-->".toList (t'.drop 2) with
            | some r => lexXml n r
            | none => none
          else none
        else if d = '?' then match afterSub "?>".toList t' with
          | some r => lexXml n r
          | none => none
        else
          let name := t.takeWhile nameChar
          if properName name = false then none
          else match lexAttrs t.length (t.dropWhile nameChar) with
            | none => none
            | some (as, b, r) => (lexXml n r).map (fun ts => .start name as b :: ts)

/-- an element that is not closed yet: its name as written, the namespaces in force (prefix ↦ URI; the empty prefix is the default
namespace), its tag, attributes, text, and children so far -/
structure Open where
  raw : Str
  env : List (Str × Str)
  tag : Str
  attrib : List (Str × Str)
  text : Str
  kids : List Elem

/-- expat: is this attribute a namespace declaration, and of which prefix -/
def declares (name : Str) : Option Str :=
  if name = "xmlns".toList then some []
  else if startsWith name "xmlns:".toList then some (name.drop 6) else none

/-- expat: may this prefix be bound to this URI?  Not to none; the prefixes "xml" and "xmlns" and their URIs are reserved; and
URIs with the separator "}" (ET: `ParserCreate(encoding, "}")`) are refused. -/
def mayDeclare (p v : Str) : Bool :=
  !(decide ('}' ∈ v)) && decide (v ≠ "http://www.w3.org/2000/xmlns/".toList) &&
    decide (v = "http://www.w3.org/XML/1998/namespace".toList ↔ p = "xml".toList) && decide (p ≠ "xmlns".toList)

/-- expat: the namespaces in force in an element -/
def declareAll : List (Str × Str) → List (Str × Str) → Option (List (Str × Str))
  | env, [] => some env
  | env, (k, v) :: r => match declares k with
    | none => declareAll env r
    | some p =>
      if mayDeclare p v = false ∨ (k ≠ "xmlns".toList ∧ (properName p = false ∨ ':' ∈ p ∨ v = [])) then none
      else declareAll (dset env p v) r

/-- expat: the namespace of a prefix -/
def nsOfPrefix (env : List (Str × Str)) (p : Str) : Option Str :=
  if p = "xml".toList then some "http://www.w3.org/XML/1998/namespace".toList else dget? env p

/-- expat and ET `_fixname`: the full name of an element (`isTag`) or attribute -/
def resolve (env : List (Str × Str)) (isTag : Bool) (raw : Str) : Option Str :=
  if ':' ∈ raw then
    let p := raw.takeWhile (fun x => x != ':')
    let l := (raw.dropWhile (fun x => x != ':')).drop 1
    if properName p = false ∨ properName l = false ∨ ':' ∈ l then none
    else match nsOfPrefix env p with
      | some u => some ('{' :: u ++ '}' :: l)
      | none => none
  else if isTag then match dget? env [] with
    | some u => if u = [] then some raw else some ('{' :: u ++ '}' :: raw)
    | none => some raw
  else some raw

/-- the full names of the attributes that are no declarations -/
def resolveAttrs (env : List (Str × Str)) : List (Str × Str) → Option (List (Str × Str))
  | [] => some []
  | (k, v) :: r => match declares k with
    | some _ => resolveAttrs env r
    | none => match resolve env false k, resolveAttrs env r with
      | some q, some s => some ((q, v) :: s)
      | _, _ => none

/-- the state of `TreeBuilder`: open elements, innermost first, and the root once it is closed -/
structure Builder where
  stack : List Open
  root : Option Elem

/-- ET `TreeBuilder.start` -/
def Builder.start (b : Builder) (name : Str) (attrs : List (Str × Str)) : Option Builder :=
  match b.stack, b.root with
  | [], some _ => none                                  -- junk after the document element
  | st, root =>
    let env := match st with | f :: _ => f.env | [] => []
    if (dkeys attrs).Nodup then
      match declareAll env attrs with
      | none => none
      | some env' => match resolve env' true name, resolveAttrs env' attrs with
        | some tag, some attrib =>
          if (dkeys attrib).Nodup then some ⟨⟨name, env', tag, attrib, [], []⟩ :: st, root⟩ else none
        | _, _ => none
    else none

/-- ET `TreeBuilder.end` and `_flush`: an element without data has the text None -/
def Open.close (f : Open) : Elem := .mk f.tag f.attrib (if f.text = [] then none else some f.text) none f.kids

/-- ET `TreeBuilder.end` -/
def Builder.stop (b : Builder) (name : Str) : Option Builder :=
  match b.stack with
  | [] => none
  | f :: st =>
    if f.raw ≠ name then none
    else match st with
      | [] => some ⟨[], some f.close⟩
      | g :: r => some ⟨{ g with kids := g.kids ++ [f.close] } :: r, b.root⟩

/-- data after a child belongs to its tail -/
def addTail (kids : List Elem) (s : Str) : List Elem :=
  match kids with
  | [] => []
  | [e] => [e.setTail (some (e.tail.getD [] ++ s))]
  | e :: f :: r => e :: addTail (f :: r) s

/-- ET `TreeBuilder.data` and `_flush`; outside of the root only white space is allowed, and not reported -/
def Builder.data (b : Builder) (s : Str) : Option Builder :=
  match b.stack with
  | [] => if s.all xmlWs then some b else none
  | f :: st =>
    if f.kids = [] then some { b with stack := { f with text := f.text ++ s } :: st }
    else some { b with stack := { f with kids := addTail f.kids s } :: st }

/-- one step -/
def Builder.step (b : Builder) : XmlTok → Option Builder
  | .start n a ends => match b.start n a with
    | none => none
    | some b' => if ends then b'.stop n else some b'
  | .stop n => b.stop n
  | .data s => b.data s

/-- all steps -/
def Builder.run (b : Builder) : List XmlTok → Option Builder
  | [] => some b
  | t :: r => match b.step t with
    | none => none
    | some b' => b'.run r

/-- `ET.parse(xml_file).getroot()` (COT/xml_file.py:76-78); `none` is a ParseError -/
def parseXml (s : Str) : Option Elem :=
  let u := unifyLines s
  match lexXml u.length u with
  | none => none
  | some ts => match (Builder.mk [] none).run ts with
    | some ⟨[], root⟩ => root
    | _ => none

end Cot
