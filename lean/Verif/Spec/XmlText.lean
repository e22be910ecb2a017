import Verif.Model.XmlText
/-
Specification for C119: which trees can be written as XML, and what is read back.  It does not mention how they are written.
-/
namespace Cot

/-- a name without namespace: ASCII letters, digits, "_", "-", ".", beginning with a letter or "_" -/
def XmlName (n : Str) : Prop := properName n = true ∧ (∀ c ∈ n, nameChar c = true) ∧ ':' ∉ n

/-- a text that attributes can have: characters allowed in XML; on Python 2.7 no tabulator and no carriage return -/
def AttrText (py : EtVer) (s : Str) : Prop := ∀ c ∈ s, xmlChar c = true ∧ (py = .py27 → c ≠ '\t' ∧ c ≠ '\r')

/-- a text that elements can have: characters allowed in XML, no carriage return -/
def DataText (s : Str) : Prop := ∀ c ∈ s, xmlChar c = true ∧ c ≠ '\r'

/-- a URI of a namespace -/
def GoodUri (py : EtVer) (u : Str) : Prop :=
  u ≠ [] ∧ '}' ∉ u ∧ u ≠ "http://www.w3.org/2000/xmlns/".toList ∧ AttrText py u

/-- a name of an element or attribute: with a namespace or without -/
def XmlQName (py : EtVer) (q : Str) : Prop :=
  (XmlName q ∧ q ≠ "xmlns".toList) ∨ ∃ u l, GoodUri py u ∧ XmlName l ∧ q = '{' :: u ++ '}' :: l

mutual
/-- the tree can be written: names and texts are possible, and no attribute is there twice -/
def XmlWritable (py : EtVer) : Elem → Prop
  | .mk tag attrib text tail cs =>
    XmlQName py tag ∧ (∀ kv ∈ attrib, XmlQName py kv.1 ∧ AttrText py kv.2) ∧ (dkeys attrib).Nodup ∧
      DataText (text.getD []) ∧ DataText (tail.getD []) ∧ XmlWritableL py cs
/-- all children can be written -/
def XmlWritableL (py : EtVer) : List Elem → Prop
  | [] => True
  | e :: r => XmlWritable py e ∧ XmlWritableL py r
end

/-- `None` for the empty text: XML does not tell them apart -/
def asRead (t : Option Str) : Option Str := if t.getD [] = [] then none else t

mutual
/-- the tree as it is read back: an empty text is no text; all else is the same -/
def readBack : Elem → Elem
  | .mk tag attrib text tail cs => .mk tag attrib (asRead text) (asRead tail) (readBackL cs)
/-- for children -/
def readBackL : List Elem → List Elem
  | [] => []
  | e :: r => readBack e :: readBackL r
end

/-- Prefixes for namespaces that can be used together: different URIs have different prefixes, the prefixes are names, none is of
the form ns<number>, and "xml" is that of XML. -/
structure GoodPrefixes (reg : List (Str × Str)) : Prop where
  uris : (reg.map Prod.fst).Nodup
  prefixes : (reg.map Prod.snd).Nodup
  names : ∀ up ∈ reg, XmlName up.2 ∧ nsNumber up.2 = false ∧ up.2 ≠ "xmlns".toList
  xml : ∀ up ∈ reg, up.1 = "http://www.w3.org/XML/1998/namespace".toList ↔ up.2 = "xml".toList
  hasXml : ("http://www.w3.org/XML/1998/namespace".toList, "xml".toList) ∈ reg

mutual
/-- the second has the same elements as the first: tags, attributes, children, and the texts of childless elements (but no empty
texts) -/
def SameContent : Elem → Elem → Prop
  | .mk t a x _ cs, .mk t' a' x' _ cs' => t = t' ∧ a = a' ∧ (cs = [] → x' = asRead x) ∧ SameContentL cs cs'
/-- pointwise on child lists -/
def SameContentL : List Elem → List Elem → Prop
  | [], [] => True
  | e :: r, e' :: r' => SameContent e e' ∧ SameContentL r r'
  | _, _ => False
end

/-- an Item that has only elements of the schema, without further elements in them, and none with an empty text -/
def PlainItem (v : Ver) (e : Elem) : Prop :=
  ∀ c ∈ e.children, stripNs c.tag ∈ itemChildren v ∧ c.children = [] ∧ c.text ≠ some []

/-- both are there, with the same content, or neither is -/
def SameOption : Option Elem → Option Elem → Prop
  | none, none => True
  | some e, some e' => SameContent e e'
  | _, _ => False

end Cot
