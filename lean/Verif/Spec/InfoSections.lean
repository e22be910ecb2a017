import Verif.Spec.Info
/-
Specification for C91 to C94: the sections of `cot info` about the product, annotation, licences, kinds of hardware,
networks, NICs, transports and properties.  Lines are compared by their words (`splitWs`).
-/
namespace Cot

/-- The sections of the virtual system with this name (by tag, or in version 0.9 by `xsi:type`), in order. -/
def sectionsOf (v : Ver) (vs : Elem) (name : Str) : List Elem :=
  vs.children.filter (fun e => e.tag == sectionTag v name && attribMatch e (sectionAttrib v name))

/-- The text of the first child with this tag, if there is such a child. -/
def childText (e : Elem) (tag : Str) : Option Str :=
  ((e.children.filter (fun c => c.tag == tag)).head?).map (fun c => c.text.getD [])

/-- The same; empty if there is no such child. -/
def firstText (e : Elem) (tag : Str) : Str := (childText e tag).getD []

/-- The product section states `o` for the field (none: it does not, or there is no product section). -/
def Stated (v : Ver) (vs : Elem) (f : Field) (o : Option Str) : Prop :=
  (sectionsOf v vs "ProductSection".toList = [] ∧ o = none) ∨
  ∃ s, sectionsOf v vs "ProductSection".toList = [s] ∧ o = childText s (fieldTag v f)

/-- the fields that are shown -/
def shownFields (vb : Verbosity) : List Field :=
  if vb = .brief then [.product, .vendor, .version]
  else [.product, .vendor, .version, .productUrl, .vendorUrl, .fullVersion]

/-- the words of the product section -/
def productWords (vb : Verbosity) (st : Field → Option Str) : List Str :=
  let url (ws : List Str) := if vb = .brief then [] else ws
  "Product:".toList :: splitWs ((st .product).getD "(No product string)".toList) ++
  url (splitWs ((st .productUrl).getD "(No product URL)".toList)) ++
  "Vendor:".toList :: splitWs ((st .vendor).getD "(No vendor string)".toList) ++
  url (splitWs ((st .vendorUrl).getD "(No vendor URL)".toList)) ++
  "Version:".toList :: splitWs ((st .version).getD "(No version string)".toList) ++
  url (splitWs ((st .fullVersion).getD "(No detailed version string)".toList))

/-- The annotation of the virtual system. -/
def IsAnnotation (v : Ver) (vs : Elem) (t : Str) : Prop :=
  ∃ s a r, sectionsOf v vs "AnnotationSection".toList = [s] ∧
    s.children.filter (fun c => c.tag == ovfTag v "Annotation".toList) = a :: r ∧ a.text = some t

/-- The first line of the text is blank. -/
def StartsBlank (t : Str) : Prop := ∀ c ∈ t.takeWhile (fun c => !isLineEnd c), isWs c = true

/-- The sections with a licence. -/
def licences (v : Ver) (vs : Elem) : List Elem :=
  (sectionsOf v vs "EulaSection".toList).filter (fun e => firstText e (ovfTag v "License".toList) ≠ [])

/-- the words about a licence: its Info text, and the licence itself or how to see it -/
def licenceWords (v : Ver) (vb : Verbosity) (e : Elem) : List Str :=
  splitWs (firstText e (infoTag v)) ++
  (if vb = .verbose then splitWs (firstText e (ovfTag v "License".toList))
   else splitWs "(not displayed, use 'cot info --verbose' if desired)".toList)

/-- The words after a label, which is dropped if there are none. -/
def labelled (label : Str) (ws : List Str) : List Str := if ws = [] then [] else splitWs label ++ ws

/-- The text of the system types in the virtual hardware section (empty if there is none). -/
def systemTypeText (v : Ver) (hws : Option Elem) : Str :=
  match hws with
  | none => []
  | some h => match (h.children.filter (fun c => c.tag == systemTag v)).head? with
    | none => []
    | some s => firstText s vstTag

/-- `l` are the subtypes of the devices of the type. -/
def Subtypes (hw : Hw) (code : Str) (l : List Str) : Prop :=
  ∀ t, t ∈ l ↔ ∃ id it ts S, dget? hw id = some it ∧ OfType it code ∧ (Val.tup ts, S) ∈ it.tab resourceSubType ∧ t ∈ ts

/-- The description, if it fits beside the longest name; else its beginning and an ellipsis.  With `--verbose` it is
always whole. -/
def ShownDesc (width : Int) (longest : Nat) (vb : Verbosity) (d t : Str) : Prop :=
  ((vb = .verbose ∨ (d.length + longest + 6 : Int) ≤ width) ∧ t = d) ∨
  (vb ≠ .verbose ∧ width < (d.length + longest + 6 : Int) ∧ ∃ k, k < d.length ∧ t = d.take k ++ "...".toList ∧
    ((longest + 9 : Int) ≤ width → (k : Int) = width - 9 - longest))

/-- The lines tell about the network: its name and, if it has one, its description. -/
def NetworkRows (width : Int) (longest : Nat) (v : Ver) (vb : Verbosity) (e : Elem) (lines : List Str) : Prop :=
  ∃ n, e.get (networkName v) = some n ∧
    (firstText e (networkDesc v) = [] → lines.flatMap splitWs = splitWs n) ∧
    (firstText e (networkDesc v) ≠ [] → ∃ t, ShownDesc width longest vb (firstText e (networkDesc v)) t ∧
      lines.flatMap splitWs = splitWs n ++ splitWs ("\"".toList ++ t ++ "\"".toList))

/-- The lines tell about the NIC: its name, its network and, if asked, its description or caption.  Values are those of
`get_value` (the only one with its wildcards replaced, or none). -/
def NicRows (env : Env) (hw : Hw) (vb : Verbosity) (k : Str) (lines : List Str) : Prop :=
  ∃ (it : Item) (row name net : Str) (desc : List Str), dget? hw k = some it ∧ lines = row :: desc ∧
    OnlyValue (it.tab connection) net ∧
    ((∃ x, it.getValue env (elementName env.ver) none = .ok (some x) ∧ name = env.valStr x) ∨
     (it.getValue env (elementName env.ver) none = .ok none ∧ ∃ i, it.getValue env (instanceId env.ver) none = .ok i ∧
       name = "<instance ".toList ++ valText env i ++ ">".toList)) ∧
    splitWs row = splitWs name ++ ":".toList :: splitWs net ∧
    (vb ≠ .verbose → desc = []) ∧
    (vb = .verbose →
      (∃ x, it.getValue env itemDescription none = .ok (some x) ∧ desc.flatMap splitWs = splitWs (env.valStr x)) ∨
      (it.getValue env itemDescription none = .ok none ∧
       ((∃ x, it.getValue env "Caption".toList none = .ok (some x) ∧ desc.flatMap splitWs = splitWs (env.valStr x)) ∨
        (it.getValue env "Caption".toList none = .ok none ∧ desc = []))))

/-- The text of the transports (empty if there is none); version 0.9 has none. -/
def transportText (v : Ver) (hws : Option Elem) : Str :=
  match v, hws with
  | .v0, _ => []
  | _, none => []
  | v, some h => (h.get (transportAttr v)).getD []

/-- `ps` are the Property elements of the product section, in order (version 0.9 has none). -/
def IsProperties (v : Ver) (vs : Elem) (ps : List Elem) : Prop :=
  ((v = .v0 ∨ sectionsOf v vs "ProductSection".toList = []) ∧ ps = []) ∨
  (v ≠ .v0 ∧ ∃ s, sectionsOf v vs "ProductSection".toList = [s] ∧ ps = s.children.filter (fun e => e.tag == propertyTag v))

/-- The lines tell about the property: its key, label and value, or if that is too wide its label (or else its key) and
value; and, if asked, its description. -/
def PropRows (v : Ver) (vb : Verbosity) (wide : Bool) (e : Elem) (lines : List Str) : Prop :=
  ∃ (row : Str) (desc : List Str), lines = row :: desc ∧
    splitWs row =
      (let key := splitWs ("<".toList ++ (e.get (propKey v)).getD "None".toList ++ ">".toList)
       let label := firstText e (propLabel v)
       if wide then key ++ splitWs label else if label = [] then key else splitWs label) ++
      (match e.get (propValue v) with
       | some x => splitWs ("\"".toList ++ x ++ "\"".toList)
       | none => ["--".toList]) ∧
    (vb ≠ .verbose → desc = []) ∧ (vb = .verbose → desc.flatMap splitWs = splitWs (firstText e (propDesc v)))

/-- There is room for keys, labels and values beside each other, and there are labels. -/
def Wide (width : Int) (v : Ver) (ps : List Elem) (wide : Bool) : Prop :=
  ∃ k l x : Nat, Longest (ps.map (fun e => (e.get (propKey v)).getD "None".toList)) k ∧
    Longest (ps.map (fun e => firstText e (propLabel v))) l ∧
    Longest (ps.map (fun e => (e.get (propValue v)).getD "None".toList)) x ∧
    (wide = true ↔ 0 < l ∧ (k + l + x + 10 : Int) < width)

end Cot
