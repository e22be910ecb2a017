import Verif.Model.Package
import Verif.Model.PrettyBytes
import Verif.Model.ValidateHw
import Verif.Model.EditProperties
import Verif.Py.TextWrap
/-
Model of `cot info`: ovf.py `info_string` with its sections, `device_info_str`, `profile_info_list`, and
commands/info.py.  A section is a list of lines; the lines are joined at the end.
-/
namespace Cot

/-- `--brief`, nothing, `--verbose` -/
inductive Verbosity where
  | brief | normal | verbose
  deriving DecidableEq

/-- What the text depends on besides the package: the width of the terminal; how `pretty_bytes` shows negative numbers
and sizes that are not plain numerals; and `textwrap.TextWrapper` with its default options (breaking long words and at
hyphens), which is used for the labels of profiles only. -/
structure InfoWorld where
  width : Int
  negSize : Nat → Str
  oddSize : Str → Except Err Str
  wrapBreak : Int → Str → Str → Str → Except Err (List Str)

/-- What the functions see of the VM: `input_file`, the name of the platform if it is not the generic one, the virtual
system, the envelope, the virtual hardware section, and the package's files, disks and hardware. -/
structure InfoVM where
  env : Env
  py : PyVer
  input : Str
  platform : Option Str
  vs : Elem
  envelope : Elem
  hws : Option Elem
  pkg : Pkg

/-- `"{0:w}".format(s)` -/
def padR (w : Nat) (s : Str) : Str := s ++ List.replicate (w - s.length) ' '

/-- `"{0:>w}".format(s)` -/
def padL (w : Nat) (s : Str) : Str := List.replicate (w - s.length) ' ' ++ s

/-- `"{0}".format(x)` or `str(x)` for a text or None -/
def noneStr : Option Str → Str
  | none => "None".toList
  | some s => s

/-- `"{0}".format(x)` for a value of an item or None -/
def valText (env : Env) : Option Val → Str
  | none => "None".toList
  | some v => env.valStr v

/-- characters at which `str.splitlines()` breaks (besides the pair CR LF).  Simplification as for `isWs`: only ASCII,
not U+0085, U+2028 and U+2029. -/
def isLineEnd (c : Char) : Bool :=
  c == '\n' || c == '\r' || c == '\x0b' || c == '\x0c' || c == '\x1c' || c == '\x1d' || c == '\x1e'

/-- `text.splitlines()`; `cur` is the line being read -/
def splitLinesAux : Str → Str → List Str
  | [], cur => if cur = [] then [] else [cur]
  | '\r' :: '\n' :: t, cur => cur :: splitLinesAux t []
  | c :: t, cur => if isLineEnd c then cur :: splitLinesAux t [] else splitLinesAux t (cur ++ [c])

/-- `text.splitlines()` -/
def splitLines (s : Str) : List Str := splitLinesAux s []

/-- `s[:k]` -/
def sliceTo (s : Str) (k : Int) : Str := if 0 ≤ k then s.take k.toNat else s.take (s.length - (-k).toNat)

/-- `max` of a list of lengths, at least 0 -/
def maxLen (l : List Str) : Nat := l.foldl (fun m s => max m s.length) 0

/-- ovf.py:939-955 `_info_string_header`; `'-' * width` is empty if the width is not positive -/
def infoHeader (w : InfoWorld) (vm : InfoVM) : List Str :=
  let rule := List.replicate w.width.toNat '-'
  [rule, vm.input] ++ (match vm.platform with
    | none => []
    | some p => ["COT detected platform type: ".toList ++ p]) ++ [rule]

/-- one line: an empty one stays, others are wrapped -/
def wrapLine (width : Int) (i s l : Str) : Except Err (List Str) := if l = [] then .ok [[]] else textWrap width i s l

/-- for each line of a text: an empty line stays, the others are wrapped (ovf.py:1013-1017, 1050-1055, 1365-1369).  The
first line is indented by `i`, even if it is empty; the rest by `s`. -/
def wrapLines (width : Int) (i s : Str) : List Str → Except Err (List Str)
  | [] => .ok []
  | l :: r => do
    let x ← wrapLine width i s l
    let y ← wrapLines width s s r
    .ok (x ++ y)

/-- ovf.py:975-985: label, field, default, only shown if not brief -/
def productTable : List (Str × Field × Str × Bool) :=
  [("Product:  ".toList, .product, "(No product string)".toList, false),
   ("          ".toList, .productUrl, "(No product URL)".toList, true),
   ("Vendor:   ".toList, .vendor, "(No vendor string)".toList, false),
   ("          ".toList, .vendorUrl, "(No vendor URL)".toList, true),
   ("Version:  ".toList, .version, "(No version string)".toList, false),
   ("          ".toList, .fullVersion, "(No detailed version string)".toList, true)]

/-- ovf.py:974-990, the loop -/
def productLoop (w : InfoWorld) (vm : InfoVM) (vb : Verbosity) :
    List (Str × Field × Str × Bool) → Except Err (List Str)
  | [] => .ok []
  | (label, f, dflt, vo) :: r =>
    if vb = .brief ∧ vo = true then productLoop w vm vb r
    else do
      let x ← getField vm.env.ver vm.vs f
      let ls ← textWrap w.width [] "          ".toList (label ++ x.getD dflt)
      let rest ← productLoop w vm vb r
      .ok (ls ++ rest)

/-- truth of an optional text -/
def given? : Option Str → Bool
  | none => false
  | some s => !s.isEmpty

/-- ovf.py:957-992 `_info_string_product` -/
def infoProduct (w : InfoWorld) (vm : InfoVM) (vb : Verbosity) : Except Err (List Str) := do
  let v := vm.env.ver
  let a ← getField v vm.vs .product
  let b ← getField v vm.vs .vendor
  let c ← getField v vm.vs .version
  let d ← getField v vm.vs .productUrl
  let e ← getField v vm.vs .vendorUrl
  let f ← getField v vm.vs .fullVersion
  if !(given? a || given? b || given? c) && (decide (vb = .brief) || !(given? d || given? e || given? f)) then .ok []
  else productLoop w vm vb productTable

/-- ovf.py:994-1021 `_info_string_annotation` (ovf.py:237-240 finds the section) -/
def infoAnnotation (w : InfoWorld) (vm : InfoVM) : Except Err (List Str) :=
  let v := vm.env.ver
  match findChild vm.vs (sectionTag v "AnnotationSection".toList) (sectionAttrib v "AnnotationSection".toList) false with
  | .error e => .error e
  | .ok none => .ok []
  | .ok (some s) => match findFirst s (ovfTag v "Annotation".toList) with
    | none => .ok []
    | some a => match a.text with
      | none => .ok []
      | some t => wrapLines w.width "Annotation: ".toList "            ".toList (splitLines t)

/-- the text of the first child with this tag; "" if there is no such child or it has no text -/
def textOf (e : Elem) (tag : Str) : Str :=
  match findFirst e tag with
  | none => []
  | some l => l.text.getD []

/-- ovf.py:1044-1047: the info text, if there is one -/
def eulaInfo (w : InfoWorld) (t : Str) : Except Err (List Str) :=
  if t = [] then .ok [] else textWrap w.width "  ".toList "  ".toList t

/-- ovf.py:1048-1058: the licence, or how to see it -/
def eulaBody (w : InfoWorld) (vb : Verbosity) (lic : Str) : Except Err (List Str) :=
  if vb ≠ .verbose then .ok ["    (not displayed, use 'cot info --verbose' if desired)".toList]
  else wrapLines w.width "    ".toList "    ".toList (splitLines lic)

/-- ovf.py:1044-1058: one EULA -/
def eulaLines (w : InfoWorld) (v : Ver) (vb : Verbosity) (e : Elem) (lic : Str) : Except Err (List Str) := do
  let x ← eulaInfo w (textOf e (infoTag v))
  let y ← eulaBody w vb lic
  .ok (x ++ y)

/-- ovf.py:1037-1055, the loop over the EULA sections; those without text are skipped -/
def eulaLoop (w : InfoWorld) (v : Ver) (vb : Verbosity) (header : Bool) : List Elem → Except Err (List Str)
  | [] => .ok []
  | e :: r =>
    if textOf e (ovfTag v "License".toList) = [] then eulaLoop w v vb header r
    else do
      let x ← eulaLines w v vb e (textOf e (ovfTag v "License".toList))
      let y ← eulaLoop w v vb true r
      .ok ((if header then [] else ["End User License Agreement(s):".toList]) ++ x ++ y)

/-- ovf.py:1023-1056 `_info_string_eula` -/
def infoEula (w : InfoWorld) (vm : InfoVM) (vb : Verbosity) : Except Err (List Str) :=
  let v := vm.env.ver
  eulaLoop w v vb false
    (findAllChildren vm.vs (sectionTag v "EulaSection".toList) (sectionAttrib v "EulaSection".toList))

/-- ovf.py:1415-1437 `device_info_str(device_item)` -/
def deviceInfo (env : Env) (hw : Hw) : Option Str → Except Err Str
  | none => .ok []
  | some k => match dget? hw k with
    | none => .error .keyError
    | some it => do
      let c ← findParent env hw (some k)
      let (ct, ca) ← match c with
        | none => .ok ("(?)".toList, "?".toList)
        | some c => match dget? hw c with
          | none => .error .keyError
          | some ci => do
            let a ← ci.getValue env address none
            .ok (upper (ci.hardwareType env), valText env a)
      let b ← it.getValue env addressOnParent none
      .ok (it.hardwareType env ++ " @ ".toList ++ ct ++ ' ' :: ca ++ ':' :: valText env b)

/-- `pretty_bytes` of an int -/
def prettyInt (w : InfoWorld) : Int → Except Err Str
  | .ofNat n => prettyBytes n
  | .negSucc n => .ok (w.negSize (n + 1))

/-- `pretty_bytes` of the text of a size attribute.  `float` of a plain numeral is the nearest double, as for an int.
(Where that is infinite, the loop in `pretty_bytes` does not end; here, an error.) -/
def prettyText (w : InfoWorld) (s : Str) : Except Err Str :=
  if s ≠ [] ∧ ∀ c ∈ s, isDig c = true then prettyBytes (digitsVal s) else w.oddSize s

/-- what is told about a file: (file_id, file_size, disk_id, disk_capacity, device_info) -/
structure FileInfo where
  fileId : Option Str
  size : Str
  diskId : Option Str
  capacity : Str
  device : Str

/-- ovf.py:1083-1088: the size of a file, if it is stated -/
def sizeCell (w : InfoWorld) : Option Str → Except Err Str
  | none => .ok []
  | some s => prettyText w s

/-- `pretty_bytes(get_capacity_from_disk(disk))` for the Disk at position `j` -/
def capCell (w : InfoWorld) (v : Ver) (p : Pkg) (j : Nat) : Except Err Str :=
  match p.diskList[j]? with
  | none => .error .indexError
  | some d => match capacityOf v d with
    | .error e => .error e
    | .ok z => prettyInt w z

/-- ovf.py:1075-1110 `_info_strings_for_file(file_obj)`, for the File at position `i` -/
def fileInfo (w : InfoWorld) (env : Env) (p : Pkg) (i : Nat) : Except Err FileInfo := do
  let v := env.ver
  let fid := attrOf p.refs.children i (fileId v)
  let size ← sizeCell w (attrOf p.refs.children i (fileSize v))
  match ← findDiskFromFileId v p fid with
  | none => do
    let k ← findItemFromFile env p (some i)
    let dev ← deviceInfo env p.hw k
    .ok ⟨fid, size, some [], [], dev⟩
  | some j => do
    let cap ← capCell w v p j
    let k ← findItemFromDisk env p (some j)
    let dev ← deviceInfo env p.hw k
    .ok ⟨fid, size, attrOf p.diskList j (diskId v), cap, dev⟩

/-- ovf.py:1063-1068 INFO_STRING_DISK_TEMPLATE: name, file size, capacity, device -/
def diskLine (nameW : Nat) (name size cap dev : Str) : Str :=
  padR nameW name ++ ' ' :: padL 9 size ++ ' ' :: padL 9 cap ++ ' ' :: dev.take 20

/-- ovf.py:1066-1069 INFO_STRING_FILE_TEMPLATE -/
def fileLine (nameW : Nat) (name size : Str) : Str := padR nameW name ++ ' ' :: padL 9 size

/-- ovf.py:1131-1136: the width of the column of names, from the lengths of the names and of the terminal -/
def nameWidth (width : Int) (hrefs : List Str) : Nat := (max (min (maxLen hrefs : Int) (width - 41 - 2)) 18 + 2).toNat

/-- ovf.py:1149-1152: the name, cut to fit -/
def nameCell (nameW : Nat) (href : Str) : Str :=
  let s := "  ".toList ++ href
  if s.length > nameW then s.take (nameW - 3) ++ "...".toList else s

/-- ovf.py:1153-1157: the line of a file; without capacity and device, in the shorter format -/
def fileRow (nameW : Nat) (href : Str) (x : FileInfo) : Str :=
  if x.capacity ≠ [] ∨ x.device ≠ [] then diskLine nameW (nameCell nameW href) x.size x.capacity x.device
  else fileLine nameW (nameCell nameW href) x.size

/-- ovf.py:1159-1162: the lines with the identifiers -/
def idLines (x : FileInfo) : List Str :=
  ("    File ID: ".toList ++ noneStr x.fileId) :: (match x.diskId with
    | none => []
    | some d => if d = [] then [] else ["    Disk ID: ".toList ++ d])

/-- a text that is measured or concatenated; None is a TypeError -/
def needText : Option Str → Except Err Str
  | none => .error .typeError
  | some s => .ok s

/-- ovf.py:1144-1163, the loop over the files; the files are given by their positions -/
def filesLoop (w : InfoWorld) (env : Env) (p : Pkg) (vb : Verbosity) (nameW : Nat) : List Nat → Except Err (List Str)
  | [] => .ok []
  | i :: r => do
    let x ← fileInfo w env p i
    let href ← needText (attrOf p.refs.children i (fileHref env.ver))
    let rest ← filesLoop w env p vb nameW r
    .ok (fileRow nameW href x :: (if vb = .verbose then idLines x else []) ++ rest)

/-- ovf.py:1162-1175, the loop over the disks, by position -/
def disksLoop (w : InfoWorld) (env : Env) (p : Pkg) (nameW : Nat) : List Nat → Except Err (List Str)
  | [] => .ok []
  | j :: r => do
    let f ← findPos p.refs.children (fileTag env.ver) (fileId env.ver) (attrOf p.diskList j (diskFileRef env.ver))
    match f with
    | some _ => disksLoop w env p nameW r
    | none => do
      let cap ← capCell w env.ver p j
      let k ← findItemFromDisk env p (some j)
      let dev ← deviceInfo env p.hw k
      let rest ← disksLoop w env p nameW r
      .ok (diskLine nameW "  (disk placeholder)".toList "--".toList cap dev :: rest)

/-- the positions of the File elements / Disk elements -/
def filePositions (v : Ver) (p : Pkg) : List Nat := positions (fun e => e.tag == fileTag v) p.refs.children 0
def diskPositions (v : Ver) (p : Pkg) : List Nat := positions (fun e => e.tag == diskTag v) p.diskList 0

/-- `[f.get(FILE_HREF) for f in file_list]`; `len(None)` is a TypeError -/
def hrefsOf (v : Ver) (p : Pkg) : List Nat → Except Err (List Str)
  | [] => .ok []
  | i :: r => match attrOf p.refs.children i (fileHref v) with
    | none => .error .typeError
    | some h => match hrefsOf v p r with
      | .error e => .error e
      | .ok l => .ok (h :: l)

/-- ovf.py:1112-1175 `_info_string_files_disks` -/
def infoFiles (w : InfoWorld) (vm : InfoVM) (vb : Verbosity) : Except Err (List Str) :=
  let v := vm.env.ver
  let p := vm.pkg
  if filePositions v p = [] ∧ diskPositions v p = [] then .ok []
  else do
    let hrefs ← hrefsOf v p (filePositions v p)
    let nw := nameWidth w.width hrefs
    let a ← filesLoop w vm.env p vb nw (filePositions v p)
    let b ← disksLoop w vm.env p nw (diskPositions v p)
    .ok (diskLine nw "Files and Disks:".toList "File Size".toList "Capacity".toList "Device".toList ::
      diskLine nw [] "---------".toList "---------".toList "--------------------".toList :: a ++ b)

/-- ovf.py:1203-1215: one kind of hardware, if there are subtypes -/
def variantLines (w : InfoWorld) (label : Str) (l : List Str) : Except Err (List Str) :=
  textWrap w.width label (List.replicate 28 ' ') (joinWith [' '] l)

/-- the system types, if stated -/
def systemTypeLines (w : InfoWorld) : Option (List Str) → Except Err (List Str)
  | none => .ok []
  | some l => variantLines w "  System types:             ".toList l

/-- one kind of subtypes, if there are any -/
def subtypeLines (w : InfoWorld) (label : Str) (l : List Str) : Except Err (List Str) :=
  if l = [] then .ok [] else variantLines w label l

/-- ovf.py:1177-1215 `_info_string_hardware` -/
def infoHardware (w : InfoWorld) (vm : InfoVM) : Except Err (List Str) := do
  let types := getSystemTypes vm.env.ver vm.hws
  let scsi ← subtypesOf vm.env vm.pkg.hw "scsi".toList
  let ide ← subtypesOf vm.env vm.pkg.hw "ide".toList
  let eth ← subtypesOf vm.env vm.pkg.hw "ethernet".toList
  if types = none ∧ scsi = [] ∧ ide = [] ∧ eth = [] then .ok []
  else do
    let a ← systemTypeLines w types
    let b ← subtypeLines w "  SCSI device types:        ".toList scsi
    let c ← subtypeLines w "  IDE device types:         ".toList ide
    let d ← subtypeLines w "  Ethernet device types:    ".toList eth
    .ok ("Hardware Variants:".toList :: a ++ b ++ c ++ d)

/-- ovf.py:1440-1447 PROFILE_INFO_TEMPLATE -/
def profileLine (nameW : Nat) (name cpus mem nics serials disks : Str) : Str :=
  padR nameW name ++ ' ' :: padL 4 cpus ++ ' ' :: padL 9 mem ++ ' ' :: padL 4 nics ++ ' ' :: padL 7 serials ++
    ' ' :: padL 14 disks

/-- ovf.py:1482-1484 with the format `{1:>4}`: the number of CPUs; formatting None with a width raises a TypeError on
Python 3 -/
def cpuCell (env : Env) (py : PyVer) (hw : Hw) (p : Prof) : Except Err Str := do
  match ← itemUnder env hw "cpu".toList p with
  | none => .ok "0".toList
  | some it => match ← it.getValue env virtualQuantity (some {p}) with
    | some (.str s) => .ok s
    | some (.tup _) => .error .typeError
    | none => match py with
      | .py2 => .ok "None".toList
      | .py3 => .error .typeError

/-- ovf.py:1486-1490: the memory in bytes -/
def memCell (env : Env) (hw : Hw) (p : Prof) : Except Err Int := do
  match ← itemUnder env hw "memory".toList p with
  | none => .ok 0
  | some it => memBytes env it p

/-- ovf.py:1495-1498: the sum of the capacities of all Disks -/
def disksTotal (v : Ver) : List Elem → Except Err Int
  | [] => .ok 0
  | d :: r => if d.tag = diskTag v then do
      let a ← capacityOf v d
      let b ← disksTotal v r
      .ok (a + b)
    else disksTotal v r

/-- vm_description.py:292-301 `default_config_profile` -/
def defaultProfile (env : Env) : Prof := env.configProfiles.head?

/-- ovf.py:1500-1502: the name of the profile, with the mark of the default one -/
def profileName (env : Env) (p : Prof) : Str :=
  "  ".toList ++ noneStr p ++ (if p = defaultProfile env then " (default)".toList else [])

/-- ovf.py:1465-1467: the width of the column of names -/
def profileWidth (env : Env) : Nat :=
  max (max 24 (2 + maxLen ((profIds env).map noneStr))) (2 + (noneStr (defaultProfile env) ++ " (default)".toList).length)

/-- ovf.py:1478-1510: the row of a profile -/
def profileRow (w : InfoWorld) (vm : InfoVM) (p : Prof) : Except Err Str := do
  let env := vm.env
  let hw := vm.pkg.hw
  let cpus ← cpuCell env vm.py hw p
  let mem ← memCell env hw p
  let nics ← itemCount env hw "ethernet".toList p
  let serials ← itemCount env hw "serial".toList p
  let disks ← itemCount env hw "harddisk".toList p
  let total ← disksTotal env.ver vm.pkg.diskList
  let m ← prettyInt w mem
  let t ← prettyInt w total
  .ok (profileLine (profileWidth env) (profileName env p) cpus m (natStr nics) (natStr serials)
    (padL 2 (natStr disks) ++ " / ".toList ++ padL 9 t))

/-- ovf.py:1511-1520: the label and the description of a profile -/
def profileLabels (w : InfoWorld) (vm : InfoVM) (p : Str) : Except Err (List Str) :=
  let v := vm.env.ver
  match findChild vm.envelope (deployTag v) [] false with
  | .error e => .error e
  | .ok none => .error .attributeError
  | .ok (some s) => match findChild s (configTag v) [(configId v, p)] false with
    | .error e => .error e
    | .ok none => .error .attributeError
    | .ok (some c) => do
      let a ← w.wrapBreak w.width "    ".toList (List.replicate 21 ' ')
        (padR 15 "Label:".toList ++ " \"".toList ++ noneStr (findText c (configLabel v)) ++ "\"".toList)
      let b ← w.wrapBreak w.width "    ".toList (List.replicate 21 ' ')
        (padR 15 "Description:".toList ++ " \"".toList ++ noneStr (findText c (configDesc v)) ++ "\"".toList)
      .ok (a ++ b)

/-- ovf.py:1511: label and description are shown for named profiles, and if not brief -/
def labelsIf (w : InfoWorld) (vm : InfoVM) (verbose : Bool) : Prof → Except Err (List Str)
  | some q => if verbose then profileLabels w vm q else .ok []
  | none => .ok []

/-- ovf.py:1477-1522, the loop over the profiles -/
def profilesLoop (w : InfoWorld) (vm : InfoVM) (verbose : Bool) : List Prof → Except Err (List Str)
  | [] => .ok []
  | p :: r => do
    let row ← profileRow w vm p
    let labels ← labelsIf w vm verbose p
    let rest ← profilesLoop w vm verbose r
    .ok (row :: labels ++ rest)

/-- ovf.py:1448-1523 `profile_info_list(width, verbose)` and 1525-1537 `profile_info_string` -/
def infoProfiles (w : InfoWorld) (vm : InfoVM) (vb : Verbosity) : Except Err (List Str) := do
  let rows ← profilesLoop w vm (decide (vb ≠ .brief)) (profIds vm.env)
  let nw := profileWidth vm.env
  .ok (profileLine nw "Configuration Profiles:".toList "CPUs".toList "Memory".toList "NICs".toList "Serials".toList
      "Disks/Capacity".toList ::
    profileLine nw [] "----".toList "---------".toList "----".toList "-------".toList "--------------".toList :: rows)

/-- ovf.py:1235-1237: the names; `len(None)` is a TypeError -/
def allNames : List (Option Str) → Except Err (List Str)
  | [] => .ok []
  | none :: _ => .error .typeError
  | some n :: r => match allNames r with
    | .error e => .error e
    | .ok l => .ok (n :: l)

/-- ovf.py:1246-1254: the line of a network; a long description is cut, or wrapped -/
def networkLines (w : InfoWorld) (truncate : Bool) (maxN : Nat) (maxD : Int) (n d : Str) : Except Err (List Str) :=
  if d = [] then .ok ["  ".toList ++ n]
  else if truncate ∧ (d.length : Int) > maxD then
    .ok ["  ".toList ++ padR maxN n ++ "  \"".toList ++ sliceTo d (maxD - 3) ++ "...\"".toList]
  else textWrap w.width "  ".toList (List.replicate (5 + maxN) ' ') (padR maxN n ++ "  \"".toList ++ d ++ "\"".toList)

/-- ovf.py:1245-1254, the loop over the networks -/
def networksLoop (w : InfoWorld) (truncate : Bool) (maxN : Nat) (maxD : Int) :
    List (Str × Option Str) → Except Err (List Str)
  | [] => .ok []
  | (n, d) :: r => do
    let x ← networkLines w truncate maxN maxD n (d.getD [])
    let rest ← networksLoop w truncate maxN maxD r
    .ok (x ++ rest)

/-- ovf.py:1217-1255 `_info_string_networks`; `max([])` is a ValueError -/
def infoNetworks (w : InfoWorld) (vm : InfoVM) (vb : Verbosity) : Except Err (List Str) :=
  let v := vm.env.ver
  match findChild vm.envelope (netSecTag v) (netSecAttrib v) false with
  | .error e => .error e
  | .ok none => .ok []
  | .ok (some s) =>
    let nets := findAllChildren s (networkTag v) []
    match allNames (nets.map (fun n => n.get (networkName v))) with
    | .error e => .error e
    | .ok names =>
      let descs := nets.map (fun n => findText n (networkDesc v))
      if names = [] then .error .valueError
      else
        let maxN := maxLen names
        let maxD := maxLen (descs.map noneStr)
        let truncate := decide ((maxN + maxD + 6 : Int) ≥ w.width) && decide (vb ≠ .verbose)
        match networksLoop w truncate maxN (if truncate then w.width - 6 - maxN else maxD) (names.zip descs) with
        | .error e => .error e
        | .ok l => .ok ("Networks:".toList :: l)

/-- ovf.py:1276-1278: the names of the NICs as text -/
def nicNames (env : Env) (hw : Hw) : List Str → Except Err (List Str)
  | [] => .ok []
  | k :: r => do
    let x ← valueAt env hw k (elementName env.ver)
    let rest ← nicNames env hw r
    .ok (valText env x :: rest)

/-- name_helper.py `CAPTION` -/
def caption : Str := "Caption".toList

/-- ovf.py:1284-1287: the name, or the instance -/
def nicName (env : Env) (hw : Hw) (k : Str) : Except Err Str :=
  match valueAt env hw k (elementName env.ver) with
  | .error e => .error e
  | .ok (some n) => .ok (env.valStr n)
  | .ok none => match valueAt env hw k (instanceId env.ver) with
    | .error e => .error e
    | .ok i => .ok ("<instance ".toList ++ valText env i ++ ">".toList)

/-- ovf.py:1291-1293: the description, or the caption -/
def nicText (env : Env) (hw : Hw) (k : Str) : Except Err (Option Val) :=
  match valueAt env hw k itemDescription with
  | .error e => .error e
  | .ok (some d) => .ok (some d)
  | .ok none => valueAt env hw k caption

/-- ovf.py:1290-1295: the lines of the description -/
def nicDesc (w : InfoWorld) (env : Env) (hw : Hw) (vb : Verbosity) (k : Str) : Except Err (List Str) :=
  if vb = .verbose then match nicText env hw k with
    | .error e => .error e
    | .ok none => .ok []
    | .ok (some d) => textWrap w.width "    ".toList "    ".toList (env.valStr d)
  else .ok []

/-- ovf.py:1281-1295, the loop over the NICs -/
def nicsLoop (w : InfoWorld) (env : Env) (hw : Hw) (vb : Verbosity) (maxN : Nat) : List Str → Except Err (List Str)
  | [] => .ok []
  | k :: r => do
    let net ← valueAt env hw k connection
    let name ← nicName env hw k
    let desc ← nicDesc w env hw vb k
    let rest ← nicsLoop w env hw vb maxN r
    .ok (("  ".toList ++ padR maxN name ++ " : ".toList ++ valText env net) :: desc ++ rest)

/-- ovf.py:1257-1295 `_info_string_nics` -/
def infoNics (w : InfoWorld) (vm : InfoVM) (vb : Verbosity) : Except Err (List Str) :=
  if vb = .brief then .ok []
  else match findAllItems vm.env vm.pkg.hw (some "ethernet".toList) [] [] with
    | .error e => .error e
    | .ok ids =>
      if ids = [] then .ok []
      else match nicNames vm.env vm.pkg.hw ids with
        | .error e => .error e
        | .ok names => match nicsLoop w vm.env vm.pkg.hw vb (max (maxLen names) 13) ids with
          | .error e => .error e
          | .ok l => .ok ("NICs and Associated Networks:".toList :: l)

/-- ovf.py:1297-1315 `_info_string_environment` -/
def infoEnvironment (w : InfoWorld) (vm : InfoVM) : Except Err (List Str) :=
  match getTransports vm.env.ver vm.hws with
  | none => .ok []
  | some [] => .ok []
  | some l => match textWrap w.width "  ".toList "    ".toList ("Transport types: ".toList ++ joinWith [' '] l) with
    | .error e => .error e
    | .ok x => .ok ("Environment:".toList :: x)

/-- ovf.py:562-586 `environment_properties`: key, value, label, description -/
structure PropInfo where
  key : Option Str
  value : Option Str
  label : Str
  desc : Str

def propInfos (v : Ver) (vs : Elem) : Except Err (List PropInfo) :=
  if v = .v0 then .ok []
  else match prodSec v vs with
    | .error e => .error e
    | .ok none => .ok []
    | .ok (some s) => .ok ((findAllChildren s (propertyTag v) []).map (fun p =>
        ⟨p.get (propKey v), p.get (propValue v), (findText p (propLabel v)).getD [], (findText p (propDesc v)).getD []⟩))

/-- `"<{0}>".format(key)` -/
def keyCell (p : PropInfo) : Str := "<".toList ++ noneStr p.key ++ ">".toList

/-- the value in quotes, or `--` -/
def valueCell (p : PropInfo) : Str :=
  match p.value with
  | some x => "\"".toList ++ x ++ "\"".toList
  | none => "--".toList

/-- ovf.py:1332-1340: the widths of the columns -/
structure PropWidths where
  key : Nat
  label : Nat
  value : Nat
  width : Nat

def propWidths (ps : List PropInfo) : PropWidths :=
  let k := 2 + maxLen (ps.map (fun p => noneStr p.key))
  let l := maxLen (ps.map PropInfo.label)
  let v := maxLen (ps.map (fun p => noneStr p.value))
  ⟨k, l, v, if ps.all (fun p => !p.label.isEmpty) then l else max k l⟩

/-- ovf.py:1343-1363: the line of a property: key, label and value if the terminal is wide enough, else label (or, without
one, the key) and value -/
def propLine (width : Int) (m : PropWidths) (p : PropInfo) : Str :=
  if m.label > 0 ∧ ((m.key + m.label + m.value : Nat) : Int) < width - 8 then
    "  ".toList ++ padR m.key (keyCell p) ++ "  ".toList ++ padR m.label p.label ++ "  ".toList ++ valueCell p
  else "  ".toList ++ padR m.width (if p.label = [] then keyCell p else p.label) ++ "  ".toList ++ valueCell p

/-- ovf.py:1365-1369: the description of a property -/
def propDescLines (w : InfoWorld) (vb : Verbosity) (d : Str) : Except Err (List Str) :=
  if vb = .verbose then wrapLines w.width "      ".toList "      ".toList (splitLines d) else .ok []

/-- ovf.py:1341-1370, the loop -/
def propsLoop (w : InfoWorld) (vb : Verbosity) (m : PropWidths) : List PropInfo → Except Err (List Str)
  | [] => .ok []
  | p :: r => do
    let d ← propDescLines w vb p.desc
    let rest ← propsLoop w vb m r
    .ok (propLine w.width m p :: d ++ rest)

/-- ovf.py:1317-1371 `_info_string_properties` -/
def infoProperties (w : InfoWorld) (vm : InfoVM) (vb : Verbosity) : Except Err (List Str) :=
  match propInfos vm.env.ver vm.vs with
  | .error e => .error e
  | .ok ps =>
    if ps = [] then .ok []
    else match propsLoop w vb (propWidths ps) ps with
      | .error e => .error e
      | .ok l => .ok ("Properties:".toList :: l)

/-- the sections as texts; empty ones are discarded (ovf.py:1410) -/
def keepSections (l : List (List Str)) : List Str := (l.map (joinWith ['\n'])).filter (fun s => !s.isEmpty)

/-- ovf.py:1373-1413 `info_string(width, verbosity_option)` -/
def infoString (w : InfoWorld) (vm : InfoVM) (vb : Verbosity) : Except Err Str := do
  let a ← infoProduct w vm vb
  let b ← infoAnnotation w vm
  let c ← infoEula w vm vb
  let d ← infoFiles w vm vb
  let e ← infoHardware w vm
  let f ← infoProfiles w vm vb
  let g ← infoNetworks w vm vb
  let h ← infoNics w vm vb
  let i ← infoEnvironment w vm
  let j ← infoProperties w vm vb
  .ok (joinWith ['\n'] (infoHeader w vm) ++ '\n' :: joinWith ['\n', '\n'] (keepSections [a, b, c, d, e, f, g, h, i, j]))

/-- What `cot info` prints on the screen, and what it logs as an error (by package). -/
inductive InfoOut where
  | line (s : Str)
  | problem (package : Str)
  deriving DecidableEq

/-- vm_description.py:124-169 `factory` and ovf.py:1373 `info_string`: the text about a package.  Leaving the `with`
block writes nothing, as there is no output file. -/
def infoText (load : Str → Except Err InfoVM) (w : InfoWorld) (vb : Verbosity) (p : Str) : Except Err Str :=
  match load p with
  | .error e => .error e
  | .ok vm => infoString w vm vb

/-- info.py:95-108, the loop over the packages: what is printed and logged, and the exception that ended it -/
def infoLoop (load : Str → Except Err InfoVM) (w : InfoWorld) (vb : Verbosity) : Bool → List Str → List InfoOut × Option Err
  | _, [] => ([], none)
  | first, p :: r =>
    let sep := if first then [] else [InfoOut.line []]
    match infoText load w vb p with
    | .ok t => (sep ++ .line t :: (infoLoop load w vb false r).1, (infoLoop load w vb false r).2)
    | .error .vmInitError => (sep ++ .problem p :: (infoLoop load w vb false r).1, (infoLoop load w vb false r).2)
    | .error e => (sep, some e)

/-- info.py:57-63 the setter of `package_list`, 77-85 `ready_to_run`, 87-108 `run`; `w.width` is the width of the terminal
less one -/
def infoRun (exist : Str → Bool) (load : Str → Except Err InfoVM) (w : InfoWorld) (vb : Verbosity) (ps : List Str) :
    List InfoOut × Option Err :=
  if ps.all exist = false then ([], some .invalidInput)
  else if ps = [] then ([], some .invalidInput)
  else infoLoop load w vb true ps

end Cot
