import Verif.Model.Info
import Verif.Spec.ValidateHw
import Verif.Spec.Package
import Verif.Spec.DiskDevice
/-
Specification for C89 to C91: what `cot info` has to tell.  A line is compared by its words (`splitWs`), that is without
regard to the spacing between the columns.
-/
namespace Cot

/-- `t` is how the number of bytes `z` is shown (C87). -/
def SizeText (z : Int) (t : Str) : Prop := ∀ n : Nat, z = n → prettyBytes n = .ok t

/-- `total` is the sum of the capacities of the Disks of the package. -/
def TotalCapacity (v : Ver) (p : Pkg) (total : Int) : Prop :=
  ∃ caps : List Int, List.Forall₂ (fun d z => capacityOf v d = .ok z) (diskEntries v p) caps ∧ total = caps.sum

/-- The line tells about the profile: its name, whether it is the default one, CPUs, memory, the numbers of NICs, serial
ports and hard disks, and the total capacity of the package's disks. -/
def ProfileRow (vm : InfoVM) (p : Prof) (line : Str) : Prop :=
  ∃ (cpus mem cap : Str) (bytes total : Int),
    ((∃ it, DeviceUnder vm.env vm.pkg.hw "3".toList p it ∧ Reads (it.tab virtualQuantity) p (.str cpus)) ∨
     ((∀ it, ¬ DeviceUnder vm.env vm.pkg.hw "3".toList p it) ∧ cpus = "0".toList) ∨
     (vm.py = .py2 ∧ (∃ it, DeviceUnder vm.env vm.pkg.hw "3".toList p it ∧ ∀ x, ¬ Reads (it.tab virtualQuantity) p x) ∧
      cpus = "None".toList)) ∧
    (HasMemory vm.env vm.pkg.hw p bytes ∨ ((∀ it, ¬ DeviceUnder vm.env vm.pkg.hw "4".toList p it) ∧ bytes = 0)) ∧
    SizeText bytes mem ∧
    TotalCapacity vm.env.ver vm.pkg total ∧ SizeText total cap ∧
    splitWs line =
      (match p with
       | none => ["None".toList]
       | some q => splitWs q) ++
      (if p = vm.env.configProfiles.head? then ["(default)".toList] else []) ++
      splitWs cpus ++ splitWs mem ++
      [natStr (countOf vm.env vm.pkg.hw "10".toList p), natStr (countOf vm.env vm.pkg.hw "21".toList p),
       natStr (countOf vm.env vm.pkg.hw "17".toList p), "/".toList] ++ splitWs cap

/-- the characters of a text that are not white space -/
def ink (s : Str) : Str := s.filter (fun c => !isWs c)

/-- Wrapping changes only white space (`wrapBreak`: the standard library's `textwrap` with its default options). -/
def KeepsInk (wrap : Int → Str → Str → Str → Except Err (List Str)) : Prop :=
  ∀ w i s t ls, (∀ c ∈ i, isWs c = true) → (∀ c ∈ s, isWs c = true) → wrap w i s t = .ok ls → ink ls.flatten = ink t

/-- The lines tell the label and the description of the profile's Configuration element. -/
def ProfileLabels (vm : InfoVM) (p : Prof) (lines : List Str) : Prop :=
  match p with
  | none => lines = []
  | some q => ∃ s c, s ∈ vm.envelope.children ∧ s.tag = deployTag vm.env.ver ∧ c ∈ s.children ∧
      c.tag = configTag vm.env.ver ∧ c.get (configId vm.env.ver) = some q ∧
      ink lines.flatten =
        "Label:\"".toList ++ ink ((findText c (configLabel vm.env.ver)).getD "None".toList) ++ "\"".toList ++
        "Description:\"".toList ++ ink ((findText c (configDesc vm.env.ver)).getD "None".toList) ++ "\"".toList

/-- The only value of the property, or the word None. -/
def OnlyValue (t : Tab) (s : Str) : Prop :=
  (∃ S, t = [(.str s, S)]) ∨ ((∀ x S, t ≠ [(.str x, S)]) ∧ s = "None".toList)

/-- The name of the device's type. -/
def TypeName (it : Item) (t : Str) : Prop :=
  (∃ code, OfType it code ∧ ((t, code) ∈ resMap ∨ ((∀ n, (n, code) ∉ resMap) ∧ t = "unknown (".toList ++ code ++ ")".toList))) ∨
  ((∀ code, ¬ OfType it code) ∧ t = "unknown (None)".toList)

/-- The text describes the device: its type, the type and address of its controller, and its address there. -/
def Describes (env : Env) (hw : Hw) (it : Item) (text : Str) : Prop :=
  ∃ t ct a b : Str, TypeName it t ∧ OnlyValue (it.tab addressOnParent) b ∧
    ((∃ c ci x, ChildOf it c ∧ dget? hw c = some ci ∧ InDefault env ci ∧ TypeName ci x ∧ ct = upper x ∧
        OnlyValue (ci.tab address) a) ∨
     ((∀ c ci, ChildOf it c → dget? hw c = some ci → ¬ InDefault env ci) ∧ ct = "(?)".toList ∧ a = "?".toList)) ∧
    text = t ++ " @ ".toList ++ ct ++ " ".toList ++ a ++ ":".toList ++ b

/-- The text describes the device that uses the File or Disk, or is empty if there is none. -/
def DeviceCell (env : Env) (hw : Hw) (uses : Item → Prop) (text : Str) : Prop :=
  ((∀ k it, dget? hw k = some it → InDefault env it → ¬ uses it) ∧ text = []) ∨
  ∃ k it, dget? hw k = some it ∧ InDefault env it ∧ uses it ∧ Describes env hw it text

/-- The name of the file, cut if it does not fit: the room is what the terminal leaves besides the other columns (43
characters), but no more than the longest name takes, and at least 18. -/
def ShownName (width : Int) (longest : Nat) (href name : Str) : Prop :=
  ∃ room : Nat, (room : Int) = max (min (longest : Int) (width - 43)) 18 ∧
    ((href.length ≤ room ∧ name = href) ∨ (room < href.length ∧ name = href.take (room - 3) ++ "...".toList))

/-- `n` is the length of the longest of the texts (0 if there is none). -/
def Longest (l : List Str) (n : Nat) : Prop := (∀ s ∈ l, s.length ≤ n) ∧ (n = 0 ∨ ∃ s ∈ l, s.length = n)

/-- the line with the identifier of a Disk, if there is one -/
def diskIdWords : Option Str → List (List Str)
  | none => []
  | some x => if x = [] then [] else [["Disk".toList, "ID:".toList] ++ splitWs x]

/-- The lines tell about the File: its name, size, the capacity of the disk it contains and the device that uses it; and,
if asked, the identifiers. -/
def FileRows (width : Int) (longest : Nat) (vm : InfoVM) (vb : Verbosity) (e : Elem) (lines : List Str) : Prop :=
  ∃ (fid href name size cap dev line : Str) (did : Option Str),
    e.get (fileId vm.env.ver) = some fid ∧ e.get (fileHref vm.env.ver) = some href ∧ ShownName width longest href name ∧
    ((e.get (fileSize vm.env.ver) = none ∧ size = []) ∨
     ∃ s, e.get (fileSize vm.env.ver) = some s ∧ ((s ≠ [] ∧ ∀ c ∈ s, isDig c = true) → SizeText (digitsVal s) size)) ∧
    ((∃ d z, d ∈ vm.pkg.diskList ∧ DiskWith vm.env.ver (diskFileRef vm.env.ver) fid d ∧ capacityOf vm.env.ver d = .ok z ∧
        SizeText z cap ∧ d.get (diskId vm.env.ver) = did ∧
        ∃ x, did = some x ∧ DeviceCell vm.env vm.pkg.hw (fun it => UsesDisk vm.env.ver it x) dev) ∨
     ((∀ d ∈ vm.pkg.diskList, ¬ DiskWith vm.env.ver (diskFileRef vm.env.ver) fid d) ∧ cap = [] ∧ did = none ∧
        DeviceCell vm.env vm.pkg.hw (fun it => UsesFile vm.env.ver it fid) dev)) ∧
    splitWs line = splitWs name ++ splitWs size ++ splitWs cap ++ splitWs (dev.take 20) ∧
    (vb ≠ .verbose → lines = [line]) ∧
    (vb = .verbose → ∃ l1 ls, lines = line :: l1 :: ls ∧ splitWs l1 = ["File".toList, "ID:".toList] ++ splitWs fid ∧
      ls.map splitWs = diskIdWords did)

/-- The line tells about a Disk without File: its capacity and the device that uses it. -/
def PlaceholderRow (vm : InfoVM) (d : Elem) (line : Str) : Prop :=
  ∃ (z : Int) (cap dev did : Str), capacityOf vm.env.ver d = .ok z ∧ SizeText z cap ∧ d.get (diskId vm.env.ver) = some did ∧
    DeviceCell vm.env vm.pkg.hw (fun it => UsesDisk vm.env.ver it did) dev ∧
    splitWs line = ["(disk".toList, "placeholder)".toList, "--".toList] ++ splitWs cap ++ splitWs (dev.take 20)

/-- The Files of the package, in order. -/
def fileEntries (v : Ver) (p : Pkg) : List Elem := p.refs.children.filter (fun e => e.tag == fileTag v)

/-- The Disks of the package that are not on one of its Files. -/
def placeholders (v : Ver) (p : Pkg) : List Elem :=
  (diskEntries v p).filter (fun d => decide (∀ f ∈ d.get (diskFileRef v), ∀ e ∈ fileEntries v p, e.get (fileId v) ≠ some f))

/-- At most one device uses the File or Disk. -/
def OneDevice (env : Env) (hw : Hw) (uses : Item → Prop) : Prop :=
  ∀ k k' it it', dget? hw k = some it → dget? hw k' = some it' → InDefault env it → InDefault env it' →
    uses it → uses it' → k = k'

/-- The Files and Disks are stated properly: they have identifiers, names and sizes; identifiers and references are
distinct; and at most one device uses each. -/
structure PlainFiles (env : Env) (p : Pkg) : Prop where
  files : ∀ e ∈ fileEntries env.ver p, ∃ fid href, e.get (fileId env.ver) = some fid ∧ e.get (fileHref env.ver) = some href ∧
    (∀ s, e.get (fileSize env.ver) = some s → s ≠ [] ∧ (∀ c ∈ s, isDig c = true) ∧ digitsVal s < 1023 * 2 ^ 80) ∧
    OneDevice env p.hw (fun it => UsesFile env.ver it fid)
  disks : ∀ d ∈ diskEntries env.ver p, ∃ did z, d.get (diskId env.ver) = some did ∧ capacityOf env.ver d = .ok z ∧
    z < 1023 * 2 ^ 80 ∧ OneDevice env p.hw (fun it => UsesDisk env.ver it did)
  fileIds : Distinct p.refs.children (fileTag env.ver) (fileId env.ver)
  diskRefs : Distinct p.diskList (diskTag env.ver) (diskFileRef env.ver)

end Cot
