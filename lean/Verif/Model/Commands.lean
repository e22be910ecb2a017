import Verif.Model.EhCommand
import Verif.Model.EditProperties
import Verif.Model.PropertyArgs
import Verif.Model.OvfSections
import Verif.Model.ItemXml
import Verif.Model.InjectConfig
/-
Model of the commands edit-product, edit-properties, add-file, remove-file and inject-config from the command line to the edited
package: COT/ui/cli.py and the attributes of COT/commands/edit_product.py, edit_properties.py, add_file.py, remove_file.py and
inject_config.py.
-/
namespace Cot

/-- The command object: the package and output that were set (command.py:211-218, 267-275), and the attributes of the subclass. -/
structure PkgCmd (Q : Type) where
  package : Option Str := none
  output : Option Str := none
  req : Q

/-- how an attribute of the subclass is set.  Simplification, as in `argTexts`: a value of another kind than the parser gives to the
attribute is a TypeError. -/
abbrev Setter (Q : Type) := Q → ArgVal ArgAtom → Except Err Q

/-- an attribute that is a text and is stored as it is -/
def storeText {Q : Type} (f : Q → Str → Q) (q : Q) : ArgVal ArgAtom → Except Err Q
  | .one (.text s) => .ok (f q s)
  | _ => .error .typeError

/-- an attribute that is a text and is checked or converted before it is stored -/
def storeTextVia {Q β : Type} (g : Str → Except Err β) (f : Q → β → Q) (q : Q) : ArgVal ArgAtom → Except Err Q
  | .one (.text s) => match g s with
    | .error e => .error e
    | .ok x => .ok (f q x)
  | _ => .error .typeError

/-- an attribute that is a list of texts and is checked or converted before it is stored -/
def storeListVia {Q β : Type} (g : List Str → Except Err β) (f : Q → β → Q) (q : Q) : ArgVal ArgAtom → Except Err Q
  | .list l => match argTexts l with
    | .error e => .error e
    | .ok ts => match g ts with
      | .error e => .error e
      | .ok x => .ok (f q x)
  | _ => .error .typeError

/-- an attribute that is a truth value -/
def storeTruth {Q : Type} (f : Q → Bool → Q) (q : Q) : ArgVal ArgAtom → Except Err Q
  | .one (.truth b) => .ok (f q b)
  | _ => .error .typeError

/-- `setattr(arg_dict["instance"], …)` (cli.py:552, 558) on a command that reads and writes a package: command.py:280-302 for `package`,
314-345 for `output`, the setters of the subclass for its attributes; any other attribute is stored and not looked at -/
def pkgSetattr {Q : Type} (f : EhFiles) (setters : List (Str × Setter Q)) (st : PkgCmd Q) (a : Str) (v : ArgVal ArgAtom) :
    Except Err (PkgCmd Q) :=
  if a = "package".toList then
    match v with
    | .one (.text p) => match f.opens p with
      | .error e => .error e
      | .ok _ => .ok { st with package := some p }
    | _ => .error .typeError
  else if a = "output".toList then
    match v with
    | .one (.text p) => match f.agrees p with
      | .error e => .error e
      | .ok _ => .ok { st with output := some p }
    | _ => .error .typeError
  else match dget? setters a with
    | none => .ok st
    | some g => match g st.req v with
      | .error e => .error e
      | .ok q => .ok { st with req := q }

/-- cli.py:313-324 `run` and 560-608 `main`, up to the run of the command: the command line is parsed and the attributes are set.  The
command line is one for the command whose attributes are given.  A usage error and help end the program; exceptions are handed on (C63). -/
def pkgCommand {Q : Type} (f : EhFiles) (setters : List (Str × Setter Q)) (q : Q) (argv : List Str) : Except Err (PkgCmd Q) :=
  match cotParse argv with
  | .error _ => .error .systemExit
  | .ok ns => match argsToDict ns with
    | .error e => .error e
    | .ok d => match setAttributes (pkgSetattr f setters) d { req := q } with
      | (.error e, _) => .error e
      | (.ok _, st) => .ok st

/-! ### edit-product -/

/-- edit_product.py:60-75, the attributes -/
def productSetters : List (Str × Setter ProductReq) :=
  [("product_class".toList, storeText (fun q s => { q with cls := some s })),
   ("product".toList, storeText (fun q s => { q with product := some s })),
   ("vendor".toList, storeText (fun q s => { q with vendor := some s })),
   ("version".toList, storeText (fun q s => { q with version := some s })),
   ("full_version".toList, storeText (fun q s => { q with fullVersion := some s })),
   ("product_url".toList, storeText (fun q s => { q with productUrl := some s })),
   ("vendor_url".toList, storeText (fun q s => { q with vendorUrl := some s })),
   ("application_url".toList, storeText (fun q s => { q with appUrl := some s }))]

/-- the command edit-product on the VirtualSystem of a package, edit_product.py:77-145 -/
def productMain (f : EhFiles) (v : Ver) (argv : List Str) (vs : Elem) : Except Err (PkgCmd ProductReq × Elem) :=
  match pkgCommand f productSetters {} argv with
  | .error e => .error e
  | .ok cmd => match editProduct v cmd.req vs with
    | .error e => .error e
    | .ok vs' => .ok (cmd, vs')

/-! ### edit-properties -/

/-- edit_properties.py:82-87, the setter of `config_file`.  `lines` is the file system: the lines of the file with this name, if it
exists.  Simplification: the file is read here and not when the command runs; it is not written in between. -/
def setConfigLines (lines : Str → Option (List Str)) (s : Str) : Except Err (List Str) :=
  match lines s with
  | none => .error .invalidInput
  | some l => .ok l

/-- edit_properties.py:57-178, the attributes -/
def propSetters (lines : Str → Option (List Str)) : List (Str × Setter PropReq) :=
  [("config_file".toList, storeTextVia (setConfigLines lines) (fun q l => { q with config := some l })),
   ("properties".toList, storeListVia (mapE parseProperty) (fun q l => { q with props := l })),
   ("labels".toList, storeListVia (fun l => .ok l) (fun q l => { q with labels := l })),
   ("descriptions".toList, storeListVia (fun l => .ok l) (fun q l => { q with descs := l })),
   ("user_configurable".toList, storeTruth (fun q b => { q with uc := some b })),
   ("transports".toList, storeListVia (fun l => .ok (cliTransports l)) (fun q l => { q with transports := l }))]

/-- the command edit-properties on the VirtualSystem and the VirtualHardwareSection of a package, edit_properties.py:180-242 -/
def propsMain (f : EhFiles) (lines : Str → Option (List Str)) (v : Ver) (ask : Str → Bool) (force : Bool) (inp argv : List Str)
    (vs : Elem) (hws : Option Elem) : Option (Except Err (PkgCmd PropReq × Elem × Option Elem)) :=
  match pkgCommand f (propSetters lines) {} argv with
  | .error e => some (.error e)
  | .ok cmd => match editProperties v ask force inp cmd.req vs hws with
    | none => none
    | some (.error e) => some (.error e)
    | some (.ok r) => some (.ok (cmd, r))

/-! ### add-file and remove-file -/

/-- add_file.py:52-55, the attributes of add-file -/
structure AddFileReq where
  file : Option Str := none
  fileId : Option Str := none

/-- add_file.py:66-71, the setter of `file`; `isFile` is `os.path.exists` -/
def setFileArg (isFile : Str → Bool) (s : Str) : Except Err Str := if isFile s = false then .error .invalidInput else .ok s

/-- add_file.py:45-71, the attributes -/
def addFileSetters (isFile : Str → Bool) : List (Str × Setter AddFileReq) :=
  [("file".toList, storeTextVia (setFileArg isFile) (fun q s => { q with file := some s })),
   ("file_id".toList, storeText (fun q s => { q with fileId := some s }))]

/-- the command add-file, add_file.py:73-110 -/
def addFileMain (f : EhFiles) (isFile : Str → Bool) (c : Ctx) (ask : Prompt → Bool) (argv : List Str) (p : Pkg) :
    Except Err (PkgCmd AddFileReq × Pkg) :=
  match pkgCommand f (addFileSetters isFile) {} argv with
  | .error e => .error e
  | .ok cmd => match cmd.req.file with
    | none => .error .invalidInput
    | some path => match addFileCmd c ask p path cmd.req.fileId with
      | .error e => .error e
      | .ok p' => .ok (cmd, p')

/-- remove_file.py:51-56, the attributes of remove-file -/
structure RemoveFileReq where
  filePath : Option Str := none
  fileId : Option Str := none

/-- remove_file.py:47-57, the attributes -/
def removeFileSetters : List (Str × Setter RemoveFileReq) :=
  [("file_path".toList, storeText (fun q s => { q with filePath := some s })),
   ("file_id".toList, storeText (fun q s => { q with fileId := some s }))]

/-- the command remove-file, remove_file.py:58-116 -/
def removeFileMain (f : EhFiles) (env : Env) (ask : Prompt → Bool) (argv : List Str) (p : Pkg) : Except Err (PkgCmd RemoveFileReq × Pkg) :=
  match pkgCommand f removeFileSetters {} argv with
  | .error e => .error e
  | .ok cmd =>
    if cmd.req.filePath = none ∧ cmd.req.fileId = none then .error .invalidInput
    else match removeFileCmd env ask p cmd.req.filePath cmd.req.fileId with
      | .error e => .error e
      | .ok p' => .ok (cmd, p')

/-! ### inject-config -/

/-- inject_config.py:44-119, the attributes; `pl` is the platform of the package, which was set before (it is mandatory) -/
def injectSetters (isFile : Str → Bool) (pl : Plat) : List (Str × Setter IcReq) :=
  [("config_file".toList, storeTextVia (fun s => setConfigArg isFile (configTextFile pl) (some s)) (fun q s => { q with config := s })),
   ("secondary_config_file".toList,
     storeTextVia (fun s => setConfigArg isFile (secondaryTextFile pl) (some s)) (fun q s => { q with secondary := s })),
   ("extra_files".toList, storeListVia (setExtraArg isFile) (fun q l => { q with extra := l }))]

/-- the command inject-config, inject_config.py:121-267: the object and the package, and what was done outside -/
def injectMain (f : EhFiles) (isFile : Str → Bool) (c : Ctx) (w : IcWorld) (pl : Plat) (plat : Str → Str) (ask : Prompt → Bool)
    (over : Option Str → Bool) (argv : List Str) (p : Pkg) : Except Err (PkgCmd IcReq × Pkg) × List IcOp :=
  match pkgCommand f (injectSetters isFile pl) ⟨none, none, []⟩ argv with
  | .error e => (.error e, [])
  | .ok cmd =>
    if cmd.req.ready = false then (.error .invalidInput, [])
    else match injectConfig c w pl plat ask over p cmd.req with
      | (.error e, h) => (.error e, h)
      | (.ok (_, p'), h) => (.ok (cmd, p'), h)

end Cot
