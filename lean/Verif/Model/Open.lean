import Verif.Model.Package
import Verif.Model.Utilities
/-
Model of how the files of a package are looked at when it is opened: COT/vm_description/ovf/ovf.py
`_init_check_file_entries` and `_compare_file_lists`.
-/
namespace Cot

/-- What libraries do with bytes: `tarfile` (writing and reading an archive) and the UTF-8 codec. -/
structure Lib where
  pack : List (Str × List UInt8) → List UInt8
  unpack : List UInt8 → Option (List (Str × List UInt8))
  enc : Str → List UInt8
  dec : List UInt8 → Option Str

/-- What the user is told while a package is opened (log messages of level WARNING or ERROR). -/
inductive Complaint
  /-- a line of the manifest cannot be understood (utilities.py:71-72) -/
  | badLine (line : Str)
  /-- the manifest lists a file that the descriptor does not mention (ovf.py:292-295) -/
  | extra (name : Str)
  /-- a file of the descriptor is not listed in the manifest (ovf.py:296-300) -/
  | unlisted (name : Option Str)
  /-- the descriptor is not listed in the manifest (ovf.py:302-303) -/
  | noDescriptor
  /-- a file differs from what was expected (file_reference.py:105-118) -/
  | differs (name : Str) (what : FWarn)
  /-- a file does not exist (ovf.py:371-373) -/
  | missing (name : Str)
deriving DecidableEq

/-- ovf.py:421-428 `checksum_algorithm` -/
def checksumAlgo : Ver → Str
  | .v2 => "sha256".toList
  | _ => "sha1".toList

/-- utilities.py:60, 67-72: the lines of a manifest that are reported -/
def badLines (text : Str) : List Str :=
  (splitOnChar '\n' text).filter (fun l => decide (l ≠ []) && (reMatch manifestRe l).isNone)

/-- ovf.py:270-303 `_compare_file_lists(descriptor_file_list, manifest_file_list)`; `descr` is the base name of the
descriptor.  A name of the descriptor may be None. -/
def compareLists (descr : Str) (files : List (Option Str)) (listed : List Str) : List Complaint :=
  if listed = [] then []
  else
    (listed.filter (fun f => decide (f ≠ descr) && decide (some f ∉ files))).map Complaint.extra ++
    (files.filter (fun f => decide (f ∉ listed.map some))).map Complaint.unlisted ++
    if descr ∈ listed then [] else [.noDescriptor]

/-- ovf.py:315-317 `descriptor_files`: name ↦ size -/
def describedFiles (v : Ver) (refs : Elem) : List (Option Str × Option Str) :=
  (refs.children.filter (fun e => e.tag == fileTag v)).foldl
    (fun d e => dset d (e.get (fileHref v)) (e.get (fileSize v))) []

/-- ovf.py:319-324 `input_path` -/
def inputPath (w : Fs) (input descriptor : Str) : Str :=
  if input = descriptor then pathDir (absName w descriptor) else absName w input

/-- ovf.py:328-344: the text of the manifest; an IOError (also: no such file) means that there is none -/
def readManifest (l : Lib) (digest : Str → List UInt8 → Except Err Str) (w : Fs) (path name : Str) :
    Except Err (Option Str) :=
  match FRef.create digest w path name none none none with
  | .error .ioError => .ok none
  | .error e => .error e
  | .ok (r, _) => match r.content w with
    | .error .ioError => .ok none
    | .error e => .error e
    | .ok b => match l.dec b with
      | none => .error .valueError                    -- UnicodeDecodeError
      | some t => .ok (some t)

/-- ovf.py:361-374: the loop over the described files.  `os.path.normpath(None)` is a TypeError. -/
def checkFiles (digest : Str → List UInt8 → Except Err Str) (w : Fs) (algo path : Str)
    (mf : List (Str × Str × Str)) : List (Option Str × Option Str) → Except Err (List (Str × FRef) × List Complaint)
  | [] => .ok ([], [])
  | (none, _) :: _ => .error .typeError
  | (some h, size) :: t =>
    match FRef.create digest w path h (some algo) ((dget? mf h).map Prod.snd) size with
    | .error .ioError => match checkFiles digest w algo path mf t with
      | .error e => .error e
      | .ok (fs, cs) => .ok (fs, .missing h :: cs)
    | .error e => .error e
    | .ok (r, ws) => match checkFiles digest w algo path mf t with
      | .error e => .error e
      | .ok (fs, cs) => .ok ((h, r) :: fs, ws.map (Complaint.differs h) ++ cs)

/-- ovf.py:306-376 `_init_check_file_entries()`: `file_references`, and what the user is told.
`input` is `input_file`, `descriptor` is `ovf_descriptor` (for an OVA the extracted file in the working directory). -/
def openFiles (l : Lib) (digest : Str → List UInt8 → Except Err Str) (w : Fs) (v : Ver) (input descriptor : Str)
    (refs : Elem) : Except Err (List (Str × FRef) × List Complaint) := do
  let path := inputPath w input descriptor
  let base := pathBase descriptor
  let text ← readManifest l digest w path (pathRoot base ++ ".mf".toList)
  let mf := (text.map parseManifest).getD []
  let bad := (text.map badLines).getD []
  let d ← FRef.create digest w path base (some (checksumAlgo v)) ((dget? mf base).map Prod.snd) none
  let r ← checkFiles digest w (checksumAlgo v) path mf (describedFiles v refs)
  .ok (r.1, bad.map Complaint.badLine ++ compareLists base (dkeys (describedFiles v refs)) (dkeys mf) ++
    d.2.map (Complaint.differs base) ++ r.2)

end Cot
