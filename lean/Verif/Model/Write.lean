import Verif.Model.Open
/-
Model of writing a package: COT/vm_description/ovf/ovf.py `write`, `generate_manifest` and `tar`, and
COT/file_reference.py `copy_to` and `add_to_archive`.

A step that changes the file system is recorded as the path and the new content.  A run gives its outcome and the
list of these changes, so that the file system after an interruption is the one after some of the changes.
Simplifications: there are no symbolic links, so that two paths name the same file if their absolute normal forms are
equal; a file that is being written is empty until it is complete; directories are not created.
-/
namespace Cot

/-- a file gets a new content -/
def Fs.put (l : Lib) (w : Fs) (p : Str) (b : List UInt8) : Fs :=
  { w with
    file := fun q => if absName w q = absName w p then some b else w.file q
    tar := fun q => if absName w q = absName w p then l.unpack b else w.tar q }

/-- one change -/
abbrev Change := Str × List UInt8

/-- the file system after some changes -/
def applyAll (l : Lib) (w : Fs) (cs : List Change) : Fs := cs.foldl (fun w c => w.put l c.1 c.2) w

/-- a computation that reads and changes files: the outcome and the changes made, in order -/
def WM (_ : Lib) (α : Type) : Type := Fs → Except Err α × List Change

namespace WM
variable {l : Lib} {α β : Type}
/-- no effect -/
def pure (a : α) : WM l α := fun _ => (.ok a, [])
/-- one after the other; the second sees the changes of the first -/
def bind (x : WM l α) (f : α → WM l β) : WM l β := fun w =>
  match x w with
  | (.error e, cs) => (.error e, cs)
  | (.ok a, cs) => ((f a (applyAll l w cs)).1, cs ++ (f a (applyAll l w cs)).2)
instance : Monad (WM l) where
  pure := WM.pure
  bind := WM.bind
/-- look at the file system -/
def read (f : Fs → Except Err α) : WM l α := fun w => (f w, [])
/-- change a file -/
def write (p : Str) (b : List UInt8) : WM l Unit := fun _ => (.ok (), [(p, b)])
end WM

/-- open a file for reading -/
def Fs.content (w : Fs) (p : Str) : Except Err (List UInt8) :=
  match w.file p with
  | none => .error .ioError
  | some b => .ok b

/-- file_reference.py:238-247 and 332-341 `copy_to(dest_dir)`.  `shutil.copy(path, directory)` uses the base name; it
raises SameFileError if source and destination are the same file. -/
def FRef.copyTo (l : Lib) (r : FRef) (dest : Str) : WM l Unit :=
  if r.inTar then do
    let b ← WM.read (fun w => r.content w)
    WM.write (pathJoin dest r.filename) b
  else
    let src := pathJoin r.container r.filename
    if src = pathJoin dest r.filename then pure ()
    else do
      let b ← WM.read (fun w =>
        if absName w src = absName w (pathJoin dest (pathBase src)) then .error .ioError else w.content src)
      WM.write (pathJoin dest (pathBase src)) b

/-- ovf.py:832-843 (the loop over the values of `file_references`) -/
def copyAll (l : Lib) (dest : Str) : List (Str × FRef) → WM l Unit
  | [] => pure ()
  | (_, r) :: t => do
    r.copyTo l dest
    copyAll l dest t

/-- `file_references[file_obj.get(FILE_HREF)]`: a KeyError if there is none -/
def refOf (v : Ver) (files : List (Str × FRef)) (e : Elem) : Except Err (Str × FRef) :=
  match e.get (fileHref v) with
  | none => .error .keyError
  | some h => match dget? files h with
    | none => .error .keyError
    | some r => .ok (h, r)

/-- ovf.py:2732-2740: the lines for the File elements.  `"{sum}".format(sum=None)` is "None". -/
def manifestLoop (digest : Str → List UInt8 → Except Err Str) (v : Ver) (w : Fs) :
    List Elem → List (Str × FRef) → Except Err (List (Str × Str) × List (Str × FRef))
  | [], files => .ok ([], files)
  | e :: t, files => match refOf v files e with
    | .error x => .error x
    | .ok (h, r) => match r.readSum digest w with
      | (.error x, _) => .error x
      | (.ok c, r') => match manifestLoop digest v w t (dset files h r') with
        | .error x => .error x
        | .ok (ls, fs) => .ok ((h, c.getD "None".toList) :: ls, fs)

/-- ovf.py:2709-2742 `generate_manifest(ovf_file)`; the references remember the checksums -/
def generateManifest (l : Lib) (digest : Str → List UInt8 → Except Err Str) (v : Ver) (fileElems : List Elem)
    (files : List (Str × FRef)) (ovfFile : Str) : WM l (List (Str × FRef)) := do
  let manifest := pathRoot ovfFile ++ ".mf".toList
  let b ← WM.read (fun w => w.content ovfFile)
  let sum ← WM.read (fun _ => digest (checksumAlgo v) b)
  WM.write manifest []
  let r ← WM.read (fun w => manifestLoop digest v w fileElems files)
  WM.write manifest (l.enc (manifestText (checksumAlgo v) ((pathBase ovfFile, sum) :: r.1)))
  pure r.2

/-- ovf.py:2764-2776: the files that are in the input archive are extracted to the working directory -/
def extractAll (l : Lib) (digest : Str → List UInt8 → Except Err Str) (v : Ver) (workDir : Str) :
    List (Str × FRef) → WM l (List (Str × FRef))
  | [] => pure []
  | (h, r) :: t =>
    if r.inTar then do
      r.copyTo l workDir
      let r' ← WM.read (fun w => match r.readSum digest w with
        | (.error e, _) => .error e
        | (.ok c, r1) => match r1.readSize w with
          | (.error e, _) => .error e
          | (.ok n, _) => FRef.create digest w workDir h (some (checksumAlgo v)) c (some (natStr n)))
      let rest ← extractAll l digest v workDir t
      pure ((h, r'.1) :: rest)
    else do
      let rest ← extractAll l digest v workDir t
      pure ((h, r) :: rest)

/-- ovf.py:2793-2800 and file_reference.py:249-257, 343-352 `add_to_archive`: the members for the File elements -/
def memberLoop (v : Ver) (files : List (Str × FRef)) (w : Fs) : List Elem → Except Err (List (Str × List UInt8))
  | [] => .ok []
  | e :: t => match refOf v files e with
    | .error x => .error x
    | .ok (_, r) => match r.content w with
      | .error x => .error x
      | .ok b => match memberLoop v files w t with
        | .error x => .error x
        | .ok ms => .ok ((r.filename, b) :: ms)

/-- ovf.py:2778-2800: the members of the archive, the descriptor first -/
def tarMembers (v : Ver) (fileElems : List Elem) (files : List (Str × FRef)) (ovfFile : Str) (w : Fs) :
    Except Err (List (Str × List UInt8)) :=
  match w.content ovfFile with
  | .error x => .error x
  | .ok b => match memberLoop v files w fileElems with
    | .error x => .error x
    | .ok ms => .ok ((pathBase ovfFile, b) :: (match w.file (pathRoot ovfFile ++ ".mf".toList) with
        | none => []
        | some m => [(pathBase (pathRoot ovfFile ++ ".mf".toList), m)]) ++ ms)

/-- ovf.py:2744-2800 `tar(ovf_descriptor, tar_file)`.  `realpath` and `samefile` come to the same without links. -/
def tarPackage (l : Lib) (digest : Str → List UInt8 → Except Err Str) (v : Ver) (fileElems : List Elem)
    (files : List (Str × FRef)) (input workDir ovfFile tarFile : Str) : WM l (List (Str × FRef)) := do
  let same ← WM.read (fun w => .ok (decide (absName w input = absName w tarFile)))
  let files ← (if same then extractAll l digest v workDir files else pure files)
  WM.write tarFile []
  let ms ← WM.read (fun w => tarMembers v fileElems files ovfFile w)
  WM.write tarFile (l.pack ms)
  pure files

/-- What `write` depends on besides the package: the input and output file, the working directory, the kind of output
(`output_extension`), and the text of the descriptor. -/
structure Job where
  input : Str
  output : Str
  workDir : Str
  ext : Str
  xml : List UInt8

/-- ovf.py:832-833: the path of the descriptor in the working directory -/
def Job.ovfFile (j : Job) : Str := pathJoin j.workDir (pathBase (pathRoot j.output) ++ ".ovf".toList)

/-- ovf.py:829-854: the last part of `write`, once the package is up to date -/
def writeOut (l : Lib) (digest : Str → List UInt8 → Except Err Str) (v : Ver) (fileElems : List Elem)
    (files : List (Str × FRef)) (j : Job) : WM l Unit :=
  if j.ext = ".ova".toList then do
    WM.write j.ovfFile j.xml
    let files ← generateManifest l digest v fileElems files j.ovfFile
    let _ ← tarPackage l digest v fileElems files j.input j.workDir j.ovfFile j.output
    pure ()
  else if j.ext = ".ovf".toList then do
    WM.write j.output j.xml
    let dest ← WM.read (fun w => .ok (pathDir (absName w j.output)))
    copyAll l dest files
    let _ ← generateManifest l digest v fileElems files j.output
    pure ()
  else WM.read (fun _ => .error .notImplementedError)

/-- the File elements of References -/
def fileElems (v : Ver) (refs : Elem) : List Elem := refs.children.filter (fun e => e.tag == fileTag v)

/-- ovf.py:810-854 `write()`, from the refreshing of the references on (`update_xml` is C54, `_refresh_networks` C45).
`xml` gives the text of the descriptor of a package. -/
def writePackage (l : Lib) (c : Ctx) (capOf : Str → Except Err Nat) (xml : Pkg → List UInt8) (p : Pkg)
    (input output workDir ext : Str) : WM l Pkg :=
  if output = [] then pure p
  else do
    let q ← WM.read (fun w => refreshFiles { c with fs := w } capOf p)
    writeOut l c.digest c.env.ver (fileElems c.env.ver q.refs) q.files
      { input := input, output := output, workDir := workDir, ext := ext, xml := xml q }
    pure q

end Cot
