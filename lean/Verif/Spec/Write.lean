import Verif.Model.Write
import Verif.Spec.Archive
import Verif.Spec.Refresh
import Verif.Spec.Utilities
/-
Specification vocabulary for C72 to C75: packages that are written and opened again.
-/
namespace Cot

/-- What is assumed of the libraries: an archive gives back the members that were put into it, a text is decoded to
what was encoded. -/
structure Lib.Lawful (l : Lib) : Prop where
  tar : ∀ ms : List (Str × List UInt8),
    (∀ m ∈ ms, m.1 ≠ [] ∧ m.1.head? ≠ some '/' ∧ m.1.getLast? ≠ some '/') → l.unpack (l.pack ms) = some ms
  text : ∀ s, l.dec (l.enc s) = some s

/-- The file system after the changes of a run. -/
def after {l : Lib} {α : Type} (w : Fs) (x : Except Err α × List Change) : Fs := applyAll l w x.2

/-- The file system at any moment of a run: some of the changes have been made. -/
def During {l : Lib} {α : Type} (x : WM l α) (w w' : Fs) : Prop := ∃ cs, cs <+: (x w).2 ∧ w' = applyAll l w cs

/-- The reference `r` belongs to the file `h` of the package, whose content is `b`: a file of that name on disk, or a
member of the input archive (which may be written as `./h`). -/
structure FileOf (v : Ver) (w : Fs) (input h : Str) (r : FRef) (b : List UInt8) : Prop where
  name : PlainName h ∧ '\n' ∉ h
  algo : r.algo = some (checksumAlgo v)
  abs : r.container.head? = some '/'
  disk : r.inTar = false →
    r.filename = h ∧ normpath (pathJoin r.container h) = pathJoin r.container h ∧
      w.file (pathJoin r.container h) = some b
  tar : r.inTar = true →
    r.container = absName w input ∧ normpath r.filename = h ∧ r.filename.getLast? ≠ some '/' ∧
      ∃ ms, w.tar r.container = some ms ∧ getMember ms r.filename = some b

/-- The file that `r` refers to has disappeared. -/
def Gone (w : Fs) (r : FRef) : Prop :=
  (r.inTar = false ∧ w.file (pathJoin r.container r.filename) = none) ∨
  (r.inTar = true ∧ ∃ ms, w.tar r.container = some ms ∧ ∀ m ∈ ms, m.1 ≠ r.filename ∧ normpath m.1 ≠ r.filename)

/-- The file `p` is not in the directory `d`. -/
def NotIn (w : Fs) (d p : Str) : Prop := ∀ n, PlainName n → absName w p ≠ absName w (pathJoin d n)

/-- The names of the descriptor and of the manifest in an archive that is written to `output`. -/
def ovaDescriptor (output : Str) : Str := pathBase (pathRoot output) ++ ".ovf".toList
@[inherit_doc ovaDescriptor] def ovaManifest (output : Str) : Str := pathBase (pathRoot output) ++ ".mf".toList
/-- The name of the manifest beside a descriptor that is written to `output`. -/
def ovfManifest (output : Str) : Str := pathRoot (pathBase output) ++ ".mf".toList
/-- The directory of a file. -/
def dirOf (w : Fs) (p : Str) : Str := pathDir (absName w p)

/-- What is assumed about the places involved when an archive is written: the working directory is a directory of its
own; no file of the package is named like the descriptor or the manifest, or is the output itself. -/
structure OvaPlan (w : Fs) (files : List (Str × FRef)) (input output workDir : Str) : Prop where
  cwd : w.cwd.head? = some '/'
  work : workDir.head? = some '/' ∧ normpath workDir = workDir ∧ w.isDir workDir = true
  inputOut : NotIn w workDir input
  outputOut : NotIn w workDir output
  file : w.isDir (absName w output) = false
  base : (∃ c ∈ pathBase (pathRoot output), c ≠ '.') ∧ '\n' ∉ pathBase (pathRoot output)
  names : ∀ h ∈ dkeys files, h ≠ ovaDescriptor output ∧ h ≠ ovaManifest output
  sources : ∀ h r, dget? files h = some r → r.inTar = false → pathJoin r.container r.filename ≠ absName w output

/-- What is assumed about the places involved when a package is written to a directory: no file of the package is named
like the descriptor or the manifest, and the input archive, if files are taken from it, is not overwritten. -/
structure OvfPlan (w : Fs) (files : List (Str × FRef)) (input output : Str) : Prop where
  cwd : w.cwd.head? = some '/'
  dir : w.isDir (dirOf w output) = true
  base : PlainName (pathBase output) ∧ '\n' ∉ pathBase output ∧ pathBase output ≠ ovfManifest output
  names : ∀ h ∈ dkeys files, h ≠ pathBase output ∧ h ≠ ovfManifest output
  archive : ∀ h r, dget? files h = some r → r.inTar = true →
    ∀ n, (n = pathBase output ∨ n = ovfManifest output ∨ n ∈ dkeys files) → absName w input ≠ pathJoin (dirOf w output) n

/-- A package that can be written: an ordinary OVF version, every file reference leads to a file or to nothing, no two
entries have the same id, capacities are positive, checksums are in hexadecimal digits. -/
structure CanWrite (c : Ctx) (capOf : Str → Except Err Nat) (sum : List UInt8 → Str) (w : Fs) (input : Str)
    (cont : Str → List UInt8) (p : Pkg) : Prop where
  ver : c.env.ver ≠ .v0
  cap : ∀ s n, capOf s = .ok n → 0 < n ∧ n ≤ 2 ^ 63
  keys : (dkeys p.files).Nodup
  ids : Distinct p.refs.children (fileTag c.env.ver) (fileId c.env.ver)
  files : ∀ h r, dget? p.files h = some r → FileOf c.env.ver w input h r (cont h) ∨ Gone w r
  digest : ∀ b, c.digest (checksumAlgo c.env.ver) b = .ok (sum b)
  hex : ∀ b, LowerHex (sum b)

/-- The file `h` is part of the package and is still there. -/
def HasFile (v : Ver) (w : Fs) (input : Str) (cont : Str → List UInt8) (p : Pkg) (h : Str) : Prop :=
  ∃ r, dget? p.files h = some r ∧ FileOf v w input h r (cont h)

/-- The names of the files that are listed in a References section, in order. -/
def namedFiles (v : Ver) (refs : Elem) : List Str :=
  refs.children.filterMap (fun e => if e.tag = fileTag v then e.get (fileHref v) else none)

/-- One line of a manifest. -/
def sumLine (v : Ver) (name sum : Str) : Str :=
  (if v = .v2 then "SHA256".toList else "SHA1".toList) ++ '(' :: (name ++ ")= ".toList ++ sum ++ ['\n'])

/-- The text of a manifest: a line for each of these files. -/
def manifestSays (v : Ver) (sum : List UInt8 → Str) (files : List (Str × List UInt8)) : Str :=
  (files.map (fun f => sumLine v f.1 (sum f.2))).flatten

end Cot
