import Verif.Spec.Package
/-
Specification vocabulary for C70: what it means that the entries of a package are up to date.
-/
namespace Cot

/-- The reference leads to this content now: a file on disk, or a member of an archive (whose name may be written in
another way, such as with a leading `./`). -/
def Leads (fs : Fs) (r : FRef) (b : List UInt8) : Prop :=
  (r.inTar = false ∧ fs.file (pathJoin r.container r.filename) = some b) ∨
  (r.inTar = true ∧ ∃ ms n, fs.tar r.container = some ms ∧ (n, b) ∈ ms ∧ (n = r.filename ∨ normpath n = r.filename))

/-- The file of this name is part of the package, and is still there. -/
def Present (fs : Fs) (files : List (Str × FRef)) (h : Str) : Prop := ∃ r b, dget? files h = some r ∧ Leads fs r b

/-- An entry that is kept: one for a file that is still there, or one that is not for a file at all. -/
def Retains (v : Ver) (fs : Fs) (files : List (Str × FRef)) (e : Elem) : Prop :=
  e.tag = fileTag v → ∃ h, e.get (fileHref v) = some h ∧ Present fs files h

/-- The entry is the same apart from the size, and the size is that of the file. -/
structure UpToDate (v : Ver) (fs : Fs) (files : List (Str × FRef)) (e e' : Elem) : Prop where
  tag : e'.tag = e.tag
  other : ∀ key, key ≠ fileSize v → e'.get key = e.get key
  size : ∀ h, FileWith v (fileHref v) h e →
    ∃ r b, dget? files h = some r ∧ Leads fs r b ∧ e'.get (fileSize v) = some (natStr b.length)
  rest : e.tag ≠ fileTag v → e' = e

end Cot
