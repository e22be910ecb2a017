import Verif.Spec.Write
/-
Specification vocabulary for C75: what is found when a package is opened.
-/
namespace Cot

/-- The directory or archive `path` holds a file `h` with the content `b`. -/
inductive HoldsFile (w : Fs) (path h : Str) (b : List UInt8) : Prop
  | disk (dir : w.isDir path = true) (file : w.file (pathJoin path (normpath h)) = some b)
  | tar {ms : List (Str × List UInt8)} {n : Str} (nodir : w.isDir path = false) (file : (w.file path).isSome = true)
      (tar : w.tar path = some ms) (mem : (n, b) ∈ ms) (name : normpath n = normpath h)

/-- If `path` is an archive then no two of its members have the same name. -/
def Clear (w : Fs) (path : Str) : Prop :=
  w.isDir path = false → ∀ ms, w.tar path = some ms → (ms.map (fun m => normpath m.1)).Nodup

/-- The manifest that is found in `path` beside the descriptor `base` consists of these lines. -/
def ManifestIs (l : Lib) (w : Fs) (path base : Str) (lines : List Str) : Prop :=
  ∃ b t, HoldsFile w path (pathRoot base ++ ".mf".toList) b ∧ l.dec b = some t ∧ LinesOf t lines

/-- The manifest gives the file `n` the checksum `s`; the last line about it counts. -/
def Lists (l : Lib) (w : Fs) (path base n s : Str) : Prop :=
  ∃ pre line post algo, ManifestIs l w path base (pre ++ line :: post) ∧ IsManifestLine line algo n s ∧
    ∀ x ∈ post, ∀ a s, ¬ IsManifestLine x a n s

/-- The References section gives the file `h` the size `s` (none if the entry has no size); the last entry counts. -/
def SaysSize (v : Ver) (refs : Elem) (h : Str) (s : Option Str) : Prop :=
  ∃ pre e post, refs.children = pre ++ e :: post ∧ e.tag = fileTag v ∧ e.get (fileHref v) = some h ∧
    e.get (fileSize v) = s ∧ ∀ x ∈ post, x.tag = fileTag v → x.get (fileHref v) ≠ some h

end Cot
