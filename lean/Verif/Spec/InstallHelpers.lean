import Verif.Model.InstallHelpers
/-
What install-helpers is to report and to achieve.
-/
namespace Cot

/-- Two files that count as the same: both regular, of the same size, and with the same contents or at least the same time of
modification. -/
def SameFile {W : Type} (fs : ManFs W) (w : W) (a b : Str) : Prop :=
  (fs.sig w a).regular = true ∧ (fs.sig w b).regular = true ∧ (fs.sig w a).size = (fs.sig w b).size ∧
  (fs.content w a = fs.content w b ∨ (fs.sig w a).mtime = (fs.sig w b).mtime)

/-- where a page belongs: `cot.1` in `man1` -/
def sectionDir (manDir page : Str) : Str := pathJoin manDir ("man".toList ++ (pathExt page).drop 1)
def pagePlace (manDir page : Str) : Str := pathJoin (sectionDir manDir page) page

/-- the page is in its place -/
def InPlace {W : Type} (fs : ManFs W) (docs manDir : Str) (w : W) (page : Str) : Prop :=
  fs.pathExists w (sectionDir manDir page) = true ∧ fs.pathExists w (pagePlace manDir page) = true ∧
  SameFile fs w (pathJoin docs page) (pagePlace manDir page)

/-- a step of the machine that creates, or fails to create, the directory -/
inductive MkStep {W : Type} (fs : ManFs W) (d : Str) : Bool → W → W → Prop
  | plain {b w w'} : fs.makedirs w d = (b, w') → MkStep fs d b w w'
  | sudo {b x w w'} : fs.exec w ["sudo".toList, "mkdir".toList, "-p".toList, "-m".toList, "755".toList, d] = (x, w') →
      (b = true ↔ ∃ out, x = .exit 0 out) → MkStep fs d b w w'

/-- a step of the machine that copies, or fails to copy, the file -/
inductive CpStep {W : Type} (fs : ManFs W) (s d : Str) : Bool → W → W → Prop
  | plain {b w w'} : fs.copy w s d = (b, w') → CpStep fs s d b w w'
  | sudo {b x w w'} : fs.exec w ["sudo".toList, "cp".toList, s, d] = (x, w') →
      (b = true ↔ ∃ out, x = .exit 0 out) → CpStep fs s d b w w'

/-- there is a regular file -/
def RegularAt {W : Type} (fs : ManFs W) (w : W) (p : Str) : Prop :=
  fs.pathExists w p = true ∧ (fs.sig w p).regular = true

/-- a regular file is left as it is, and none appears -/
def FileKept {W : Type} (fs : ManFs W) (w w' : W) (p : Str) : Prop :=
  (RegularAt fs w p → RegularAt fs w' p ∧ fs.sig w' p = fs.sig w p ∧ fs.content w' p = fs.content w p) ∧
  (RegularAt fs w' p → RegularAt fs w p)

/-- The machine makes directories and copies files as it should. -/
structure FileLaws {W : Type} (fs : ManFs W) : Prop where
  dirExists : ∀ w d, fs.isDir w d = true → fs.pathExists w d = true
  mkDone : ∀ {d w w'}, MkStep fs d true w w' → fs.isDir w' d = true
  mkKeeps : ∀ {d b w w'}, MkStep fs d b w w' → (∀ p, FileKept fs w w' p) ∧ ∀ q, fs.isDir w q = true → fs.isDir w' q = true
  cpDone : ∀ {s d w w'}, CpStep fs s d true w w' → RegularAt fs w s →
    RegularAt fs w' d ∧ (fs.sig w' d).size = (fs.sig w s).size ∧
    fs.content w' d = fs.content w s
  cpKeeps : ∀ {s d b w w'}, CpStep fs s d b w w' → (∀ p, p ≠ d → FileKept fs w w' p) ∧
    ∀ q, fs.isDir w q = true → fs.isDir w' q = true

/-- the message tells of a failure -/
def TellsFailure (msg : Str) : Prop := "INSTALLATION FAILED: ".toList <+: msg ∨ "UNABLE TO FIND PAGES: ".toList <+: msg

/-- what --verify-only says of a program -/
def ToolSays {W V : Type} (sys : InstallSys W V) (w : W) (name msg : Str) : Prop :=
  (sys.found w name = false ∧ msg = "NOT FOUND".toList) ∨
  (sys.found w name = true ∧ ∃ v, sys.version w name = .ok v ∧
    msg = "version ".toList ++ sys.showV v ++ ", present at ".toList ++ sys.path w name)

/-- Installing a program, and the file operations for the pages, do not remove programs. -/
def NothingLost {W V : Type} (sys : InstallSys W V) (fs : ManFs W) : Prop :=
  (∀ w n n', sys.found w n' = true → sys.found (sys.runInstall w n).2 n' = true) ∧
  (∀ w d n, sys.found w n = true → sys.found (fs.makedirs w d).2 n = true) ∧
  (∀ w s d n, sys.found w n = true → sys.found (fs.copy w s d).2 n = true) ∧
  (∀ w c n, sys.found w n = true → sys.found (fs.exec w c).2 n = true)

end Cot
