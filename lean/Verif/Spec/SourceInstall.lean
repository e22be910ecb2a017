import Verif.Model.SourceInstall
/-
What C111 means: how programs are installed.
-/
namespace Cot

/-- For each package manager: the programs it can install, with the words that name the package. -/
def packagesOf : List (String × List (String × List String)) :=
  [("apt-get", [("gcc", ["gcc"]), ("make", ["make"]), ("genisoimage", ["genisoimage"]), ("isoinfo", ["genisoimage"]),
      ("xorriso", ["xorriso"]), ("qemu-img", ["qemu-utils"])]),
   ("yum", [("gcc", ["gcc"]), ("make", ["make"]), ("genisoimage", ["genisoimage"]), ("qemu-img", ["qemu-img"])]),
   ("brew", [("fatdisk", ["glennmatthews/fatdisk/fatdisk", "--devel"]), ("vmdktool", ["vmdktool"]), ("qemu-img", ["qemu"]),
      ("mkisofs", ["cdrtools"]), ("isoinfo", ["cdrtools"])]),
   ("port", [("fatdisk", ["fatdisk"]), ("vmdktool", ["vmdktool"]), ("qemu-img", ["qemu"]), ("mkisofs", ["cdrtools"]),
      ("isoinfo", ["cdrtools"])])]

/-- `words` name the package of `pm` with the program -/
def IsPackage (pm name : Str) (words : List Str) : Prop :=
  ∃ row ∈ packagesOf, ∃ p ∈ row.2, row.1.toList = pm ∧ p.1.toList = name ∧ p.2.map String.toList = words

/-- one package was installed, by a package manager that was there: the package of one of these programs -/
def OnePackage (w : InstWorld) (h : List InstOp) (names : List Str) (ops : List InstOp) : Prop :=
  ∃ pm words name, ops = [.package pm words] ∧ name ∈ names ∧ IsPackage pm name words ∧ w.found h pm = true

/-- nothing was done because one of these programs was there, or one package was installed to have it -/
def HaveOne (w : InstWorld) (h : List InstOp) (names : List Str) (ops : List InstOp) : Prop :=
  (ops = [] ∧ ∃ n ∈ names, w.found h n = true) ∨ ((∀ n ∈ names, w.found h n = false) ∧ OnePackage w h names ops)

/-- the package of zlib -/
def ZlibPackage (w : InstWorld) (h : List InstOp) (ops : List InstOp) : Prop :=
  (w.found h "apt-get".toList = true ∧ ops = [.package "apt-get".toList ["zlib1g-dev".toList]]) ∨
  (w.found h "apt-get".toList = false ∧ w.found h "yum".toList = true ∧ ops = [.package "yum".toList ["zlib-devel".toList]])

/-- where programs are installed to: below DESTDIR if it is set, at PREFIX or else /usr/local -/
structure InstallRoot (w : InstWorld) (root : Str) : Prop where
  plain : (w.env "DESTDIR".toList).getD [] = [] → root = (w.env "PREFIX".toList).getD "/usr/local".toList
  below : ∀ d, w.env "DESTDIR".toList = some d → d ≠ [] → ∃ sep rel, root = d ++ sep ++ rel ∧ (sep = [] ∨ sep = ['/']) ∧
    ∃ slashes, (∀ c ∈ slashes, c = '/') ∧ (w.env "PREFIX".toList).getD "/usr/local".toList = slashes ++ rel ∧ rel.head? ≠ some '/'

/-- what is done for fatdisk in the temporary directory `t` -/
def fatdiskSteps (root t : Str) : List InstOp :=
  [.download "https://github.com/goblinhack/fatdisk/archive/v1.0.0-beta.tar.gz".toList, .extract,
   .call ["./RUNME".toList] (pathJoin t "fatdisk-1.0.0-beta".toList) false,
   .mkdir (pathJoin root "bin".toList),
   .copy (pathJoin (pathJoin t "fatdisk-1.0.0-beta".toList) "fatdisk".toList) (pathJoin root "bin".toList)]

/-- what is done for vmdktool; `make install` gets DESTDIR and PREFIX as they are -/
def vmdktoolSteps (w : InstWorld) (root t : Str) : List InstOp :=
  [.download "http://people.freebsd.org/~brian/vmdktool/vmdktool-1.4.tar.gz".toList, .extract,
   .call ["make".toList, "CFLAGS=\"-D_GNU_SOURCE -g -O -pipe\"".toList] (pathJoin t "vmdktool-1.4".toList) false,
   .mkdir (pathJoin (pathJoin root "man".toList) "man8".toList), .mkdir (pathJoin root "bin".toList),
   .call (["make".toList, "install".toList, "PREFIX=".toList ++ (w.env "PREFIX".toList).getD "/usr/local".toList] ++
     (match w.env "DESTDIR".toList with
      | some (c :: d) => ["DESTDIR=".toList ++ c :: d]
      | _ => [])) (pathJoin t "vmdktool-1.4".toList) true]

/-- Everything that was done to install the program by a full and successful build. -/
def FullBuild (w : InstWorld) (h ops : List InstOp) (name : Str) : Prop :=
  ∃ root, InstallRoot w root ∧ ∃ a b, HaveOne w h ["make".toList] a ∧
    ((name = "fatdisk".toList ∧ HaveOne w (h ++ a) ["clang".toList, "gcc".toList, "g++".toList] b ∧
        ops = a ++ b ++ [.tempDir] ++ fatdiskSteps root (w.tmp (h ++ a ++ b)) ++ [.removeTemp]) ∨
     (name = "vmdktool".toList ∧ ZlibPackage w (h ++ a) b ∧
        ops = a ++ b ++ [.tempDir] ++ vmdktoolSteps w root (w.tmp (h ++ a ++ b)) ++ [.removeTemp]))

/-- the temporary directories made are removed: after each there comes a removal, unless making it failed, which is then the
last thing done -/
def TidiedUp (w : InstWorld) (h ops : List InstOp) : Prop :=
  ∀ pre post, ops = pre ++ .tempDir :: post →
    (w.fails (h ++ pre) .tempDir = none ∧ .removeTemp ∈ post) ∨ (w.fails (h ++ pre) .tempDir ≠ none ∧ post = [])

/-- after something failed, nothing is done but to remove the temporary directory, and the end is not a success -/
def StopsAtFailure (w : InstWorld) (h ops : List InstOp) (r : Except Err Unit) : Prop :=
  ∀ pre op post, ops = pre ++ op :: post → op ≠ .removeTemp → w.fails (h ++ pre) op ≠ none →
    (post = [] ∨ post = [.removeTemp]) ∧ r ≠ .ok ()

/-- operations fail with errors of their own: never with the two that COT raises when it does not know how to install -/
def OwnErrors (w : InstWorld) : Prop := ∀ h op, w.fails h op ≠ some .notImplementedError ∧ w.fails h op ≠ some .runtimeError

/-- programs that were found stay there -/
def Lasting (w : InstWorld) : Prop := ∀ h op n, w.found h n = true → w.found (h ++ [op]) n = true

end Cot
