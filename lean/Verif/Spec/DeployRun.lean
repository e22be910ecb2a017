import Verif.Model.DeployRun
import Verif.Spec.Ui
import Verif.Spec.Hardware
import Verif.Spec.NatSort
import Verif.Spec.Calls
import Verif.Spec.Version
/-
What `deploy ... esxi` is to do.
-/
namespace Cot

/-- The user agrees: always with --force, else by the first line of input that is a yes or a no. -/
def Agrees (force : Bool) (inp rest : List Str) : Prop :=
  (force = true ∧ rest = inp) ∨
  (force = false ∧ ∃ skipped line, inp = skipped ++ line :: rest ∧ (∀ l ∈ skipped, ¬ MeansYes l ∧ ¬ MeansNo l) ∧ MeansYes line)

/-- The profile that is used: the one requested; without a request the only one, or the first one with --force, or the
one that the user selects. -/
inductive ChosenProfile (force : Bool) (profiles : List Str) : Prof → List Str → Prof → List Str → Prop
  | requested {x inp} : ChosenProfile force profiles (some x) inp (some x) inp
  | nothing {inp} : profiles = [] → ChosenProfile force profiles none inp none inp
  | only {x inp} : profiles = [x] → ChosenProfile force profiles none inp (some x) inp
  | first {x y r inp} : force = true → profiles = x :: y :: r → ChosenProfile force profiles none inp (some x) inp
  | selected {x dflt inp rest} : force = false → 2 ≤ profiles.length → profiles.head? = some dflt → x ∈ profiles →
      ((∀ l ∈ inp, l ≠ [] → ¬ WrapsAround profiles l) →
        ∃ skipped line, inp = skipped ++ line :: rest ∧ (∀ l ∈ skipped, l ≠ [] ∧ ∀ y, ¬ Selects profiles dflt l y) ∧
          ((line = [] ∧ x = dflt) ∨ (line ≠ [] ∧ Selects profiles dflt line x))) →
      ChosenProfile force profiles none inp (some x) rest

/-- the serial ports that exist under a profile, in natural order -/
def SerialPorts (env : Env) (hw : Hw) (p : Prof) (ids : List Str) : Prop :=
  ids.Nodup ∧ ids.Pairwise (fun x y => ¬ NatBefore y x) ∧ ∀ id, id ∈ ids ↔ ∃ it, dget? hw id = some it ∧ OfType it "21".toList ∧ it.hasProfile env p = true

/-- the connection of a port: what its address describes; nothing if it has no address, or different ones in different profiles -/
def PortConnection (hw : Hw) (id : Str) (r : Option SerialConn) : Prop :=
  ∃ it, dget? hw id = some it ∧
    ((∃ t S, it.tab address = [(.str t, S)] ∧ fromCli (some t) = .ok r) ∨ ((∀ v S, it.tab address ≠ [(v, S)]) ∧ r = none))

/-- the connections that are used: those given, or else those of the package, of at most four ports -/
def UsedConnections (env : Env) (hw : Hw) (p : Prof) (given cs : List SerialConn) : Prop :=
  (given ≠ [] ∧ cs = given) ∨
  (given = [] ∧ ∃ ids rs, SerialPorts env hw p ids ∧ ids.length ≤ 4 ∧ List.Forall₂ (PortConnection hw) ids rs ∧
    cs = rs.flatMap Option.toList)

/-- the version of ovftool may have been asked for -/
def OnlyAsked (log log' : List (List Str × ProcRes)) : Prop :=
  log' = log ∨ ∃ x, log' = log ++ [(["ovftool".toList, "--version".toList], x)]

/-- what ovftool wrote tells the version -/
def ToolTells (x : ProcRes) (v : PyVersion) : Prop :=
  ∃ text t, Wrote x text ∧ FirstAfter "ovftool ".toList text t ∧ VersionText t v

/-- The decision about the environment properties of the package, from one log and input to another.  Without properties, or
through a vCenter, there is nothing to decide.  Otherwise ovftool is asked for its version; it injects the properties if it
is not older than 4.0.0 and the machine is powered on, and if not, the user has to agree. -/
def InjectDecision (hasProps : Bool) (locator : Str) (powerOn force : Bool) (log log' : List (List Str × ProcRes))
    (inp inp' : List Str) (inject : Bool) : Prop :=
  ((hasProps = false ∨ hasSub "/host/".toList locator = true) ∧ inject = false ∧ log' = log ∧ inp' = inp) ∨
  (hasProps = true ∧ hasSub "/host/".toList locator = false ∧
    ∃ x v, log' = log ++ [(["ovftool".toList, "--version".toList], x)] ∧ ToolTells x v ∧
      ((inject = true ∧ ¬ Older v ⟨4, 0, 0, none⟩ ∧ powerOn = true ∧ inp' = inp) ∨
       (inject = false ∧ (Older v ⟨4, 0, 0, none⟩ ∨ powerOn = false) ∧ Agrees force inp inp')))

/-- the arguments for ovftool -/
def ToolArgs (c : DeployCmd) (package : Str) (p : Prof) (inject : Bool) (target : Str) : List Str :=
  c.ovftoolArgs ++ (if inject then ["--X:injectOvfEnv".toList] else []) ++
    (p.map (fun x => "--deploymentOption=".toList ++ x)).toList ++
    ((c.networkMap.getD []).map (fun n => "--net:".toList ++ n)) ++
    ["--name=".toList ++ c.vmName.getD (pathRoot (pathBase package))] ++
    (if c.powerOn then ["--powerOn".toList] else []) ++
    (c.datastore.map (fun x => "--datastore=".toList ++ x)).toList ++ [package, target]

/-- the port for a connection -/
def PortFor (c : SerialConn) (b : Backing) : Prop :=
  (c.kind = "device".toList ∧ b = .device c.value) ∨
  ((c.kind = "tcp".toList ∨ c.kind = "telnet".toList) ∧ ∃ srv, b = .uri (c.kind ++ "://".toList ++ c.value) srv ∧
    (srv = true ↔ "server".toList ∈ dkeys c.options))

/-- `i` is the place of the first machine with the name -/
def FirstNamed (names : List Str) (name : Str) (i : Nat) : Prop :=
  names[i]? = some name ∧ ∀ j, j < i → names[j]? ≠ some name

end Cot
