import Verif.Py.Basic
import Verif.Py.Path
/-
Model of the life of a command and of the VM description it works on: COT/vm_description/vm_description.py
(context manager, destroy), COT/ui/cli.py (main, adjust_verbosity) and COT/commands/command.py (package, output,
run, finished).  What the individual steps do is left open: each has an outcome, and the trace records which steps
were carried out.
-/
namespace Cot

/-- The exceptions told apart by `main`: InvalidInputError (with ValueUnsupportedError and its subclasses),
ValueMismatchError, NotImplementedError, EnvironmentError (with errno and whether there is a file name),
KeyboardInterrupt, EOFError, SystemExit with a number or a message, AttributeError, and all others. -/
inductive Exn
  | invalidInput | valueMismatch | notImplemented
  | env (errno : Option Int) (named : Bool)
  | interrupt | eof
  | exit (code : Int) | exitMsg
  | attribute | other
deriving DecidableEq

abbrev Outcome := Except Exn Unit

/-- The steps that are recorded. -/
inductive Ev | attrs | run | finished | write | rmtree | destroy
deriving DecidableEq

/-! ### VMDescription -/

/-- What `destroy` finds: the working directory, and how measuring and removing it go. -/
structure DirState where
  created : Bool
  present : Bool
  measure : Outcome
  remove : Outcome

/-- vm_description.py:211-228 `destroy` -/
def vmDestroy (d : DirState) : Outcome × List Ev :=
  if d.created = true ∧ d.present = true then
    match d.measure with
    | .error .attribute => (.ok (), [])
    | .error e => (.error e, [])
    | .ok _ => match d.remove with
      | .error .attribute => (.ok (), [.rmtree])
      | .error e => (.error e, [.rmtree])
      | .ok _ => (.ok (), [.rmtree])
  else (.ok (), [])

/-- vm_description.py:199-209 `__exit__`, after a `with` block with outcome `body`; the block's own exception goes on
unless another replaces it -/
def withVm (body write : Outcome) (d : DirState) : Outcome × List Ev :=
  let r : Outcome × List Ev := match body with
    | .ok _ => (write, [.write])
    | .error e => (.error e, [])
  match vmDestroy d with
  | (.error e, t) => (.error e, r.2 ++ t)
  | (.ok _, t) => (r.1, r.2 ++ t)

/-- ovf.py:146-268 `OVF.__init__`: `load` is everything between `try` and `except Exception` (which does not catch
SystemExit and KeyboardInterrupt) -/
def vmInit (load : Outcome) (d : DirState) : Outcome × List Ev :=
  match load with
  | .ok _ => (.ok (), [])
  | .error .interrupt => (.error .interrupt, [])
  | .error (.exit n) => (.error (.exit n), [])
  | .error .exitMsg => (.error .exitMsg, [])
  | .error e => match vmDestroy d with
    | (.error e', t) => (.error e', t)
    | (.ok _, t) => (.error e, t)

/-! ### CLI.main -/

/-- cli.py:604-625: what the handlers turn an exception into -/
def handled : Exn → Exn
  | .invalidInput => .exit 2
  | .valueMismatch => .exit 2
  | .notImplemented => .exitMsg
  | .env (some n) _ => .exit n
  | .env none _ => .exit 1
  | .interrupt => .exitMsg
  | .eof => .exitMsg
  | e => e

/-- `a; b`, where the second step happens only if the first succeeds -/
def andThen (a : Outcome × List Ev) (b : Outcome × List Ev) : Outcome × List Ev :=
  match a.1 with
  | .ok _ => (b.1, a.2 ++ b.2)
  | .error e => (.error e, a.2)

/-- cli.py:599-633, the end of `main`: setting attributes, run, finished; the handlers; and `finally` -/
def cliMain (attrs run finished destroy : Outcome) : Outcome × List Ev :=
  let r := andThen (attrs, [.attrs]) (andThen (run, [.run]) (finished, [.finished]))
  let h : Outcome := match r.1 with
    | .ok _ => .ok ()
    | .error e => .error (handled e)
  match destroy with
  | .error e => (.error e, r.2 ++ [.destroy])
  | .ok _ => (h, r.2 ++ [.destroy])

/-- the exit status of the process: a number is reduced modulo 256, a message or a traceback means 1 -/
def exitStatus : Outcome → Int
  | .ok _ => 0
  | .error (.exit n) => n % 256
  | .error _ => 1

/-! ### Verbosity -/

/-- cli.py:279-284; the numbers are logging.CRITICAL, ERROR, WARNING, NOTICE, INFO, VERBOSE, DEBUG, SPAM -/
def verbosityLevels : List Nat := [50, 40, 30, 25, 20, 15, 10, 5]

/-- cli.py:268-291 `adjust_verbosity`: the level chosen -/
def adjustVerbosity (delta : Int) : Nat :=
  let i : Int := (verbosityLevels.idxOf 25 : Int) + delta
  let i := if i < 0 then 0 else if i ≥ verbosityLevels.length then (verbosityLevels.length : Int) - 1 else i
  verbosityLevels.getD i.toNat 0

/-! ### Commands that write -/

/-- What a command finds when it looks. -/
structure CmdWorld where
  cwd : Str
  exists_ : Str → Bool
  isFile : Str → Bool
  isDir : Str → Bool
  /-- the user's answer to the question whether to overwrite this file -/
  agrees : Str → Bool
  /-- can a VM description be loaded from this file? -/
  loads : Str → Bool
  /-- does OVF.detect_type_from_name accept the name? -/
  typeOk : Str → Bool
  /-- is there space, or does the user accept that there is not (`check_disk_space(…, die=True)`)? -/
  space : Bool
  /-- do the checks before running succeed? -/
  ready : Bool

/-- A ReadWriteCommand: `_output`, `_package` and, if there is a VM, its `output_file`. -/
structure CmdState where
  output : Str
  package : Option Str
  vm : Option Str
deriving DecidableEq

/-- What is recorded: a file found absent when it was chosen for output, one whose overwriting the user agreed to,
and one written. -/
inductive CmdEv | absent (p : Str) | agreed (p : Str) | wrote (p : Str)
deriving DecidableEq

/-- `os.path.abspath` -/
def absPath (cwd p : Str) : Str := normpath (pathJoin cwd p)

/-- command.py:337-344: storing the new output -/
def storeOutput (w : CmdWorld) (s : CmdState) (v : Str) (evs : List CmdEv) : Except Err Unit × CmdState × List CmdEv :=
  match s.vm with
  | none => (.ok (), { s with output := v }, evs)
  | some _ =>
    if v ≠ [] ∧ w.typeOk v = false then (.error .valueUnsupported, { s with output := v }, evs)
    else (.ok (), { s with output := v, vm := some v }, evs)

/-- command.py:314-344, the setter of `output` -/
def setOutput (w : CmdWorld) (s : CmdState) (v : Str) : Except Err Unit × CmdState × List CmdEv :=
  let v := if v ≠ [] then absPath w.cwd v else v
  if v = s.output then (.ok (), s, [])
  else if v = [] then storeOutput w s v []
  else if w.exists_ v then
    if w.isFile v = false then (.error .invalidInput, s, [])
    else if w.agrees v then storeOutput w s v [.agreed v]
    else (.error .systemExit, s, [])
  else if w.exists_ (pathDir v) = false then (.error .invalidInput, s, [])
  else if w.isDir (pathDir v) = false then (.error .invalidInput, s, [])
  else storeOutput w s v [.absent v]

/-- command.py:279-302, the setter of `package` -/
def setPackage (w : CmdWorld) (s : CmdState) (v : Option Str) : Except Err Unit × CmdState × List CmdEv :=
  match v with
  | none => (.ok (), { s with vm := none, package := none }, [])
  | some p =>
    if w.exists_ p = false then (.error .invalidInput, s, [])
    else if w.loads p = false ∨ (s.output ≠ [] ∧ w.typeOk s.output = false) then
      (.error .vmInitError, { s with vm := none }, [])
    else (.ok (), { s with vm := some s.output, package := some p }, [])

/-- command.py:346-379 `run`: the checks, and the default for the output -/
def cmdRun (w : CmdWorld) (s : CmdState) : Except Err Unit × CmdState × List CmdEv :=
  match s.package with
  | none => (.error .invalidInput, s, [])
  | some p =>
    if w.ready = false then (.error .invalidInput, s, [])
    else if s.output = [] then setOutput w s p
    else (.ok (), s, [])

/-- command.py:382-390 `finished` -/
def cmdFinished (w : CmdWorld) (s : CmdState) : Except Err Unit × CmdState × List CmdEv :=
  match s.vm with
  | none => (.ok (), s, [])
  | some p =>
    if w.space = false then (.error .systemExit, s, [])
    else if p = [] then (.ok (), s, [])
    else (.ok (), s, [.wrote p])

/-- What a user of a command can do. -/
inductive CmdOp | setPackage (p : Option Str) | setOutput (v : Str) | run | finished
deriving DecidableEq

def cmdStep (w : CmdWorld) (s : CmdState) : CmdOp → Except Err Unit × CmdState × List CmdEv
  | .setPackage p => setPackage w s p
  | .setOutput v => setOutput w s v
  | .run => cmdRun w s
  | .finished => cmdFinished w s

/-- any sequence of operations, each in the world of its moment, going on after errors; the events in order -/
def cmdSteps (s : CmdState) : List (CmdOp × CmdWorld) → CmdState × List CmdEv
  | [] => (s, [])
  | (op, w) :: rest =>
    let r := cmdStep w s op
    let q := cmdSteps r.2.1 rest
    (q.1, r.2.2 ++ q.2)

/-- command.py:258-270 `__init__` -/
def cmdNew : CmdState := { output := [], package := none, vm := none }

end Cot
