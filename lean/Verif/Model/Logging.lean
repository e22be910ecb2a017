import Verif.Model.Info
import Verif.Model.Lifecycle
import Verif.Model.Argparse
/-
Model of the messages that COT logs while it runs: COT/ui/cli.py:268-311, 560-630 and 632-714, on top of Python's `logging`.
-/
namespace Cot

/-- the levels of messages: those of `logging` and, with NOTICE, VERBOSE and SPAM, of `verboselogs` -/
inductive LogLevel | critical | error | warning | notice | info | verbose | debug | spam
  deriving DecidableEq

/-- the numbers of the levels in `logging` and `verboselogs` -/
def LogLevel.num : LogLevel → Nat
  | .critical => 50 | .error => 40 | .warning => 30 | .notice => 25 | .info => 20 | .verbose => 15 | .debug => 10 | .spam => 5

/-- `logging.getLevelName` -/
def LogLevel.name : LogLevel → Str
  | .critical => "CRITICAL".toList | .error => "ERROR".toList | .warning => "WARNING".toList | .notice => "NOTICE".toList
  | .info => "INFO".toList | .verbose => "VERBOSE".toList | .debug => "DEBUG".toList | .spam => "SPAM".toList

/-- A `logging.LogRecord` of a logger below `COT`, as far as it is shown; `time` is `asctime` in the format `%H:%M:%S`, and `message` the text
with its arguments filled in. -/
structure LogRecord where
  level : LogLevel
  time : Str
  msecs : Nat
  modName : Str
  line : Nat
  func : Str
  message : Str

/-- the escape sequences of `colorlog`: for a level, and to end colours.  The colours themselves (cli.py:671-680) are not modelled. -/
structure LogColours where
  start : LogLevel → Str
  reset : Str

/-- A `logging.StreamHandler`: its level, and the verbosity that its formatter was made with. -/
structure LogHandler where
  level : Nat
  fmt : Nat

/-- The logger `COT`, which the whole process shares: its level and its handlers.  A handler is an object; it is named here by its place in
`made`, the list of all handlers that were ever made. -/
structure LogSt where
  level : Nat
  attached : List Nat := []
  made : List LogHandler := []

/-- The attributes `handler` and `master_logger` (is it set?) of a CLI object, cli.py:90-91 -/
structure CliLog where
  handler : Option Nat := none
  master : Bool := false

/-- cli.py:682-714, the formatter that was made with the verbosity `v`, applied to a record -/
def formatRecord (k : LogColours) (v : Nat) (r : LogRecord) : Str :=
  k.start r.level ++ joinWith " : ".toList
    ([padR 7 r.level.name] ++ (if v ≤ 10 then [r.time ++ '.' :: natStr r.msecs] else []) ++ (if v ≤ 20 then [padR 15 r.modName] else []) ++
      (if v ≤ 10 then [padL 4 (natStr r.line)] else []) ++ (if v ≤ 15 then [padL 31 r.func ++ "()".toList] else [])) ++
    " :".toList ++ k.reset ++ ' ' :: r.message

/-- What a message leads to: `Logger.isEnabledFor`, then `Logger.callHandlers` with every handler of the logger `COT`, each of which looks at
its own level.  The loggers below `COT` have no level and no handlers of their own.  The handlers of the root logger, of which COT makes
none, are not modelled, nor is the stand-in that Python 3 uses if there is no handler at all. -/
def emit (k : LogColours) (s : LogSt) (r : LogRecord) : List Str :=
  if r.level.num < s.level then []
  else s.attached.filterMap (fun h => match s.made[h]? with
    | none => none
    | some x => if r.level.num < x.level then none else some (formatRecord k x.fmt r))

/-- cli.py:302-303: the handler of the object, made if there is none -/
def ensureHandler (s : LogSt) (c : CliLog) (level : Nat) : Nat × LogSt :=
  match c.handler with
  | some h => (h, s)
  | none => (s.made.length, { s with made := s.made ++ [⟨level, level⟩] })

/-- cli.py:293-311 `set_verbosity`; `addHandler` does not add a handler twice.  The message at its end is left out: it is the first of the
messages of the run. -/
def setVerbosity (s : LogSt) (c : CliLog) (level : Nat) : LogSt × CliLog :=
  let h := (ensureHandler s c level).1
  let s1 := (ensureHandler s c level).2
  let s2 := { s1 with made := s1.made.set h ⟨level, level⟩ }
  let s3 := if c.master then s2 else { s2 with attached := if h ∈ s2.attached then s2.attached else s2.attached ++ [h] }
  ({ s3 with level := level }, ⟨some h, true⟩)

/-- How `main` ends, as far as the log is concerned: before the `try` of cli.py:602 (no subcommand, cli.py:594-595); in the `finally` of
cli.py:620-625 because `destroy` fails; or in any other way, normally or not. -/
inductive RunEnd | early | destroyFails | regular
  deriving DecidableEq

/-- cli.py:622-626: the handler is removed if `master_logger` is set -/
def detach (s : LogSt) (c : CliLog) : LogSt × CliLog :=
  if c.master then match c.handler with
    | some h => ({ s with attached := s.attached.erase h }, ⟨none, false⟩)
    | none => (s, ⟨none, false⟩)       -- not reached
  else (s, c)

/-- cli.py:560-630 `main`, as far as the log is concerned: what is shown for each of the messages of the run, and what is left -/
def mainLog (k : LogColours) (s : LogSt) (c : CliLog) (delta : Int) (rs : List LogRecord) (e : RunEnd) : List (List Str) × LogSt × CliLog :=
  let sc := setVerbosity s c (adjustVerbosity delta)
  (rs.map (emit k sc.1), match e with
    | .early => sc
    | .destroyFails => sc
    | .regular => detach sc.1 sc.2)

/-- What happens in a process: a CLI object (they are numbered) runs a command, or something is logged outside of a run. -/
inductive LogEvent where
  | run (who : Nat) (delta : Int) (rs : List LogRecord) (e : RunEnd)
  | between (rs : List LogRecord)

/-- the process: the logger, and the CLI objects -/
structure LogProc where
  log : LogSt
  clis : Nat → CliLog := fun _ => {}

/-- one event: what is shown for each message, and the process afterwards -/
def logStep (k : LogColours) (p : LogProc) : LogEvent → List (List Str) × LogProc
  | .run i d rs e =>
    let r := mainLog k p.log (p.clis i) d rs e
    (r.1, ⟨r.2.1, fun j => if j = i then r.2.2 else p.clis j⟩)
  | .between rs => (rs.map (emit k p.log), p)

/-- the process after a history of events -/
def logAfter (k : LogColours) : LogProc → List LogEvent → LogProc
  | p, [] => p
  | p, e :: r => logAfter k (logStep k p e).2 r

/-- cli.py:591: `args._verbosity - args._quietude` -/
def verbosityDelta (ns : ArgSpace) : Except Err Int :=
  match dget? ns "_verbosity".toList, dget? ns "_quietude".toList with
  | some (.one (.int a)), some (.one (.int b)) => .ok (a - b)
  | _, _ => .error .typeError

end Cot
