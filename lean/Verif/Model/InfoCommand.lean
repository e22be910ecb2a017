import Verif.Model.Commands
import Verif.Model.Info
/-
Model of the command `info` from the command line to what is printed: COT/ui/cli.py and COT/commands/info.py.
-/
namespace Cot

/-- info.py:42-50: the attributes of a new command -/
structure InfoCmd where
  packages : List Str := []
  verbosity : Verbosity := .normal

/-- info.py:57-63, the setter of `package_list` -/
def setPackageList (exist : Str → Bool) (ps : List Str) : Except Err (List Str) :=
  if ps.all exist = false then .error .invalidInput else .ok ps

/-- info.py:70-75, the setter of `verbosity`; None is the verbosity of a new command -/
def setInfoVerbosity (s : Str) : Except Err Verbosity :=
  if s = "brief".toList then .ok .brief
  else if s = "verbose".toList then .ok .verbose
  else .error .invalidInput

/-- `setattr(arg_dict["instance"], …)` (cli.py:552, 558) on the command; attributes that the class does not have are added and never
looked at -/
def infoSetattr (exist : Str → Bool) (q : InfoCmd) (a : Str) (v : ArgVal ArgAtom) : Except Err InfoCmd :=
  if a = "package_list".toList then storeListVia (setPackageList exist) (fun q l => { q with packages := l }) q v
  else if a = "verbosity".toList then storeTextVia setInfoVerbosity (fun q x => { q with verbosity := x }) q v
  else .ok q

/-- cli.py:313-324 `run` and 560-608 `main` for `info`: the command line is parsed, the attributes are set, and the command is run.  What
is printed and logged, and the exception that ended it. -/
def infoMain (exist : Str → Bool) (load : Str → Except Err InfoVM) (w : InfoWorld) (argv : List Str) : List InfoOut × Option Err :=
  match cotParse argv with
  | .error _ => ([], some .systemExit)
  | .ok ns => match argsToDict ns with
    | .error e => ([], some e)
    | .ok d => match setAttributes (infoSetattr exist) d {} with
      | (.error e, _) => ([], some e)
      | (.ok _, q) => infoRun exist load w q.verbosity q.packages

end Cot
