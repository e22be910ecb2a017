import Verif.Model.Commands
/-
Model of the command `help`: COT/commands/help.py and COT/ui/cli.py.
-/
namespace Cot

/-- cli.py:466-497 `add_subparser` (Python 3.2 and later), as far as `subparser_lookup` is concerned -/
def addLookup (lookupPrefix : Str) (d : List (Str × ArgParser)) (c : SubCommand) : List (Str × ArgParser) :=
  (c.title :: c.aliases).foldl (fun d n => dset d (lookupPrefix ++ n) c.parser) d

/-- cli.py:453-464 `create_subparsers`: the table `subparser_lookup` when all commands are there.  The hypervisors of `deploy` are entered with
the prefix of deploy_esxi.py:489; that they come last here does not matter, as the table is only looked up. -/
def subparserLookup : List (Str × ArgParser) :=
  cotHypervisors.foldl (addLookup "deploy-".toList) (cotCommands.foldl (addLookup []) [])

/-- help.py:53-59, the setter of `subcommand`; None does not reach it from the command line -/
def setHelpSubcommand (s : Str) : Except Err Str :=
  if s ∈ dkeys subparserLookup then .ok s else .error .invalidInput

/-- `setattr(arg_dict["instance"], …)` (cli.py:552, 558); the state is `subcommand`, other attributes are added and never looked at -/
def helpSetattr (q : Option Str) (a : Str) (v : ArgVal ArgAtom) : Except Err (Option Str) :=
  if a = "subcommand".toList then storeTextVia setHelpSubcommand (fun _ x => some x) q v
  else .ok q

/-- help.py:61-69 `run`: the parser whose help is printed.  `Command.run` does nothing here, as there is no VM (command.py:67-97). -/
def helpRun (q : Option Str) : Except Err ArgParser :=
  match q with
  | none => .ok mainParser
  | some [] => .ok mainParser
  | some s => match dget? subparserLookup s with
    | some P => .ok P
    | none => .error .keyError

/-- cli.py:313-324 `run` and 560-608 `main` for `help`: the parser whose help is printed, or the exception that ended it, and the state of
the command afterwards.  The command object lives as long as the CLI object, so the state is that which an earlier run has left. -/
def helpMain (q : Option Str) (argv : List Str) : Except Err ArgParser × Option Str :=
  match cotParse argv with
  | .error _ => (.error .systemExit, q)
  | .ok ns => match argsToDict ns with
    | .error e => (.error e, q)
    | .ok d => match setAttributes helpSetattr d q with
      | (.error e, q') => (.error e, q')
      | (.ok _, q') => (helpRun q', q')

end Cot
