import Verif.Model.Commands
import Verif.Model.InstallHelpers
/-
Model of the command `install-helpers` from the command line: COT/ui/cli.py and COT/commands/install_helpers.py.
-/
namespace Cot

/-- install_helpers.py:150-158: the attributes of a new command -/
structure InstallCmd where
  verifyOnly : Bool := false
  ignoreErrors : Bool := false

/-- `setattr(arg_dict["instance"], …)` (cli.py:552, 558): plain attributes, without setters; those that the class does not have are added
and never looked at.  Both are flags, so other values than truth values do not occur. -/
def installSetattr (q : InstallCmd) (a : Str) (v : ArgVal ArgAtom) : Except Err InstallCmd :=
  if a = "verify_only".toList then storeTruth (fun q b => { q with verifyOnly := b }) q v
  else if a = "ignore_errors".toList then storeTruth (fun q b => { q with ignoreErrors := b }) q v
  else .ok q

/-- cli.py:313-324 `run` and 560-608 `main` for `install-helpers`: the command line is parsed, the attributes are set, and the command is
run. -/
def installMain {W V : Type} (sys : InstallSys W V) (fs : ManFs W) (m : ManSource) (fill : Str → Str) (argv : List Str) (w : W) : InstallOut W :=
  match cotParse argv with
  | .error _ => ⟨[], .error .systemExit, w⟩
  | .ok ns => match argsToDict ns with
    | .error e => ⟨[], .error e, w⟩
    | .ok d => match setAttributes installSetattr d {} with
      | (.error e, _) => ⟨[], .error e, w⟩
      | (.ok _, q) => installHelpersRun sys fs m fill q.verifyOnly q.ignoreErrors w

end Cot
