import Verif.Model.Commands
/-
Model of several runs of one CLI object (COT/ui/cli.py:313-324 `run`): the command objects are made once (cli.py:456-464), so that a
command finds its attributes as the run before has left them.
-/
namespace Cot

/-- `setattr` on a command object that may have been used before: command.py:314-345 for `output`, whose value is made absolute and is not
looked at again if it is the old one; the rest as in `pkgSetattr`.  The empty text of `_output` is `none` here. -/
def sessionSetattr {Q : Type} (f : EhFiles) (abspath : Str → Str) (setters : List (Str × Setter Q)) (st : PkgCmd Q) (a : Str)
    (v : ArgVal ArgAtom) : Except Err (PkgCmd Q) :=
  if a = "output".toList then
    match v with
    | .one (.text []) => .ok { st with output := none }
    | .one (.text (c :: r)) =>
      if st.output = some (abspath (c :: r)) then .ok st
      else match f.agrees (abspath (c :: r)) with
        | .error e => .error e
        | .ok _ => .ok { st with output := some (abspath (c :: r)) }
    | _ => .error .typeError
  else pkgSetattr f setters st a v

/-- cli.py:313-324 `run` and 560-608 `main` with command.py:358-390: one run on the command object `st`; what is run on which package and
where it is written to, and the object afterwards.  The work of the subclass between the two is left out. -/
def sessionRun {Q : Type} (f : EhFiles) (abspath : Str → Str) (setters : List (Str × Setter Q)) (argv : List Str) (st : PkgCmd Q) :
    Except Err (Str × Str × Q) × PkgCmd Q :=
  match cotParse argv with
  | .error _ => (.error .systemExit, st)
  | .ok ns => match argsToDict ns with
    | .error e => (.error e, st)
    | .ok d => match setAttributes (sessionSetattr f abspath setters) d st with
      | (.error e, st) => (.error e, st)
      | (.ok _, st) => match st.package with
        | none => (.error .invalidInput, st)
        | some p => match st.output with
          | some o => (.ok (p, o, st.req), st)
          | none => match f.agrees (abspath p) with
            | .error e => (.error e, st)
            | .ok _ => (.ok (p, abspath p, st.req), { st with output := some (abspath p) })

end Cot
