import Verif.Py.Path
/-
Model of reading an OVA archive: COT/vm_description/ovf/ovf.py `untar`.
-/
namespace Cot

/-- ovf.py:2672-2674: `os.path.abspath(os.path.join(working_dir, pathname)).startswith(working_dir)`.
The working directory is absolute, so `abspath` is `normpath`. -/
def memberOk (workingDir name : Str) : Bool := startsWith (normpath (pathJoin workingDir name)) workingDir

/-- ovf.py:2684-2685: `[mem for mem in tarf.getmembers() if os.path.splitext(mem.name)[1] == '.ovf']` -/
def ovfMembers (names : List Str) : List Str := names.filter (fun n => decide (pathExt n = ".ovf".toList))

/-- ovf.py:2634-2707 `untar`, from the list of member names: the path of the extracted descriptor, or
VMInitError.  Simplification: opening the archive and extracting the bytes are not modelled. -/
def untar (workingDir : Str) (names : List Str) : Except Err Str :=
  match names with
  | [] => .error .vmInitError
  | first :: _ =>
    if names.any (fun n => !memberOk workingDir n) then .error .vmInitError
    else if pathExt first = ".ovf".toList then .ok (pathJoin workingDir first)
    else match ovfMembers names with
      | [] => .error .vmInitError
      | d :: _ => .ok (pathJoin workingDir d)

end Cot
