import Verif.Model.Argparse
import Verif.Model.Cli
import Verif.Model.EditHardware
/-
Model of the command `edit-hardware` from the command line to the edited package: COT/ui/cli.py and the attributes of
COT/commands/edit_hardware.py.
-/
namespace Cot

/-- The command object, COT/commands/edit_hardware.py:80-118 and command.py:211-218, 267-275: the package and output that were set, the
record of values that the platform of the package was asked about, and the attributes that the run looks at. -/
structure EhCmd where
  package : Option Str := none
  output : Option Str := none
  seen : ValCache
  req : EhReq := {}

/-- What surrounds the attributes `package` and `output`: whether the package can be opened (command.py:280-302, C106 to C110) and
whether the output is agreed to (command.py:314-345, C39 and C109). -/
structure EhFiles where
  opens : Str → Except Err Unit
  agrees : Str → Except Err Unit

/-- the texts of a list.  Simplification: Python stores whatever it is given; what the parser does not give to these attributes is
a TypeError here. -/
def argTexts : List (ArgElem ArgAtom) → Except Err (List Str)
  | [] => .ok []
  | .one (.text s) :: r => match argTexts r with
    | .error e => .error e
    | .ok l => .ok (s :: l)
  | _ :: _ => .error .typeError

/-- an attribute that is stored as it is: edit_hardware.py:88, 96, 98, 103, 108, 114 and 118 -/
def setTexts (f : EhReq → List Str → EhReq) (st : EhCmd) : ArgVal ArgAtom → Except Err EhCmd
  | .list l => match argTexts l with
    | .error e => .error e
    | .ok l' => .ok { st with req := f st.req l' }
  | _ => .error .typeError

/-- an attribute that is a list and is converted before it is stored: edit_hardware.py:217-221, 264-269, 297-302 -/
def setConverted (g : List Str → Except Err (List Str)) (f : EhReq → List Str → EhReq) (st : EhCmd) : ArgVal ArgAtom → Except Err EhCmd
  | .list l => match argTexts l with
    | .error e => .error e
    | .ok l' => match g l' with
      | .error e => .error e
      | .ok l'' => .ok { st with req := f st.req l'' }
  | _ => .error .typeError

/-- edit_hardware.py:125-134, the setter of `cpus`, for a number -/
def setCpusNum (c : EhCtx) (st : EhCmd) : ArgVal ArgAtom → Except Err EhCmd
  | .one (.int n) => if n < 1 then .error .invalidInput else match ehCheck c .cpus st.seen n with
    | .error e => .error e
    | .ok seen => .ok { st with seen := seen, req := { st.req with cpus := some n } }
  | _ => .error .typeError

/-- edit_hardware.py:144-174, the setter of `memory`, for a text -/
def setMemoryText (c : EhCtx) (st : EhCmd) : ArgVal ArgAtom → Except Err EhCmd
  | .one (.text s) => match setMemoryArg c st.seen s with
    | .error e => .error e
    | .ok (n, seen) => .ok { st with seen := seen, req := { st.req with memory := some n } }
  | _ => .error .typeError

/-- edit_hardware.py:181-189 and 228-236, the setters of `nics` and `serial_ports`, for a number -/
def setCountNum (c : EhCtx) (k : HwKind) (f : EhReq → Nat → EhReq) (st : EhCmd) : ArgVal ArgAtom → Except Err EhCmd
  | .one (.int n) => if n < 0 then .error .valueTooLow else match ehCheck c k st.seen n with
    | .error e => .error e
    | .ok seen => .ok { st with seen := seen, req := f st.req n.toNat }
  | _ => .error .typeError

/-- edit_hardware.py:90, `delete_all_other_profiles` -/
def setDelete (st : EhCmd) : ArgVal ArgAtom → Except Err EhCmd
  | .one (.truth b) => .ok { st with req := { st.req with deleteOthers := b } }
  | _ => .error .typeError

/-- command.py:280-302, the setter of `package` -/
def ehSetPackage (f : EhFiles) (st : EhCmd) : ArgVal ArgAtom → Except Err EhCmd
  | .one (.text p) => match f.opens p with
    | .error e => .error e
    | .ok _ => .ok { st with package := some p }
  | _ => .error .typeError

/-- command.py:314-345, the setter of `output` -/
def ehSetOutput (f : EhFiles) (st : EhCmd) : ArgVal ArgAtom → Except Err EhCmd
  | .one (.text p) => match f.agrees p with
    | .error e => .error e
    | .ok _ => .ok { st with output := some p }
  | _ => .error .typeError

/-- the attributes of the command, edit_hardware.py:80-302 -/
def ehSetters (c : EhCtx) (f : EhFiles) : List (Str × (EhCmd → ArgVal ArgAtom → Except Err EhCmd)) :=
  [("package".toList, ehSetPackage f),
   ("output".toList, ehSetOutput f),
   ("profiles".toList, setTexts (fun q l => { q with profiles := some l })),
   ("delete_all_other_profiles".toList, setDelete),
   ("virtual_system_type".toList, setTexts (fun q l => { q with systemTypes := some l })),
   ("cpus".toList, setCpusNum c),
   ("memory".toList, setMemoryText c),
   ("nics".toList, setCountNum c .nicCount (fun q n => { q with nics := some n })),
   ("nic_types".toList, setConverted (setNicTypesArg c) (fun q l => { q with nicTypes := some l })),
   ("nic_names".toList, setTexts (fun q l => { q with nicNames := some l })),
   ("nic_networks".toList, setTexts (fun q l => { q with networks := some l })),
   ("network_descriptions".toList, setTexts (fun q l => { q with descriptions := some l })),
   ("mac_addresses_list".toList, setTexts (fun q l => { q with macs := some l })),
   ("serial_ports".toList, setCountNum c .serialCount (fun q n => { q with serialPorts := some n })),
   ("serial_connectivity".toList, setTexts (fun q l => { q with serialConn := some l })),
   ("scsi_subtypes".toList, setConverted setScsiArg (fun q l => { q with scsi := some l })),
   ("ide_subtypes".toList, setConverted setIdeArg (fun q l => { q with ide := some l }))]

/-- `setattr(arg_dict["instance"], …)` (cli.py:552, 558) on a COTEditHardware; any other attribute is stored and not looked at -/
def ehSetattr (c : EhCtx) (f : EhFiles) (st : EhCmd) (a : Str) (v : ArgVal ArgAtom) : Except Err EhCmd :=
  match dget? (ehSetters c f) a with
  | none => .ok st
  | some g => g st v

/-- cli.py:313-324 `run` and 560-625 `main` for edit-hardware: the command line is parsed, the attributes are set, and the command
is run on the package `s` (as it was opened, with the platform `c.plat`).  A usage error and help end the program; exceptions are
handed on (C63).  The result is the command object, which knows where the package came from and where it goes, and the package.  What
follows `run` is not part of this definition. -/
def ehMain (c : EhCtx) (f : EhFiles) (argv : List Str) (s : EhSt) : Except Err (EhCmd × EhSt) :=
  match cotParse argv with
  | .error _ => .error .systemExit
  | .ok ns => match argsToDict ns with
    | .error e => .error e
    | .ok d => match setAttributes (ehSetattr c f) d { seen := s.seen } with
      | (.error e, _) => .error e
      | (.ok _, st) => match editHardware c st.req { s with seen := st.seen } with
        | .error e => .error e
        | .ok s' => .ok (st, s')

end Cot
