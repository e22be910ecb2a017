import Verif.Model.Cli
import Verif.Model.DataValidation
/-
Model of the command line: the parsers and subparsers that COT/ui/cli.py and the modules of COT/commands create, and what the standard
library's argparse makes of a list of arguments with them.  The algorithm is that of Lib/argparse.py of Python 3.11
(`ArgumentParser._parse_known_args` and what it calls), function by function; the tables of options are COT's.
Not modelled: the texts of help and error messages, `fromfile_prefix_chars` (COT sets none), abbreviations of subcommands,
and digits other than ASCII in the test for negative numbers.
-/
namespace Cot

/-! ### What a parser is told about an argument -/

/-- how many values (`nargs`): none (flags), one, at most one (`?`), at least one (`+`), or everything that is left (`A...`) -/
inductive ArgNum where
  | zero | one | opt | plus | rest
deriving DecidableEq

/-- a single converted value -/
inductive ArgAtom where
  | text (s : Str)
  | int (i : Int)
  | truth (b : Bool)
deriving DecidableEq

/-- `type=`: the conversions of COT/data_validation.py that the parsers use -/
inductive ArgType where
  | text | positive | nonNegative | device | noSpace | mac | truth
deriving DecidableEq

/-- `action=` -/
inductive ArgAct where
  | store | append | setTrue | setConst (s : Str) | count | help | version
deriving DecidableEq

/-- one `add_argument` call; a positional argument has no flags.  `const` is the value for `?` without a value; `group` numbers
the mutually exclusive groups (0: none). -/
structure ArgOpt where
  flags : List Str
  dest : Str
  num : ArgNum := .one
  act : ArgAct := .store
  type : ArgType := .text
  choices : Option (List Str) := none
  const : Str := []
  group : Nat := 0
deriving DecidableEq

/-- a parser: its options and its positional arguments, in the order of the `add_argument` calls -/
structure ArgParser where
  opts : List ArgOpt
  pos : List ArgOpt
deriving DecidableEq

/-- how parsing ends early: a usage error (exit status 2), or the help or version text (exit status 0) -/
inductive ArgStop where
  | usage | help | version
deriving DecidableEq

/-- the namespace -/
abbrev ArgSpace := List (Str × ArgVal ArgAtom)

/-! ### Recognizing options -/

/-- an option found in an argument: the option, the flag it was found by and a value attached to it, with whether it was attached by `=` -/
structure ArgHit where
  opt : ArgOpt
  flag : Str
  attached : Option (Bool × Str)

/-- argparse `_option_string_actions`: every flag with its option -/
def ArgParser.flagTable (P : ArgParser) : List (Str × ArgOpt) := P.opts.flatMap (fun o => o.flags.map (fun f => (f, o)))

/-- `_option_string_actions[s]` -/
def ArgParser.byFlag (P : ArgParser) (s : Str) : Option ArgOpt := dget? P.flagTable s

/-- `s.partition('=')`: none without `=` -/
def partEq (s : Str) : Option (Str × Str) :=
  match s.dropWhile (fun c => c != '=') with
  | [] => none
  | _ :: v => some (s.takeWhile (fun c => c != '='), v)

/-- `s.startswith(p)` -/
def hasPrefix (p s : Str) : Bool := p.isPrefixOf s

/-- argparse `_get_option_tuples`, an argument with two dashes: every flag it abbreviates -/
def longHits (P : ArgParser) (s : Str) : List ArgHit :=
  match partEq s with
  | none => (P.flagTable.filter (fun fo => hasPrefix s fo.1)).map (fun fo => ⟨fo.2, fo.1, none⟩)
  | some (p, v) => (P.flagTable.filter (fun fo => hasPrefix p fo.1)).map (fun fo => ⟨fo.2, fo.1, some (true, v)⟩)

/-- argparse `_get_option_tuples`, an argument with one dash: the flag of its first letter with the rest attached, or flags it
abbreviates -/
def shortHits (P : ArgParser) (s : Str) : List ArgHit :=
  P.flagTable.filterMap (fun fo =>
    if fo.1 = s.take 2 then some ⟨fo.2, fo.1, some (false, s.drop 2)⟩
    else if hasPrefix s fo.1 then some ⟨fo.2, fo.1, none⟩ else none)

/-- argparse `_get_option_tuples` -/
def optionHits (P : ArgParser) : Str → List ArgHit
  | '-' :: '-' :: t => longHits P ('-' :: '-' :: t)
  | s => shortHits P s

/-- argparse `_negative_number_matcher` `^-\d+$|^-\d*\.\d+$` -/
def negativeNumber : Str → Bool
  | '-' :: t =>
    let d := if t.getLast? = some '\n' then t.dropLast else t
    let r := d.dropWhile isDig
    (!d.isEmpty && r.isEmpty) ||
      (match r with
       | '.' :: f => !f.isEmpty && f.all isDig
       | _ => false)
  | _ => false

/-- what an argument is before it is known where it belongs: a plain argument, or an option (perhaps unknown) -/
inductive ArgKind where
  | plain
  | option (h : ArgHit)
  | unknown

/-- argparse `_parse_optional`, from the search for abbreviations on -/
def byHits (s : Str) : List ArgHit → Except ArgStop ArgKind
  | [h] => .ok (.option h)
  | [] => if negativeNumber s then .ok .plain else if ' ' ∈ s then .ok .plain else .ok .unknown
  | _ => .error .usage

/-- argparse `_parse_optional`, the attempt with `=` -/
def byEq (P : ArgParser) (s : Str) : Option ArgHit :=
  match partEq s with
  | none => none
  | some (f, v) => (P.byFlag f).map (fun o => ⟨o, f, some (true, v)⟩)

/-- argparse `_parse_optional` -/
def argKind (P : ArgParser) (s : Str) : Except ArgStop ArgKind :=
  if s.head? ≠ some '-' then .ok .plain
  else match P.byFlag s with
    | some o => .ok (.option ⟨o, s, none⟩)
    | none =>
      if s.length = 1 then .ok .plain
      else match byEq P s with
        | some h => .ok (.option h)
        | none => byHits s (optionHits P s)

/-- a classified argument (`A`, `-` and `O` in argparse's pattern) -/
inductive ArgTok where
  | plain (s : Str)
  | dashes
  | option (s : Str) (h : ArgHit)
  | unknown (s : Str)

/-- the argument itself -/
def ArgTok.str : ArgTok → Str
  | .plain s => s
  | .dashes => ['-', '-']
  | .option s _ => s
  | .unknown s => s

/-- an `O` in argparse's pattern -/
def ArgTok.isOpt : ArgTok → Bool
  | .option _ _ => true
  | .unknown _ => true
  | _ => false

def ArgKind.tok (s : Str) : ArgKind → ArgTok
  | .plain => .plain s
  | .option h => .option s h
  | .unknown => .unknown s

/-- argparse `_parse_known_args`, the first loop -/
def argToks (P : ArgParser) : List Str → Except ArgStop (List ArgTok)
  | [] => .ok []
  | s :: r =>
    if s = ['-', '-'] then .ok (.dashes :: r.map .plain)
    else match argKind P s with
      | .error e => .error e
      | .ok k => match argToks P r with
        | .error e => .error e
        | .ok ts => .ok (k.tok s :: ts)

/-! ### Values -/

/-- argparse `_get_value`: the conversion; COT's conversions fail with subclasses of ValueError only, which argparse reports as
a usage error -/
def convArg : ArgType → Str → Except ArgStop ArgAtom
  | .text, s => .ok (.text s)
  | .positive, s => match positiveInt s with
    | .ok i => .ok (.int i)
    | .error _ => .error .usage
  | .nonNegative, s => match nonNegativeInt s with
    | .ok i => .ok (.int i)
    | .error _ => .error .usage
  | .device, s => match deviceAddress s with
    | .ok a => .ok (.text a)
    | .error _ => .error .usage
  | .noSpace, s => match noWhitespace s with
    | .ok a => .ok (.text a)
    | .error _ => .error .usage
  | .mac, s => match macAddress s with
    | .ok a => .ok (.text a)
    | .error _ => .error .usage
  | .truth, s => match truthValue (.inr s) with
    | .ok b => .ok (.truth b)
    | .error _ => .error .usage

/-- argparse `_check_value` -/
def checkChoice (o : ArgOpt) (a : ArgAtom) : Except ArgStop Unit :=
  match o.choices with
  | none => .ok ()
  | some cs => if ∃ c ∈ cs, a = .text c then .ok () else .error .usage

/-- argparse `_get_value` followed by `_check_value` -/
def argAtom (o : ArgOpt) (s : Str) : Except ArgStop ArgAtom :=
  match convArg o.type s with
  | .error e => .error e
  | .ok a => match checkChoice o a with
    | .error e => .error e
    | .ok _ => .ok a

/-- the same for a list of values (argparse converts all before it checks any, which cannot be told apart here) -/
def argAtoms (o : ArgOpt) : List Str → Except ArgStop (List ArgAtom)
  | [] => .ok []
  | s :: r => match argAtom o s with
    | .error e => .error e
    | .ok a => match argAtoms o r with
      | .error e => .error e
      | .ok as => .ok (a :: as)

/-- `arg_strings.remove('--')`, for positional arguments -/
def dropDashes : List Str → List Str
  | [] => []
  | s :: r => if s = ['-', '-'] then r else s :: dropDashes r

/-- argparse `_get_values` for an option or positional argument; the `?` of a positional argument has the default None -/
def argValues (o : ArgOpt) (args : List Str) : Except ArgStop (ArgVal ArgAtom) :=
  match o.num, args with
  | .opt, [] =>
    if o.flags = [] then .ok .absent
    else match argAtom o o.const with
      | .error e => .error e
      | .ok a => .ok (.one a)
  | .one, [s] => match argAtom o s with
    | .error e => .error e
    | .ok a => .ok (.one a)
  | .opt, [s] => match argAtom o s with
    | .error e => .error e
    | .ok a => .ok (.one a)
  | _, args => match argAtoms o args with
    | .error e => .error e
    | .ok as => .ok (.list (as.map .one))

/-! ### Actions -/

/-- the values of a list entry of `append` (always a list, from `+`) -/
def listAtoms : ArgVal ArgAtom → List ArgAtom
  | .list l => l.filterMap (fun
    | .one a => some a
    | .many _ => none)
  | _ => []

/-- `_copy_items(getattr(namespace, dest))` for `append` -/
def listItems : Option (ArgVal ArgAtom) → List (ArgElem ArgAtom)
  | some (.list l) => l
  | _ => []

/-- `getattr(namespace, dest)` for `count` -/
def countIn : Option (ArgVal ArgAtom) → Int
  | some (.one (.int n)) => n
  | _ => 0

/-- what the option does with its value (`_StoreAction`, `_AppendAction`, `_StoreTrueAction`, `_StoreConstAction`, `_CountAction`,
`_HelpAction`, `_VersionAction`) -/
def doAct (o : ArgOpt) (v : ArgVal ArgAtom) (ns : ArgSpace) : Except ArgStop ArgSpace :=
  match o.act with
  | .store => .ok (dset ns o.dest v)
  | .append => .ok (dset ns o.dest (.list (listItems (dget? ns o.dest) ++ [.many (listAtoms v)])))
  | .setTrue => .ok (dset ns o.dest (.one (.truth true)))
  | .setConst s => .ok (dset ns o.dest (.one (.text s)))
  | .count => .ok (dset ns o.dest (.one (.int (countIn (dget? ns o.dest) + 1))))
  | .help => .error .help
  | .version => .error .version

/-- the state of a parser at work: the namespace, the options seen, the arguments nobody wanted, and the subcommand with its
arguments -/
structure ArgState where
  ns : ArgSpace
  seen : List ArgOpt
  extras : List Str
  sub : Option (List Str)

/-- argparse `take_action`.  Members of exclusive groups are flags, whose value is never the default. -/
def takeAct (o : ArgOpt) (args : List Str) (st : ArgState) : Except ArgStop ArgState :=
  match o.num with
  | .rest => .ok { st with sub := some args, seen := o :: st.seen }
  | _ => match argValues o (if o.flags = [] then dropDashes args else args) with
    | .error e => .error e
    | .ok v =>
      if o.group ≠ 0 ∧ ∃ q ∈ st.seen, q.group = o.group ∧ q.flags ≠ o.flags then .error .usage
      else match doAct o v st.ns with
        | .error e => .error e
        | .ok ns => .ok { st with ns := ns, seen := o :: st.seen }

def takeActs : List (ArgOpt × List Str) → ArgState → Except ArgStop ArgState
  | [], st => .ok st
  | (o, args) :: r, st => match takeAct o args st with
    | .error e => .error e
    | .ok st => takeActs r st

/-! ### Options with their values -/

/-- the plain arguments at the front -/
def plainRun : List ArgTok → List Str × List ArgTok
  | .plain s :: r => let (ss, r') := plainRun r; (s :: ss, r')
  | r => ([], r)

/-- argparse `_match_argument` against the arguments that follow the option: its values and the rest -/
def valuesAfter (o : ArgOpt) (r : List ArgTok) : Except ArgStop (List Str × List ArgTok) :=
  match o.num, r with
  | .zero, r => .ok ([], r)
  | .one, .plain s :: r => .ok ([s], r)
  | .one, _ => .error .usage
  | .opt, .plain s :: r => .ok ([s], r)
  | .opt, r => .ok ([], r)
  | _, .plain s :: r => .ok (s :: (plainRun r).1, (plainRun r).2)
  | _, _ => .error .usage

/-- argparse `consume_optional`: the loop, on an option with what is attached to it.  The result is the actions to take, the
arguments that are left, and an argument nobody wanted. -/
def optionActs (P : ArgParser) (r : List ArgTok) : Nat → ArgOpt → Str → Option (Bool × Str) →
    Except ArgStop (List (ArgOpt × List Str) × List ArgTok × List Str)
  | _, o, _, none => match valuesAfter o r with
    | .error e => .error e
    | .ok (args, r') => .ok ([(o, args)], r', [])
  | 0, _, _, some _ => .error .usage
  | n + 1, o, flag, some (eq, v) =>
    if o.num ≠ .zero then .ok ([(o, [v])], r, [])
    else if flag.take 2 = ['-', '-'] then .error .usage
    else match v with
      | [] => .error .usage
      | c :: v' =>
        if eq || c == '-' then .error .usage
        else match P.byFlag ['-', c] with
          | none => .ok ([(o, [])], r, ['-' :: v])
          | some o' =>
            match optionActs P r n o' ['-', c] (match v' with
              | [] => none
              | '=' :: w => some (true, w)
              | w => some (false, w)) with
            | .error e => .error e
            | .ok (acts, r', ex) => .ok ((o, []) :: acts, r', ex)

/-- argparse `consume_optional` -/
def consumeOpt (P : ArgParser) (t : ArgTok) (r : List ArgTok) (st : ArgState) : Except ArgStop (List ArgTok × ArgState) :=
  match t with
  | .option _ h => match optionActs P r (((h.attached.map (fun x => x.2.length)).getD 0) + 1) h.opt h.flag h.attached with
    | .error e => .error e
    | .ok (acts, r', ex) => match takeActs acts { st with extras := st.extras ++ ex } with
      | .error e => .error e
      | .ok st => .ok (r', st)
  | t => .ok (r, { st with extras := st.extras ++ [t.str] })

/-! ### Positional arguments -/

def dashRun : List ArgTok → List Str × List ArgTok
  | .dashes :: r => let (ss, r') := dashRun r; (['-', '-'] :: ss, r')
  | r => ([], r)

def plainDashRun : List ArgTok → List Str × List ArgTok
  | .plain s :: r => let (ss, r') := plainDashRun r; (s :: ss, r')
  | .dashes :: r => let (ss, r') := plainDashRun r; (['-', '-'] :: ss, r')
  | r => ([], r)

/-- argparse `_get_nargs_pattern` of a positional argument, matched here: `-*A-*`, `-*A?-*`, `-*A[A-]*`, `-*A[-AO]*` -/
def matchPos (num : ArgNum) (ts : List ArgTok) : Option (List Str × List ArgTok) :=
  let (d, r) := dashRun ts
  match num, r with
  | .zero, r => some (d, r)
  | .one, .plain s :: r => let (d', r') := dashRun r; some (d ++ s :: d', r')
  | .opt, .plain s :: r => let (d', r') := dashRun r; some (d ++ s :: d', r')
  | .opt, r => some (d, r)
  | .plus, .plain s :: r => let (d', r') := plainDashRun r; some (d ++ s :: d', r')
  | .rest, .plain s :: r => some (d ++ s :: r.map ArgTok.str, [])
  | _, _ => none

/-- argparse `_match_arguments_partial`: as many positional arguments as there are arguments for here.  Only the last
positional argument of a COT parser takes other than one argument, so no match needs to give anything back. -/
def matchPartial : List ArgOpt → List ArgTok → List (ArgOpt × List Str) × List ArgOpt × List ArgTok
  | [], ts => ([], [], ts)
  | p :: ps, ts => match matchPos p.num ts with
    | none => ([], p :: ps, ts)
    | some (args, r) => let (acts, ps', r') := matchPartial ps r; ((p, args) :: acts, ps', r')

/-- argparse `_parse_known_args`, the loop over the arguments; every round uses up at least one of them.  The result is the
state and the positional arguments that were not given. -/
def argLoop (P : ArgParser) : Nat → List ArgTok → List ArgOpt → ArgState → Except ArgStop (ArgState × List ArgOpt)
  | 0, _, _, _ => .error .usage
  | n + 1, ts, pos, st =>
    if ts.any ArgTok.isOpt then
      match ts with
      | [] => .error .usage
      | t :: r =>
        if t.isOpt then match consumeOpt P t r st with
          | .error e => .error e
          | .ok (r', st') => argLoop P n r' pos st'
        else match matchPartial pos (t :: r) with
          | (acts, pos', r') => match takeActs acts st with
            | .error e => .error e
            | .ok st' =>
              if r'.length < (t :: r).length then argLoop P n r' pos' st'
              else argLoop P n ((t :: r).dropWhile (fun t => !t.isOpt)) pos'
                { st' with extras := st'.extras ++ ((t :: r).takeWhile (fun t => !t.isOpt)).map ArgTok.str }
    else match matchPartial pos ts with
      | (acts, pos', r') => match takeActs acts st with
        | .error e => .error e
        | .ok st' => .ok ({ st' with extras := st'.extras ++ r'.map ArgTok.str }, pos')

/-- the default of an argument: False, 0 or None -/
def ArgOpt.default (o : ArgOpt) : ArgVal ArgAtom :=
  match o.act with
  | .setTrue => .one (.truth false)
  | .count => .one (.int 0)
  | _ => .absent

/-- does the argument have a place in the namespace (help and version have none) -/
def ArgOpt.stored (o : ArgOpt) : Bool :=
  match o.act with
  | .help => false
  | .version => false
  | _ => true

/-- argparse `parse_known_args`: the defaults -/
def ArgParser.defaults (P : ArgParser) : ArgSpace :=
  ((P.pos ++ P.opts).filter ArgOpt.stored).foldl (fun ns o => if o.dest ∈ dkeys ns then ns else ns ++ [(o.dest, o.default)]) []

/-- argparse `parse_known_args` for one parser, before its subcommand is looked at -/
def argParse (P : ArgParser) (args : List Str) : Except ArgStop (ArgState × List ArgOpt) :=
  match argToks P args with
  | .error e => .error e
  | .ok ts => argLoop P (ts.length + 1) ts P.pos ⟨P.defaults, [], [], none⟩

/-- is a positional argument that was not given missing (`required`)?  Not with `?`, and not a subcommand. -/
def ArgOpt.required (o : ArgOpt) : Bool :=
  match o.num with
  | .opt => false
  | .rest => false
  | _ => true

/-! ### The parsers of COT -/

/-- an option that takes a text -/
def textOpt (flags : List Str) (dest : Str) : ArgOpt := { flags := flags, dest := dest }
/-- an option that takes one or more texts and may be repeated -/
def listOpt (flags : List Str) (dest : Str) : ArgOpt := { flags := flags, dest := dest, num := .plus, act := .append }
/-- `-h`, `--help` -/
def helpOpt : ArgOpt := { flags := ["-h".toList, "--help".toList], dest := "help".toList, num := .zero, act := .help }
/-- a flag -/
def flagOpt (flags : List Str) (dest : Str) (group : Nat) : ArgOpt :=
  { flags := flags, dest := dest, num := .zero, act := .setTrue, group := group }
/-- a mandatory argument -/
def posArg (dest : Str) : ArgOpt := { flags := [], dest := dest }

/-- `-o`, `--output` -/
def outputOpt : ArgOpt := textOpt ["-o".toList, "--output".toList] "output".toList

/-- cli.py:413-450 `create_parser` -/
def mainParser : ArgParser where
  opts := [helpOpt,
    { flags := ["-V".toList, "--version".toList], dest := "version".toList, num := .zero, act := .version },
    flagOpt ["-f".toList, "--force".toList] "_force".toList 0,
    { flags := ["-q".toList, "--quiet".toList], dest := "_quietude".toList, num := .zero, act := .count, group := 1 },
    { flags := ["-v".toList, "--verbose".toList], dest := "_verbosity".toList, num := .zero, act := .count, group := 1 }]
  pos := [{ flags := [], dest := "_subcommand".toList, num := .rest }]

/-- COT/commands/add_disk.py:213-280 -/
def addDiskParser : ArgParser where
  opts := [helpOpt, outputOpt,
    textOpt ["-f".toList, "--file-id".toList] "file_id".toList,
    { flags := ["-t".toList, "--type".toList], dest := "drive_type".toList, choices := some ["harddisk".toList, "cdrom".toList] },
    { flags := ["-c".toList, "--controller".toList], dest := "controller".toList,
      choices := some ["ide".toList, "sata".toList, "scsi".toList] },
    { flags := ["-a".toList, "--address".toList], dest := "address".toList, type := .device },
    textOpt ["-s".toList, "--subtype".toList] "subtype".toList,
    textOpt ["-d".toList, "--description".toList] "description".toList,
    textOpt ["-n".toList, "--name".toList] "diskname".toList]
  pos := [posArg "DISK_IMAGE".toList, posArg "PACKAGE".toList]

/-- COT/commands/add_file.py:112-135 -/
def addFileParser : ArgParser where
  opts := [helpOpt, outputOpt, textOpt ["-f".toList, "--file-id".toList] "file_id".toList]
  pos := [posArg "FILE".toList, posArg "PACKAGE".toList]

/-- COT/commands/deploy.py:387-420 -/
def deployParser : ArgParser where
  opts := [helpOpt]
  pos := [posArg "PACKAGE".toList, { flags := [], dest := "HYPERVISOR".toList, num := .rest }]

/-- COT/commands/deploy.py:433-467 (the parser shared by all hypervisors) and COT/commands/deploy_esxi.py:475-540; the
help option is added first, the shared options follow -/
def esxiParser : ArgParser where
  opts := [helpOpt,
    textOpt ["-u".toList, "--username".toList] "username".toList,
    textOpt ["-p".toList, "--password".toList] "password".toList,
    textOpt ["-c".toList, "--configuration".toList] "configuration".toList,
    textOpt ["-n".toList, "--vm-name".toList] "vm_name".toList,
    flagOpt ["-P".toList, "--power-on".toList] "power_on".toList 0,
    listOpt ["-N".toList, "--network-map".toList] "network_map".toList,
    listOpt ["-S".toList, "--serial-connection".toList] "serial_connection".toList,
    textOpt ["-d".toList, "-ds".toList, "--datastore".toList] "datastore".toList,
    textOpt ["-o".toList, "--ovftool-args".toList] "ovftool_args".toList]
  pos := [posArg "LOCATOR".toList]

/-- COT/commands/edit_hardware.py:592-729 -/
def editHardwareParser : ArgParser where
  opts := [helpOpt, outputOpt,
    { listOpt ["-v".toList, "--virtual-system-type".toList] "virtual_system_type".toList with type := .noSpace },
    { listOpt ["-p".toList, "--profiles".toList] "profiles".toList with type := .noSpace },
    flagOpt ["--delete-all-other-profiles".toList] "delete_all_other_profiles".toList 0,
    { flags := ["-c".toList, "--cpus".toList], dest := "cpus".toList, type := .positive },
    textOpt ["-m".toList, "--memory".toList] "memory".toList,
    { flags := ["-n".toList, "--nics".toList], dest := "nics".toList, type := .nonNegative },
    listOpt ["--nic-types".toList] "nic_types".toList,
    listOpt ["--nic-names".toList] "nic_names".toList,
    listOpt ["-N".toList, "--nic-networks".toList] "nic_networks".toList,
    listOpt ["--network-descriptions".toList] "network_descriptions".toList,
    { listOpt ["-M".toList, "--mac-addresses-list".toList] "mac_addresses_list".toList with type := .mac },
    { flags := ["-s".toList, "--serial-ports".toList], dest := "serial_ports".toList, type := .nonNegative },
    listOpt ["-S".toList, "--serial-connectivity".toList] "serial_connectivity".toList,
    listOpt ["--scsi-subtypes".toList] "scsi_subtypes".toList,
    listOpt ["--ide-subtypes".toList] "ide_subtypes".toList]
  pos := [posArg "PACKAGE".toList]

/-- COT/commands/edit_product.py:146-186 -/
def editProductParser : ArgParser where
  opts := [helpOpt, outputOpt,
    textOpt ["-c".toList, "--product-class".toList] "product_class".toList,
    textOpt ["-p".toList, "--product".toList] "product".toList,
    textOpt ["-n".toList, "--vendor".toList] "vendor".toList,
    textOpt ["-v".toList, "--version".toList] "version".toList,
    textOpt ["-V".toList, "--full-version".toList] "full_version".toList,
    textOpt ["-u".toList, "--product-url".toList] "product_url".toList,
    textOpt ["-r".toList, "--vendor-url".toList] "vendor_url".toList,
    textOpt ["-l".toList, "--application-url".toList] "application_url".toList]
  pos := [posArg "PACKAGE".toList]

/-- COT/commands/edit_properties.py:302-387 -/
def editPropertiesParser : ArgParser where
  opts := [helpOpt, outputOpt,
    { flags := ["-u".toList, "--user-configurable".toList], dest := "user_configurable".toList, num := .opt, type := .truth,
      const := "true".toList },
    textOpt ["-c".toList, "--config-file".toList] "config_file".toList,
    listOpt ["-p".toList, "--properties".toList] "properties".toList,
    listOpt ["-l".toList, "--labels".toList] "labels".toList,
    listOpt ["-d".toList, "--descriptions".toList] "descriptions".toList,
    listOpt ["-t".toList, "--transports".toList] "transports".toList]
  pos := [posArg "PACKAGE".toList]

/-- COT/commands/help.py:72-84 -/
def helpParser : ArgParser where
  opts := [helpOpt]
  pos := [{ flags := [], dest := "SUBCOMMAND".toList, num := .opt }]

/-- COT/commands/info.py:110-136 -/
def infoParser : ArgParser where
  opts := [helpOpt,
    { flags := ["-b".toList, "--brief".toList], dest := "verbosity".toList, num := .zero, act := .setConst "brief".toList, group := 1 },
    { flags := ["-v".toList, "--verbose".toList], dest := "verbosity".toList, num := .zero, act := .setConst "verbose".toList, group := 1 }]
  pos := [{ flags := [], dest := "PACKAGE_LIST".toList, num := .plus }]

/-- COT/commands/inject_config.py:262-300 -/
def injectConfigParser : ArgParser where
  opts := [helpOpt, outputOpt,
    textOpt ["-c".toList, "--config-file".toList] "config_file".toList,
    textOpt ["-s".toList, "--secondary-config-file".toList] "secondary_config_file".toList,
    listOpt ["-e".toList, "--extra-files".toList] "extra_files".toList]
  pos := [posArg "PACKAGE".toList]

/-- COT/commands/install_helpers.py:237-305 -/
def installHelpersParser : ArgParser where
  opts := [helpOpt, flagOpt ["--verify-only".toList] "verify_only".toList 1,
    flagOpt ["-i".toList, "--ignore-errors".toList] "ignore_errors".toList 1]
  pos := []

/-- COT/commands/remove_file.py:118-150 -/
def removeFileParser : ArgParser where
  opts := [helpOpt, outputOpt,
    textOpt ["-f".toList, "--file-path".toList] "file_path".toList,
    textOpt ["-i".toList, "--file-id".toList] "file_id".toList]
  pos := [posArg "PACKAGE".toList]

/-- a subcommand: its name, its other names, its parser -/
structure SubCommand where
  title : Str
  aliases : List Str
  parser : ArgParser
deriving DecidableEq

/-- the subparsers, by the `add_subparser` calls of the modules that COT/commands/__init__.py:50-61 imports
(demo_logging.py is not among them) -/
def cotCommands : List SubCommand :=
  [⟨"add-disk".toList, ["add-drive".toList], addDiskParser⟩,
   ⟨"add-file".toList, [], addFileParser⟩,
   ⟨"deploy".toList, [], deployParser⟩,
   ⟨"edit-hardware".toList, [], editHardwareParser⟩,
   ⟨"edit-product".toList, ["set-product".toList, "set-version".toList], editProductParser⟩,
   ⟨"edit-properties".toList, ["set-properties".toList, "edit-environment".toList, "set-environment".toList], editPropertiesParser⟩,
   ⟨"help".toList, [], helpParser⟩,
   ⟨"info".toList, ["describe".toList], infoParser⟩,
   ⟨"inject-config".toList, ["add-bootstrap".toList], injectConfigParser⟩,
   ⟨"install-helpers".toList, [], installHelpersParser⟩,
   ⟨"remove-file".toList, ["delete-file".toList], removeFileParser⟩]

/-- the hypervisors of `deploy`, COT/commands/deploy_esxi.py:485-490 -/
def cotHypervisors : List SubCommand :=
  [⟨"esxi".toList, ["vcenter".toList, "vmware".toList, "vsphere".toList], esxiParser⟩]

/-- argparse `_name_parser_map[name]`, cli.py:459-497 -/
def subCommand (cs : List SubCommand) (name : Str) : Option SubCommand :=
  cs.find? (fun c => decide (name = c.title ∨ name ∈ c.aliases))

/-- `set_defaults(instance=…)` and argparse `_SubParsersAction`: what the subparser found goes into the namespace -/
def mergeSpace (ns sub : ArgSpace) : ArgSpace := sub.foldl (fun d kv => dset d kv.1 kv.2) ns

/-- argparse `parse_known_args`, the end: required arguments -/
def needAll (pos : List ArgOpt) (ns : ArgSpace) (extras : List Str) : Except ArgStop (ArgSpace × List Str) :=
  if pos.any ArgOpt.required then .error .usage else .ok (ns, extras)

/-- `set_defaults(instance=self)`, written as the title of the command; the main parser has none -/
def setInstance (title : Option Str) (ns : ArgSpace) : ArgSpace :=
  match title with
  | none => ns
  | some t => dset ns "instance".toList (.one (.text t))

/-- parse with a parser that has no subcommands -/
def parseLeaf (title : Str) (P : ArgParser) (args : List Str) : Except ArgStop (ArgSpace × List Str) :=
  match argParse P args with
  | .error e => .error e
  | .ok (st, pos) => needAll pos (setInstance (some title) st.ns) st.extras

/-- parse with a parser that has subcommands `cs`; `sub` parses the arguments of a subcommand -/
def parseWith (title : Option Str) (dest : Str) (P : ArgParser) (cs : List SubCommand)
    (sub : SubCommand → List Str → Except ArgStop (ArgSpace × List Str)) (args : List Str) : Except ArgStop (ArgSpace × List Str) :=
  match argParse P args with
  | .error e => .error e
  | .ok (st, pos) =>
    match st.sub with
    | none => needAll pos (setInstance title st.ns) st.extras
    | some [] => .error .usage
    | some (name :: args') => match subCommand cs name with
      | none => .error .usage
      | some c => match sub c args' with
        | .error e => .error e
        | .ok (sns, ex) =>
          needAll pos (mergeSpace (dset (setInstance title st.ns) dest (.one (.text name))) sns) (st.extras ++ ex)

/-- one of COT's commands -/
def parseCommand (c : SubCommand) (args : List Str) : Except ArgStop (ArgSpace × List Str) :=
  if c.title = "deploy".toList then
    parseWith (some c.title) "HYPERVISOR".toList c.parser cotHypervisors (fun h a => parseLeaf ("deploy-".toList ++ h.title) h.parser a) args
  else parseLeaf c.title c.parser args

/-- cli.py:498-508 `parse_args`, up to `--force`: `self.parser.parse_args(argv)`; arguments nobody wanted are a usage error -/
def cotParse (argv : List Str) : Except ArgStop ArgSpace :=
  match parseWith none "_subcommand".toList mainParser cotCommands parseCommand argv with
  | .error e => .error e
  | .ok (ns, []) => .ok ns
  | .ok (_, _ :: _) => .error .usage

end Cot
