import Verif.Py.Re
import Verif.Py.Path
/-
Model of COT/commands/deploy.py and COT/commands/deploy_esxi.py: serial connection descriptions, network maps and the
arguments for ovftool.
-/
namespace Cot

/-! ### Serial connections -/

/-- deploy.py:66, the class `[a-z]` -/
def isAZ (c : Char) : Bool := decide ('a' ≤ c) && decide (c ≤ 'z')
/-- deploy.py:66, the class `[^ \t,]` -/
def notSep (c : Char) : Bool := c != ' ' && c != '\t' && c != ','

/-- deploy.py:66: `^([a-z]*):?([^ \t,]+),?(.*)$` -/
def serialRe : Re :=
  Re.cat [.grp 1 (.star (.cls isAZ)), .opt (.chr ':'), .grp 2 (.plus (.cls notSep)), .opt (.chr ','), .grp 3 (.star .dot), .eol]

/-- deploy.py:76: `([^=]+)=?(.*)` -/
def optionRe : Re :=
  Re.cat [.grp 1 (.plus (.cls (fun c => c != '='))), .opt (.chr '='), .grp 2 (.star .dot)]

/-- deploy.py:132: `/?/?(.*:\d+)` -/
def tcpRe : Re :=
  Re.cat [.opt (.chr '/'), .opt (.chr '/'), .grp 1 (Re.cat [.star .dot, .chr ':', .plus .dig])]

/-- A dictionary of options: a text, or None for Python's True. -/
abbrev SerialOpts := List (Str × Option Str)

/-- deploy.py:72-83, one entry of the option list -/
def addOption (d : SerialOpts) (entry : Str) : SerialOpts :=
  if entry = [] then d
  else match reMatch optionRe entry with
    | none => d
    | some m =>
      let value := (m.group 2).getD []
      dset d ((m.group 1).getD []) (if value = [] then none else some value)

/-- deploy.py:70-83 -/
def serialOptions (s : Str) : SerialOpts := (splitOnChar ',' s).foldl addOption []

/-- deploy.py:101-107 -/
def validKinds : List Str := ["device".toList, "file".toList, "pipe".toList, "tcp".toList, "telnet".toList]

/-- deploy.py:88-112 `validate_kind` -/
def serialKind (kind : Str) : Except Err Str :=
  let k := lower kind
  let k := if k = [] then "device".toList else k
  if k ∈ validKinds then .ok k else .error .valueUnsupported

/-- deploy.py:114-145 `validate_value` -/
def serialValue (kind value : Str) : Except Err Str :=
  if kind = "device".toList ∨ kind = "file".toList ∨ kind = "pipe".toList then .ok value
  else if kind = "tcp".toList ∨ kind = "telnet".toList then
    match reMatch tcpRe value with
    | some m => .ok ((m.group 1).getD [])
    | none => .error .invalidInput
  else .error .notImplementedError

structure SerialConn where
  kind : Str
  value : Str
  options : SerialOpts
deriving DecidableEq

/-- deploy.py:147-180 `validate_options` and `__init__` -/
def serialInit (kind value : Str) (options : SerialOpts) : Except Err SerialConn :=
  match serialKind kind with
  | .error e => .error e
  | .ok k => match serialValue k value with
    | .error e => .error e
    | .ok v =>
      if k = "file".toList ∧ (dget? options "datastore".toList) = none then .error .invalidInput
      else .ok { kind := k, value := v, options := options }

/-- deploy.py:39-86 `from_cli_string` -/
def fromCli (s : Option Str) : Except Err (Option SerialConn) :=
  match s with
  | none => .ok none
  | some s =>
    let s := strip s
    if s = [] then .ok none
    else match reMatch serialRe s with
      | none => .error .invalidInput
      | some m => match serialInit ((m.group 1).getD []) ((m.group 2).getD []) (serialOptions ((m.group 3).getD [])) with
        | .error e => .error e
        | .ok c => .ok (some c)

/-- deploy.py:323-329, the setter of `serial_connection` -/
def serialConnections : List (Option Str) → Except Err (List SerialConn)
  | [] => .ok []
  | s :: rest => match fromCli s with
    | .error e => .error e
    | .ok c => match serialConnections rest with
      | .error e => .error e
      | .ok cs => .ok (c.toList ++ cs)

/-- deploy_esxi.py:274-285: at most four connections -/
def esxiSerialConnections (L : List (Option Str)) : Except Err (List SerialConn) :=
  if L.length > 4 then .error .valueUnsupported else serialConnections L

/-- The backing given to a serial port by deploy_esxi.py:447-466: a host device, or a URI with a direction. -/
inductive Backing where
  | device (name : Str)
  | uri (uri : Str) (server : Bool)
deriving DecidableEq

/-- deploy_esxi.py:435-473 `_create_serial_port` (the fixed settings of every port are not modelled) -/
def serialBacking (c : SerialConn) : Except Err Backing :=
  if c.kind = "device".toList then .ok (.device c.value)
  else if c.kind = "telnet".toList ∨ c.kind = "tcp".toList then
    .ok (.uri (c.kind ++ "://".toList ++ c.value) (dget? c.options "server".toList).isSome)
  else .error .notImplementedError

/-- deploy_esxi.py:424-431, the loop of `fixup_serial_ports` -/
def serialBackings : List SerialConn → Except Err (List Backing)
  | [] => .ok []
  | c :: cs =>
    match serialBacking c with
    | .error e => .error e
    | .ok b =>
      match serialBackings cs with
      | .error e => .error e
      | .ok bs => .ok (b :: bs)

/-! ### Network maps -/

/-- deploy.py:303-315, the check of one mapping: `key_value_pair.split('=', 1)`, both parts non-empty -/
def networkMapOk (s : Str) : Bool :=
  let key := s.takeWhile (fun c => c != '=')
  let rest := s.dropWhile (fun c => c != '=')
  decide (rest ≠ [] ∧ key ≠ [] ∧ rest.tail ≠ [])

/-- deploy.py:301-316, the setter of `network_map` -/
def setNetworkMap (L : List Str) : Except Err (List Str) :=
  if L.all networkMapOk then .ok L else .error .invalidInput

/-! ### Arguments for ovftool -/

/-- The attributes of a COTDeployESXi command. -/
structure EsxiCmd where
  configuration : Option Str
  networkMap : Option (List Str)
  vmName : Option Str
  package : Str
  powerOn : Bool
  datastore : Option Str

/-- deploy_esxi.py:297-336 `fixup_ovftool_args` (storing the default name in vm_name is not modelled) -/
def fixupArgs (c : EsxiCmd) (args : List Str) (target : Str) : List Str :=
  let args := match c.configuration with
    | none => args
    | some x => args ++ ["--deploymentOption=".toList ++ x]
  let args := match c.networkMap with
    | none => args
    | some L => args ++ L.map (fun n => "--net:".toList ++ n)
  let name := match c.vmName with
    | none => pathRoot (pathBase c.package)
    | some n => n
  let args := args ++ ["--name=".toList ++ name]
  let args := if c.powerOn then args ++ ["--powerOn".toList] else args
  let args := match c.datastore with
    | none => args
    | some d => args ++ ["--datastore=".toList ++ d]
  args ++ [c.package] ++ [target]

/-- deploy_esxi.py:352-394: `hasProps` whether the package has environment properties, `viaCenter` whether the locator
contains "/host/", `newTool` whether ovftool is 4.0.0 or later, `agrees` the user's answer -/
def esxiArgs (c : EsxiCmd) (user password locator : Str) (userArgs : List Str) (hasProps viaCenter newTool agrees : Bool) :
    Except Err (List Str) :=
  let target := "vi://".toList ++ user ++ ":".toList ++ password ++ "@".toList ++ locator
  if hasProps = true ∧ viaCenter = false then
    if newTool = false ∨ c.powerOn = false then
      if agrees = false then .error .systemExit else .ok (fixupArgs c userArgs target)
    else .ok (fixupArgs c (userArgs ++ ["--X:injectOvfEnv".toList]) target)
  else .ok (fixupArgs c userArgs target)

end Cot
