import Verif.Spec.Argparse
import Verif.Spec.Cli
/-
Specification for C121: what the manual says about the command line.  The tables are those of the manual pages
(COT/docs/man, the sections SYNOPSIS and OPTIONS), independent of the parsers; the attributes are those of the documented classes.
-/
namespace Cot

/-- what comes with an option: nothing (it prints a text; it is on or off; it picks a word; it is counted), one value of a kind, one of
these texts, perhaps a truth value (`[USER_CONFIGURABLE]`), or one or more values of a kind (`<TYPE...>`) -/
inductive DocTakes where
  | prints
  | flag
  | picks (s : Str)
  | counts
  | value (t : ArgType)
  | oneOf (l : List Str)
  | maybeTruth
  | values (t : ArgType)
deriving DecidableEq

/-- an option in the manual: its flags, what comes with it and the attribute of the command that it is for -/
structure DocOption where
  flags : List Str
  takes : DocTakes
  sets : Str
deriving DecidableEq

/-- a manual page: the names of the command, its words, its options -/
structure ManPage where
  names : List Str
  words : List Str
  options : List DocOption
deriving DecidableEq

/-- COT/docs/man/cot-add-disk.1, attributes: COT/commands/add_disk.py:102-114 -/
def addDiskPage : ManPage where
  names := ["add-disk".toList, "add-drive".toList]
  words := ["DISK_IMAGE".toList, "PACKAGE".toList]
  options := [⟨["-h".toList, "--help".toList], .prints, []⟩,
    ⟨["-o".toList, "--output".toList], .value .text, "output".toList⟩,
    ⟨["-f".toList, "--file-id".toList], .value .text, "file_id".toList⟩,
    ⟨["-t".toList, "--type".toList], .oneOf ["harddisk".toList, "cdrom".toList], "drive_type".toList⟩,
    ⟨["-c".toList, "--controller".toList], .oneOf ["ide".toList, "sata".toList, "scsi".toList], "controller".toList⟩,
    ⟨["-a".toList, "--address".toList], .value .device, "address".toList⟩,
    ⟨["-s".toList, "--subtype".toList], .value .text, "subtype".toList⟩,
    ⟨["-d".toList, "--description".toList], .value .text, "description".toList⟩,
    ⟨["-n".toList, "--name".toList], .value .text, "diskname".toList⟩]

/-- COT/docs/man/cot-add-file.1, attributes: COT/commands/add_file.py:36-42 -/
def addFilePage : ManPage where
  names := ["add-file".toList]
  words := ["FILE".toList, "PACKAGE".toList]
  options := [⟨["-h".toList, "--help".toList], .prints, []⟩,
    ⟨["-o".toList, "--output".toList], .value .text, "output".toList⟩,
    ⟨["-f".toList, "--file-id".toList], .value .text, "file_id".toList⟩]

/-- COT/docs/man/cot-edit-hardware.1, attributes: COT/commands/edit_hardware.py:58-77 -/
def editHardwarePage : ManPage where
  names := ["edit-hardware".toList]
  words := ["PACKAGE".toList]
  options := [⟨["-h".toList, "--help".toList], .prints, []⟩,
    ⟨["-o".toList, "--output".toList], .value .text, "output".toList⟩,
    ⟨["-v".toList, "--virtual-system-type".toList], .values .noSpace, "virtual_system_type".toList⟩,
    ⟨["-p".toList, "--profiles".toList], .values .noSpace, "profiles".toList⟩,
    ⟨["--delete-all-other-profiles".toList], .flag, "delete_all_other_profiles".toList⟩,
    ⟨["-c".toList, "--cpus".toList], .value .positive, "cpus".toList⟩,
    ⟨["-m".toList, "--memory".toList], .value .text, "memory".toList⟩,
    ⟨["-n".toList, "--nics".toList], .value .nonNegative, "nics".toList⟩,
    ⟨["--nic-types".toList], .values .text, "nic_types".toList⟩,
    ⟨["--nic-names".toList], .values .text, "nic_names".toList⟩,
    ⟨["-N".toList, "--nic-networks".toList], .values .text, "nic_networks".toList⟩,
    ⟨["--network-descriptions".toList], .values .text, "network_descriptions".toList⟩,
    ⟨["-M".toList, "--mac-addresses-list".toList], .values .mac, "mac_addresses_list".toList⟩,
    ⟨["-s".toList, "--serial-ports".toList], .value .nonNegative, "serial_ports".toList⟩,
    ⟨["-S".toList, "--serial-connectivity".toList], .values .text, "serial_connectivity".toList⟩,
    ⟨["--scsi-subtypes".toList], .values .text, "scsi_subtypes".toList⟩,
    ⟨["--ide-subtypes".toList], .values .text, "ide_subtypes".toList⟩]

/-- COT/docs/man/cot-edit-product.1, attributes: COT/commands/edit_product.py:38-50 -/
def editProductPage : ManPage where
  names := ["edit-product".toList, "set-product".toList, "set-version".toList]
  words := ["PACKAGE".toList]
  options := [⟨["-h".toList, "--help".toList], .prints, []⟩,
    ⟨["-o".toList, "--output".toList], .value .text, "output".toList⟩,
    ⟨["-c".toList, "--product-class".toList], .value .text, "product_class".toList⟩,
    ⟨["-p".toList, "--product".toList], .value .text, "product".toList⟩,
    ⟨["-n".toList, "--vendor".toList], .value .text, "vendor".toList⟩,
    ⟨["-v".toList, "--version".toList], .value .text, "version".toList⟩,
    ⟨["-V".toList, "--full-version".toList], .value .text, "full_version".toList⟩,
    ⟨["-u".toList, "--product-url".toList], .value .text, "product_url".toList⟩,
    ⟨["-r".toList, "--vendor-url".toList], .value .text, "vendor_url".toList⟩,
    ⟨["-l".toList, "--application-url".toList], .value .text, "application_url".toList⟩]

/-- COT/docs/man/cot-edit-properties.1, attributes: COT/commands/edit_properties.py:45-53, 57-67 -/
def editPropertiesPage : ManPage where
  names := ["edit-properties".toList, "set-properties".toList, "edit-environment".toList, "set-environment".toList]
  words := ["PACKAGE".toList]
  options := [⟨["-h".toList, "--help".toList], .prints, []⟩,
    ⟨["-o".toList, "--output".toList], .value .text, "output".toList⟩,
    ⟨["-u".toList, "--user-configurable".toList], .maybeTruth, "user_configurable".toList⟩,
    ⟨["-c".toList, "--config-file".toList], .value .text, "config_file".toList⟩,
    ⟨["-p".toList, "--properties".toList], .values .text, "properties".toList⟩,
    ⟨["-l".toList, "--labels".toList], .values .text, "labels".toList⟩,
    ⟨["-d".toList, "--descriptions".toList], .values .text, "descriptions".toList⟩,
    ⟨["-t".toList, "--transports".toList], .values .text, "transports".toList⟩]

/-- COT/docs/man/cot-inject-config.1, attributes: COT/commands/inject_config.py:36-43 -/
def injectConfigPage : ManPage where
  names := ["inject-config".toList, "add-bootstrap".toList]
  words := ["PACKAGE".toList]
  options := [⟨["-h".toList, "--help".toList], .prints, []⟩,
    ⟨["-o".toList, "--output".toList], .value .text, "output".toList⟩,
    ⟨["-c".toList, "--config-file".toList], .value .text, "config_file".toList⟩,
    ⟨["-s".toList, "--secondary-config-file".toList], .value .text, "secondary_config_file".toList⟩,
    ⟨["-e".toList, "--extra-files".toList], .values .text, "extra_files".toList⟩]

/-- COT/docs/man/cot-install-helpers.1, attributes: COT/commands/install_helpers.py:152-159 -/
def installHelpersPage : ManPage where
  names := ["install-helpers".toList]
  words := []
  options := [⟨["-h".toList, "--help".toList], .prints, []⟩,
    ⟨["--verify-only".toList], .flag, "verify_only".toList⟩,
    ⟨["-i".toList, "--ignore-errors".toList], .flag, "ignore_errors".toList⟩]

/-- COT/docs/man/cot-remove-file.1, attributes: COT/commands/remove_file.py:38-44 -/
def removeFilePage : ManPage where
  names := ["remove-file".toList, "delete-file".toList]
  words := ["PACKAGE".toList]
  options := [⟨["-h".toList, "--help".toList], .prints, []⟩,
    ⟨["-o".toList, "--output".toList], .value .text, "output".toList⟩,
    ⟨["-f".toList, "--file-path".toList], .value .text, "file_path".toList⟩,
    ⟨["-i".toList, "--file-id".toList], .value .text, "file_id".toList⟩]

/-- COT/docs/man/cot-deploy-esxi.1, attributes: COT/commands/deploy_esxi.py:212-229 -/
def esxiPage : ManPage where
  names := ["esxi".toList, "vcenter".toList, "vmware".toList, "vsphere".toList]
  words := ["LOCATOR".toList]
  options := [⟨["-h".toList, "--help".toList], .prints, []⟩,
    ⟨["-u".toList, "--username".toList], .value .text, "username".toList⟩,
    ⟨["-p".toList, "--password".toList], .value .text, "password".toList⟩,
    ⟨["-c".toList, "--configuration".toList], .value .text, "configuration".toList⟩,
    ⟨["-n".toList, "--vm-name".toList], .value .text, "vm_name".toList⟩,
    ⟨["-P".toList, "--power-on".toList], .flag, "power_on".toList⟩,
    ⟨["-N".toList, "--network-map".toList], .values .text, "network_map".toList⟩,
    ⟨["-S".toList, "--serial-connection".toList], .values .text, "serial_connection".toList⟩,
    ⟨["-d".toList, "--datastore".toList], .value .text, "datastore".toList⟩,
    ⟨["-o".toList, "--ovftool-args".toList], .value .text, "ovftool_args".toList⟩]


/-- COT/docs/man/cot-info.1, attributes: COT/commands/info.py:36-55.  The words are `PACKAGE [PACKAGE ...]`. -/
def infoPage : ManPage where
  names := ["info".toList, "describe".toList]
  words := []
  options := [⟨["-h".toList, "--help".toList], .prints, []⟩,
    ⟨["-b".toList, "--brief".toList], .picks "brief".toList, "verbosity".toList⟩,
    ⟨["-v".toList, "--verbose".toList], .picks "verbose".toList, "verbosity".toList⟩]

/-- COT/docs/man/cot.1: the options for the program -/
def cotPage : ManPage where
  names := ["cot".toList]
  words := []
  options := [⟨["-h".toList, "--help".toList], .prints, []⟩, ⟨["-V".toList, "--version".toList], .prints, []⟩,
    ⟨["-f".toList, "--force".toList], .flag, "_force".toList⟩, ⟨["-q".toList, "--quiet".toList], .counts, "_quietude".toList⟩,
    ⟨["-v".toList, "--verbose".toList], .counts, "_verbosity".toList⟩]

/-- the pages of the commands with options and one-word arguments -/
def commandPages : List ManPage :=
  [addDiskPage, addFilePage, editHardwarePage, editProductPage, editPropertiesPage, injectConfigPage, installHelpersPage, removeFilePage]

/-- COT/docs/man/cot.1: the commands and their other names -/
def commandNames : List (List Str) :=
  [["add-disk".toList, "add-drive".toList], ["add-file".toList], ["deploy".toList], ["edit-hardware".toList],
   ["edit-product".toList, "set-product".toList, "set-version".toList],
   ["edit-properties".toList, "set-properties".toList, "edit-environment".toList, "set-environment".toList],
   ["help".toList], ["info".toList, "describe".toList], ["inject-config".toList, "add-bootstrap".toList], ["install-helpers".toList],
   ["remove-file".toList, "delete-file".toList]]

/-- the option of the parser is of the kind that the manual describes, and is for the same attribute -/
def AsDocumented (d : DocOption) (o : ArgOpt) : Prop :=
  match d.takes with
  | .prints => o.num = .zero ∧ (o.act = .help ∨ o.act = .version)
  | .flag => o.num = .zero ∧ o.act = .setTrue ∧ o.dest = d.sets
  | .picks s => o.num = .zero ∧ o.act = .setConst s ∧ o.dest = d.sets
  | .counts => o.num = .zero ∧ o.act = .count ∧ o.dest = d.sets
  | .value t => o.num = .one ∧ o.act = .store ∧ o.type = t ∧ o.choices = none ∧ o.dest = d.sets
  | .oneOf l => o.num = .one ∧ o.act = .store ∧ o.type = .text ∧ o.choices = some l ∧ o.dest = d.sets
  | .maybeTruth => o.num = .opt ∧ o.act = .store ∧ o.type = .truth ∧ o.const = "true".toList ∧ o.choices = none ∧ o.dest = d.sets
  | .values t => o.num = .plus ∧ o.act = .append ∧ o.type = t ∧ o.choices = none ∧ o.dest = d.sets

instance (d : DocOption) (o : ArgOpt) : Decidable (AsDocumented d o) := by
  unfold AsDocumented
  cases d.takes <;> infer_instance

/-- the options of the parser are those of the page, in the same order -/
def SameOptions (m : ManPage) (P : ArgParser) : Prop :=
  m.options.Forall₂ (fun d o => AsDocumented d o ∧ o.flags = d.flags) P.opts

/-- the values given with the option, use by use -/
def givenWith (d : DocOption) (us : List ArgUse) : List (List Str) :=
  (us.filter (fun u => decide (∃ f ∈ d.flags, f ∈ u.opt.flags))).map ArgUse.vals

/-- What the command gets for the option when these values were given with it: the last value; all values in order; the last
truth value, where none means true; whether it was given. -/
def Reaches (t : DocTakes) (given : List (List Str)) (v : ArgVal ArgAtom) : Prop :=
  match t with
  | .flag => v = .one (.truth (decide (given ≠ [])))
  | .value k => (given = [] ∧ v = .absent) ∨ ∃ s a, given.getLast? = some [s] ∧ ReadsAs k s a ∧ v = .one a
  | .oneOf l => (given = [] ∧ v = .absent) ∨ ∃ s, given.getLast? = some [s] ∧ s ∈ l ∧ v = .one (.text s)
  | .maybeTruth => (given = [] ∧ v = .absent) ∨ (given.getLast? = some [] ∧ v = .one (.truth true)) ∨
      ∃ s a, given.getLast? = some [s] ∧ ReadsAs .truth s a ∧ v = .one a
  | .values k => (given = [] ∧ v = .absent) ∨
      (given ≠ [] ∧ ∃ as, given.flatten.Forall₂ (ReadsAs k) as ∧ v = .list (as.map .one))
  | _ => True

/-- the command lines in the EXAMPLES sections of the manual pages (COT/docs/man), after the shell has read them -/
def manualExamples : List (List Str) :=
  [["deploy", "foo.ova", "esxi", "192.0.2.100", "-u", "admin", "-p", "admin", "-n", "test_vm"],
   ["deploy", "foo.ova", "esxi", "192.0.2.100", "-u", "admin", "-c", "1CPU-2.5GB", "-S", "telnet://:10022,server"],
   ["deploy", "foo.ova", "esxi", "192.0.2.100/mydc/host/192.0.2.1", "-u", "administrator", "-N", "GigabitEthernet1=VM Network",
     "-N", "GigabitEthernet2=myvswitch"],
   ["deploy", "foo.ova", "esxi", "192.0.2.100", "-u", "admin", "-p", "password", "--ovftool-args=--overwrite --acceptAllEulas"],
   ["edit-hardware", "csr1000v.ova", "--output", "csr1000v_custom.ova", "--profile", "1CPU-4GB", "--cpus", "1", "--memory", "8GB"],
   ["edit-hardware", "input.ova", "-o", "output.ova", "--nic-names", "Ethernet0/{10}", "--nic-networks", "Ethernet0_{10}",
     "--network-descriptions", "Data network {1}"],
   ["edit-hardware", "input.ova", "-o", "output.ova", "--nic-names", "mgmt", "eth{0}"],
   ["edit-properties", "input.ovf", "-c", "config.txt", "-u=0"],
   ["edit-properties", "input.ovf", "-p", "string-property+string", "-p", "bool-property=true+boolean", "--user-configurable"],
   ["edit-properties", "input.ovf", "-p", "hostname", "-l", "Hostname", "-d", "Hostname of this device", "-p", "enable-ssh", "-l",
     "Enable     remote SSH access", "-d", "Enable sshd and disable telnetd"],
   ["install-helpers", "--verify-only"],
   ["install-helpers"]].map (fun l => l.map String.toList)

/-- the attribute is assigned the value, when the value is there, and not assigned otherwise -/
def Assigned (d : List (Str × ArgVal ArgAtom)) (a : Str) (v : ArgVal ArgAtom) : Prop :=
  ∀ x, (a, x) ∈ Assignments d ↔ x = v ∧ Given v

end Cot
