# Formal model of COT (glennmatthews/cot) in Lean 4

## Layout

* `lean/Verif/Py/*`: Python primitives used by the code (strings as `List Char`, `dict` as an insertion-ordered
  association list, `int(..)`, `str.split`, `strip`, `os.path`, a backtracking matcher for `re`).
* `lean/Verif/Model/*`: the model, function by function; each definition cites file and lines in /repo.
* `lean/Verif/Spec/*`: small specifications, written without the model's helpers (they use the stored data only).
* `lean/Verif/Lemmas/*`: helper lemmas.
* `lean/Verif/Props/*`: the property theorems (names `Cxx_...`), each with a non-vacuity `example` beside it.
* `properties.jsonl`: the properties; `MANIFEST.json`: property -> theorems; `seeded/LOG.jsonl`: wrong programs on which
  the theorems were tried.
  How to read an entry: most builds were stopped as soon as a theorem had failed on which a property theorem rests.  So
  `failed` has the theorems that had failed by then, not all that would have failed.  `property_theorems_lost` is computed,
  not observed: the property theorems which, in the unedited project, rest on a theorem in `failed`.  An entry with an empty
  `failed` is a wrong program that was not caught at that time; later entries with the same (for `canonList` and
  `saveTree` a similar) edit show that it is caught now, but for the one of `propsReady`, which breaks no claim.

## Conventions

* Exceptions are values (`Except Err α`).  Mutation through `self` is a function returning the new value; where an
  exception leaves a half-edited object that can still be observed, the function returns the object along with the
  outcome (`EnvProps`, `FileRef`, `Lifecycle`, `Ui`), elsewhere it returns the error only.
* Where Python iterates over a `set` (unspecified order) the model takes the enumeration as a parameter and the theorems
  quantify over every enumeration.  `dict` iteration is insertion order (Python 3.7+; on earlier versions the code uses
  it only where the order is not observable, or sorts).
* External calls are parameters: the file system, the helper programs, the answers of the user, hash algorithms,
  `re.sub` with patterns taken from data, `str()` of a list, the XML library's handling of strings.  The theorems hold
  for every behaviour of them, apart from hypotheses stated in the theorem.
* Loops that may run forever are modelled with a fuel argument where the theorem says for which fuel the result is
  reached (C22), or by well-founded recursion.
* When the code violates a property, the negation is proved with a concrete witness (`..._fails`) and the true
  restriction carries the suffix `_partial` where the restriction changes the claim.

## The properties

For each property: what is modelled and how it is proved.  "Missing" says what a partial result leaves out.
The full statements are in `properties.jsonl`, the theorem names in `MANIFEST.json`.

| id | status | property | model and proof | restrictions, what is missing |
|----|----|----|----|----|
| C01 | proved | Setting a hardware property affects exactly the named profiles | `OVFItem.set_property`, `get_value` on dict of dict of sets (Model/Item). Case analysis over the value table; membership characterisation of the fold over existing values. | Ordinary properties (not ElementName/Description, whose text is a template over other properties). Profiles inheriting the default follow it when the default is set; stated explicitly. |
| C02 | proved | Hardware items stay internally consistent under any edit history | All edit operations of an item. Invariant (values have disjoint, non-empty profile sets; no default next to covered named profiles), induction over lists of operations. | Reachability over arbitrary edit histories, environment may change between edits. |
| C03 | proved | Loading several Item elements never silently overwrites data | `add_item` as a list of `set_property(overwrite=False)` calls. Fold lemma: error or frame. | - |
| C04 | proved | Removing a profile from an item removes it only there | `remove_profile`. Membership characterisation per property. | Named profiles; for the default profile itself inheritors lose the item (witness). |
| C05 | proved | Adding a profile to an item copies the inherited values | `add_profile`. Fold over the properties of the source, using C01. | Named profiles. |
| C06 | proved | Reading a property over a set of profiles is exact agreement | `get_value`/`_get_value`. Induction on the value list with the disjointness invariant. | Ordinary properties. |
| C07 | proved | Generated profile groups partition the profiles | `get_nonintersecting_set_list` with every set order. Invariant of partition refinement over the sets folded so far. | For every set iteration order. The strings theorem assumes profile names are non-empty and free of white space (OVF ids). |
| C08 | partial | Writing an item out and reading it back preserves every profile's view | `generate_items` and `add_item` on XML trees (Model/ItemXml). Refinement to the lookup function of an item, uses C06 and C07; placeholder substitution by a literal-substitution lemma. | Preservation of ordinary properties is proved for every consistent item with representable values; success of both directions, and preservation of names and descriptions under every profile, for items whose texts cannot be confused with placeholders (TameItem), given that re.sub replaces plain patterns literally. False for attributes of child elements and for confusable texts: witnesses. |
| C09 | partial | Edits never create an Item element without an InstanceID | The same. Witness, and preservation of "values are stored only where the item exists". | False in general: setting a property for a profile under which the item does not exist yields an Item without InstanceID (witness). Proved for items whose values are stored only where the item exists, and that edits within those profiles preserve this. |
| C10 | proved | New instance identifiers are fresh and minimal | `find_unused_instance_id`. Pigeonhole: the search ends within the number of items. | least unused number >= start, for every collection and start; termination is part of the statement |
| C11 | proved | Creating or cloning an item never disturbs existing items | `new_item`, `clone_item`. C10 and a frame lemma on the dict. | the _fails theorems document clones of default-profile items that the code gets wrong (outside the claim's configured profiles) |
| C12 | partial | Setting a device count gives exactly that count under each requested profile | `set_item_count_per_profile`. Loop invariants on counts; witnesses for the default list. | Proved for any list of distinct configured profiles, and for the all-profiles default when the items of the type are stored for the default profile. The unrestricted property is false of the code; the _fails theorems are counterexamples. |
| C13 | proved | Setting a property for all items of a type touches only that type and those profiles | `set_value_for_all_items`. Fold over the items found, C01. | - |
| C14 | proved | A list of per-device values is assigned in device order | `set_item_values_per_profile`. Induction over items and values in step. | - |
| C15 | proved | Natural sorting is a stable, total, numeric-aware sort | `natural_sort`. Stable merge sort by key; the key order is proved total and transitive. | ASCII digits. |
| C16 | proved | Splitting a name into text and numbers loses only leading zeros | `alphanum_split` (the `re.split` scanned by hand). Induction over the string. | ASCII digits. |
| C17 | proved | Conflicting references are always detected | `check_for_conflict`. Induction. | - |
| C18 | proved | Controller and NIC subtype canonicalisation is stable and prefix-determined | `canonicalize_*` with an explicit matcher for the patterns. Case analysis, induction on runs of separators. | - |
| C19 | proved | Range validation accepts exactly the integers in range | `validate_int`, `non_negative_int`, `positive_int` over a model of `int(str)`. Case analysis. | string arguments; ASCII numerals (see DESIGN.md) |
| C20 | proved | MAC and device address validation accepts exactly the documented forms | `mac_address`, `device_address` through the generic matcher. Matcher result = grammar. | - |
| C21 | proved | File checksums do not depend on read block boundaries | `file_checksum` read loop over a stream of blocks. Induction on the remaining content. | hash algorithms are a parameter obeying update(a+b) = update(a);update(b) |
| C22 | partial | Byte counts survive conversion to OVF capacity units and back | `int_bytes_to_programmatic_units`, `programmatic_bytes_to_int`. Strong induction on the byte count; a 53-bit rounding model for Python 3. | the round trip holds for every positive size below 2^63 on both Pythons, and for all positive sizes on Python 2; it is false at 0 (no termination) and on Python 3 for large sizes that need more than 53 bits (both proved with witnesses) |
| C23 | proved | The chosen OVF capacity unit is the largest exact one | The same. Characterisation of the unit by divisibility. | on Python 3 for values exactly representable as a double after scaling; see C22 for the counterexamples beyond that |
| C24 | proved | A generated manifest parses back to the same checksums | `generate_manifest`, `parse_manifest` through the matcher. Uniqueness of the split, induction over the lines. | - |
| C25 | partial | TAR space estimation is exact per entry and block aligned overall | `tar_entry_size`, `predicted_output_size`. Arithmetic (omega) and induction over the files. | tar_entry_size is exact; predicted_output_size omits the descriptor's own manifest line, so it can be one tar block short (proved) |
| C26 | partial | Extracting an OVA never writes outside the working directory | The checks of `untar` over a model of `normpath`. Induction over path components. | every accepted member points into the working directory or into a sibling directory whose name extends the working directory's name; the sibling case is accepted by the code (proved), and is excluded when no member component begins with the working directory's name. Symbolic links are not modelled |
| C27 | proved | Child insertion respects the schema order | `add_child` with an ordering. List induction. | - |
| C28 | proved | Set-or-create leaves exactly one matching child | `set_or_make_child`, `find_child`. List induction. | - |
| C29 | partial | Pretty-printing preserves the document | `xml_reindent`. Structural induction on trees. | elements, tags, attributes and leaf texts are kept for every tree; 'only white space changes' holds for trees without mixed content and is false in general because text next to child elements is overwritten (proved) |
| C30 | proved | Element namespaces and Item tags correspond | Name helper tables for all three versions. Case analysis over the tables, for all strings. | - |
| C31 | partial | Wildcard lists expand to the requested length | `expand_list_wildcard`. Induction on the missing entries, matcher lemmas for `{n}`. | placeholders stay in the result when the list already has enough entries or when substitution creates a new one (proved with witnesses) |
| C32 | proved | A guessed wildcard pattern reproduces the known names | `guess_list_wildcard`. Induction over the known names. | - |
| C33 | proved | key=value+type arguments are parsed unambiguously | The regular expression of the `properties` setter through the matcher. Greedy/lazy choice lemmas. | for arguments without newline characters, as in the statement |
| C34 | proved | Memory sizes are interpreted consistently | `memory` setter of edit-hardware. Case analysis on the suffix. | - |
| C35 | proved | Controller address limits are enforced whatever the argument order | `validate_controller_address` and the two setters. Case analysis; induction over histories of settings. | Both setting orders give the same outcome, decided by the documented limits; and any history of settings leaves an accepted pair. |
| C36 | partial | A new disk device gets a free address within limits | `_create_new_disk_device`, `find_open_controller`, `add_controller_device`. Pigeonhole on used addresses, frame lemmas. | Proved for devices with one parent and one address; a device whose parent differs between profiles is overlooked (refuted with a witness). |
| C37 | partial | Platform limits are always enforced | The platform table with its cache. Induction over the call history. | Values not asked about before are accepted exactly if supported; the 'every time' part is false because a refused value is cached (refuted; C37_history says exactly what happens). |
| C38 | proved | Guessed NIC names are unique per platform | `guess_nic_name` of all platforms. Injectivity of decimal rendering, div/mod. | Proved for all integers, hence for all n >= 1. |
| C39 | partial | Repeated disk-space checks agree with the user's decision | `check_disk_space` with its cache. Case analysis, history. | A first check of a directory behaves as stated and later answers are characterised; the full statement is false because a check the user agreed to is later answered False from the cache (refuted). |
| C40 | partial | Helper selection prefers installed and sufficiently new helpers | `helper_select` and installation over an abstract machine. Induction over the choices. | Everything stated is proved except that an installation failure is raised as such instead of HelperNotFoundError / trying the next choice (refuted). |
| C41 | partial | Interactive list selection returns what the user asked for | `choose_from_list` over a list of input lines. Induction over the input. | Proved except that 0 and negative numbers select options from the end of the list (refuted). |
| C42 | partial | Environment property values obey their declared type | `set_property_value`, `validate_value_for_type`. Case analysis over types and qualifiers; history induction. | Stored values, refusals and acceptance are proved exactly; for histories a refused change of type must be excluded, because the new type is stored although the value is refused (refuted). |
| C43 | partial | Configuration text lines become distinct, ordered properties | `config_file_to_properties`. Induction over the lines; order of zero-padded numerals. | Numbering, order and distinctness hold for every file length; string sorting recovers the order up to 9999 lines and fails beyond (refuted). |
| C44 | proved | Space-separated lists survive storage | `environment_transports`, `system_types`. `split`/`join` lemmas. | Round trip for every list of non-empty, separator-free entries; OVF 0.9 transports are a no-op. |
| C45 | proved | Networks no longer used are removed and used ones are kept | `_refresh_networks`. Induction over the items and the entries. | For every envelope with one NetworkSection and NIC items with at most one Connection each; OVF 1.0 and 2.0. |
| C46 | proved | Configuration profile creation and deletion | `create_configuration_profile`, `delete_configuration_profile`. List lemmas on the section. | Everything the claim says; the additional finding C46_no_section_fails records that a package without a DeploymentOptionSection raises AttributeError instead of the documented LookupError. |
| C47 | proved | Disk image type detection picks the best match | `DiskRepresentation.from_file`. Induction (argmax). | - |
| C48 | partial | Changed files are noticed when re-checked | `FileReference` as a state machine over file system snapshots. History induction. | refresh reports and records exactly what changed when size and checksum have been read before and both differ or both agree; three cases where a change goes unnoticed are refuted by witnesses. |
| C49 | proved | A VM is written out only on success and always cleaned up | The context manager protocol as a trace of steps with arbitrary outcomes. Case analysis. | The directory clean-up is proved under the assumption that measuring its size for the log message does not fail. |
| C50 | proved | Serial port connection strings parse into valid descriptions | `from_cli_string` through the matcher. Case analysis on the parse. | All of the claim, for every string. Findings beyond it (witnesses): text after a port number is dropped silently and the colon is optional. |
| C51 | proved | Deployment arguments keep the package and target last | Construction of the ovftool command line. List lemmas. | - |
| C52 | partial | Raw configuration disks are large enough | Capacity formula of `RAW.create_file`/`inject_config`. Arithmetic with the rounding model. | The image holds all files for totals below 2^70 bytes (always on Python 2; refuted for absurd totals on Python 3). The space estimate made beforehand can be 8 MiB too small (refuted). |
| C53 | proved | Verbosity is clamped and monotone | `adjust_verbosity`. Arithmetic. | - |
| C54 | partial | Writing hardware back to XML loses no edit | `update_xml` followed by `OVFHardware.__init__`. Composition of C08 over all items; a "modified" invariant over edit histories. | Proved end to end (update, reload, compare every value for every profile; other children kept) for items that XML can represent (Storable); that no edit goes unnoticed by the update is proved for every history without restriction. |
| C55 | proved | Loaded hardware is consistent | `OVFHardware.__init__`. Induction over the Item elements, C02. | InstanceID elements with the text '' (never produced by the XML parser, which gives None) are excluded. |
| C56 | proved | no_whitespace accepts exactly the strings without inner white space | `no_whitespace`. Induction on the string. | - |
| C57 | proved | truth_value accepts exactly the documented words | `truth_value`. Case analysis. | - |
| C58 | proved | Confirmation prompts mean what the user answered | `confirm`, `confirm_or_die`, `validate_value` over input lines. Induction over the input. | - |
| C59 | proved | Product fields are independent and stick | The product fields (getters and setters) on the VirtualSystem element. Lens laws of `set_or_make_child`. | OVF 1.0 and 2.0 envelopes with at most one ProductSection. |
| C60 | proved | Creating a network makes it known exactly once | `create_network`. List lemmas on the NetworkSection. | OVF 1.0 and 2.0 envelopes with at most one NetworkSection and distinct network names. |
| C61 | partial | Converting a disk image leaves only the new image | `convert_to`, `from_other_image`, `convert_disk_if_needed` with helper programs as parameters. Case analysis over outcomes. | Proved for inputs whose name has a character other than '.' before the extension; an unrelated .img file of the same name in the output directory is overwritten and deleted (witness). |
| C62 | proved | Disk capacity is read exactly and existing files are never overwritten by create_file | `capacity`, `create_file`. Matcher lemma; case analysis. | - |
| C63 | partial | The command line program cleans up and tells success from failure | `CLI.main`. Case analysis over outcomes, trace. | Proved for errors whose number is not a multiple of 256; such an error exits with status 0 (refuted). |
| C64 | partial | Output files are only written where the user agreed | `output` setter of the commands. Induction over histories of settings. | Consent is proved for every history; an unsupported output path that was refused is accepted silently when repeated, the package then being written to the earlier output (witness). |
| C65 | partial | Loaded hardware says what the Items say | `OVFHardware.__init__`. Fold over Items with the lookup function of C06. | Proved for properties other than the name and the description, and for Items with disjoint profiles; contradictory Items for the same profile may be accepted (witness). |
| C66 | partial | Adding a file to a package is exact | `add_file` and the command (Model/Package). Inversion of the command run, list lemmas. | All parts are proved except: without an explicit identifier the base name is used even if another File has that identifier (refuted), and replacing a file under another identifier leaves the Disk on it dangling (refuted). |
| C67 | partial | Adding a disk to a package is exact | `add_disk_worker` and everything it calls. Inversion of the command run; `Matching` of the new drive; C36 for the address. | Proved for every package with tidy hardware (each device has an InstanceID and no device is its own parent) and sensible requests. Findings with witnesses: a second Disk with the same identifier can arise; the sub-type of a new controller depends on the order of the existing ones if one of them has none; a requested address is ignored when an existing empty drive is filled. |
| C68 | partial | Removing a file leaves nothing behind that points at it | `remove_file` and the command. Inversion, uniqueness of references. | Absence of dangling references is proved when File ids are distinct, devices belong to the default profile and references are of one style; refuted without these (witnesses), and refuted for files missing on disk. |
| C69 | partial | Searching for a disk finds everything that belongs together | The three searches. Soundness and completeness of `find_child` and `find_item`. | Sound and complete for devices of the default profile; devices that exist only under a named profile are not found (witness). |
| C70 | partial | The package written describes the files as they are | `_refresh_file_references`. Induction over the references with a relation on entries. | Entries, sizes and capacities are proved (OVF 1.0 and 2.0, capacities between 1 and 2^63); that no Disk or device refers to a dropped File is false (witnesses). |
| C71 | partial | Nothing that exists is replaced without the user's consent | The confirmations of the three commands. Inversion of the command runs. | Proved except for the sub-type of a controller whose sub-type depends on the profile, which is overwritten without a question (witness); for a sub-type that is already set the question is asked needlessly (witness). |
| C72 | partial | A package that was written opens again without complaint | `writePackage` then `openFiles` (Model/Write, Model/Open): composition of the exact description of the output with a lemma that `openFiles` is silent when contents, sizes and manifest agree. | Proved for packages whose files have plain names and are not named like the descriptor or manifest, given that tarfile and the UTF-8 codec give back what was put in. Files named with a subdirectory are copied to the wrong place and are missing afterwards (witness). |
| C73 | proved | The output has the layout that the OVF standard requires | Model/Write: every step of `write` is a list of changes to the file system; the copy, manifest and TAR loops are described by induction over the files, then composed. | Exact contents of the output, for every package whose files have plain names and are not named like the descriptor or manifest. |
| C74 | partial | Writing a package touches nothing but its output | Model/Write: the changes of a run are collected in order; a moment is a prefix of them. A footprint predicate is preserved by each step and closed under sequencing, also when a step fails. | Proved for every prefix of the changes, also of failing runs. Overwriting an archive in place passes through a moment at which the package is lost (proved for every package), and a file of another origin in the output directory is overwritten without a question (witness). |
| C75 | partial | Opening a package reports every damaged, missing or unlisted file | Model/Open: each kind of complaint is characterised by a lemma about the loop that produces it (`checkFiles`, `compareFileLists`, manifest lines); the spec (Spec/Open) says where a file is held and what the manifest lists, without the model. | The complaints are characterised exactly, for manifests read with the algorithm of the OVF version. A manifest made with another algorithm makes an intact package look tampered with, and an archive with its descriptor in a subdirectory is accepted and then cannot be opened (witnesses). |
| C76 | proved | edit-hardware creates and deletes exactly the intended profiles | Model/EditHardware `editHardware`: induction over the loops that create and delete profiles, on top of C46. | For packages of OVF 1 and 2 whose sections are not duplicated (EhStart). |
| C77 | proved | edit-hardware leaves the machines of other profiles alone | Model/EditHardware: a run is a trace of eleven collections of items; each step preserves what a profile that is not named reads (Lemmas/Isolation), and so does deletion of other profiles. | For every combination of options, under EhStart. |
| C78 | proved | edit-hardware changes only the kinds of device it was asked about | As C77: each step touches items of one type only (`SameExcept`), composed over the trace. | Under EhStart. The deletion of profiles is separated from the edits: it leaves the machines of the other profiles as they are. |
| C79 | partial | edit-hardware does what the options say | As C77: each option has its effect at its own step (C12 to C14), and later steps keep the table of that property (`KeepsTab`). | Proved for the devices that there are; for NIC names on top of the placeholder mechanism (C08), for names and values that cannot be mistaken for placeholders. Witnesses: NICs beyond the expanded list of names are called None; a CPU is not created for a profile if another profile has one; values of lists are used up by NICs that the profile does not have; empty lists name the NICs None or raise IndexError; values that the user insisted on are refused. |
| C80 | proved | edit-hardware removes nothing without the user's consent | The counts at the time of the question are traced back to the package as it was. | Under EhStart; the numbers in the question are those of the package as it was. |
| C81 | partial | edit-hardware connects NICs to declared networks | Induction over the loop that declares networks, on top of C60, and the frame of the later steps. | Proved for given networks, for inferred networks, for descriptions and for packages without networks. New NICs of a package that declares networks but has no NIC are connected to nothing (witness). |
| C82 | proved | Hardware options outside the platform's limits need the user's consent | Case analysis of the setters on top of C37. | All of the claim, with exact acceptance conditions. The two exceptions that it makes are real (witnesses): what the user insisted on is refused later for CPU counts of the platforms that list them and for NIC types. |
| C83 | proved | edit-product sets the texts given and nothing else | Model/EditProperties `editProduct`: each setter is a step that changes one text (`OnlyFields`), composed. | For packages of OVF 1 and 2 with at most one product section, and each of its texts at most once (ProductWF). Witness beside it: a text cannot be made empty on its own, the command refuses to run. |
| C84 | proved | edit-properties sets exactly the properties named | Model/EditProperties `editProperties`: induction over the entries on top of C42 to C44; every entry is one change of one property (`OneChange`), other properties and the rest of the section are framed (`OnlyProps`). | For packages of OVF 1 and 2 with unique property keys (PropsWF). Witness beside it: an existing property without a value is asked about as if it did not exist. |
| C85 | partial | The interactive editor stores what the user types, for the property they picked | Model/EditProperties `interactive`, on the list of lines: equations for each kind of line, with the invariant that the list shown is that of the document; induction over the lines for whole sessions. | Each kind of line is characterised exactly, and every session as a whole. The last sentence is false (witnesses): properties named q or Q cannot be edited, to pick them ends the session; a refused value still marks the property as configurable. Numbers that wrap around (C41) are excluded where a line selects. |
| C86 | partial | inject-config puts exactly the given files into a drive that was there | Model/InjectConfig: the outside is a world that answers depending on what was done so far. The list of operations is computed from the success of each step; the drive by showing that the location of a drive leads back to it (C69), then C67; the second run from C69. | Proved for packages whose drives are all in the default configuration, on IDE, SCSI or SATA controllers with numeric addresses (Bays), for images of less than 2^70 bytes and capacities up to 2^63. Missing because false (witnesses): a drive that exists only in a named profile is not used, another is added at its address; a File of that name that no drive uses makes the command fail although there is an empty drive; a drive whose medium depends on the profile counts as empty; an extra file may have the name of the configuration file. |
| C87 | proved | Sizes are shown with four correct digits and in the right unit | Model/PrettyBytes: `%.4g` after dropping zeros, on the exact rational number that the double is. Bounds by halves of units of the last place; order by monotony within a unit and 1024 between units. | For sizes of 2^53 bytes and more, which the code first rounds to a double, the bound is 1/1999 instead of 1/2000. From 1024 YiB on the code raises an IndexError (witness), which is outside the claim. |
| C88 | partial | Writing a package warns about exactly the hardware the platform does not support, and does not fail for it | Model/ValidateHw: the loop over the profiles as a list of questions to the platform; the outcome of a list of questions by induction with the history that C37 speaks about. | Proved for a platform object that has not been asked before, with at most one CPU item and one memory item in each profile, with numbers in them (PlainHardware; only for coming to an end). Missing because false (witnesses): two CPU items or one without quantity raise an exception and nothing is written; an unsupported value is reported for one profile only; a value that the same command has asked about is not reported; the types of NICs are reported for profiles that do not have the NIC. |
| C89 | partial | `info` tells the hardware of every profile | Model/Info `infoProfiles`, Py/TextWrap; the words of a formatted line are the words of its cells (Lemmas/Info). By induction over the profiles, with the cells by C88's lemmas. | Proved for whatever is shown; and that it is shown if each profile has at most one CPU and one memory item with numbers in them and sizes are below 1023 YiB. textwrap with breaking of long words (labels and descriptions) is a parameter that changes white space only (KeepsInk). Missing because false (witnesses): the capacity is that of all disks of the package, also for a profile without disks; a CPU item without quantity or two CPU items raise an exception and nothing is shown. |
| C90 | partial | `info` tells every file and disk | Model/Info `infoFiles`; files and disks by position, in Forall₂ with the elements; searches by C61's lemmas. | Proved for whatever is shown; and that it is shown for Files and Disks stated properly (PlainFiles). Missing because false (witnesses): a device that is only in some profiles is not shown; a File without identifier or href and two Disks on one File raise an exception. |
| C91 | partial | `info` tells product, annotation, licences and hardware variants | Model/Info `infoProduct`, `infoAnnotation`, `infoEula`, `infoHardware`; specification Spec/InfoSections. Wrapping keeps the words (Lemmas/TextWrap). | Proved for whatever is shown, and that it is shown with at most one product and annotation section. Missing because false (witnesses): an annotation with an empty first line is shown without its heading; two product sections raise an exception and nothing is shown. |
| C92 | partial | `info` tells every network and NIC | Model/Info `infoNetworks`, `infoNics`; one row per network and NIC (Forall₂). | Proved for whatever is shown, and that it is shown if a network section has networks with names. Missing because false (witnesses): a network section without networks, or a network without name, raises an exception; a NIC with different networks in different profiles is shown with network None. |
| C93 | proved | `info` tells transports and every property | Model/Info `infoEnvironment`, `infoProperties`; one block of lines per Property (Forall₂). | With at most one product section nothing is in the way. |
| C94 | proved | `info` reports on every package | Model/Info `infoString`, `infoRun`; the sections' words in order; induction over the packages. | Opening a package is a parameter (any result or exception per package). An exception other than VMInitError in a report ends the run; when it arises is what C89 to C92 list. |
| C95 | partial | A program that fails is reported and only retried with sudo | Model/Calls `checkCall`, `checkOutput`; programs are a function from state and command to outcome and state, with a record of what ran. | What a program does is a parameter. Proved completely for both functions as they are; missing because false (witness): when output is captured, a permission error is not retried with sudo although that was allowed. |
| C96 | proved | A helper's answers come from runs of that very command, and nothing is installed without consent | Model/Calls `helperCall`, `helperOutput`; histories as an inductive relation, invariant of the cache. | All of the claim, for every history. Finding beyond it (witness): an answer that is kept is given again although the machine has changed in the meantime (qemu-img info of a disk that has been rewritten). |
| C97 | proved | Package managers are used in the proper order | Model/Calls `aptInstall` and others; invariant over the sequence of requests. | The package managers themselves (found, outcome of their commands) are parameters; they and sudo are assumed to be there. |
| C98 | partial | install-helpers: verification changes nothing, the status says whether all is there | Model/InstallHelpers `installHelpersRun`; specification Spec/InstallHelpers; induction over the lists of programs. | The installation of each program is a parameter (C97 for the package managers). Missing because false (witnesses): without a package manager the command breaks off without a report, even with --ignore-errors; if only genisoimage is there, verification reports just that mkisofs is missing. |
| C99 | partial | install-helpers: manual pages | Model/InstallHelpers `verifyManpages`, `installManpages`, `ManFs.mkdir`, `ManFs.copyFile`; laws of the file system; induction over the pages. | Files are parameters with laws (FileLaws, met by the example). Missing because false (witnesses): a page with the same size and time stamp but other content is taken for equal; a file where the directory should be ends the whole command. |
| C100 | proved | Versions of helper programs are compared as numbers | Model/Version (`StrictVersion` and the regular expressions); specification Spec/Version by grammar and lexicographic order. | All of the claim, for ASCII digits. Finding beyond it (witness): a program whose version has four numbers makes the selection fail, although another choice is there. |
| C101 | partial | deploy to ESXi: what is run, and only after consent | Model/DeployRun `deployEsxi` with the record of programs (Model/Calls) and the events on the server; specification Spec/DeployRun; case analysis along the run, using C41, C50, C51, C58, C95, C100. | ovftool and the server are parameters; ovftool is assumed to be found. Missing because false (witnesses): the target text does not tell user, password and server apart; without ovftool a package with properties leads to a TypeError (Python 3); a package with five unconnected serial ports is refused; an address that depends on the profile is ignored. |
| C102 | partial | deploy to ESXi: the serial ports on the server, all or none | Model/DeployRun `fixupPorts`; the server is a parameter, what is done there is a list of events. | Proved for every server and answers. Missing because false (witnesses): an unsupported connection is noticed only after the machine was deployed; once a certificate was accepted, later servers are contacted without verification and without a question. A failure of disconnecting is not modelled. |
| C103 | proved | the command line reaches the command as it was given | Model/Cli `argsToDict`, `setAttributes`, `impliedForce`; specification Spec/Cli (`Assignments`, `Sets`); induction over the arguments. | Here the parsed arguments are the input; argparse is C121 and C122, and the way from the command line to the effect C123 and C125. The setters of the commands are a parameter (those that matter are C16, C51, C82 and others). |
| C104 | proved | which files are taken to be packages | Model/Detect; specification Spec/Detect says what a name says; `midExtension` is proved to find the first place. | Digits and letters after the extension are ASCII. |
| C105 | partial | usage texts and examples are complete and can be copied | Model/Cli: the regular expressions as functions, the loops as they are; specification Spec/Cli (`Distributed`, `Continued`); induction over the parameters. | Proved for every width and text. Missing because false (witnesses): a text in brackets with brackets inside is broken; a quoted value with a blank is broken inside the quotes and then means something else; a usage string without parameters is an error. The wrapping of descriptions (textwrap with breaking of words) is a parameter. |
| C106 | proved | the names used are those of the document's OVF version | Model/Names: the tables of the three classes with their overrides, `__getattr__` with the three caches; specification Spec/Names: the schema by version; invariant over any history of lookups. | The schema names are written down in Spec/Names for each version. C106_used ties the constants of the rest of the model to the lookup. |
| C107 | partial | which descriptors can be opened | Model/Names `openDescriptor`; specification Spec/Names (`IsEnvelope`, `HasParts`); the branches of `find_child`. | Proved: what is opened, with which parts, and that what is no Envelope is refused with the initialisation error, exactly. Missing because false (witness): an Envelope without References ends in KeyError, two ProductSections (allowed by the standard) in LookupError. XML parsing is not modelled. |
| C108 | partial | new disk images are made as asked for, or not at all | Model/NewDisk on top of Model/Disks (`ConvWorld`: what the helper programs do, depending on what was run before); specification Spec/NewDisk `Makes`: the commands for each format; the createType pattern through the regular-expression semantics. | Proved: all but the sentence on failed attempts, and the sub-format if its line has no further quotation mark. Missing because false (witnesses): a raw image whose files could not all be added stays, and blocks every further attempt; text quoted later in the createType line is taken for part of the sub-format. |
| C109 | partial | commands run only with all they need | Model/Ready (`ready_to_run` of every command on top of Model/Ui); specification Spec/Ready says for each command what it needs, and when there is room or the user agreed. | Proved: nothing runs without what it needs, for every command; and what has all it needs runs, unless the last sentence fails. Missing because false (witnesses): a user who agreed is refused without a question when the same place is asked for less room afterwards; after a package that could not be loaded replaced a good one, the command ends with AttributeError instead of an input error. |
| C110 | partial | temporary directories do not pile up | Model/TempDirs: a transition system over numbered directories, with every way a load can end; invariant over histories; Spec/TempDirs says which histories are undisturbed. | Proved for all histories in which no removal fails and no load is interrupted; at exit also for those in which this happens, except (witness) between making the directory and registering it for removal, when it stays for ever. |
| C111 | partial | how helper programs are installed | Model/SourceInstall: installations as traces of steps on a machine that may fail at any of them; Spec/SourceInstall gives the documented packages and the steps of the two builds from source. | Proved: the packages used are the documented ones, nothing is done to programs that are there or cannot be installed, success means found, failures stop the installation and temporary directories are removed; on Linux, and for programs that are only packages, a program reported as installable is never refused. Missing because false (witness): on macOS with apt-get but no port, vmdktool is reported as installable and then refused. |
| C112 | partial | what COT believes about a helper program | Model/HelperCache: an object and an arbitrary machine at the time of each question; invariant over histories. | Proved: whatever COT says it found was found, and it keeps to it; the version is asked once. Missing because false (witness): after looking for a program in vain, COT keeps saying that it is not installed though it has appeared (another package may provide it), and installs it again. |
| C113 | partial | what saving changes in the descriptor | Model/Save: the whole tree through `update_xml`, `_refresh_file_references` and `_refresh_networks`; frame theorem relating the trees before and after. | C113_rest_partial and C113_files_partial (what is written for the Files and Disks) are proved for OVF 1.x and 2.x after any edits (in OVF 0.9 all sections share one tag); C113_unedited_partial for all versions, if each device has one Item. Missing because false (witness): if a device has Items for several profiles, all Items are generated anew although nothing was edited, and the Item of another device may be damaged so that the saved descriptor cannot be read. |
| C114 | partial | which files are in a disk image | Model/Disks, Model/ImageFiles: the parsing of the two listings; Spec/ImageFiles says what a line of a listing means, by relations. | Proved for names without blanks on raw images, and for ISO images with Rock Ridge names or in the upper case of ISO 9660. Missing because false (witnesses): of names with blanks on raw images only the first word is reported; on ISO images without Rock Ridge names that contain both cases are reported in lower case, so that two files can get one name. |
| C115 | partial | what was edited is there when the saved descriptor is opened again | Model/Save, Model/OvfOpen, Model/Hardware: opening, editing, saving and opening again are composed; the frame of saving (C113), the reload of the hardware (C54) and the product section (C59) give the result. | Proved for OVF 1.x and 2.x at the level of the element tree (writing the tree as XML text and parsing it are the XML library's). Missing: OVF 0.9, whose sections are told apart by an attribute, and hardware that is not storable (values with blanks at the ends, texts that look like expressions: see C54). |
| C116 | partial | remove-file undoes add-file and add-disk | Model/Package: the models of the three commands are composed; the inversion of add-disk (C67) and of remove-file (C68) and the uniqueness of the new entry give the result. | Proved for files outright, and for new hard disks with a given identifier when remove-file succeeds, up to the controller. Not true as stated: a controller that was added for the disk stays (C116_controller_fails), and a CD-ROM drive that was added for an image stays, empty (C116_cdrom_fails). |
| C117 | proved | Running edit-product or edit-properties again changes nothing | Model/EditProperties: every step is shown to reach a state in which the same step changes nothing (fixed points of the element updates), and the later steps are shown to keep those states (induction over the properties and over the lines of the configuration file). | All of the claim; for edit-properties the descriptor has at most one product section and each property once. A finding beyond it (witness): a command that names a property twice can be refused when it is run again (C117_twice_fails). |
| C118 | partial | Running edit-hardware again changes nothing | Model/EditHardware: the trace of the first run (EditRun) gives, for each step, what is stored afterwards in the value tables; later steps keep it (KeepsTab); and each step of the second run is shown to be the identity on such tables, counts and networks (Lemmas/AgainItems, AgainHardware). | For commands without --network-descriptions and --nic-names, on packages of version 1.x or 2.x as C76 asks for, in which no two identifiers of devices are the same number. With an empty description the claim is false (witness C118_description_fails): for a new network the user is asked for a description instead, but the second run finds the network and empties its description. |
| C119 | partial | The saved descriptor is XML that reads back as the same descriptor | Model/XmlText: ElementTree's register_namespace and serializer, and a reader for what it writes (entities, attributes, namespaces, tree builder). Lexing inverts writing (Lemmas/XmlText), the builder inverts the list of tokens by induction on the tree (XmlTree), names resolve to what they were because prefixes are distinct (XmlNames). | For trees that XML can hold: names of ASCII characters, texts of characters allowed in XML, without carriage returns (on Python 2.7, attributes without tabulators). Beyond that the claim is false, with witnesses: carriage returns become line feeds, control characters make the saved descriptor unreadable, on Python 2.7 a tabulator in an attribute becomes a blank, and comments are dropped. That the hardware is read the same is proved for Items with elements of the schema only, none of them empty. The model of ElementTree and expat (Model/XmlText) leaves out document type declarations, CDATA sections and non-ASCII names. |
| C120 | partial | A command line means what it says | Model/Argparse: the algorithm of argparse (classification of arguments, loop over options and positional arguments, conversions, actions, subparsers) and the tables of all parsers COT creates. A command line of the specification is classified as expected (Lemmas/Argparse), the loop turns it into a list of actions (argLoop_line), the actions give the outcome per option (ArgActs), and the tables are checked in the kernel. | For command lines of the form of Spec/Argparse (CmdLine): missing are two dashes as a value or at the end. False in three places, with witnesses: two dashes at the end are refused after the value of an option; the main parser also looks at the arguments of the command, so that an abbreviation such as --ver, which edit-product takes, is refused as ambiguous; and an option that takes several values swallows a package given after them. argparse is modelled from Python 3.11 and was compared with it on random command lines. |
| C121 | partial | The manual tells what the command line does, and it reaches the command | Spec/Manual: the tables of the manual pages, written from COT/docs/man and the documented attributes of the classes. Compared with the parsers of Model/Argparse by evaluation in the kernel; C120 and the models of args_to_dict and set_instance_attributes (C103) are composed for the values. | The tables of the manual are all compared. That the values reach the attributes is proved for the eight commands with one-word arguments and for deploy to ESXi, on the command lines of C120; what info and help make of theirs is C128 and C130. One flag is not in the manual (witness): -ds for --datastore. What the setters of the attributes do with a value is in the properties of the commands. |
| C122 | partial | The order and the spelling of the options on the command line do not matter | Model/Argparse as for C120. The command lines are those of Spec/Argparse (CmdLine); the parser is reduced to the list of its actions, whose effect on each entry of the namespace depends on the actions for that entry only. | Equality of the whole results of the parser, for the eight commands with one-word arguments, for deploy to ESXi, and for info with its packages together (apart they are refused, C120_blocks_partial); help has no option but its help flag. Missing are two dashes as a value or at the end, and lines that ask for a help text (C120_prints_partial). Lines that are ambiguous for the main parser are excluded: C120_abbreviation_fails shows that they are refused. |
| C123 | partial | What edit-hardware does to a package is what its command line asks for | Model/EhCommand composes the parser (Model/Argparse), the setting of attributes (Model/Cli), the table of the attributes of COTEditHardware, and the run (Model/EditHardware). What a command line asks for is written down in Spec/EhCommand from the options used only. The proof follows each attribute through the table (the last assignment to it counts, others keep it) with C121 for the values. Props/EhEffects and Props/EhNetworks then read the effects C76 to C86 off the options of the command line: devices and values in the first, profiles, system types, networks and NIC names in the second. | The command lines are those of C120 and C121; with a help flag among the arguments nothing is changed (C123_prints_partial). The opening of the package and the question about the output are parameters; the package is given as it was opened. The end-to-end statement about the package is spelled out for every option: counts of NICs and serial ports, CPUs, memory, sub-types of controllers, MAC addresses, serial connections, profiles, system types, NIC types, networks with their descriptions, and NIC names (that do not look like placeholders); and for the profiles that are not named and the devices that no option names. What happens when a user does not insist on an unsupported value is C82. |
| C124 | partial | What a command sets is what cot info tells of the package that was written | A composition of theorems: Props/ProductShown and Props/PropertiesShown take the result of C83 and C84, show with C107/C115 that the changed tree opens and that a successful save keeps the product section and the attributes of the hardware section, with C119 that writing and reading keep them (SameContent), and with C91/C93 what the report tells of them. The additional invariant is that edit-product puts no elements into the fields (PlainFields). Props/HardwareShown: devices that give the same answers to every question under single profiles have the same stored readings, types and existence, so that each row of the profile table tells the same of the devices that were loaded again as of the ones that were saved. Props/FilesShown: the same for single values of properties, and with them for the descriptions of devices in the table of files; the File and Disk entries are followed one by one (SavedFile, SavedDisk) through the refresh (C70), the text and the reading, so that the rows (C90) tell the real sizes and capacities. Props/NetworksShown: the network section after saving holds the networks in use (C45), which are followed through text and reading to the lines of C92; the NICs by the readings of the Connection property. Props/VariantsShown: the same for subtypes, as a value is stored if and only if some profile reads it. Props/TextsShown: the other sections of the virtual system are kept whole. | Composed from C83 and C84 (the commands), C115 (saving), C119 (XML text and reopening), C91 and C93 (the report). The save is any that succeeds, and that XML can hold the tree that is saved is a hypothesis (C119 tells which trees these are). The fields of the product must not have elements within them, as their text would be lost when reindenting. A label or a description given on the command line is the text of the element that is told, if that element has no elements within it. For the hardware, any history of edits on the devices that were loaded is covered, by C115, C119 and C89; the devices must be ones that C54 can store and the Items that are saved must be plain; what the command line of edit-hardware does to the devices is C123. The table of files is by C70, C113 and C90 in the same way: the lines are about the files that the package has when it is saved, however they came there. The networks are those of the package that a NIC in the saved hardware section is connected to (C45), for Items with at most one Connection and network descriptions without elements within them. The NICs are told with their network; the name of a NIC is not followed through the reload, as it may be stated by a placeholder. The kinds of hardware are the system types stated before saving and the subtypes that the edits led to. Licences and annotation are the ones from before saving, if they have no elements within them. OVF 0.9 and the questions of edit-properties without options are not covered. |
| C125 | partial | What the command line asks the editing commands for is what is done | Model/Commands composes the parser of C121/C122, the assignment of attributes (CLI.run) and the commands. Spec/Commands says what a command line asks for in terms of the uses of options (lastGiven, allGiven). Lemmas/Commands.handed turns a successful run into the list of assignments, and pkg_attr shows that an attribute holds what its last assignment gave it, whatever the order of the others; the effects then come from C83, C84, C66, C68 and C86. Model/AddDiskCommand and Props/CommandDisk do the same for add-disk, with C67 for the effect. Command lines that meet the hypotheses are in Props/CommandCases, Props/CommandDiskCases and Props/CommandRunsCases. For the other direction (Props/CommandRuns, Props/CommandDiskRuns) every setter is shown to accept its value, for add-disk in every state that the assignments go through. | The way from the arguments of the process to the effect on the package. Opening the package and agreeing to the output are parameters; the platform of inject-config is a parameter. edit-product is for OVF 1.x and 2.x and a value of edit-properties is for properties without a line break. The other direction is proved too: a right command line whose files exist has exactly the result, package or error, that the request has which it states. For add-disk the recognition, conversion and capacity of the image are parameters (C47, C61), the capacity is assumed to be between 1 and 2^63, and the address, name and description are for a drive that is new. The package is not written here (C124, C115). |
| C126 | partial | Every log message is shown once, as -v and -q say, in every run of a process | Model/Logging: the logger COT of the process, the handlers, the attributes of the CLI objects, and `main` as far as the log is concerned. Invariant over the history (LogInv): the handlers of the logger are those of the objects that have one, each once, and an object whose last run ended well has none. Levels and parts of a line are told by Spec/Logging in terms of the number of -v. | Proved for every history in which the last run of each other CLI object ended in the regular way; so for one CLI object without any restriction. False otherwise (witness): after a run without a subcommand, messages of another CLI object are shown twice, as the handler is left behind. The number of -v and -q is for the command lines of C120. Python's logging module is modelled as far as COT uses it; handlers of the root logger are not. |
| C127 | partial | cot deploy calls ovftool with what its command line says | Model/DeployCommand: the setters of the attributes of deploy (deploy.py, deploy_esxi.py) on top of the command-line model of C120, C121 and C125, followed by the run of C101. Composition: what argparse gives each attribute (C121_deploy), what each setter makes of it (C50, C51), and what the run does with it (C101). CallFor in Spec/DeployCommand states the call of ovftool in terms of the options alone. | Proved for esxi, for the command lines of C120, with ovftool installed and shlex.split as a parameter. False for the other names of the hypervisor that the command offers (vcenter, vmware, vsphere): proved that they are always refused, on every command line, as the setter of the attribute accepts esxi only. |
| C128 | partial | cot info tells about the packages of its command line, as its options ask | Model/InfoCommand: the setters of info and its main, on top of the command-line model (C120_info) and of infoRun (C94). Proved as an equation: the run from the command line is infoRun with the packages named and the verbosity that the flags ask for (AsksVerbosity), or a usage error. | Proved for command lines without words that argparse could take for options of the program, and without two dashes (as in C120). What each report says is C94. |
| C129 | partial | cot install-helpers verifies or installs as its command line asks | Model/InstallCommand: the attributes of install-helpers and its main, on top of the command-line model (C120, C121) and of installHelpersRun (C98). Proved as an equation: the run from the command line is installHelpersRun with the two flags that were given, or a usage error. | Proved for command lines without words that argparse could take for options of the program (as in C120). What the run does is C98, with its simplifications. |
| C130 | partial | cot help prints the help of the command that is named | Model/HelpCommand: the table subparser_lookup as add_subparser builds it, the setter, run and main of help, with the attribute that an earlier run left as input. Spec/HelpCommand says which names there are. The table is compared with the commands in the kernel; the rest follows the one attribute through C120 and C103. | Proved for command lines of C120 and Python 3.2 and later; the help text itself is argparse's and identified by its parser. The last sentence is proved for a new process and false otherwise (witness): after help info, help alone prints the help of info again, because the attribute of the command is not set back. |
| C131 | partial | A command writes the package where its own command line says, whatever was run before | Model/Session: setting the attributes of a command object that was used before, and where run and finished write. Spec/Session says where the manual sends the package (Target). The two attributes are followed through C121 and C103 from an arbitrary state. | Proved for a new process, and exactly what happens for every history (the state of the object is arbitrary). False from the second run of a command on (witness): the place where the first run wrote is kept, so that a run without --output writes another package over it without a question, with values of the first run that were not asked for. The work between setting the attributes and writing is left out; command lines as in C120. |

## Where the code violates a property

Each of these is a theorem with a concrete witness (suffix `_fails`): the *negation* of the claim is what is proved.
They are findings about the code at the pinned commit, under the reading of the code given by the model.

* `C04_remove_default_drops_inheritors_fails`: Removing the *default* profile is different: profiles that inherited from it lose the item (the statement of C04 is about named profiles only).
* `C05_unconfigured_profile_fails`: The last clause of C05 needs `p` to be configured: adding an unconfigured profile to a default item changes nothing and the item still does not exist under it.
* `C08_child_attributes_fails`: **C08 fails** for attributes of child elements: an Item element with such an attribute loads, but the element generated from the result carries the attribute on an extra element that is not in the item's XML namespace, next to the real one, and reading that back is an error.
* `C08_placeholder_confusion_fails`: **C08** does not hold without that restriction: an Item with one cpu, the name "cpu" and the description "1EN1" is loaded without an error, and its description then reads "_VQcpuVQ_": the 1s of the description are stored as `_VQ_`, and the text `_EN_` that this makes up is taken for the name.
* `C09_set_unscoped_fails`: **C09 fails** in general: setting a property of an item for a profile under which the item does not exist is accepted, and from then on the item generates an Item element without any InstanceID (loading which fails, hardware.py:74).
* `C100_four_numbers_fails`: **C100 (limits).** A program that is new enough, but whose version has four numbers, is not used: the selection fails, although another choice is there.
* `C101_no_tool_fails`: C101, finding: without ovftool, a package with properties is not refused because the tool is missing, nor is installation offered: the program fails with a TypeError.
* `C101_profile_address_fails`: C101, finding: a serial port whose connection depends on the profile is not connected at all, whatever the profile.
* `C101_target_fails`: C101, finding: the target does not tell user, password and server apart: two commands for different servers and with different passwords run exactly the same ovftool command.
* `C101_unconnected_fails`: C101, finding: a package with five serial ports is refused although none of them is to be connected.
* `C102_late_fails`: C102, finding: a connection that ESXi cannot have is noticed only after the machine has been deployed.
* `C102_verify_fails`: C102, finding: accepting the certificate of one server turns verification off for every server that is contacted later.
* `C105_blank_fails`: a usage string without any parameter is refused
* `C105_nested_fails`: a text in brackets that has brackets inside is taken apart, although the code means to keep it together
* `C105_quoted_fails`: a quoted value with a blank in it is broken, so that what is shown does something else than the example when it is entered: the value has a backslash, a line break and blanks in it
* `C107_error_fails`: The full claim would be that what cannot be opened is refused with that error, which is the one that users are told about. It fails: without References the program ends with `KeyError`, and a machine with two products, which the standard allows, ends with `LookupError`; neither is caught by the command line.
* `C108_greedy_fails`: **C108 fails** for the sub-format when another quoted text follows in the same line: all of it is taken.
* `C108_leftover_fails`: **C108 fails** in that an attempt which failed halfway leaves an unfinished image behind; because of it every further attempt is refused, even one that would succeed.
* `C110_interrupted_fails`: **C110 fails** if the user interrupts the program in the moment between making the directory and registering it: the directory is never removed.
* `C111_able_fails`: **C111 fails** on macOS: with apt-get as the only package manager COT reports that it can install vmdktool, and then does not know how to.
* `C112_stale_fails`: **C112 fails** for programs that appear later: once COT has looked for the program in vain, it keeps saying that it is not installed, although the program is there now; and `install()` installs it again.
* `C113_regenerated_fails`: The full claim would be that saving a descriptor that was not edited keeps it as it is whenever its File, Disk and Network entries are accurate. **C113 fails** when a device has one Item for each of several profiles: there are then fewer devices than Items, which is taken for an edit, and all Items are generated anew. Here the Item of another device gets a second, misplaced `VirtualQuantity` by that (cf. C08), and the saved descriptor can no longer be read.
* `C114_blank_fails`: The full claim would be that every file in the image is reported by its name. **C114 fails** for names with blanks on raw images, of which only the first word is reported, ...
* `C114_case_fails`: ... and for names with capital letters on ISO images without Rock Ridge, even for images that COT makes itself (which keep lower case letters, iso.py:99-100), so that two files can get the same name.
* `C116_cdrom_fails`: **C116 (limits).** A CD-ROM drive that was made for an image stays, empty, when the image is removed.
* `C116_controller_fails`: **C116 (limits).** The controller that was made for a disk stays when the disk is removed.
* `C117_twice_fails`: **C117 (limits).** A command that names a property twice can be refused when it is run again: first a text is stored, then the property becomes a boolean, and the second time the text is not allowed any more.
* `C118_description_fails`: **C118 fails** with an empty description: for a new network the user is asked for a description instead, but when the command is run again the network exists, and its description is emptied.
* `C119_carriage_return_fails`: **C119 (carriage returns, refuted).** A text with a carriage return is written as it is; what is read has a line feed instead.
* `C119_comment_fails`: **C119 (comments, refuted).** A comment in the descriptor is gone after reading and saving it.
* `C119_control_fails`: **C119 (control characters, refuted).** A text with a control character is written without complaint; what is written cannot be read any more.
* `C119_tab_fails`: **C119 (tabs, refuted).** On Python 2.7 a tab in an attribute is read back as a blank.
* `C11_clone_into_all_named_fails`: What C11 excludes for the default profile, 1: an item of the default profile cannot be cloned into all configured profiles by name (the clone would keep the parent's InstanceID for the default).
* `C11_clone_into_default_fails`: What C11 excludes for the default profile, 2: a clone into the default profile alone loses every property except its InstanceID, because the named profiles are stripped first.
* `C120_abbreviation_fails`: **C120 fails** for abbreviations that the command takes, but that the main parser finds ambiguous: `cot edit-product --ver 1 a.ovf` says clearly which option is meant, has everything it needs, and is refused.
* `C120_ambiguous_fails`: **C120.** The main parser looks at the arguments of the command as well: an abbreviation that is ambiguous for the main parser is refused, whatever it stands for in the command.
* `C120_swallows_fails`: **C120.** An option that takes one or more values takes everything up to the next option: a package given directly after its values is one more value, and the command line is refused for want of a package.
* `C120_trailing_fails`: **C120 (false).** Two dashes at the end, which say that no more options follow, are accepted after the package but refused after the value of an option, although both command lines say the same and are accepted without them.
* `C121_undocumented_fails`: **C121.** One flag is not in the manual: `-ds` for `--datastore`.
* `C126_twice_fails`: **C126 is false for several objects**: after a run without a command (a usage error), every message of a run of another CLI object in the same process is shown twice.
* `C127_alias_fails`: **C127 (finding).** The other names of the hypervisor that the command offers are never accepted: `cot deploy PACKAGE vcenter …` (or `vmware`, or `vsphere`) always ends with an error, having done nothing at all.
* `C12_all_profiles_error_fails`: **The full property fails (2).** With NICs A (profile x) and B (default), asking for 1 NIC in all profiles does not return normally.
* `C12_all_profiles_mixed_fails`: **The full property fails (1).** NICs A (profile x only), B (profile y only) and C (default): asking for 2 NICs in all profiles returns normally and leaves profile y with 3.
* `C12_duplicate_profile_fails`: **The full property fails (4).** A profile listed twice is counted twice: asking for 2 gives 1.
* `C12_named_covering_error_fails`: **The full property fails (3).** With one NIC stored for the default, asking for 2 NICs in every configured profile by name does not return normally.
* `C130_again_fails`: **C130 fails** for a second run of the same CLI object: after `help info`, `help` alone prints the help of `info` once more, not that of the program, as the attribute is not set back.
* `C131_again_fails`: **C131 (false).** After one run, a run of the same command without `--output` writes over what the first one has written, whatever package it was asked to change.
* `C131_overwrites_fails`: **C131 (false).** `cot edit-product a.ovf -v 1` and then, on the same object, `cot edit-product b.ovf -V 2`: b.ovf, with version 1 that was not asked for, is written over a.ovf, and nobody is asked.
* `C22_large_fails`: C22 fails on Python 3 for the first count that a double cannot hold: it comes back as another number.
* `C22_zero_fails`: C22 fails for 0: the loop never ends, on either Python.
* `C25_predicted_size_fails`: C25 fails for the archive that is really written: the line about the descriptor itself is not counted. A package with a 8192-byte descriptor and no files is predicted to need 10240 bytes and takes 20480.
* `C26_sibling_fails`: **C26 fails** in general: a member may be written to a directory beside the working directory.
* `C29_mixed_content_fails`: **C29 fails** for mixed content: text beside child elements is lost.
* `C31_placeholder_left_fails`: **C31 fails** in part: a placeholder can be left in the result, because a list that is already long enough is not expanded, and because replacing a nested placeholder makes a new one.
* `C36_per_profile_parent_fails`: What C36's reading of "used by another device" leaves out: a device attached to different controllers in different profiles is overlooked, so the new disk is put at the address this device has in profile x.
* `C37_repeated_call_fails`: The full statement of C37 fails: an unsupported number of NICs is refused the first time and accepted when it is validated again.
* `C39_agreed_fails`: The full statement of C39 fails: the user agreed to continue, and the same check then returns False without asking.
* `C40_install_error_fails`: The full statement of C40 fails: if installing the first installable choice fails, the error is raised although a later choice could have been installed.
* `C41_zero_fails`: The full statement of C41 fails: the input `0` selects the last option.
* `C42_type_kept_fails`: The full statement of C42 fails for a refused change of type: the new type is stored although the existing value is not a value of it.
* `C43_sorted_fails`: From the ten-thousandth line on the keys no longer sort in file order.
* `C46_no_section_fails`: A package without any DeploymentOptionSection gives AttributeError where LookupError is documented.
* `C48_second_fails`: A second re-check never notices a change, because by then even the "previous" values are read afresh.
* `C48_second_missing_fails`: And if the file has disappeared, a second re-check raises an error instead of returning False.
* `C48_unread_fails`: A reference made without expected values has recorded nothing, so its first re-check cannot notice a change.
* `C50_colon_fails`: The colon is optional, so that an unknown word can be read as a known kind and the rest of the word.
* `C50_pipe_late_fails`: A pipe is accepted as a connection; that ESXi ports cannot be made for it is only found out when the machine has been deployed already.
* `C50_trailing_fails`: Text after the port number is dropped without a word.
* `C52_capacity_huge_fails`: Beyond that (a zettabyte is 2^70 bytes) rounding can make the image too small.
* `C52_estimate_fails`: It does fall short: files of exactly 8 MiB are estimated at 8 MiB, but the image made has 16 MiB.
* `C61_neighbour_fails`: So a conversion does not leave all other files alone: an unrelated `foo.img` beside the output is overwritten and then deleted, although the name of the output is `foo.vmdk`.
* `C63_zero_errno_fails`: An error numbered 0 or 256 would be reported as success.
* `C64_in_step_fails`: The output recorded by the command and the one its VM is written to can come apart: an unsupported name is refused, but remembered; given again, it is accepted without a word, and the VM is written to the earlier output.
* `C65_contradiction_fails`: C65 fails in general: Items that contradict each other may be accepted. When an Item repeats, for a profile, what the Item without profiles says, loading forgets that it did, so that another Item for the same profile may say something else unnoticed.
* `C66_dangling_fails`: **C66 fails** for a changed identifier: replacing a file under another identifier leaves the Disk that was on it without a File.
* `C66_duplicate_id_fails`: **C66 fails** for default identifiers: without `--file-id` the base name is used as identifier even if another File already has it, and then two Files share an identifier.
* `C67_address_ignored_fails`: **C67 fails** for the address of a drive that is already there: if the image is already attached to a drive, the requested address is silently ignored and the drive stays where it was, although the requested place is free.
* `C67_duplicate_disk_fails`: **C67 fails** for identifiers of disks: the identifier of a new Disk is that of its File, even if another Disk already has it; then the old and the new hard disk refer to the same Disk.
* `C67_subtype_order_fails`: **C67 fails** for the common sub-type if one controller has none: depending on the order of the identifiers, the sub-type of the other one is taken for the common sub-type or not.
* `C68_missing_fails`: **C68 fails** for a file that was missing when the package was opened: it cannot be removed.
* `C68_mixed_style_fails`: **C68 fails** for mixed styles: the second device is left in the package, pointing at nothing.
* `C68_profile_only_fails`: **C68 fails** for a device that exists only under a profile: the Disk is removed, but the hard disk that uses it is left in the package, pointing at nothing.
* `C69_profile_only_fails`: **C69 fails** for devices of a named profile: a hard disk that exists only under a profile refers to the Disk, but the search reports that there is no device (find_item is called without profile, which means the default one).
* `C70_dangling_device_fails`: **C70 fails** for references to dropped files: the File entry for the missing `c.iso` is removed, but the CD-ROM drive still refers to it, so the package that is written has a dangling reference.
* `C70_dangling_disk_fails`: **C70 fails** in the same way for a Disk whose image is missing.
* `C71_same_subtype_fails`: **C71 fails** in the other direction: for the sub-type that the controller already has the user is asked whether to change it (from `('virtio',)` to `virtio`), and a refusal ends the program, although nothing would be changed.
* `C71_subtype_fails`: **C71 fails** for sub-types that depend on the profile: the given sub-type replaces all of them and nothing is asked.
* `C72_subdirectory_fails`: **C72 fails** for files in subdirectories: `sub/a.vmdk` is copied to the output directory as `a.vmdk`, while the entry still says `sub/a.vmdk`; when the package is opened again, the file is missing.
* `C74_in_place_fails`: **C74 fails** when an archive is written over itself: whatever the package is, there is a moment at which the old archive is gone and the new one is not there yet. If the program is interrupted then, the package is lost.
* `C74_neighbour_fails`: **C74 fails** for files that happen to be in the output directory: a file there with the name of a file of the package is overwritten without a question.
* `C75_algorithm_fails`: **C75 fails** for manifests made with another algorithm than the one that COT would use for this version of OVF: the manifest below gives the right SHA256 sum of each file, but it is compared with the SHA1 sum, and an intact package is reported as tampered with.
* `C75_subdirectory_fails`: **C75 fails** for an archive whose descriptor is in a subdirectory: the archive is accepted and unpacked, and then the descriptor is looked for at the top of the archive, which is an error.
* `C79_confirmed_cpus_fails`: **So is a number of CPUs.** Three CPUs on a CSR1000V: accepted by the option after confirmation, refused by `set_cpu_count`. (Values above the platform's limit are accepted, because the platform remembers that it was asked about them before, but the list of supported numbers is always checked.)
* `C79_confirmed_nic_type_fails`: **A NIC type that the user insists on is refused all the same.** On a CSR1000V the option `--nic-types PCNet32` is accepted when the user confirms that it is to be used although it is not supported, but `set_nic_types` validates once more without asking, and the command ends with an error.
* `C79_cpu_of_other_profile_fails`: **A CPU for a profile that has none is not created** if there is a CPU item for another profile: after `--profiles x --cpus 2` profile x still has no CPU.
* `C79_empty_lists_fails`: **An empty list of NIC names names all NICs "None"**, and an empty list of MAC addresses or networks is an IndexError.
* `C79_nic_names_fails`: **Some NICs may be named "None".** NIC 11 is there in profile y only and NIC 12 in profile x only, so no profile has more than one NIC, and `--nic-names Eth{0}` gives one name only, in which even the placeholder is left. NIC 12 is called "None".
* `C79_values_skipped_fails`: **Values for NICs that a profile does not have are used up.** Profile x has one NIC, number 12; y has number 11. `--profiles x --mac-addresses-list M1 M2` gives the only NIC of x the second address.
* `C81_new_nics_unconnected_fails`: **New NICs may be connected to nothing.** The package declares network A and has no NIC; after `--nics 2` there are two NICs without a Connection.
* `C83_clear_fails`: A text that is asked to become empty is not changed if it is the only one given: the command refuses to run, as if nothing had been asked for.
* `C84_existing_asked_fails`: The statement "only the creation of a property needs the user's consent" is false: a property that exists but has no value yet is taken for one that does not exist, and the user who declines its creation ends the command.
* `C85_q_fails`: The statement "every property that is listed can be edited" is false: to pick the property `q` or `Q`, by name or by number, ends the session.
* `C85_refused_marks_fails`: The statement "a refused value leaves the document as it is" is false: the property is marked as configurable.
* `C86_media_fails`: **C86 fails** for drives whose medium depends on the profile: such a drive counts as empty, and its media are given up for the image.
* `C86_profile_only_fails`: **C86 fails** for drives of a named profile: the empty drive is found, but the image does not go into it; instead another drive is added at the same address.
* `C86_same_name_fails`: **C86 fails** for an extra file that is called like the configuration file of the platform: two files of the same name are put on the image.
* `C86_stale_file_fails`: **C86 fails** for a File that no drive uses: if the package has a File with the name of the image but no drive uses it, the command fails, although there is an empty drive.
* `C87_huge_fails`: From 1024 YiB on, pretty-printing fails (IndexError).
* `C88_asked_before_fails`: **C88 fails** for values that the same command has already asked about: edit-hardware has the number of CPUs checked, so the check on writing says that the hardware is sane.
* `C88_nic_types_fails`: **C88 fails** for the types of NICs: a profile without any NIC is reported for the type of a NIC of another one.
* `C88_no_quantity_fails`: **C88 fails** for a CPU item without VirtualQuantity: a TypeError (`int(None)`).
* `C88_second_profile_fails`: **C88 fails** for a second profile: what is unsupported is reported for the first profile that has it and not for the others.
* `C88_two_cpus_fails`: **C88 fails** for a package with two CPU items: the check, which should only warn, raises a LookupError; it is made whenever the descriptor is written, so nothing can be written.
* `C89_capacity_fails`: **C89 fails** to tell the disks of the profile: its line shows the total capacity of all disks of the package. Profile y has no hard disk, but its line says "0 / 1 GiB".
* `C89_no_quantity_fails`: **C89 fails** for a CPU item without VirtualQuantity: on Python 3 nothing is told, but a TypeError raised.
* `C89_two_cpus_fails`: **C89 fails** for two CPU items: a LookupError.
* `C90_no_href_fails`: **C90 fails** for a File without href: a TypeError.
* `C90_no_id_fails`: **C90 fails** for a File without identifier: a TypeError instead of a list.
* `C90_profile_device_fails`: **C90 fails** for a device that exists only under a profile: the disk is shown as if no device used it.
* `C90_two_disks_fails`: **C90 fails** for two Disks on one File (which OVF allows): a LookupError.
* `C91_annotation_fails`: **C91 fails** to label an annotation that begins with an empty line.
* `C91_two_products_fails`: **C91 fails** for two product sections (which OVF allows): a LookupError.
* `C92_no_name_fails`: **C92 fails** for a network without name: a TypeError.
* `C92_no_networks_fails`: **C92 fails** for a network section without networks: a ValueError instead of the package's description.
* `C92_profile_networks_fails`: **C92 fails** for a NIC that is connected to different networks in different profiles: the text is "None".
* `C95_output_permission_fails`: **C95 fails** for output: lack of permission does not lead to a second attempt, although it is allowed and would succeed.
* `C96_stale_fails`: **C96 fails** to tell the present state: after the image has been changed, the old answer is given.
* `C98_abort_fails`: **C98 (limits).** The command does not always get to its report, not even with --ignore-errors: a program that cannot be installed because there is no package manager is a RuntimeError, which ends the command.
* `C98_iso_fails`: **C98 (limits).** One program for ISO images is enough, but if it is genisoimage, --verify-only only reports that mkisofs is not found, and without --verify-only mkisofs gets installed.
* `C99_in_the_way_fails`: **C99 (limits).** If something that is not a directory is in the way, the failure is not reported: the command ends with a RuntimeError.
* `C99_same_stamp_fails`: **C99 (limits).** A page is taken to be up to date although its contents are different, if size and time of modification are the same.

Further observations made while reading, not stated as theorems: `re.sub` is called with stored values as *patterns*
(item.py), so that values with special characters are treated as regular expressions; `convert_to` without
sub-format passes the text `subformat=None`; file names with spaces in a FAT image are cut at the space; a blank serial connection string shifts the later ports; `.box` is accepted as an output type but not implemented;
`find_open_controller` allows SCSI units up to 15 but never 7, while validation allows 0..15.

## Trusted base

1. Lean 4.33.0's kernel, which checks every proof, and the statement of the three axioms `propext`, `Classical.choice`
   and `Quot.sound` (list by theorem below).  No `sorry`, no axiom of our own, no `native_decide` or `bv_decide`, no
   `implemented_by` or `unsafe`.  Mathlib is used as a library of proved lemmas and is not itself trusted.
2. The reading of the Python source: the definitions in `Verif/Model` and `Verif/Py` are hand-written and not tied to the
   code mechanically.  Each cites the lines that it models and names its simplifications.
3. The specifications (`Verif/Spec`) and the statements of the theorems, which say what the English properties mean.

### What is modelled

| code | model |
|----|----|
| `COT/data_validation.py` (all validators, canonicalisers, sorting; `file_checksum`, `available_bytes_at_path` via C39) | `DataValidation`, `NatSort`, `Utilities` |
| `COT/xml_file.py` (`find_child`, `find_all_children`, `add_child`, `set_or_make_child`, `xml_reindent`) | `Xml` |
| `COT/vm_description/ovf/item.py` (complete but for logging and `__str__`) | `Item`, `ItemXml` |
| `COT/vm_description/ovf/hardware.py` (complete but for logging) | `Hardware` |
| `COT/vm_description/ovf/name_helper.py` (complete) | `NameHelper`, `Names` |
| `COT/vm_description/ovf/utilities.py`, `COT/utilities.py` | `Utilities`, `PrettyBytes` |
| `COT/vm_description/ovf/ovf.py`: networks, profiles, product and version, transports, system types, environment properties, configuration text, controllers and disk devices, File and Disk entries, searches, refresh, `untar` checks, manifests, predicted size, recognising the descriptor and checking the files on opening, `write` (to OVA and to OVF: manifest, copying, TAR) | `OvfXml`, `OvfSections`, `EnvProps`, `DiskDevice`, `Package`, `Archive`, `Utilities`, `Names`, `Open`, `Write`, `ValidateHw` (`validate_hardware`), `Info` (`info_string`, `commands/info.py`; with `Py/TextWrap` for the standard library's `textwrap` without breaking of words) |
| `COT/file_reference.py` | `FileRef` |
| `COT/disks/*` (type detection, capacities, conversions, new images, sub-format of VMDK files) | `Disks`, `NewDisk` |
| `COT/helpers/helper.py` (selection, installation, `check_call`, `check_output`, `call` with its cache, `mkdir`, `copy_file`, versions), `apt_get.py`, `brew.py`, `port.py`, `yum.py` | `Helper`, `Calls`, `Version`, `InstallHelpers` |
| `COT/platforms/*` (limits, names, types) | `Platform` |
| `COT/commands/`: `add_disk`, `add_file`, `remove_file` (run), `edit_hardware` (options and run), `edit_product` (run), `edit_properties` (arguments, run, interactive editor), `inject_config` (arguments, run), `deploy`, `deploy_esxi` (attributes, arguments, serial ports, run), `install_helpers`, `command` (life cycle, output, space check) | `Package`, `DiskDevice`, `EditHardware`, `Wildcard`, `InjectConfig`, `EditProperties`, `PropertyArgs`, `Deploy`, `DeployRun`, `Lifecycle`, `Ui`, `InstallHelpers` |
| `COT/ui/*` (prompts, choices, verbosity, `main`, arguments, usage texts, examples) | `Ui`, `Lifecycle`, `Cli` |
| `COT/vm_description/vm_description.py` (`factory`), `detect_type_from_name` | `Detect` |
| `ready_to_run` of every command, `Command.run` | `Ready` |
| working directories: `VMDescription.__init__`, `destroy`, package setters, `atexit` | `TempDirs` |
| `COT/helpers/helper.py` (`_install`, `download_and_expand_tgz`), `fatdisk.py`, `vmdktool.py` installation | `SourceInstall` |
| `COT/helpers/helper.py` (`path`, `installed`, `version`) | `HelperCache` |
| `COT/vm_description/ovf/ovf.py` (`write`, the changes to the tree) | `Save` |
| `COT/disks/iso.py`, `raw.py` (`files`, `disk_subformat`) | `Disks`, `ImageFiles` |
| `xml.etree.ElementTree` as `COT/xml_file.py` uses it (`write_xml`, `register_namespace`, reading what was written) | `XmlText` |
| `argparse` and every parser that COT creates (`COT/ui/cli.py`, `create_subparser` of all commands) | `Argparse` |
| the commands from the command line to the edited package: edit-hardware, edit-product, edit-properties, add-disk, add-file, remove-file, inject-config | `EhCommand`, `Commands`, `AddDiskCommand` |
| `COT/ui/cli.py` (`set_verbosity`, `main`, `CLILoggingFormatter`) with Python's `logging` as far as it is used | `Logging` |
| the manual pages in `/repo/docs` (as specification) | `Spec/Manual` |

### What is not modelled

* Help texts, which messages are logged (how they are shown is C126), `__str__` methods, the vSphere SDK
  itself (its calls are parameters of C102; the outcome of the submitted reconfiguration task is not looked at by the code).
* XML parsing of documents that ElementTree did not write itself (what it writes is C119), TAR reading and writing, hashing, temporary directories, network access.
  They appear as parameters, or the model begins after parsing.  `HashAlg` assumes `update(a); update(b) = update(a+b)`.
* Symbolic links, permissions and concurrent changes to the file system; `os.path` is modelled on POSIX.
* Unicode subtleties: digits and case conversion are ASCII; `\s` and `strip()` use Python's ASCII white space.
* Floating point: `int / float` on Python 3 is modelled by rounding to 53 bits (to nearest, ties to even) without
  overflow or subnormals, which the sizes in question do not reach.
* Aliasing and identity of Python objects: sections are found by tag where Python keeps a pointer; an element that Python
  passes around is given by its position.

### Assumptions that recur in theorems

* `Consistent`/reachable items: proved to be preserved by every edit (C02) and established by loading (C55).
* `TameItem` (C08 names): texts that cannot be confused with the placeholders `_EN_`, `_VQ_` and so on; and that `re.sub`
  replaces a pattern without special characters literally.
* `Storable` (C54): values that XML can represent (no empty strings, no profile names with white space).
* `Tidy` (C67): every device has an InstanceID, is not its own parent, and controller addresses contain no colon.
* `Lib.Lawful` (C72 to C74): `tarfile` gives back the members that were put into an archive, decoding gives back what was
  encoded.
* `CanWrite`, `OvaPlan`, `OvfPlan` (C72 to C74): every file reference leads to its file or the file is gone; no file is
  named like the descriptor or manifest; the working directory is private.
* `Clear` (C75): no two members of an archive have the same normalised name.
* `EhStart` (C76 to C81): not OVF 0.9; no profile, network or section is declared twice; consistent hardware; where devices
  are added or removed, each of them has its identifier and type for the same profiles and, if no profile is named, is there
  by default (otherwise see the witnesses of C12).
* `ProductWF`, `PropsWF` (C83 to C85): at most one product section, each of its texts at most once, property keys unique.
* `Bays` (C86): every drive is in the default configuration, on an IDE, SCSI or SATA controller, and addresses are numbers.
* `PlainHardware` (C88): at most one CPU and one memory item in a profile, with numbers.
* `PlainFiles` (C90), `KeepsInk` (C89): Files and Disks stated properly; `textwrap` with breaking of words changes white space only.
* `ver ≠ .v0` where the function is a no-op or differs for OVF 0.9 (C59, C60, C70).

## Axioms of each theorem

Obtained with `#print axioms` on every theorem of `MANIFEST.json` (602 theorems).  No theorem uses any axiom beyond
Lean's three standard ones, so neither `sorryAx` nor the compiler axioms (`Lean.ofReduceBool`, `Lean.trustCompiler`).

* propext, Classical.choice, Quot.sound: all theorems not listed below (543).
* propext, Quot.sound: `C100_parse`, `C100_select`, `C100_version`, `C110_exit_partial`, `C110_interrupted_fails`, `C110_open_partial`, `C110_replaced`, `C112_installed_partial`, `C112_no_version`, `C112_path`, `C15_natural_sort_idempotent`, `C15_natural_sort_ordered`, `C15_natural_sort_stable`, `C16_alphanum_split`, `C25_predicted_size_bound`, `C25_predicted_size_partial`, `C25_tar_entry_size`, `C29_idempotent`, `C37_repeated_call_fails`, `C40_installed`, `C40_installs`, `C40_not_found_partial`, `C40_sound`, `C43_commands`, `C48_create`, `C48_fresh`, `C48_history_partial`, `C48_missing_partial`, `C48_refresh_partial`, `C51_network_map`, `C52_estimate`, `C52_estimate_partial`, `C53_verbosity`, `C58_get_input`, `C63_status_partial`, `C64_consent`.
* propext: `C100_order`, `C103_flatten`, `C15_natural_sort_perm`, `C26_plain_names_inside`, `C29_layout_only_partial`, `C29_output_element_only`, `C29_same_elements`, `C31_no_placeholder_left_partial`, `C41_listed`, `C49_cleanup`, `C49_load`, `C49_result`, `C49_written`, `C52_capacity_huge_fails`, `C52_estimate_fails`, `C62_create`, `C63_codes`, `C63_order`, `C63_zero_errno_fails`, `C64_default`, `C64_refused_partial`, `C76_ready`.
* none: `C21_unsupported`.
