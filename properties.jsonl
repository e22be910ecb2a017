{"id": "C01", "title": "Setting a hardware property affects exactly the named profiles", "statement": "After set_property(name, value, profiles) with a non-empty value succeeds on a hardware item, reading that property under any of the given profiles yields the new value, and reading that property under any other profile, or any other property under any profile, yields exactly what it yielded before (when the default profile is among those set, a profile with no value of its own keeps following the default).", "quantifier": "every well-formed item, property name, non-empty value, non-empty set of named profiles (or the default profile), and every profile read afterwards", "why_tests_cant": "The claim ranges over every combination of default/explicit profile sets already stored; unit tests exercise a handful of fixture OVFs.", "anchors": ["COT/vm_description/ovf/item.py:OVFItem.set_property", "COT/vm_description/ovf/item.py:OVFItem._set_existing_property", "COT/vm_description/ovf/item.py:OVFItem._set_new_property", "COT/vm_description/ovf/item.py:OVFItem.get_value"]}
{"id": "C02", "title": "Hardware items stay internally consistent under any edit history", "statement": "Starting from an empty item, after any sequence of successful set_property, add_profile, remove_profile and add-Item operations, each property gives each profile at most one value, no value is stored for an empty profile set, the default profile is never stored together with named ones, and the item has at most one InstanceID and one ResourceType.", "quantifier": "every finite sequence of item operations with arbitrary arguments", "why_tests_cant": "An invariant over unbounded edit histories; tests try a few histories.", "anchors": ["COT/vm_description/ovf/item.py:OVFItem.validate", "COT/vm_description/ovf/item.py:OVFItem.set_property", "COT/vm_description/ovf/item.py:OVFItem.add_profile", "COT/vm_description/ovf/item.py:OVFItem.remove_profile", "COT/vm_description/ovf/item.py:OVFItem.add_item"]}
{"id": "C03", "title": "Loading several Item elements never silently overwrites data", "statement": "Adding an Item element for an instance that already has data either raises OVFItemDataError (or another error), or leaves the value of every property under every profile not named by the new element unchanged; it never replaces a value already stored explicitly for a profile named by the new element.", "quantifier": "every well-formed item, every property name, value and profile set with overwrite disabled", "why_tests_cant": "Every possible overlap pattern between stored and new profile sets must be covered.", "anchors": ["COT/vm_description/ovf/item.py:OVFItem.add_item", "COT/vm_description/ovf/item.py:OVFItem._set_existing_property", "COT/vm_description/ovf/hardware.py:OVFHardware.__init__"]}
{"id": "C04", "title": "Removing a profile from an item removes it only there", "statement": "After remove_profile(p) on an item that exists under p, the item no longer exists under p, every property reads as absent under p, and for every other configuration profile every property reads exactly as before; with split_default=False values shared by default remain for default.", "quantifier": "every well-formed item, every profile p, every other configured profile q and every property", "why_tests_cant": "The default profile set has to be split into explicit sets correctly for all combinations of configured profiles.", "anchors": ["COT/vm_description/ovf/item.py:OVFItem.remove_profile", "COT/vm_description/ovf/item.py:OVFItem.has_profile"]}
{"id": "C05", "title": "Adding a profile to an item copies the inherited values", "statement": "After add_profile(p, from_item) succeeds on an item that lacked p, the item exists under p, every property of the source item that has values reads under p as the source's default value (or its only value), and every other profile reads as before.", "quantifier": "every pair of well-formed items, every new named profile", "why_tests_cant": "Ranges over all stored value/profile tables.", "anchors": ["COT/vm_description/ovf/item.py:OVFItem.add_profile"]}
{"id": "C06", "title": "Reading a property over a set of profiles is exact agreement", "statement": "get_value(name, profiles) for a non-empty profile set returns v if and only if each profile in the set individually reads v, where a profile reads its explicitly stored value or else the default value; in all other cases it returns None; the answer does not depend on the order in which values were stored.", "quantifier": "every well-formed item, property, non-empty set of profiles, and every storage order", "why_tests_cant": "The scan over stored values returns early in several ways; only a universally quantified proof covers all orders.", "anchors": ["COT/vm_description/ovf/item.py:OVFItem._get_value", "COT/vm_description/ovf/item.py:OVFItem.get_value"]}
{"id": "C07", "title": "Generated profile groups partition the profiles", "statement": "The profile sets for which separate Item elements are generated are non-empty, pairwise disjoint, cover exactly the profiles mentioned by some property value, and two profiles are in the same group if and only if no stored property value distinguishes them (so the list is the minimal such list).", "quantifier": "every collection of properties, values and profile sets, and every iteration order of the underlying sets", "why_tests_cant": "Partition refinement is folded over an arbitrary number of sets; tests cover few.", "anchors": ["COT/vm_description/ovf/item.py:OVFItem.get_nonintersecting_set_list"]}
{"id": "C08", "title": "Writing an item out and reading it back preserves every profile's view", "statement": "For a well-formed item whose properties exist only where its InstanceID exists, generating its Item elements and loading them into a fresh item succeeds and gives, for every property and every profile, the same value as the original item.", "quantifier": "every such item, every iteration order, every property and profile", "why_tests_cant": "Round-trip over an unbounded space of profile/value tables.", "anchors": ["COT/vm_description/ovf/item.py:OVFItem.generate_items", "COT/vm_description/ovf/item.py:OVFItem.add_item", "COT/vm_description/ovf/hardware.py:OVFHardware.update_xml"]}
{"id": "C09", "title": "Edits never create an Item element without an InstanceID", "statement": "Every Item element generated for an item carries that item's InstanceID, whatever edits were made before.", "quantifier": "every item reachable by the public edit operations", "why_tests_cant": "Depends on the whole history of edits and on the profile sets of every property.", "anchors": ["COT/vm_description/ovf/item.py:OVFItem.generate_items", "COT/vm_description/ovf/item.py:OVFItem.set_property", "COT/vm_description/ovf/hardware.py:OVFHardware.set_value_for_all_items"]}
{"id": "C10", "title": "New instance identifiers are fresh and minimal", "statement": "find_unused_instance_id(start) terminates and returns the decimal string of the least integer >= start that is not the identifier of an existing item.", "quantifier": "every finite set of existing identifiers and every integer start", "why_tests_cant": "Termination and minimality over all finite identifier sets.", "anchors": ["COT/vm_description/ovf/hardware.py:OVFHardware.find_unused_instance_id"]}
{"id": "C11", "title": "Creating or cloning an item never disturbs existing items", "statement": "new_item and clone_item leave every existing item exactly as it was and register exactly one additional item, under an identifier that was unused, whose InstanceID property reads that identifier under the requested profiles.", "quantifier": "every hardware collection, resource type, profile list and parent item", "why_tests_cant": "Ranges over arbitrary collections and identifier gaps.", "anchors": ["COT/vm_description/ovf/hardware.py:OVFHardware.new_item", "COT/vm_description/ovf/hardware.py:OVFHardware.clone_item"]}
{"id": "C12", "title": "Setting a device count gives exactly that count under each requested profile", "statement": "When set_item_count_per_profile(type, n, profiles) returns normally, each requested profile has exactly n items of that type and every configured profile not requested has as many items of that type as before.", "quantifier": "every hardware collection, every count, every list of profiles (also the 'all profiles' default)", "why_tests_cant": "The algorithm interleaves adding/removing/cloning over every item and profile; tests cover a few small fixtures.", "anchors": ["COT/vm_description/ovf/hardware.py:OVFHardware.set_item_count_per_profile", "COT/vm_description/ovf/hardware.py:OVFHardware._update_existing_item_profiles", "COT/vm_description/ovf/hardware.py:OVFHardware.clone_item"]}
{"id": "C13", "title": "Setting a property for all items of a type touches only that type and those profiles", "statement": "set_value_for_all_items(type, prop, v, profiles) sets prop to v under each given profile on every item of the type, and leaves every other property, profile and item type as it was.", "quantifier": "every hardware collection, property, value and non-empty profile list", "why_tests_cant": "Universal frame condition over all items and profiles.", "anchors": ["COT/vm_description/ovf/hardware.py:OVFHardware.set_value_for_all_items"]}
{"id": "C14", "title": "A list of per-device values is assigned in device order", "statement": "set_item_values_per_profile(type, prop, values, profiles, default) gives the i-th item of the type (in natural InstanceID order) the i-th value under every requested profile it exists in, gives surplus items the default, and changes nothing in other profiles or other items.", "quantifier": "every hardware collection, value list and profile list", "why_tests_cant": "The pairing must hold for all list lengths and profile memberships.", "anchors": ["COT/vm_description/ovf/hardware.py:OVFHardware.set_item_values_per_profile"]}
{"id": "C15", "title": "Natural sorting is a stable, total, numeric-aware sort", "statement": "natural_sort returns a permutation of its input, ordered by the alternating text/number key, equal-key elements keep their input order, and sorting is idempotent; strings with a common prefix followed by numbers are ordered by the numbers' values.", "quantifier": "every finite list of strings", "why_tests_cant": "Sorting laws over all lists.", "anchors": ["COT/data_validation.py:natural_sort", "COT/data_validation.py:alphanum_split"]}
{"id": "C16", "title": "Splitting a name into text and numbers loses only leading zeros", "statement": "alphanum_split returns an odd-length alternation text, int, text, ..., text whose texts contain no digits, and re-joining it reproduces the input up to leading zeros of the numbers (exactly, if no number has a leading zero).", "quantifier": "every string", "why_tests_cant": "Round-trip over all strings.", "anchors": ["COT/data_validation.py:alphanum_split"]}
{"id": "C17", "title": "Conflicting references are always detected", "statement": "check_for_conflict(label, refs) returns x if and only if every non-None reference equals x and at least one exists, returns None if and only if all are None, and otherwise raises ValueMismatchError; the outcome does not depend on the order of refs.", "quantifier": "every finite list of optional references", "why_tests_cant": "The quadratic scan must be right for every list length and position.", "anchors": ["COT/data_validation.py:check_for_conflict"]}
{"id": "C18", "title": "Controller and NIC subtype canonicalisation is stable and prefix-determined", "statement": "canonicalize_nic/scsi/ide_subtype returns None exactly for None or the empty string, otherwise the canonical name of the first pattern matching a prefix of the input ignoring case, otherwise raises; canonical names map to themselves, so canonicalisation is idempotent, and letter case never matters.", "quantifier": "every input string", "why_tests_cant": "Infinite input space and overlapping patterns (e1000/e1000e, lsilogic/lsilogicsas).", "anchors": ["COT/data_validation.py:canonicalize_helper", "COT/data_validation.py:canonicalize_nic_subtype", "COT/data_validation.py:canonicalize_scsi_subtype", "COT/data_validation.py:canonicalize_ide_subtype"]}
{"id": "C19", "title": "Range validation accepts exactly the integers in range", "statement": "validate_int(string, minimum, maximum) returns the integer written by the string iff it is an integer numeral within the optional inclusive bounds; otherwise it raises the too-low, too-high or unsupported error that applies.", "quantifier": "every string and every pair of optional bounds", "why_tests_cant": "Infinite input space; boundary behaviour.", "anchors": ["COT/data_validation.py:validate_int", "COT/data_validation.py:non_negative_int", "COT/data_validation.py:positive_int"]}
{"id": "C20", "title": "MAC and device address validation accepts exactly the documented forms", "statement": "mac_address accepts a string iff, after stripping surrounding whitespace, it is six hex pairs joined by ':' or by '-', or three hex quads joined by '.'; device_address accepts iff it is two decimal numbers joined by one colon; both return the stripped string.", "quantifier": "every input string", "why_tests_cant": "Language equality over infinitely many strings.", "anchors": ["COT/data_validation.py:mac_address", "COT/data_validation.py:device_address"]}
{"id": "C21", "title": "File checksums do not depend on read block boundaries", "statement": "file_checksum feeds the hash exactly the file's bytes in order, whatever the file's length and however the underlying reads split it, and terminates.", "quantifier": "every finite file content and every sequence of read sizes", "why_tests_cant": "All lengths around block boundaries.", "anchors": ["COT/data_validation.py:file_checksum"]}
{"id": "C22", "title": "Byte counts survive conversion to OVF capacity units and back", "statement": "For every byte count, int_bytes_to_programmatic_units terminates and programmatic_bytes_to_int applied to its result returns the original count.", "quantifier": "every non-negative integer byte count", "why_tests_cant": "All magnitudes, including zero and values beyond floating-point precision.", "anchors": ["COT/vm_description/ovf/utilities.py:int_bytes_to_programmatic_units", "COT/vm_description/ovf/utilities.py:programmatic_bytes_to_int", "COT/vm_description/ovf/ovf.py:OVF.set_capacity_of_disk", "COT/vm_description/ovf/ovf.py:OVF.get_capacity_from_disk"]}
{"id": "C23", "title": "The chosen OVF capacity unit is the largest exact one", "statement": "int_bytes_to_programmatic_units(n) for n > 0 uses the largest power of 1024 dividing n, so the numeral it returns is not divisible by 1024 and no precision is dropped.", "quantifier": "every positive byte count", "why_tests_cant": "Holds by number theory for all magnitudes.", "anchors": ["COT/vm_description/ovf/utilities.py:int_bytes_to_programmatic_units"]}
{"id": "C24", "title": "A generated manifest parses back to the same checksums", "statement": "Parsing the manifest COT generates yields, for each listed file, exactly the algorithm and checksum that were written, and nothing else.", "quantifier": "every list of distinct file names, algorithm name and lower-case hex checksums", "why_tests_cant": "File names may contain spaces, parentheses and equal signs; the regular expression must still split each line uniquely.", "anchors": ["COT/vm_description/ovf/utilities.py:parse_manifest", "COT/vm_description/ovf/ovf.py:OVF.generate_manifest"]}
{"id": "C25", "title": "TAR space estimation is exact per entry and block aligned overall", "statement": "tar_entry_size(n) is the least multiple of 512 that holds a 512-byte header plus n bytes of data; the predicted size of an output archive is a multiple of 10240 and at least the sum of its entries and the end-of-archive marker.", "quantifier": "every file size and every list of files", "why_tests_cant": "Rounding arithmetic for all sizes.", "anchors": ["COT/utilities.py:tar_entry_size", "COT/vm_description/ovf/ovf.py:OVF.predicted_output_size"]}
{"id": "C26", "title": "Extracting an OVA never writes outside the working directory", "statement": "untar refuses any archive containing a member whose resolved path is outside the working directory.", "quantifier": "every working directory path and every list of member names", "why_tests_cant": "Adversarial archive contents cannot be enumerated.", "anchors": ["COT/vm_description/ovf/ovf.py:OVF.untar"]}
{"id": "C27", "title": "Child insertion respects the schema order", "statement": "add_child(parent, child, ordering) keeps all existing children in their order, inserts the new child exactly once, and if the children were in schema order (known tags in order, then unknown tags) they still are, with the new child after all existing children of the same tag.", "quantifier": "every list of children, tag and ordering", "why_tests_cant": "Insertion position for arbitrary existing content.", "anchors": ["COT/xml_file.py:XML.add_child"]}
{"id": "C28", "title": "Set-or-create leaves exactly one matching child", "statement": "set_or_make_child(parent, tag, text, attrib) raises if several children match; otherwise afterwards exactly one child has that tag and those attributes, it carries the text, and all other children are unchanged; repeating the call changes nothing more.", "quantifier": "every parent element, tag, attribute set and text", "why_tests_cant": "All existing child lists and attribute combinations.", "anchors": ["COT/xml_file.py:XML.set_or_make_child", "COT/xml_file.py:XML.find_child", "COT/xml_file.py:XML.find_all_children"]}
{"id": "C29", "title": "Pretty-printing preserves the document", "statement": "xml_reindent keeps the element tree (tags, attributes, child order) and the text of every childless element, changes only whitespace between elements, and applying it twice is the same as once.", "quantifier": "every XML element tree of any depth and width", "why_tests_cant": "Structural induction over all trees.", "anchors": ["COT/xml_file.py:XML.xml_reindent", "COT/xml_file.py:XML.write_xml"]}
{"id": "C30", "title": "Element namespaces and Item tags correspond", "statement": "For each OVF version, mapping a hardware namespace to its Item tag and back gives the namespace again, and unknown tags/namespaces are rejected.", "quantifier": "every supported OVF version, tag and namespace string", "why_tests_cant": "Strings are unbounded; the mapping must be a partial bijection for every version.", "anchors": ["COT/vm_description/ovf/name_helper.py:OVFNameHelper1.namespace_for_item_tag", "COT/vm_description/ovf/name_helper.py:OVFNameHelper1.item_tag_for_namespace"]}
{"id": "C31", "title": "Wildcard lists expand to the requested length", "statement": "expand_list_wildcard(names, n) returns [] for an empty list and otherwise a list of length max(n, len(names)) that starts with the given non-pattern names, followed by the last entry with each '{N}' replaced by consecutive numbers; no result entry still contains a '{N}' placeholder.", "quantifier": "every list of names and every n", "why_tests_cant": "All lengths and placeholder positions.", "anchors": ["COT/commands/edit_hardware.py:expand_list_wildcard"]}
{"id": "C32", "title": "A guessed wildcard pattern reproduces the known names", "statement": "If guess_list_wildcard(known) returns a pattern list, expanding it to len(known) gives exactly known, and expanding it further keeps known as a prefix.", "quantifier": "every list of names", "why_tests_cant": "Soundness of inference for all name lists.", "anchors": ["COT/commands/edit_hardware.py:guess_list_wildcard"]}
{"id": "C33", "title": "key=value+type arguments are parsed unambiguously", "statement": "The edit-properties --properties setter splits 'key=value+type' so that for every key and type without '=' or '+' and every single-line value the parts are recovered exactly, and for 'key=value' without a type suffix the value is recovered exactly; anything without a key is rejected.", "quantifier": "every key, value and type string", "why_tests_cant": "The lazy regular expression has to be unambiguous for all strings.", "anchors": ["COT/commands/edit_properties.py:COTEditProperties.properties"]}
{"id": "C34", "title": "Memory sizes are interpreted consistently", "statement": "The --memory setter accepts exactly numerals with optional M/G suffix, returns the megabyte value (G multiplies by 1024; a bare number up to 64 means GB), rejects zero, and is monotone for each explicit suffix.", "quantifier": "every memory string", "why_tests_cant": "Infinite input space.", "anchors": ["COT/commands/edit_hardware.py:COTEditHardware.memory"]}
{"id": "C35", "title": "Controller address limits are enforced whatever the argument order", "statement": "For add-disk, the pair (controller, address) is accepted iff within the limits of the controller type (SCSI controllers 0-3 and units 0-15, IDE 0-1 and 0-1), no matter whether the controller or the address is set first.", "quantifier": "every controller type and address string, in both setting orders", "why_tests_cant": "Order independence over all values.", "anchors": ["COT/commands/add_disk.py:validate_controller_address", "COT/commands/add_disk.py:COTAddDisk.address", "COT/commands/add_disk.py:COTAddDisk.controller"]}
{"id": "C36", "title": "A new disk device gets a free address within limits", "statement": "When a disk device is created on a controller without an explicit address, its AddressOnParent is the smallest non-negative integer not used by another device of that controller, and creation fails rather than exceeding the controller's limit.", "quantifier": "every set of existing devices and addresses", "why_tests_cant": "All occupancy patterns.", "anchors": ["COT/vm_description/ovf/ovf.py:OVF._create_new_disk_device", "COT/vm_description/ovf/ovf.py:OVF.find_open_controller"]}
{"id": "C37", "title": "Platform limits are always enforced", "statement": "Each platform's validate_cpu_count / validate_memory_amount / validate_nic_count / validate_serial_count raises exactly when the value is outside the platform's published range (or list), every time it is called.", "quantifier": "every platform, every value, every history of previous validation calls", "why_tests_cant": "History dependence through the validation cache.", "anchors": ["COT/platforms/platform.py:Platform.validate_cpu_count", "COT/platforms/platform.py:Platform.validate_memory_amount", "COT/platforms/platform.py:Platform.validate_nic_count", "COT/platforms/platform.py:Platform.validate_serial_count", "COT/platforms/cisco_csr1000v.py:CSR1000V.validate_cpu_count"]}
{"id": "C38", "title": "Guessed NIC names are unique per platform", "statement": "On every supported platform, guess_nic_name gives different names to different NIC numbers n >= 1.", "quantifier": "every platform and every pair of distinct positive NIC numbers", "why_tests_cant": "Infinitely many pairs.", "anchors": ["COT/platforms/platform.py:Platform.guess_nic_name", "COT/platforms/cisco_nxosv.py:NXOSv.guess_nic_name", "COT/platforms/cisco_iosxrv.py:IOSXRv.guess_nic_name", "COT/platforms/cisco_iosxrv_9000.py:IOSXRv9000.guess_nic_name"]}
{"id": "C39", "title": "Repeated disk-space checks agree with the user's decision", "statement": "check_disk_space returns True iff space is sufficient or the user has agreed to continue anyway, on the first and on every repeated call with the same requirement.", "quantifier": "every sequence of checks, available sizes and user answers", "why_tests_cant": "History dependence through the cache.", "anchors": ["COT/commands/command.py:Command.check_disk_space"]}
{"id": "C40", "title": "Helper selection prefers installed and sufficiently new helpers", "statement": "helper_select returns the first listed helper that is installed with the required version; only if there is none does it install one; whatever it returns meets the version requirement; otherwise it raises HelperNotFoundError.", "quantifier": "every list of choices and every installation state", "why_tests_cant": "All combinations of installed/installable/version.", "anchors": ["COT/helpers/helper.py:helper_select"]}
{"id": "C41", "title": "Interactive list selection returns what the user asked for", "statement": "choose_from_list returns the default on empty input, an option equal to the input, the only option having the input as prefix, or the option whose displayed number was entered; any other input is asked again; the result is always the default or a listed option.", "quantifier": "every option list, default, and sequence of user inputs", "why_tests_cant": "All inputs including out-of-range and negative numbers.", "anchors": ["COT/ui/ui.py:UI.choose_from_list"]}
{"id": "C42", "title": "Environment property values obey their declared type", "statement": "A property value stored through set_property_value is, for a boolean property, 'true' or 'false' according to the word given, and otherwise the given text, and it respects the MinLen/MaxLen qualifiers; a value for which that is impossible raises ValueUnsupportedError and no stored value changes; no other property changes. Hence stored values obey their declared types and qualifiers after any sequence of calls.", "quantifier": "every type string, qualifier string and value", "why_tests_cant": "All value strings and qualifier combinations.", "anchors": ["COT/vm_description/ovf/ovf.py:OVF._validate_value_for_property", "COT/vm_description/ovf/ovf.py:OVF.set_property_value"]}
{"id": "C43", "title": "Configuration text lines become distinct, ordered properties", "statement": "config_file_to_properties stores each line of the file that is neither blank nor a comment under keys with consecutive zero-padded numbers, in file order, never re-using a key, and the lines can be recovered in order by sorting the keys.", "quantifier": "every configuration file text", "why_tests_cant": "Numbering and sorting over files of any length (including more than 9999 lines).", "anchors": ["COT/vm_description/ovf/ovf.py:OVF.config_file_to_properties"]}
{"id": "C44", "title": "Space-separated lists survive storage", "statement": "Environment transports and virtual system types set through the API read back as the same list provided the entries are non-empty and space-free.", "quantifier": "every list of entries", "why_tests_cant": "All list lengths and contents.", "anchors": ["COT/vm_description/ovf/ovf.py:OVF.environment_transports", "COT/vm_description/ovf/ovf.py:OVF.system_types"]}
{"id": "C45", "title": "Networks no longer used are removed and used ones are kept", "statement": "When an OVF is written, every Network element referenced by some NIC connection remains, every unreferenced one is removed, and the section disappears exactly when no network remains.", "quantifier": "every set of networks and NIC connections", "why_tests_cant": "All combinations of references.", "anchors": ["COT/vm_description/ovf/ovf.py:OVF._refresh_networks"]}
{"id": "C46", "title": "Configuration profile creation and deletion", "statement": "Creating a profile makes it known (once); deleting it removes it from the list and from every hardware item, leaving the hardware seen by every other profile unchanged; deleting the last profile removes the section.", "quantifier": "every OVF hardware collection and profile name", "why_tests_cant": "All combinations of default/explicit membership.", "anchors": ["COT/vm_description/ovf/ovf.py:OVF.create_configuration_profile", "COT/vm_description/ovf/ovf.py:OVF.delete_configuration_profile", "COT/vm_description/ovf/ovf.py:OVF.config_profiles"]}
{"id": "C47", "title": "Disk image type detection picks the best match", "statement": "DiskRepresentation.from_file picks a handler with maximal confidence, the first such handler in registration order, and fails only when every handler reports zero confidence.", "quantifier": "every list of handlers and confidences", "why_tests_cant": "All confidence assignments.", "anchors": ["COT/disks/disk.py:DiskRepresentation.from_file"]}
{"id": "C48", "title": "Changed files are noticed when re-checked", "statement": "FileReference.refresh returns True iff the file exists and its size and checksum equal the recorded ones, records the new ones, and from then on all reads are fresh.", "quantifier": "every history of file contents and refresh/read calls", "why_tests_cant": "History over arbitrary external changes.", "anchors": ["COT/file_reference.py:FileReference.refresh", "COT/file_reference.py:FileReference.checksum"]}
{"id": "C49", "title": "A VM is written out only on success and always cleaned up", "statement": "Using a VM description as a context manager writes the output exactly once if the body succeeded and never if it raised, and removes the working directory in every case, including when writing fails.", "quantifier": "every outcome of the body, of write and of cleanup", "why_tests_cant": "Every failure point of the protocol.", "anchors": ["COT/vm_description/vm_description.py:VMDescription.__exit__", "COT/vm_description/vm_description.py:VMDescription.destroy", "COT/vm_description/ovf/ovf.py:OVF.write"]}
{"id": "C50", "title": "Serial port connection strings parse into valid descriptions", "statement": "A SerialConnection built from a CLI string has a recognised kind; tcp/telnet values end in ':' and digits; file connections have a datastore option; the options and value are the substrings given by the user; None and empty strings give no connection.", "quantifier": "every CLI string", "why_tests_cant": "Infinite input space.", "anchors": ["COT/commands/deploy.py:SerialConnection.from_cli_string", "COT/commands/deploy.py:SerialConnection.validate_kind", "COT/commands/deploy.py:SerialConnection.validate_value"]}
{"id": "C51", "title": "Deployment arguments keep the package and target last", "statement": "fixup_ovftool_args keeps the user's arguments in order, adds each requested option exactly once and ends with the package and the locator.", "quantifier": "every combination of options and extra arguments", "why_tests_cant": "All option combinations.", "anchors": ["COT/commands/deploy_esxi.py:COTDeployESXi.fixup_ovftool_args"]}
{"id": "C52", "title": "Raw configuration disks are large enough", "statement": "The FAT image created to hold configuration files has a capacity at least the total size of the files, and the disk-space requirement computed beforehand is at least the size of the image created.", "quantifier": "every list of file sizes", "why_tests_cant": "Rounding for all sizes.", "anchors": ["COT/disks/raw.py:RAW._create_file", "COT/commands/inject_config.py:COTInjectConfig.working_dir_disk_space_required"]}
{"id": "C53", "title": "Verbosity is clamped and monotone", "statement": "adjust_verbosity never leaves the list of levels and more -v flags never give a less verbose level.", "quantifier": "every integer adjustment", "why_tests_cant": "All integers.", "anchors": ["COT/ui/cli.py:CLI.adjust_verbosity"]}
{"id": "C54", "title": "Writing hardware back to XML loses no edit", "statement": "update_xml followed by reading the section back gives, for every device and every profile, the same property values as the edited collection; children of the hardware section that are not Items stay, in order.", "quantifier": "every hardware section and every edit history", "why_tests_cant": "Depends on modified flags, deletion and generation of Items for all profile partitions.", "anchors": ["COT/vm_description/ovf/hardware.py:OVFHardware.update_xml", "COT/vm_description/ovf/item.py:OVFItem.generate_items"]}
{"id": "C55", "title": "Loaded hardware is consistent", "statement": "Every hardware collection that loading accepts has one entry per InstanceID, each entry's InstanceID property is its key, and every entry is internally consistent.", "quantifier": "every XML hardware section", "why_tests_cant": "All XML inputs.", "anchors": ["COT/vm_description/ovf/hardware.py:OVFHardware.__init__", "COT/vm_description/ovf/item.py:OVFItem.add_item"]}
{"id": "C56", "title": "no_whitespace accepts exactly the strings without inner white space", "statement": "no_whitespace accepts a string iff it contains no white space apart from its ends and returns it without the surrounding white space; otherwise it raises InvalidInputError.", "quantifier": "every string", "why_tests_cant": "Infinite input space.", "anchors": ["COT/data_validation.py:no_whitespace"]}
{"id": "C57", "title": "truth_value accepts exactly the documented words", "statement": "truth_value returns booleans unchanged, maps y/yes/t/true/on/1 to True and n/no/f/false/off/0 to False in any letter case, and rejects every other string.", "quantifier": "every boolean and string", "why_tests_cant": "Infinite input space.", "anchors": ["COT/data_validation.py:truth_value"]}
{"id": "C58", "title": "Confirmation prompts mean what the user answered", "statement": "confirm returns True exactly if the first answer that is recognisably yes or no (or empty, meaning yes) is yes, asks again after any other answer, and answers True without asking when prompts are suppressed; validate_value turns a value error into acceptance exactly if the user confirms and re-raises it otherwise, and never hides any other error.", "quantifier": "every sequence of user answers, every validation outcome", "why_tests_cant": "Unbounded interaction histories.", "anchors": ["COT/ui/cli.py:CLI.confirm", "COT/ui/ui.py:UI.validate_value"]}
{"id": "C59", "title": "Product fields are independent and stick", "statement": "Setting the product, vendor, product URL, vendor URL, short version or long version of a package and reading it back gives the new text; every other one of these fields, and everything outside the ProductSection, is unchanged. The section is created once if it is missing.", "quantifier": "every envelope with at most one ProductSection, every field, every text, every history of earlier writes", "why_tests_cant": "Field independence is over all pairs of fields and all section contents; tests set each field once on one file.", "anchors": ["COT/vm_description/ovf/ovf.py::product", "COT/vm_description/ovf/ovf.py::vendor", "COT/vm_description/ovf/ovf.py::product_url", "COT/vm_description/ovf/ovf.py::vendor_url", "COT/vm_description/ovf/ovf.py::version_short", "COT/vm_description/ovf/ovf.py::version_long"]}
{"id": "C60", "title": "Creating a network makes it known exactly once", "statement": "create_network(label, description) makes the label known exactly once (new labels come last), with the given description, whether or not the network or the NetworkSection existed before; every other network keeps its element unchanged, and nothing outside the NetworkSection changes.", "quantifier": "every envelope with distinct network names, every label and description, every sequence of create_network calls", "why_tests_cant": "Idempotence and isolation quantify over all sections and call histories; tests call it once.", "anchors": ["COT/vm_description/ovf/ovf.py::create_network"]}
{"id": "C61", "title": "Converting a disk image leaves only the new image", "statement": "Converting an image to another format gives, on success, an image of that format in the requested directory under the input's base name; the only files written or removed are that image and a scratch image beside it, and a scratch image that was made is removed whether or not the rest of the conversion succeeds. A hard disk added to a package is converted exactly if it is not yet a stream-optimized VMDK; CD-ROM images are never converted.", "quantifier": "every image, target format and directory, every selection of helper programs and every pattern of helper failures", "why_tests_cant": "Cleanup must hold for every failure point of the helper programs.", "anchors": ["COT/disks/disk.py:DiskRepresentation.convert_to", "COT/disks/vmdk.py:VMDK.from_other_image", "COT/disks/qcow2.py:QCOW2.from_other_image", "COT/disks/raw.py:RAW.from_other_image", "COT/vm_description/ovf/ovf.py::convert_disk_if_needed"]}
{"id": "C62", "title": "Disk capacity is read exactly and existing files are never overwritten by create_file", "statement": "The capacity reported for an image is the number directly before the first ' bytes' in the output of qemu-img info, and an output without one is an error; creating an image runs no program if a file already exists at its path.", "quantifier": "every program output, every path and file system state", "why_tests_cant": "Infinite outputs; pattern search and greedy matching are easy to get subtly wrong.", "anchors": ["COT/disks/disk.py:DiskRepresentation.capacity", "COT/disks/disk.py:DiskRepresentation.create_file"]}
{"id": "C63", "title": "The command line program cleans up and tells success from failure", "statement": "A command's attributes are set first, then it is run, then finished, each only if the step before succeeded; and it is destroyed (temporary files removed) exactly once in every case. The exit status is 0 exactly if all steps succeeded; invalid input gives status 2, and an operating system error its error number.", "quantifier": "every command and every pattern of failures and exceptions in its steps", "why_tests_cant": "Quantifies over every failure point of every command.", "anchors": ["COT/ui/cli.py:CLI.main"]}
{"id": "C64", "title": "Output files are only written where the user agreed", "statement": "In every history of setting the package and the output of a command, running and finishing it, a package is written only to a path that did not exist when it was chosen or that the user agreed to overwrite; a refusal ends the program and changes nothing; without an output the package itself is the output.", "quantifier": "every history of operations, every file system state and every sequence of user answers", "why_tests_cant": "Histories of operations are unbounded, and the file system may change between them.", "anchors": ["COT/commands/command.py:ReadWriteCommand.output", "COT/commands/command.py:ReadWriteCommand.run", "COT/commands/command.py:ReadWriteCommand.finished"]}
{"id": "C65", "title": "Loaded hardware says what the Items say", "statement": "After loading a hardware section, the value of a property for a configuration profile is the one given by the Item for that profile, or, if no Item for that profile mentions the property, the one given by the Item without profiles; Items that contradict each other are rejected.", "quantifier": "every hardware section, every property and every profile", "why_tests_cant": "Profiles overlap in unboundedly many ways, and values are collapsed and split internally.", "anchors": ["COT/vm_description/ovf/hardware.py:OVFHardware.__init__", "COT/vm_description/ovf/item.py:OVFItem.add_item", "COT/vm_description/ovf/item.py:OVFItem.set_property"]}
{"id": "C66", "title": "Adding a file to a package is exact", "statement": "A successful add-file changes exactly one File entry: it adds one, or replaces one the user agreed to replace. The entry carries the file's name, size and identifier; no two Files share a name or identifier if none did before; every other entry, disk and device is untouched; and the package remembers where the file is, so that its content is what is written.", "quantifier": "every package, every file and identifier, every answer of the user", "why_tests_cant": "Depends on every arrangement of existing names and identifiers, and on every combination of answers.", "anchors": ["COT/commands/add_file.py:COTAddFile.run", "COT/vm_description/ovf/ovf.py::add_file"]}
{"id": "C67", "title": "Adding a disk to a package is exact", "statement": "A successful add-disk leaves a File entry for the image, a Disk entry with the right capacity on that File (hard disks only), and exactly one drive that uses it, on a controller of the requested type; a new drive gets an address that was free, the requested one if given; a requested sub-type ends up on the controller; a new drive has the requested name and description; all other devices, disks and files stay as they were.", "quantifier": "every package, every request (type, controller, address, sub-type, identifiers) and every answer of the user", "why_tests_cant": "The search for a matching file, disk, drive and controller has many combinations, and must be right for every arrangement of existing devices.", "anchors": ["COT/commands/add_disk.py:add_disk_worker", "COT/vm_description/ovf/ovf.py::add_disk", "COT/vm_description/ovf/ovf.py::add_disk_device", "COT/vm_description/ovf/ovf.py::add_controller_device"]}
{"id": "C68", "title": "Removing a file leaves nothing behind that points at it", "statement": "A successful remove-file removes one File entry, the one with the name and identifier given, after consent; the Disk on it is removed; a hard disk using it is removed and a CD-ROM drive using it is emptied; no device refers to the file afterwards; nothing else changes; and the command succeeds for every consistently described file.", "quantifier": "every package, file name, identifier and answer", "why_tests_cant": "Absence of dangling references is a statement about all devices and disks of every package.", "anchors": ["COT/commands/remove_file.py:COTRemoveFile.run", "COT/vm_description/ovf/ovf.py::remove_file"]}
{"id": "C69", "title": "Searching for a disk finds everything that belongs together", "statement": "Searching by file name, by file identifier or by controller address returns only a File, Disk, controller and drive that belong together; what is returned is the only match; a consistently described disk is found, with all its parts, in each of the three ways.", "quantifier": "every package and search key", "why_tests_cant": "Soundness and completeness over all packages, including inconsistent ones.", "anchors": ["COT/vm_description/ovf/ovf.py::search_from_filename", "COT/vm_description/ovf/ovf.py::search_from_file_id", "COT/vm_description/ovf/ovf.py::search_from_controller"]}
{"id": "C70", "title": "The package written describes the files as they are", "statement": "Before a package is written, entries for files that can no longer be read are dropped, the sizes of the others are brought up to date, Disk capacities are those of the images, everything else stays, and no Disk or device is left referring to a dropped File.", "quantifier": "every package, every change to the files since it was loaded, every capacity reported", "why_tests_cant": "Files can change in any way between loading and writing.", "anchors": ["COT/vm_description/ovf/ovf.py::_refresh_file_references", "COT/vm_description/ovf/ovf.py::validate_hardware"]}
{"id": "C71", "title": "Nothing that exists is replaced without the user's consent", "statement": "add-file, add-disk and remove-file replace or remove an existing File, use an existing Disk or drive, change a drive's type or a controller's sub-type, and add a controller that was not asked for only after the user agreed to exactly that; a user who refuses every question ends up with additions only.", "quantifier": "every package, every request and every pattern of answers", "why_tests_cant": "Consent must be shown on every path through the commands.", "anchors": ["COT/commands/add_disk.py:confirm_elements", "COT/commands/add_disk.py:add_disk_worker", "COT/commands/add_file.py:COTAddFile.run", "COT/commands/remove_file.py:COTRemoveFile.run"]}
{"id": "C72", "title": "A package that was written opens again without complaint", "statement": "When a package has been written to an archive or to a directory and nobody touched the result, opening it again finds the same descriptor and exactly the files it names, each with the content it had; every checksum and size agrees and the user is warned about nothing.", "quantifier": "every package, every mixture of files in the input archive, on disk and missing, every output name, also in place", "why_tests_cant": "The writer and the reader agree only if naming, ordering, sizes and checksums match for every package; tests try a few packages.", "anchors": ["COT/vm_description/ovf/ovf.py::write", "COT/vm_description/ovf/ovf.py::_init_check_file_entries", "COT/vm_description/ovf/ovf.py::generate_manifest", "COT/vm_description/ovf/ovf.py::tar"]}
{"id": "C73", "title": "The output has the layout that the OVF standard requires", "statement": "A written archive starts with the descriptor, followed by the manifest and then by the files in the order in which the descriptor names them, each exactly once; a written directory holds the same files. The manifest has one line with the right digest for the descriptor and for every file, and no other line. No file that still exists is left out.", "quantifier": "every package and output, also when the input is overwritten", "why_tests_cant": "Order and completeness must hold for every number and arrangement of files.", "anchors": ["COT/vm_description/ovf/ovf.py::write", "COT/vm_description/ovf/ovf.py::generate_manifest", "COT/vm_description/ovf/ovf.py::tar", "COT/file_reference.py:FileInTAR.copy_to", "COT/file_reference.py:FileOnDisk.copy_to"]}
{"id": "C74", "title": "Writing a package touches nothing but its output", "statement": "At every moment of writing, and however it ends, only the output (the archive, or in a directory the descriptor, the manifest and the files of the package) and the private working directory have changed; the input files stay readable and intact throughout.", "quantifier": "every package, every file of the file system, every point at which the program may be interrupted", "why_tests_cant": "A statement about every crash point and every other file.", "anchors": ["COT/vm_description/ovf/ovf.py::write", "COT/vm_description/ovf/ovf.py::generate_manifest", "COT/vm_description/ovf/ovf.py::tar"]}
{"id": "C75", "title": "Opening a package reports every damaged, missing or unlisted file", "statement": "When a package is opened, the user is told of every file of the package that does not exist, every file or descriptor whose content does not have the checksum in the manifest, every file whose size is not as stated, every file that the manifest lists and the package does not have or the other way round, and every line of the manifest that makes no sense; and of nothing else. Such defects do not prevent opening, and the package then knows exactly the files that exist.", "quantifier": "every descriptor, manifest, archive and directory content, also after any kind of damage", "why_tests_cant": "Any file can be damaged in any way, alone or together with others; tests damage one or two files.", "anchors": ["COT/vm_description/ovf/ovf.py::__init__", "COT/vm_description/ovf/ovf.py::_compare_file_lists", "COT/vm_description/ovf/ovf.py::_init_check_file_entries", "COT/vm_description/ovf/ovf.py::untar", "COT/file_reference.py:FileReference.create"]}
{"id": "C76", "title": "edit-hardware creates and deletes exactly the intended profiles", "statement": "After edit-hardware the package lists exactly the profiles it listed before or that were named, without those that were deleted; each once, the old ones first and in their old order. A profile is created only after the user agreed, and deleted only if deletion was requested and agreed to.", "quantifier": "every package, every request, every pattern of answers", "why_tests_cant": "The set of profiles and the answers are unbounded.", "anchors": ["COT/commands/edit_hardware.py:COTEditHardware._run_update_profiles", "COT/commands/edit_hardware.py:COTEditHardware._run_create_new_profiles", "COT/commands/edit_hardware.py:COTEditHardware._run_delete_other_profiles"]}
{"id": "C77", "title": "edit-hardware leaves the machines of other profiles alone", "statement": "When profiles are named, every other profile that is listed before and afterwards has the same hardware items as before, and every property of every item has the same value under it, whatever combination of options is given.", "quantifier": "every package, every request, every profile that is not named", "why_tests_cant": "Many options act on shared items, in sequence; isolation must survive every combination of them.", "anchors": ["COT/commands/edit_hardware.py:COTEditHardware.run", "COT/vm_description/ovf/hardware.py:OVFHardware.set_value_for_all_items", "COT/vm_description/ovf/hardware.py:OVFHardware.set_item_count_per_profile"]}
{"id": "C78", "title": "edit-hardware changes only the kinds of device it was asked about", "statement": "Items of a device type that no option is about are the same afterwards, and none is added; the descriptor is unchanged but for its profile and network sections and, if system types are given, the system element. (When the package declares no network, every request is also about the NICs, which are then connected to \"VM Network\".)", "quantifier": "every package and request", "why_tests_cant": "A frame property over all items and all sections.", "anchors": ["COT/commands/edit_hardware.py:COTEditHardware.run"]}
{"id": "C79", "title": "edit-hardware does what the options say", "statement": "After a successful run the CPUs, memory, NIC types, MAC addresses, serial connections, SCSI and IDE sub-types have the values given, and there are exactly as many NICs and serial ports as requested, in each named profile (in all profiles when none is named), whatever other options were given at the same time.", "quantifier": "every package and every combination of options", "why_tests_cant": "Later steps of the command could undo earlier ones; tests try options one at a time.", "anchors": ["COT/commands/edit_hardware.py:COTEditHardware.run", "COT/vm_description/ovf/ovf.py:OVF.set_cpu_count", "COT/vm_description/ovf/ovf.py:OVF.set_memory", "COT/vm_description/ovf/ovf.py:OVF.set_nic_count", "COT/vm_description/ovf/ovf.py:OVF.set_serial_connectivity"]}
{"id": "C80", "title": "edit-hardware removes nothing without the user's consent", "statement": "If a profile has more NICs or serial ports than requested then the user was asked about that profile, with both numbers, and agreed; if there are more serial ports than connections, they agreed that the others will be unreachable; and they agreed if an option applies to all profiles although some were named.", "quantifier": "every package, request and pattern of answers", "why_tests_cant": "Consent must be shown on every path through the command.", "anchors": ["COT/commands/edit_hardware.py:COTEditHardware._run_update_nics", "COT/commands/edit_hardware.py:COTEditHardware._run_update_serial", "COT/commands/edit_hardware.py:COTEditHardware._run_update_profiles"]}
{"id": "C81", "title": "edit-hardware connects NICs to declared networks", "statement": "Networks are only added, after the existing ones, and only with the user's consent. After --nic-networks the NICs are connected in order to the networks of the expanded list, and all of these are declared. When no network is given or declared and there is a NIC, all NICs are connected to \"VM Network\", which is declared.", "quantifier": "every package, request and pattern of answers, every number of NICs and networks", "why_tests_cant": "The list of networks is expanded by a pattern to any number of NICs.", "anchors": ["COT/commands/edit_hardware.py:COTEditHardware._run_update_networks", "COT/commands/edit_hardware.py:COTEditHardware._run_infer_networks_from_nics", "COT/commands/edit_hardware.py:expand_list_wildcard"]}
{"id": "C82", "title": "Hardware options outside the platform's limits need the user's consent", "statement": "A number of CPUs, NICs or serial ports, an amount of memory or a list of NIC types is accepted by edit-hardware iff it is meaningful and the platform supports it or the user insists; what was accepted is not refused later when it is set, except for the CPU counts of platforms that list them and NIC types.", "quantifier": "every text, platform, history of earlier questions and answer", "why_tests_cant": "All numbers and all histories of validated values.", "anchors": ["COT/commands/edit_hardware.py:COTEditHardware.cpus", "COT/commands/edit_hardware.py:COTEditHardware.memory", "COT/commands/edit_hardware.py:COTEditHardware.nics", "COT/commands/edit_hardware.py:COTEditHardware.nic_types", "COT/commands/edit_hardware.py:COTEditHardware.serial_ports", "COT/ui/ui.py:UI.validate_value"]}
{"id": "C83", "title": "edit-product sets the texts given and nothing else", "statement": "edit-product with at least one non-empty text gives the product class and each of the seven product texts the text given for it; those not given read as before. The platform follows the class. Nothing else in the product section and nothing outside of it changes; a missing product section is made. Without a non-empty text the command refuses to run.", "quantifier": "every package (with at most one product section), every combination of texts", "why_tests_cant": "Any combination of eight options on any product section, whatever else it holds.", "anchors": ["COT/commands/edit_product.py:COTEditProduct.run", "COT/commands/edit_product.py:COTEditProduct.ready_to_run", "COT/vm_description/ovf/ovf.py:OVF.product_class", "COT/vm_description/ovf/ovf.py:OVF.platform"]}
{"id": "C84", "title": "edit-properties sets exactly the properties named", "statement": "A successful edit-properties first turns the lines of the configuration file into numbered properties; then each property named with an option goes, in order, through exactly the changes asked for (type, value in the form the type demands and within its qualifiers, label and description of the same position, configurability), so that explicit values win over the file and later ones over earlier ones. Other properties and all else in the package stay; new properties come after the old ones. A property that has no value is set only if the user agreed, and nothing else is asked. Transports are those given.", "quantifier": "every package whose property keys are unique, every list of properties, labels, descriptions, transports, every configuration file, every pattern of answers", "why_tests_cant": "Unbounded lists of entries for repeated keys with repeated types, interacting with a file.", "anchors": ["COT/commands/edit_properties.py:COTEditProperties.run", "COT/commands/edit_properties.py:COTEditProperties.ready_to_run", "COT/vm_description/ovf/ovf.py:OVF.set_property_value", "COT/vm_description/ovf/ovf.py:OVF.config_file_to_properties", "COT/vm_description/ovf/ovf.py:OVF.environment_transports"]}
{"id": "C85", "title": "The interactive editor stores what the user types, for the property they picked", "statement": "In the interactive editor of edit-properties an empty line or q ends the session with the document as it is; a line that selects no property is ignored; after a line that selects a property (by name, unique abbreviation or number), an empty line or the old value changes nothing, a value that type and qualifiers allow is stored for that property, and any other is refused and asked for again. Whatever is typed, the session raises no error, adds or removes no property, and changes nothing but values (and configurability marks) of properties; every value stored was typed. Every property listed can be edited, and a refused value leaves the document unchanged.", "quantifier": "every package whose property keys are unique, every sequence of lines", "why_tests_cant": "Sessions are unbounded sequences of lines.", "anchors": ["COT/commands/edit_properties.py:COTEditProperties.edit_properties_interactive", "COT/ui/ui.py:UI.choose_from_list", "COT/vm_description/ovf/ovf.py:OVF.environment_properties"]}
{"id": "C86", "title": "inject-config puts exactly the given files into a drive that was there", "statement": "A configuration file is accepted only if it exists and the platform has a name for it. A successful inject-config makes one image that holds the configuration files under the names the platform looks for and the extra files under their own, all under different names, and nothing else; it is an ISO, or for IOSv a FAT image large enough for the files and converted to VMDK. The image goes into a drive that was there: the one that used the earlier image, after the user agreed to overwrite it, or else an empty one if there is one. The drive is then of the type the platform boots from and refers to the image, whose File entry has its name and size (and whose Disk entry its capacity). No device is added or removed and no other device or other property of the drive changes. Injecting again uses the same drive and File. If the user refuses or there is no drive the command fails before anything is copied or run.", "quantifier": "every package whose hardware is in order, every platform, every combination of files, every behaviour of the helper programs and every pattern of answers", "why_tests_cant": "The package, the files and the behaviour of external programs are unbounded; repeated injection is a history.", "anchors": ["COT/commands/inject_config.py:COTInjectConfig.run", "COT/commands/inject_config.py:COTInjectConfig.config_file", "COT/commands/inject_config.py:COTInjectConfig.secondary_config_file", "COT/commands/inject_config.py:COTInjectConfig.extra_files", "COT/commands/inject_config.py:COTInjectConfig.ready_to_run", "COT/vm_description/ovf/ovf.py:OVF.find_empty_drive", "COT/vm_description/ovf/ovf.py:OVF.find_device_location", "COT/commands/add_disk.py:add_disk_worker"]}
{"id": "C87", "title": "Sizes are shown with four correct digits and in the right unit", "statement": "The text shown for a number of bytes is a decimal numeral, a space and a unit from B to YiB, and can be read in only one way. The size it tells differs from the real one by at most half a unit of the fourth digit; below 1024 bytes it is exact, whole numbers of units are shown as such, and a larger size is never shown as a smaller one. Every size up to 1023 YiB is shown.", "quantifier": "every number of bytes", "why_tests_cant": "The number of bytes is unbounded and rounding has corner cases at every change of unit and of decimal places.", "anchors": ["COT/utilities.py:pretty_bytes"]}
{"id": "C88", "title": "Writing a package warns about exactly the hardware the platform does not support, and does not fail for it", "statement": "Whenever a package is written its hardware is checked against the limits of its platform. The check comes to an end and finds the hardware sane exactly if in every profile the number of CPUs, the memory, the number of NICs and the types of NICs are supported. Each warning is about something unsupported that the profile has, and everything unsupported is warned about.", "quantifier": "every hardware, every set of profiles, every platform, both Python versions", "why_tests_cant": "Hardware, profiles and values are unbounded; the platform object remembers what it was asked before, so that outcomes depend on the history.", "anchors": ["COT/vm_description/ovf/ovf.py:OVF.validate_hardware", "COT/platforms/platform.py:Platform.validate_cpu_count", "COT/platforms/platform.py:Platform.validate_memory_amount", "COT/platforms/platform.py:Platform.validate_nic_count", "COT/platforms/platform.py:Platform.validate_nic_types"]}
{"id": "C89", "title": "`info` tells the hardware of every profile", "statement": "`info` has a line for each profile, in order (or one line if there are none), with its name, whether it is the default one, its CPUs and memory, its numbers of NICs, serial ports and hard disks, and the total capacity of the package's disks. Unless `--brief` is given, named profiles are followed by their label and description, whole.", "quantifier": "every package, hardware, set of profiles, width of the terminal and verbosity, both Python versions", "why_tests_cant": "The number of profiles and items is unbounded, each value depends on which profiles an item and each of its properties belong to, and long texts are wrapped.", "anchors": ["COT/vm_description/ovf/ovf.py:OVF.profile_info_list", "COT/vm_description/ovf/ovf.py:OVF.profile_info_string", "COT/vm_description/vm_description.py:VMDescription.default_config_profile"]}
{"id": "C90", "title": "`info` tells every file and disk", "statement": "`info` has a line for each file of the package, in order, with its name (cut only if it does not fit), its size, the capacity of the disk it contains, and the device that uses it, described by its type, controller and address; and then a line for each disk without file. With `--verbose` the identifiers of the file and its disk follow.", "quantifier": "every package and hardware, every width of the terminal and verbosity", "why_tests_cant": "Files, disks and devices refer to each other by identifiers in unboundedly many ways; the width of the columns depends on all names.", "anchors": ["COT/vm_description/ovf/ovf.py:OVF._info_string_files_disks", "COT/vm_description/ovf/ovf.py:OVF._info_strings_for_file", "COT/vm_description/ovf/ovf.py:OVF.device_info_str"]}
{"id": "C91", "title": "`info` tells product, annotation, licences and hardware variants", "statement": "`info` tells product, vendor and version (with the URLs and the full version unless `--brief` is given) as the product section states them, or that they are not stated; the annotation, whole; every licence (its text only with `--verbose`); and the system types, SCSI and NIC subtypes of the hardware.", "quantifier": "every descriptor, hardware, width of the terminal and verbosity", "why_tests_cant": "Texts are arbitrary, with any line breaks, and are wrapped to any width; the number of sections and items is unbounded.", "anchors": ["COT/vm_description/ovf/ovf.py:OVF._info_string_product", "COT/vm_description/ovf/ovf.py:OVF._info_string_annotation", "COT/vm_description/ovf/ovf.py:OVF._info_string_eula", "COT/vm_description/ovf/ovf.py:OVF._info_string_hardware"]}
{"id": "C92", "title": "`info` tells every network and NIC", "statement": "`info` has a row for each network, with its name and description, and for each NIC, with its name and network and, with `--verbose`, its description; descriptions that do not fit are cut and end in `...`.", "quantifier": "every descriptor, hardware, width of the terminal and verbosity", "why_tests_cant": "The number of networks and NICs is unbounded and the width of the columns depends on all names.", "anchors": ["COT/vm_description/ovf/ovf.py:OVF._info_string_networks", "COT/vm_description/ovf/ovf.py:OVF._info_string_nics"]}
{"id": "C93", "title": "`info` tells transports and every property", "statement": "`info` tells all transports, and for each property, in order, its label (or key) and value \u2014 key, label and value if the terminal is wide enough \u2014 and with `--verbose` its description, whole.", "quantifier": "every descriptor, width of the terminal and verbosity", "why_tests_cant": "The number of properties is unbounded, the layout depends on the longest key, label and value, and descriptions have any line breaks.", "anchors": ["COT/vm_description/ovf/ovf.py:OVF._info_string_environment", "COT/vm_description/ovf/ovf.py:OVF._info_string_properties", "COT/vm_description/ovf/ovf.py:OVF.environment_transports", "COT/vm_description/ovf/ovf.py:OVF.environment_properties"]}
{"id": "C94", "title": "`info` reports on every package", "statement": "The report on a package consists of the file's name, the platform and all the sections above, in a fixed order and with nothing left out. For several packages there is one report each, in the order given, separated by an empty line; a file that is no VM description gets an error message and does not keep the others from being shown. Missing files or an empty list are refused before anything is shown.", "quantifier": "every list of packages, every content of each, every width and verbosity", "why_tests_cant": "The list and the contents are unbounded and any package may fail in any section.", "anchors": ["COT/vm_description/ovf/ovf.py:OVF.info_string", "COT/commands/info.py:COTInfo.run", "COT/commands/info.py:COTInfo.package_list"]}
{"id": "C95", "title": "A program that fails is reported and only retried with sudo", "statement": "Running an external program succeeds only if the program ended successfully (where that is required), runs it once, and once more with `sudo` only if that was allowed and the first run was denied or failed; a missing program and a failing program give different errors. The output that is returned is the output of the run.", "quantifier": "every program, argument list, outcome of each run and state of the machine", "why_tests_cant": "A run can end in any way, and what the second run does depends on what the first one left behind.", "anchors": ["COT/helpers/helper.py:check_call", "COT/helpers/helper.py:check_output"]}
{"id": "C96", "title": "A helper's answers come from runs of that very command, and nothing is installed without consent", "statement": "In every history of calls and of other changes to the machine, what a helper program's object answers is the output of a run of that very command, now or earlier; only answers the helper is meant to keep are given again without running it. A missing program is installed only with the user's consent.", "quantifier": "every history of calls and changes to the machine", "why_tests_cant": "The answer of a call depends on all earlier calls; histories are unbounded.", "anchors": ["COT/helpers/helper.py:Helper.call", "COT/helpers/qemu_img.py:QEMUImg.__init__"]}
{"id": "C97", "title": "Package managers are used in the proper order", "statement": "Whatever packages are requested one after the other, apt-get installs a package only after asking whether it is installed, and after its lists were updated once in this run; success means that the package is there or that the installation command succeeded. The other package managers run one installation command, brew never with sudo.", "quantifier": "every sequence of requests, every outcome of each command", "why_tests_cant": "The number of requests is unbounded and whether the lists are updated depends on the history.", "anchors": ["COT/helpers/apt_get.py:AptGet", "COT/helpers/brew.py:Brew", "COT/helpers/port.py:Port", "COT/helpers/yum.py:Yum"]}
{"id": "C98", "title": "install-helpers: verification changes nothing, the status says whether all is there", "statement": "With `--verify-only` the machine is not changed and the report says for each program whether it is found. Otherwise the command ends successfully without `--ignore-errors` only if all required programs, one of the ISO tools and the manual pages are there afterwards; what is present is never installed again; the report names each program once, sorted.", "quantifier": "every state of the machine, every outcome of each installation, both options", "why_tests_cant": "Each of the installations can fail in different ways and affects the machine on which the next one runs.", "anchors": ["COT/commands/install_helpers.py:COTInstallHelpers.run", "COT/commands/install_helpers.py:COTInstallHelpers.install_helper"]}
{"id": "C99", "title": "install-helpers: manual pages", "statement": "If the installation of the manual pages succeeds, every page is in the directory of its section, equal to the delivered one, no other file has changed, and a second installation changes nothing; verification tells whether a directory or page is missing or differs. Directories and files are created with sudo only after a plain attempt was denied. The pages go beside the directory the program was started from if that is `bin`.", "quantifier": "every set of pages, every state of the file system and every outcome of each operation", "why_tests_cant": "The number of pages is unbounded, and each step changes the file system on which the next one acts.", "anchors": ["COT/commands/install_helpers.py:verify_manpages", "COT/commands/install_helpers.py:install_manpages", "COT/commands/install_helpers.py:guess_manpath", "COT/helpers/helper.py:Helper.mkdir", "COT/helpers/helper.py:Helper.copy_file"]}
{"id": "C100", "title": "Versions of helper programs are compared as numbers", "statement": "The version of a program is the first text of digits and dots that follows its name in what it prints; texts are versions exactly if they are two or three numbers (with an optional prerelease); they are compared number by number, prereleases before releases; showing a version and reading it gives the same version. A program that is chosen with a minimum version is not older than that.", "quantifier": "every output of a program, every version and every list of choices", "why_tests_cant": "Outputs and numbers are unbounded.", "anchors": ["COT/helpers/helper.py:Helper.version", "COT/helpers/helper.py:helper_select"]}
{"id": "C101", "title": "deploy to ESXi: what is run, and only after consent", "statement": "`cot deploy PACKAGE esxi LOCATOR` either fails without having deployed anything and without contacting the server, or runs ovftool exactly once to deploy. Before that the profile is the one requested, the only one, or the one the user selects; the serial connections are those given, else those of the package's serial ports in that profile; with more connections than ports, and when environment properties would get lost, the user has agreed. The arguments of ovftool follow from the command and the package. The server is contacted only if ovftool succeeded and there are connections. The user, password and server given are those that are used; connections of the package are used as its profile says; a missing ovftool is reported as such.", "quantifier": "every package, command line, sequence of answers, outcome of each program run and behaviour of the server", "why_tests_cant": "Answers, outcomes and packages combine without bound, and each step depends on the ones before.", "anchors": ["COT/commands/deploy.py:COTDeploy.run", "COT/commands/deploy_esxi.py:COTDeployESXi.run", "COT/commands/deploy_esxi.py:COTDeployESXi.fixup_ovftool_args"]}
{"id": "C102", "title": "deploy to ESXi: the serial ports on the server, all or none", "statement": "The serial ports are set by a single request that contains a port for every connection, for the first machine with the name, or nothing is changed and the command fails. A connection to the server that was made is always closed. Without verification of the certificate a server is contacted only after the user was asked about that server and agreed. What ESXi cannot do is refused before anything is deployed.", "quantifier": "every server, every list of connections, every sequence of answers", "why_tests_cant": "The server can fail at each step, and what happens depends on the history of the process.", "anchors": ["COT/commands/deploy_esxi.py:COTDeployESXi.fixup_serial_ports", "COT/commands/deploy_esxi.py:SmarterConnection", "COT/commands/deploy_esxi.py:PyVmomiVMReconfigSpec", "COT/commands/deploy_esxi.py:PyVmomiVMReconfigSpec.lookup_object"]}
{"id": "C103", "title": "the command line reaches the command as it was given", "statement": "A command gets every parsed argument except those for the program itself; an option that may be repeated arrives as one list of all its values in the order given, everything else unchanged. The mandatory arguments that were given are set first and then the others, each once, and what was not given is left alone; when one is refused nothing after it is set. When input or output is no terminal, every question and selection is answered by its default without reading input.", "quantifier": "every set of parsed arguments in every order, every behaviour of the command's setters, every sequence of inputs", "why_tests_cant": "The arguments, their number and order are unbounded, and a setter may fail at any point.", "anchors": ["COT/ui/cli.py:CLI.args_to_dict", "COT/ui/cli.py:CLI.set_instance_attributes", "COT/ui/cli.py:CLI.parse_args"]}
{"id": "C104", "title": "which files are taken to be packages", "statement": "A file is taken to be of the type of its extension .ovf, .ova or .box; without one of these, of the first .ovf or .ova in its name that is not followed by a letter or digit; otherwise it is refused as unknown. The directory has no influence. An OVF file is used in place, everything else is unpacked. Opening fails with the initialisation error exactly when the type is unknown or the file cannot be initialised, and lets other errors through.", "quantifier": "every path, every behaviour of opening", "why_tests_cant": "Paths are unbounded texts in which extensions can occur at any place.", "anchors": ["COT/vm_description/ovf/ovf.py:OVF.detect_type_from_name", "COT/vm_description/vm_description.py:VMDescription.factory", "COT/vm_description/ovf/ovf.py:OVF.__init__"]}
{"id": "C105", "title": "usage texts and examples are complete and can be copied", "statement": "The usage text of a command has a help line and then, for every usage string, all its parameters in their order, never breaking a word, an option with its value or a text in brackets; lines fit the terminal as far as a single parameter does, and are not broken earlier than needed. Examples keep all their words in order; a line that is continued ends in a backslash, so that it can be copied; examples of several lines are only indented.", "quantifier": "every terminal width, every list of usage strings, every list of examples", "why_tests_cant": "The layout depends on the width and on the lengths of all parameters before.", "anchors": ["COT/ui/cli.py:CLI.fill_usage", "COT/ui/cli.py:CLI.fill_examples"]}
{"id": "C106", "title": "the names used are those of the document's OVF version", "statement": "Every element and attribute is looked up and written under the name and namespace that the OVF schema of the document's version gives it, no matter which documents of which versions were opened before in the same process and which names were looked up; a name that the schema does not have is an error. The children of an Item are ordered as the schema wants.", "quantifier": "every sequence of earlier lookups in documents of any versions, every name, every version", "why_tests_cant": "Results are cached in tables shared by all documents of a version, so that a wrong entry shows only after particular histories.", "anchors": ["COT/vm_description/ovf/name_helper.py:OVFNameHelper1.__getattr__", "COT/vm_description/ovf/name_helper.py:OVFNameHelper0", "COT/vm_description/ovf/name_helper.py:OVFNameHelper2", "COT/vm_description/ovf/name_helper.py:name_helper"]}
{"id": "C107", "title": "which descriptors can be opened", "statement": "A document is opened exactly if its top-level element is the Envelope of OVF 0.9, 1.x or 2.x, it has exactly one References, one VirtualSystem and one VirtualHardwareSection in it, and at most one of each other section that is used; the version and the sections used are these very ones. Every other document is refused with the initialisation error.", "quantifier": "every XML document", "why_tests_cant": "Documents are unbounded trees; sections of the same name can occur at several places.", "anchors": ["COT/vm_description/ovf/ovf.py:OVF.__init__", "COT/vm_description/ovf/ovf.py:OVF.ovf_version"]}
{"id": "C108", "title": "new disk images are made as asked for, or not at all", "statement": "Making a new disk image succeeds only if there was no file at the path; then there is one of the format asked for, and what was run is exactly the commands that make it: an empty image with the capacity and sub-format asked for, or an image with all the files given, each under its own name. What a format cannot do, an unknown format, an empty path and an existing file are refused before anything is run. An attempt that fails leaves nothing behind. The sub-format of a VMDK file is the one that its header states.", "quantifier": "every path, format, set of files, capacity and sub-format, every behaviour of the helper programs, every file header", "why_tests_cant": "The combinations of arguments and the points at which a program can fail are unbounded.", "anchors": ["COT/disks/disk.py:DiskRepresentation.for_new_file", "COT/disks/disk.py:DiskRepresentation.create_file", "COT/disks/raw.py:RAW._create_file", "COT/disks/iso.py:ISO._create_file", "COT/disks/vmdk.py:VMDK._create_file", "COT/disks/vmdk.py:VMDK.disk_subformat"]}
{"id": "C109", "title": "commands run only with all they need", "statement": "A command does its work only if it was given what it cannot do without (a package to work on, and its own required options, or at least one thing to do), and only if there is room for the work in the working directory and for the result at its destination, or the user agreed to go on without. Otherwise it ends with an input error and has changed nothing. A command that has all this, and whose user agreed to each question, runs.", "quantifier": "every command, set of options, package size, amount of free space in each place and list of answers", "why_tests_cant": "The combinations of options, sizes, places and answers are unbounded.", "anchors": ["COT/commands/command.py:Command.run", "COT/commands/command.py:Command.ready_to_run", "COT/commands/command.py:ReadCommand.ready_to_run", "COT/commands/command.py:ReadWriteCommand.ready_to_run", "COT/commands/inject_config.py:COTInjectConfig.ready_to_run", "COT/commands/edit_hardware.py:COTEditHardware.ready_to_run", "COT/commands/add_disk.py:COTAddDisk.ready_to_run"]}
{"id": "C110", "title": "temporary directories do not pile up", "statement": "While a process opens, replaces, closes and looks at packages, with loading succeeding or failing at any point, the temporary directories that exist are exactly one for each package that is open; after the last is closed there are none. When the process ends, all the directories it made are removed. Directories of others are never removed.", "quantifier": "every history of opening, replacing, closing and looking at packages by any number of commands, every point at which loading fails or is interrupted, every set of directories that cannot be removed", "why_tests_cant": "Histories and the points of failure in them are unbounded.", "anchors": ["COT/vm_description/vm_description.py:VMDescription.__init__", "COT/vm_description/vm_description.py:VMDescription.destroy", "COT/vm_description/ovf/ovf.py:OVF.__init__", "COT/commands/command.py:ReadCommand.package", "COT/commands/command.py:ReadWriteCommand.package", "COT/commands/command.py:Command.destroy", "COT/commands/info.py:COTInfo.run"]}
{"id": "C111", "title": "how helper programs are installed", "statement": "COT installs a helper program through the package that is documented for a package manager that is there, or, where this is documented, by building it from source on Linux. A program that is there is left alone. A program that COT says it can install is then installed or the error of the step that failed is reported: COT does not then say that it does not know how. An installation ends with success only if the program is found afterwards; it stops at the first step that fails, and its temporary directories are removed in any case. A program that cannot be installed is reported with nothing done.", "quantifier": "every helper program, set of package managers and programs present, platform, environment and step at which the installation fails", "why_tests_cant": "The machines and the points of failure are too many to enumerate.", "anchors": ["COT/helpers/helper.py:Helper.install", "COT/helpers/helper.py:Helper._install", "COT/helpers/helper.py:Helper.installable", "COT/helpers/helper.py:Helper.unsure_how_to_install", "COT/helpers/helper.py:Helper.download_and_expand_tgz", "COT/helpers/fatdisk.py:FatDisk._install", "COT/helpers/vmdktool.py:VMDKTool._install"]}
{"id": "C112", "title": "what COT believes about a helper program", "statement": "COT says that a helper program is installed, and where, exactly if it is or was found there during this run; once found, it is taken to be installed, is not installed again, and is asked for its version once. A program that is found now is used by a call without an installation.", "quantifier": "every history of questions about a program and of changes to the machine between them", "why_tests_cant": "Histories are unbounded; unit tests look at fresh objects.", "anchors": ["COT/helpers/helper.py:Helper.path", "COT/helpers/helper.py:Helper.installed", "COT/helpers/helper.py:Helper.version", "COT/helpers/helper.py:Helper.call", "COT/helpers/helper.py:Helper.install"]}
{"id": "C113", "title": "what saving changes in the descriptor", "statement": "Saving works on the File, Disk, Network and Item elements of a descriptor and on nothing else: everything else in the envelope, in the virtual system and in the four sections is written as it was read, in the same order, whatever edits were made. A descriptor that was opened and not edited, whose File, Disk and Network entries are accurate, is written as it was.", "quantifier": "every descriptor, set of files, edited or unedited hardware and iteration order of sets", "why_tests_cant": "Descriptors are unbounded trees with arbitrary extra content; unit tests compare a few sample files.", "anchors": ["COT/vm_description/ovf/ovf.py:OVF.write", "COT/vm_description/ovf/hardware.py:OVFHardware.update_xml", "COT/vm_description/ovf/ovf.py:OVF._refresh_file_references", "COT/vm_description/ovf/ovf.py:OVF._refresh_networks"]}
{"id": "C114", "title": "which files are in a disk image", "statement": "The files that COT reports for a raw or ISO image are exactly those that the helper program lists, in that order and under their names: on ISO images without Rock Ridge, in lower case and without the version number. An image is taken to have Rock Ridge names exactly if the helper says in one line that Rock Ridge was found.", "quantifier": "every listing, of any number of files, with any spacing and other lines in between", "why_tests_cant": "Listings and names are unbounded; unit tests use a handful of images.", "anchors": ["COT/disks/iso.py:ISO.files", "COT/disks/iso.py:ISO.disk_subformat", "COT/disks/raw.py:RAW.files"]}
{"id": "C115", "title": "what was edited is there when the saved descriptor is opened again", "statement": "A descriptor that COT opened and saves again can be opened again. It has the same OVF version, the same product section, annotation and configuration profiles as when it was saved. After any history of edits of the hardware, the reopened hardware has exactly the edited devices, and each has under every profile the values it had in memory. A text of the product information that was set is read back, and the other texts are as before.", "quantifier": "every descriptor that opens, every history of hardware edits and every text of the product information", "why_tests_cant": "Unit tests save and reopen a few descriptors after single edits; histories of edits are unbounded.", "anchors": ["COT/vm_description/ovf/ovf.py:OVF.write", "COT/vm_description/ovf/ovf.py:OVF.__init__", "COT/vm_description/ovf/hardware.py:OVFHardware.update_xml", "COT/vm_description/ovf/hardware.py:OVFHardware.__init__", "COT/vm_description/ovf/ovf.py:OVF._set_product_section_child"]}
{"id": "C116", "title": "remove-file undoes add-file and add-disk", "statement": "If add-file adds a file without replacing another one, removing that file by its name gives back the package as it was. If add-disk adds a disk under a new identifier, without replacing a file or filling a drive that is already there, and the file is then removed by its name, then the File entries, the Disk entries and the devices are as they were before.", "quantifier": "every package, every path and file identifier, every kind of drive and controller, every pair of answers to the prompts", "why_tests_cant": "Unit tests add to one package and remove from another; they do not compose the commands over all packages.", "anchors": ["COT/commands/add_file.py:COTAddFile.run", "COT/commands/add_disk.py:add_disk_worker", "COT/commands/remove_file.py:COTRemoveFile.run", "COT/vm_description/ovf/ovf.py:OVF.add_file", "COT/vm_description/ovf/ovf.py:OVF.remove_file", "COT/vm_description/ovf/ovf.py:OVF.add_disk"]}
{"id": "C117", "title": "Running edit-product or edit-properties again changes nothing", "statement": "If edit-product succeeds, running the same command on its result succeeds and leaves the descriptor exactly as it is. The same holds for edit-properties with options (in OVF 1.x and 2.x, which alone support it, with the same answers), if the command names no property twice: neither on the command line, nor there and in the configuration file. In particular no element or attribute is added a second time.", "quantifier": "every descriptor, every combination of options, every list of properties, every configuration file, every pair of answers", "why_tests_cant": "Unit tests run a command once; that a second run is harmless must hold for every descriptor and every combination of options.", "anchors": ["COT/commands/edit_product.py:COTEditProduct.run", "COT/commands/edit_properties.py:COTEditProperties.run", "COT/vm_description/ovf/ovf.py:OVF.set_property_value", "COT/vm_description/ovf/ovf.py:OVF._set_product_section_child", "COT/vm_description/ovf/ovf.py:OVF.config_file_to_properties", "COT/vm_description/ovf/ovf.py:OVF.environment_transports"]}
{"id": "C118", "title": "Running edit-hardware again changes nothing", "statement": "If edit-hardware succeeds, running the same command with the same answers on its result succeeds and changes nothing: no profile, network or device is added or removed, and the system types, the networks and their descriptions, and every property of every device for every profile stay as they are.", "quantifier": "every package, every combination of profiles, counts, types, addresses, networks and other options, every set of answers", "why_tests_cant": "Unit tests run a command once; that a second run is harmless must hold for every package, every set of profiles and every combination of options.", "anchors": ["COT/commands/edit_hardware.py:COTEditHardware.run", "COT/vm_description/ovf/hardware.py:OVFHardware.set_value_for_all_items", "COT/vm_description/ovf/hardware.py:OVFHardware.set_item_values_per_profile", "COT/vm_description/ovf/hardware.py:OVFHardware.set_item_count_per_profile", "COT/vm_description/ovf/item.py:OVFItem.set_property", "COT/vm_description/ovf/ovf.py:OVF.create_network", "COT/vm_description/ovf/ovf.py:OVF.system_types"]}
{"id": "C119", "title": "The saved descriptor is XML that reads back as the same descriptor", "statement": "A descriptor is saved without error as text that can be parsed again, and parsing it gives the same elements with the same attributes in the same order and the same texts; saving what was parsed gives the same text once more; it opens as a descriptor of the same version with the same sections and hardware; and the namespaces of OVF keep their usual prefixes, whatever descriptors were opened before.", "quantifier": "every descriptor (names, namespaces, attributes, texts with any characters, any nesting), every history of opened descriptors", "why_tests_cant": "Escaping, namespace prefixes and indentation interact with every character and every nesting of a document; unit tests compare a few files.", "anchors": ["COT/xml_file.py:XML.write_xml", "COT/xml_file.py:XML.xml_reindent", "COT/xml_file.py:XML.__init__", "COT/vm_description/ovf/ovf.py:OVF.__init__", "COT/vm_description/ovf/ovf.py:OVF.write"]}
{"id": "C120", "title": "A command line means what it says", "statement": "A command line made of global flags, a command under any of its names, and options with their values and words in any order and any of the usual spellings (separate values, --option=value, -ovalue, abbreviations, two dashes) is accepted exactly if it has the words the command needs, every value is of the kind its option takes and no two options exclude each other; then every word and every value ends up where it belongs, repeated options keep all their values in order, what was not given has its default, and the command that runs is the one named.  Everything else is a usage error, and an option that the command does not know is never passed over.", "quantifier": "every command, every list of arguments: any number and order of options, values, words, abbreviations and attached values", "why_tests_cant": "The options of twelve parsers, their abbreviations and the two levels of parsers interact in every order of arguments; unit tests try a few command lines per command.", "anchors": ["COT/ui/cli.py:CLI.create_parser", "COT/ui/cli.py:CLI.add_subparser", "COT/ui/cli.py:CLI.parse_args", "COT/commands/edit_hardware.py:COTEditHardware.create_subparser", "COT/commands/add_disk.py:COTAddDisk.create_subparser", "COT/commands/deploy.py:COTDeploy.create_subparser", "COT/commands/deploy_esxi.py:COTDeployESXi.create_subparser", "COT/commands/info.py:COTInfo.create_subparser"]}
{"id": "C121", "title": "The manual tells what the command line does, and it reaches the command", "statement": "The commands, their other names, their words and their options with the flags and kinds of values are those of the manual pages, and the command lines given there as examples are accepted.  On every accepted command line each documented option sets the attribute of the command that it is documented for, to what was given with it (the last value; for an option that may be repeated all values in order; whether a flag was given), and leaves the attribute alone if it was not given; every word sets its attribute.", "quantifier": "every command with a manual page, every command line that is accepted", "why_tests_cant": "Every option can be given in any order, number and spelling together with all others; a wrong destination or a swapped pair of options shows only on some of the command lines.", "anchors": ["COT/docs/man", "COT/ui/cli.py:CLI.create_parser", "COT/ui/cli.py:CLI.args_to_dict", "COT/ui/cli.py:CLI.set_instance_attributes", "COT/commands/edit_hardware.py:COTEditHardware.create_subparser", "COT/commands/deploy_esxi.py:COTDeployESXi.create_subparser"]}
{"id": "C122", "title": "The order and the spelling of the options on the command line do not matter", "statement": "Two command lines of one command that have the same words in the same order, and that use for everything that can be set the same options with the same values in the same order, are both refused or mean the same, however the options are ordered among each other and placed between the words, by whichever flag or abbreviation they are named, and whether their values are attached and flags bundled.", "quantifier": "every command, all pairs of command lines with the same words and the same uses of each option", "why_tests_cant": "The number of orders and spellings of a command line grows without bound; an option that takes a word of another one or resets what another one has set shows in a few of them only.", "anchors": ["COT/ui/cli.py:CLI.create_parser", "COT/ui/cli.py:CLI.parse_args", "COT/ui/cli.py:CLI.create_subparsers", "COT/commands/edit_hardware.py:COTEditHardware.create_subparser", "COT/commands/deploy_esxi.py:COTDeployESXi.create_subparser"]}
{"id": "C123", "title": "What edit-hardware does to a package is what its command line asks for", "statement": "When cot edit-hardware succeeds, what it has done to the package is what the run does for the request that the command line spells out: the profiles, types, names, networks, descriptions, addresses and connections are those of all uses of their option together, in order; the numbers are those of the last use; the memory is the size meant by the last use; options that are not used ask for nothing. In particular the package ends with as many NICs and serial ports in each selected profile as the last --nics and --serial-ports say. If nothing but a package and an output is given, the command is refused. If the package opens, the output is agreed to, the values are known words and sizes, and the user insists on values that the platform does not support, the request is carried out.", "quantifier": "all command lines of edit-hardware and all packages", "why_tests_cant": "The way from a command line to the package passes the parser, a table of attributes with their checks, and the run of the command; tests call the command object directly or look at a few command lines.", "anchors": ["COT/ui/cli.py:CLI.main", "COT/ui/cli.py:CLI.set_instance_attributes", "COT/commands/edit_hardware.py:COTEditHardware.create_subparser", "COT/commands/edit_hardware.py:COTEditHardware.run"]}
{"id": "C124", "title": "What a command sets is what cot info tells of the package that was written", "statement": "When edit-product or edit-properties has changed a package, and the package was written and is opened again, then cot info tells what was asked for: for each field of the product the text that was given, in place of the old one, and the old ones of the others; for each property the value given last, in the form that its type demands, and the old ones of the properties not named; and the transports that were given. The product class is the one given. After any edits of the hardware, its table of profiles tells, for each profile, the processors, the memory and the numbers of NICs, serial ports and hard disks that the edits led to. Its table of files has, for each File whose file was still there when the package was saved, the name, the real size of the file, the real capacity of its disk image and the device that uses it, and then each Disk without such a File. It lists the networks that a NIC of the saved package is connected to, with their descriptions, and no others; it lists each NIC that the edits led to, with its network; and it tells the system types and the kinds of controllers and NICs that there are. Licences and annotation are told as they were.", "quantifier": "all packages of OVF 1.x and 2.x, all requests, all terminals and verbosities", "why_tests_cant": "A test looks at one command, one package and one form of output; the way from a command to what another run of the tool tells passes the change of the tree, the refresh on saving, the writing and reading of XML text, the opening, and the formatting of the report, each with its own special cases.", "anchors": ["COT/commands/edit_product.py:COTEditProduct.run", "COT/commands/edit_properties.py:COTEditProperties.run", "COT/vm_description/ovf/ovf.py:OVF.write", "COT/vm_description/ovf/ovf.py:OVF.info_string", "COT/xml_file.py:XML.write_xml"]}
{"id": "C125", "title": "What the command line asks the editing commands for is what is done", "statement": "When cot edit-product, edit-properties, add-disk, add-file, remove-file or inject-config is carried out, under any of their names and with any order and spelling of options, then the package named is the one opened, the last output given is the one written to, and the effect is the one that the options ask for: edit-product sets each field to the last text given for it and leaves the others; edit-properties sets each property to the last value given for it, with the label and the description at the same place of their lists; add-file enters the file named, which exists, under the identifier given; remove-file removes the one file with the path and the identifier given; inject-config takes the configuration files and the extra files given, which exist and have a place on the platform; add-disk leaves a drive of the type given (or that goes with the format of the image) for the image, on a controller of the type and sub-type given, with the identifier given for the file, and a new drive is at the address and has the name and the description given. Conversely, a right command line whose files exist is carried out as this request, with its result or its error.", "quantifier": "all command lines without options that only print, all packages and file systems, all answers of the user", "why_tests_cant": "A test gives one command line; which attribute an option reaches, in which order the attributes are set, which use of a repeated option counts, and what the command then does with it, depends on all of the options together.", "anchors": ["COT/ui/cli.py:CLI.run", "COT/commands/command.py:ReadWriteCommand", "COT/commands/edit_product.py:COTEditProduct", "COT/commands/edit_properties.py:COTEditProperties", "COT/commands/add_file.py:COTAddFile", "COT/commands/remove_file.py:COTRemoveFile", "COT/commands/inject_config.py:COTInjectConfig", "COT/commands/add_disk.py:COTAddDisk"]}
{"id": "C126", "title": "Every log message is shown once, as -v and -q say, in every run of a process", "statement": "In every run of COT each message that is logged is shown exactly once if it is important enough for the number of -v or -q given, and not at all otherwise; without options these are the messages down to NOTICE, each -v adds a level and each -q removes one, but critical messages are always shown. The line names the level, with -v also the module, with -vv also the function, and with more also the time and the line number. This does not depend on what ran before in the same process, with which verbosity, and how it ended. After the last run nothing is shown any more.", "quantifier": "all histories of runs of any number of CLI objects in one process, with all numbers of -v and -q, all ways to end, and all messages", "why_tests_cant": "The logger is shared by the whole process and handlers are attached to and removed from it by each run; whether a message is shown twice or with the verbosity of an earlier run depends on the whole history.", "anchors": ["COT/ui/cli.py:CLI.adjust_verbosity", "COT/ui/cli.py:CLI.set_verbosity", "COT/ui/cli.py:CLI.main", "COT/ui/cli.py:CLILoggingFormatter"]}
{"id": "C127", "title": "cot deploy calls ovftool with what its command line says", "statement": "cot deploy PACKAGE HYPERVISOR LOCATOR with any options, under each name that the command offers for the hypervisor, either fails before anything is deployed, or runs ovftool once to deploy, with the package, the target vi://USER:PASSWORD@LOCATOR, the profile requested (which the package declares) or chosen, one --net argument for each --network-map in their order, the last --vm-name or else the name of the package, --powerOn exactly if --power-on is given, the last --datastore, and the arguments of the last --ovftool-args; afterwards the serial ports are set to the connections of all --serial-connection options in their order. A right command line whose values are well-formed is never refused before the deployment.", "quantifier": "all command lines for deploy with any options, repeated, abbreviated and in any order, all packages, answers of the user, behaviours of ovftool and of the server", "why_tests_cant": "The meaning of a command line depends on the interplay of argparse, the order in which attributes are set, the setters of two classes and the run; tests set attributes directly and try single options.", "anchors": ["COT/commands/deploy.py:COTDeploy", "COT/commands/deploy_esxi.py:COTDeployESXi", "COT/ui/cli.py:CLI.main", "COT/ui/cli.py:CLI.set_instance_attributes"]}
{"id": "C128", "title": "cot info tells about the packages of its command line, as its options ask", "statement": "cot info (or describe) with flags before and after the packages reports on exactly the packages named on the command line, in their order and with an empty line between, with the brief report if --brief or -b is given, the verbose one if --verbose or -v is given, and the normal one otherwise, however often and wherever the flag is given. With both flags, or with a flag between packages, it is a usage error and nothing is printed; if one of the packages does not exist, nothing is printed; a file that is no virtual machine description gets an error message and does not keep the others from being shown.", "quantifier": "all command lines of info with options of the program, flags before and after the packages, abbreviated or repeated; any number of packages; all packages and widths of the terminal", "why_tests_cant": "-v is an option of the program and of the command with different meanings, the flags share one attribute, and packages and flags can stand in many orders; tests run the command on attributes that were set directly.", "anchors": ["COT/commands/info.py:COTInfo", "COT/ui/cli.py:CLI.main", "COT/ui/cli.py:CLI.set_instance_attributes", "COT/ui/cli.py:CLI.args_to_dict"]}
{"id": "C129", "title": "cot install-helpers verifies or installs as its command line asks", "statement": "cot install-helpers verifies only exactly if --verify-only is given and ignores errors exactly if --ignore-errors or -i is given, also if the option is abbreviated or repeated; both together are a usage error, and a usage error leaves the machine as it is. With --verify-only the machine is never changed. If the command succeeds without either option, and installing does not remove anything, the four helper programs are there afterwards, and one of the programs for ISO images.", "quantifier": "all command lines of install-helpers with options of the program, abbreviated or repeated; all machines, installers and manual pages", "why_tests_cant": "The options pass through abbreviation, a mutually exclusive group and the setting of attributes before the command looks at them, and the machine can be in any state; tests set the attributes directly.", "anchors": ["COT/commands/install_helpers.py:COTInstallHelpers", "COT/ui/cli.py:CLI.main", "COT/ui/cli.py:CLI.set_instance_attributes", "COT/ui/cli.py:CLI.args_to_dict"]}
{"id": "C130", "title": "cot help prints the help of the command that is named", "statement": "cot help with the name of a command, or another of its names, prints the help of the parser that is used for that command; with deploy- and the name of a hypervisor it prints the help for deploying to it. Any other text is refused and nothing is printed, and so are several words. cot help alone prints the help of the program, whatever was run before.", "quantifier": "all command lines of help with options of the program; all texts; all histories of earlier runs of the same CLI object", "why_tests_cant": "The name goes through the option parser, the setting of attributes and a table that is built while commands are registered; the attribute of the command outlives a run; tests look at a few names in a fresh object.", "anchors": ["COT/commands/help.py:COTHelp", "COT/ui/cli.py:CLI.add_subparser", "COT/ui/cli.py:CLI.main", "COT/ui/cli.py:CLI.set_instance_attributes"]}
{"id": "C131", "title": "A command writes the package where its own command line says, whatever was run before", "statement": "A command that changes a package works on the package its command line names and writes it to the file given with --output, or over the package itself if there is none, in every run of a CLI object, whatever commands were run before on the same object.", "quantifier": "all commands that change packages, all their command lines, all histories of earlier runs of the CLI object, all answers to questions", "why_tests_cant": "Command objects are made once and keep their attributes between runs; tests run one command in a fresh object, and the histories are without bound.", "anchors": ["COT/ui/cli.py:CLI.run", "COT/ui/cli.py:CLI.set_instance_attributes", "COT/commands/command.py:ReadWriteCommand.output", "COT/commands/command.py:ReadWriteCommand.package", "COT/commands/command.py:ReadWriteCommand.run"]}
