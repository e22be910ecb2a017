{
 "claims": [
  {
   "property": "C01",
   "status": "proved",
   "theorems": [
    "Cot.C01_set_property_isolation",
    "Cot.C01_set_property_succeeds",
    "Cot.C01_clear_property"
   ],
   "note": "Ordinary properties (not ElementName/Description, whose text is a template over other properties). Profiles inheriting the default follow it when the default is set; stated explicitly."
  },
  {
   "property": "C02",
   "status": "proved",
   "theorems": [
    "Cot.C02_edits_preserve_consistency"
   ],
   "note": "Reachability over arbitrary edit histories, environment may change between edits."
  },
  {
   "property": "C03",
   "status": "proved",
   "theorems": [
    "Cot.C03_add_item_no_overwrite",
    "Cot.C03_default_after_specific_rejected"
   ],
   "note": ""
  },
  {
   "property": "C04",
   "status": "proved",
   "theorems": [
    "Cot.C04_remove_profile",
    "Cot.C04_remove_profile_keep_default",
    "Cot.C04_remove_default_drops_inheritors_fails"
   ],
   "note": "Named profiles; for the default profile itself inheritors lose the item (witness)."
  },
  {
   "property": "C05",
   "status": "proved",
   "theorems": [
    "Cot.C05_add_profile",
    "Cot.C05_unconfigured_profile_fails"
   ],
   "note": "Named profiles."
  },
  {
   "property": "C06",
   "status": "proved",
   "theorems": [
    "Cot.C06_get_value_agreement",
    "Cot.C06_order_independent",
    "Cot.C06_get_value_no_profiles",
    "Cot.C06_all_values"
   ],
   "note": "Ordinary properties."
  },
  {
   "property": "C07",
   "status": "proved",
   "theorems": [
    "Cot.C07_profile_groups",
    "Cot.C07_profile_groups_minimal",
    "Cot.C07_group_strings"
   ],
   "note": "For every set iteration order. The strings theorem assumes profile names are non-empty and free of white space (OVF ids)."
  },
  {
   "property": "C08",
   "status": "partial",
   "theorems": [
    "Cot.C08_roundtrip_preserves",
    "Cot.C08_roundtrip_succeeds_partial",
    "Cot.C08_roundtrip_names_partial",
    "Cot.C08_child_attributes_fails",
    "Cot.C08_placeholder_confusion_fails"
   ],
   "note": "Preservation of ordinary properties is proved for every consistent item with representable values; success of both directions, and preservation of names and descriptions under every profile, for items whose texts cannot be confused with placeholders (TameItem), given that re.sub replaces plain patterns literally. False for attributes of child elements and for confusable texts: witnesses."
  },
  {
   "property": "C09",
   "status": "partial",
   "theorems": [
    "Cot.C09_instance_id_partial",
    "Cot.C09_scoped_edits",
    "Cot.C09_set_unscoped_fails"
   ],
   "note": "False in general: setting a property for a profile under which the item does not exist yields an Item without InstanceID (witness). Proved for items whose values are stored only where the item exists, and that edits within those profiles preserve this."
  },
  {
   "property": "C10",
   "status": "proved",
   "theorems": [
    "Cot.C10_unused_instance_id"
   ],
   "note": "least unused number >= start, for every collection and start; termination is part of the statement"
  },
  {
   "property": "C11",
   "status": "proved",
   "theorems": [
    "Cot.C11_new_item",
    "Cot.C11_clone_item",
    "Cot.C11_clone_into_all_named_fails",
    "Cot.C11_clone_into_default_fails"
   ],
   "note": "the _fails theorems document clones of default-profile items that the code gets wrong (outside the claim's configured profiles)"
  },
  {
   "property": "C12",
   "status": "partial",
   "theorems": [
    "Cot.C12_get_item_count",
    "Cot.C12_set_item_count_named_partial",
    "Cot.C12_set_item_count_all_partial",
    "Cot.C12_all_profiles_mixed_fails",
    "Cot.C12_all_profiles_error_fails",
    "Cot.C12_named_covering_error_fails",
    "Cot.C12_duplicate_profile_fails"
   ],
   "note": "Proved for any list of distinct configured profiles, and for the all-profiles default when the items of the type are stored for the default profile. The unrestricted property is false of the code; the _fails theorems are counterexamples."
  },
  {
   "property": "C13",
   "status": "proved",
   "theorems": [
    "Cot.C13_set_value_for_all",
    "Cot.C13_set_value_for_all_succeeds"
   ],
   "note": ""
  },
  {
   "property": "C14",
   "status": "proved",
   "theorems": [
    "Cot.C14_set_item_values",
    "Cot.C14_set_item_values_succeeds"
   ],
   "note": ""
  },
  {
   "property": "C15",
   "status": "proved",
   "theorems": [
    "Cot.C15_natural_sort_perm",
    "Cot.C15_natural_sort_ordered",
    "Cot.C15_natural_order_total",
    "Cot.C15_natural_sort_stable",
    "Cot.C15_natural_sort_idempotent",
    "Cot.C15_numeric_order"
   ],
   "note": "ASCII digits."
  },
  {
   "property": "C16",
   "status": "proved",
   "theorems": [
    "Cot.C16_alphanum_split",
    "Cot.C16_rejoin"
   ],
   "note": "ASCII digits."
  },
  {
   "property": "C17",
   "status": "proved",
   "theorems": [
    "Cot.C17_check_for_conflict",
    "Cot.C17_order_independent"
   ],
   "note": ""
  },
  {
   "property": "C18",
   "status": "proved",
   "theorems": [
    "Cot.C18_canonicalize_nic",
    "Cot.C18_canonicalize_scsi",
    "Cot.C18_canonicalize_ide"
   ],
   "note": ""
  },
  {
   "property": "C19",
   "status": "proved",
   "theorems": [
    "Cot.C19_validate_int",
    "Cot.C19_non_negative_and_positive"
   ],
   "note": "string arguments; ASCII numerals (see DESIGN.md)"
  },
  {
   "property": "C20",
   "status": "proved",
   "theorems": [
    "Cot.C20_mac_address",
    "Cot.C20_device_address"
   ],
   "note": ""
  },
  {
   "property": "C21",
   "status": "proved",
   "theorems": [
    "Cot.C21_file_checksum",
    "Cot.C21_unsupported"
   ],
   "note": "hash algorithms are a parameter obeying update(a+b) = update(a);update(b)"
  },
  {
   "property": "C22",
   "status": "partial",
   "theorems": [
    "Cot.C22_roundtrip_partial",
    "Cot.C22_roundtrip_py2_partial",
    "Cot.C22_roundtrip_py3_exact",
    "Cot.C22_units",
    "Cot.C22_refused",
    "Cot.C22_zero_fails",
    "Cot.C22_large_fails"
   ],
   "note": "the round trip holds for every positive size below 2^63 on both Pythons, and for all positive sizes on Python 2; it is false at 0 (no termination) and on Python 3 for large sizes that need more than 53 bits (both proved with witnesses)"
  },
  {
   "property": "C23",
   "status": "proved",
   "theorems": [
    "Cot.C23_largest_unit"
   ],
   "note": "on Python 3 for values exactly representable as a double after scaling; see C22 for the counterexamples beyond that"
  },
  {
   "property": "C24",
   "status": "proved",
   "theorems": [
    "Cot.C24_manifest_roundtrip",
    "Cot.C24_parse_manifest"
   ],
   "note": ""
  },
  {
   "property": "C25",
   "status": "partial",
   "theorems": [
    "Cot.C25_tar_entry_size",
    "Cot.C25_predicted_size_partial",
    "Cot.C25_predicted_size_bound",
    "Cot.C25_predicted_size_fails"
   ],
   "note": "tar_entry_size is exact; predicted_output_size omits the descriptor's own manifest line, so it can be one tar block short (proved)"
  },
  {
   "property": "C26",
   "status": "partial",
   "theorems": [
    "Cot.C26_untar_safe_partial",
    "Cot.C26_untar_safe_fresh",
    "Cot.C26_plain_names_inside",
    "Cot.C26_accepts",
    "Cot.C26_descriptor",
    "Cot.C26_no_descriptor",
    "Cot.C26_sibling_fails"
   ],
   "note": "every accepted member points into the working directory or into a sibling directory whose name extends the working directory's name; the sibling case is accepted by the code (proved), and is excluded when no member component begins with the working directory's name. Symbolic links are not modelled"
  },
  {
   "property": "C27",
   "status": "proved",
   "theorems": [
    "Cot.C27_add_child"
   ],
   "note": ""
  },
  {
   "property": "C28",
   "status": "proved",
   "theorems": [
    "Cot.C28_set_or_make_child",
    "Cot.C28_error_iff"
   ],
   "note": ""
  },
  {
   "property": "C29",
   "status": "partial",
   "theorems": [
    "Cot.C29_same_elements",
    "Cot.C29_layout_only_partial",
    "Cot.C29_output_element_only",
    "Cot.C29_idempotent",
    "Cot.C29_mixed_content_fails"
   ],
   "note": "elements, tags, attributes and leaf texts are kept for every tree; 'only white space changes' holds for trees without mixed content and is false in general because text next to child elements is overwritten (proved)"
  },
  {
   "property": "C30",
   "status": "proved",
   "theorems": [
    "Cot.C30_inverse",
    "Cot.C30_known_tags",
    "Cot.C30_resource_type_has_tag",
    "Cot.C30_qualified_names"
   ],
   "note": ""
  },
  {
   "property": "C31",
   "status": "partial",
   "theorems": [
    "Cot.C31_expand",
    "Cot.C31_length",
    "Cot.C31_no_placeholder_left_partial",
    "Cot.C31_placeholder_left_fails"
   ],
   "note": "placeholders stay in the result when the list already has enough entries or when substitution creates a new one (proved with witnesses)"
  },
  {
   "property": "C32",
   "status": "proved",
   "theorems": [
    "Cot.C32_guess_sound",
    "Cot.C32_guesses_sequence"
   ],
   "note": ""
  },
  {
   "property": "C33",
   "status": "proved",
   "theorems": [
    "Cot.C33_parse",
    "Cot.C33_unambiguous",
    "Cot.C33_rejects",
    "Cot.C33_no_key"
   ],
   "note": "for arguments without newline characters, as in the statement"
  },
  {
   "property": "C34",
   "status": "proved",
   "theorems": [
    "Cot.C34_memory",
    "Cot.C34_rejects",
    "Cot.C34_monotone"
   ],
   "note": ""
  },
  {
   "property": "C35",
   "status": "proved",
   "theorems": [
    "Cot.C35_order",
    "Cot.C35_history"
   ],
   "note": "Both setting orders give the same outcome, decided by the documented limits; and any history of settings leaves an accepted pair."
  },
  {
   "property": "C36",
   "status": "partial",
   "theorems": [
    "Cot.C36_new_disk_partial",
    "Cot.C36_full",
    "Cot.C36_explicit",
    "Cot.C36_open_controller_partial",
    "Cot.C36_new_controller",
    "Cot.C36_per_profile_parent_fails"
   ],
   "note": "Proved for devices with one parent and one address; a device whose parent differs between profiles is overlooked (refuted with a witness)."
  },
  {
   "property": "C37",
   "status": "partial",
   "theorems": [
    "Cot.C37_limits_partial",
    "Cot.C37_history",
    "Cot.C37_errors",
    "Cot.C37_repeated_call_fails",
    "Cot.C37_nic_types",
    "Cot.C37_nic_types_known"
   ],
   "note": "Values not asked about before are accepted exactly if supported; the 'every time' part is false because a refused value is cached (refuted; C37_history says exactly what happens)."
  },
  {
   "property": "C38",
   "status": "proved",
   "theorems": [
    "Cot.C38_names_distinct",
    "Cot.C38_unknown_product"
   ],
   "note": "Proved for all integers, hence for all n >= 1."
  },
  {
   "property": "C39",
   "status": "partial",
   "theorems": [
    "Cot.C39_fresh",
    "Cot.C39_repeated",
    "Cot.C39_agrees_partial",
    "Cot.C39_agreed_fails"
   ],
   "note": "A first check of a directory behaves as stated and later answers are characterised; the full statement is false because a check the user agreed to is later answered False from the cache (refuted)."
  },
  {
   "property": "C40",
   "status": "partial",
   "theorems": [
    "Cot.C40_sound",
    "Cot.C40_installed",
    "Cot.C40_installs",
    "Cot.C40_not_found_partial",
    "Cot.C40_install_error_fails"
   ],
   "note": "Everything stated is proved except that an installation failure is raised as such instead of HelperNotFoundError / trying the next choice (refuted)."
  },
  {
   "property": "C41",
   "status": "partial",
   "theorems": [
    "Cot.C41_choose_partial",
    "Cot.C41_listed",
    "Cot.C41_zero_fails"
   ],
   "note": "Proved except that 0 and negative numbers select options from the end of the list (refuted)."
  },
  {
   "property": "C42",
   "status": "partial",
   "theorems": [
    "Cot.C42_set",
    "Cot.C42_refused",
    "Cot.C42_accepts",
    "Cot.C42_history_partial",
    "Cot.C42_type_kept_fails"
   ],
   "note": "Stored values, refusals and acceptance are proved exactly; for histories a refused change of type must be excluded, because the new type is stored although the value is refused (refuted)."
  },
  {
   "property": "C43",
   "status": "partial",
   "theorems": [
    "Cot.C43_commands",
    "Cot.C43_lines",
    "Cot.C43_keys",
    "Cot.C43_unsupported",
    "Cot.C43_sorted_partial",
    "Cot.C43_sorted_fails"
   ],
   "note": "Numbering, order and distinctness hold for every file length; string sorting recovers the order up to 9999 lines and fails beyond (refuted)."
  },
  {
   "property": "C44",
   "status": "proved",
   "theorems": [
    "Cot.C44_transports",
    "Cot.C44_transports_v0",
    "Cot.C44_known",
    "Cot.C44_types"
   ],
   "note": "Round trip for every list of non-empty, separator-free entries; OVF 0.9 transports are a no-op."
  },
  {
   "property": "C45",
   "status": "proved",
   "theorems": [
    "Cot.C45_refresh",
    "Cot.C45_no_section"
   ],
   "note": "For every envelope with one NetworkSection and NIC items with at most one Connection each; OVF 1.0 and 2.0."
  },
  {
   "property": "C46",
   "status": "proved",
   "theorems": [
    "Cot.C46_listing",
    "Cot.C46_create",
    "Cot.C46_delete",
    "Cot.C46_unknown",
    "Cot.C46_no_section_fails"
   ],
   "note": "Everything the claim says; the additional finding C46_no_section_fails records that a package without a DeploymentOptionSection raises AttributeError instead of the documented LookupError."
  },
  {
   "property": "C47",
   "status": "proved",
   "theorems": [
    "Cot.C47_best",
    "Cot.C47_from_file",
    "Cot.C47_kinds"
   ],
   "note": ""
  },
  {
   "property": "C48",
   "status": "partial",
   "theorems": [
    "Cot.C48_refresh_partial",
    "Cot.C48_missing_partial",
    "Cot.C48_create",
    "Cot.C48_history_partial",
    "Cot.C48_fresh",
    "Cot.C48_unread_fails",
    "Cot.C48_second_fails",
    "Cot.C48_second_missing_fails"
   ],
   "note": "refresh reports and records exactly what changed when size and checksum have been read before and both differ or both agree; three cases where a change goes unnoticed are refuted by witnesses."
  },
  {
   "property": "C49",
   "status": "proved",
   "theorems": [
    "Cot.C49_written",
    "Cot.C49_cleanup",
    "Cot.C49_result",
    "Cot.C49_load"
   ],
   "note": "The directory clean-up is proved under the assumption that measuring its size for the log message does not fail."
  },
  {
   "property": "C50",
   "status": "proved",
   "theorems": [
    "Cot.C50_accepts",
    "Cot.C50_parse",
    "Cot.C50_options",
    "Cot.C50_tcp",
    "Cot.C50_sound",
    "Cot.C50_list",
    "Cot.C50_four",
    "Cot.C50_ports",
    "Cot.C50_trailing_fails",
    "Cot.C50_colon_fails",
    "Cot.C50_pipe_late_fails"
   ],
   "note": "All of the claim, for every string. Findings beyond it (witnesses): text after a port number is dropped silently and the colon is optional."
  },
  {
   "property": "C51",
   "status": "proved",
   "theorems": [
    "Cot.C51_args",
    "Cot.C51_run",
    "Cot.C51_network_map"
   ],
   "note": ""
  },
  {
   "property": "C52",
   "status": "partial",
   "theorems": [
    "Cot.C52_capacity_partial",
    "Cot.C52_commands",
    "Cot.C52_iso",
    "Cot.C52_estimate",
    "Cot.C52_estimate_partial",
    "Cot.C52_estimate_fails",
    "Cot.C52_capacity_huge_fails"
   ],
   "note": "The image holds all files for totals below 2^70 bytes (always on Python 2; refuted for absurd totals on Python 3). The space estimate made beforehand can be 8 MiB too small (refuted)."
  },
  {
   "property": "C53",
   "status": "proved",
   "theorems": [
    "Cot.C53_verbosity"
   ],
   "note": ""
  },
  {
   "property": "C54",
   "status": "partial",
   "theorems": [
    "Cot.C54_reload_partial",
    "Cot.C54_edits_noticed",
    "Cot.C54_untouched"
   ],
   "note": "Proved end to end (update, reload, compare every value for every profile; other children kept) for items that XML can represent (Storable); that no edit goes unnoticed by the update is proved for every history without restriction."
  },
  {
   "property": "C55",
   "status": "proved",
   "theorems": [
    "Cot.C55_loaded_consistent"
   ],
   "note": "InstanceID elements with the text '' (never produced by the XML parser, which gives None) are excluded."
  },
  {
   "property": "C56",
   "status": "proved",
   "theorems": [
    "Cot.C56_no_whitespace"
   ],
   "note": ""
  },
  {
   "property": "C57",
   "status": "proved",
   "theorems": [
    "Cot.C57_truth_value"
   ],
   "note": ""
  },
  {
   "property": "C58",
   "status": "proved",
   "theorems": [
    "Cot.C58_confirm",
    "Cot.C58_force",
    "Cot.C58_validate_value",
    "Cot.C58_get_input"
   ],
   "note": ""
  },
  {
   "property": "C59",
   "status": "proved",
   "theorems": [
    "Cot.C59_fields"
   ],
   "note": "OVF 1.0 and 2.0 envelopes with at most one ProductSection."
  },
  {
   "property": "C60",
   "status": "proved",
   "theorems": [
    "Cot.C60_create"
   ],
   "note": "OVF 1.0 and 2.0 envelopes with at most one NetworkSection and distinct network names."
  },
  {
   "property": "C61",
   "status": "partial",
   "theorems": [
    "Cot.C61_convert_partial",
    "Cot.C61_commands",
    "Cot.C61_if_needed",
    "Cot.C61_neighbour_fails"
   ],
   "note": "Proved for inputs whose name has a character other than '.' before the extension; an unrelated .img file of the same name in the output directory is overwritten and deleted (witness)."
  },
  {
   "property": "C62",
   "status": "proved",
   "theorems": [
    "Cot.C62_capacity",
    "Cot.C62_create"
   ],
   "note": ""
  },
  {
   "property": "C63",
   "status": "partial",
   "theorems": [
    "Cot.C63_order",
    "Cot.C63_status_partial",
    "Cot.C63_codes",
    "Cot.C63_zero_errno_fails"
   ],
   "note": "Proved for errors whose number is not a multiple of 256; such an error exits with status 0 (refuted)."
  },
  {
   "property": "C64",
   "status": "partial",
   "theorems": [
    "Cot.C64_consent",
    "Cot.C64_refused_partial",
    "Cot.C64_default",
    "Cot.C64_in_step_fails"
   ],
   "note": "Consent is proved for every history; an unsupported output path that was refused is accepted silently when repeated, the package then being written to the earlier output (witness)."
  },
  {
   "property": "C65",
   "status": "partial",
   "theorems": [
    "Cot.C65_values_partial",
    "Cot.C65_contradiction_fails"
   ],
   "note": "Proved for properties other than the name and the description, and for Items with disjoint profiles; contradictory Items for the same profile may be accepted (witness)."
  },
  {
   "property": "C66",
   "status": "partial",
   "theorems": [
    "Cot.C66_add_file",
    "Cot.C66_distinct_partial",
    "Cot.C66_kept",
    "Cot.C66_reference",
    "Cot.C66_duplicate_id_fails",
    "Cot.C66_dangling_fails"
   ],
   "note": "All parts are proved except: without an explicit identifier the base name is used even if another File has that identifier (refuted), and replacing a file under another identifier leaves the Disk on it dangling (refuted)."
  },
  {
   "property": "C67",
   "status": "partial",
   "theorems": [
    "Cot.C67_add_disk",
    "Cot.C67_others",
    "Cot.C67_place",
    "Cot.C67_distinct",
    "Cot.C67_coherent",
    "Cot.C67_subtype_partial",
    "Cot.C67_subtype_order_fails",
    "Cot.C67_duplicate_disk_fails",
    "Cot.C67_address_ignored_fails",
    "Cot.C67_platform",
    "Cot.C67_names"
   ],
   "note": "Proved for every package with tidy hardware (each device has an InstanceID and no device is its own parent) and sensible requests. Findings with witnesses: a second Disk with the same identifier can arise; the sub-type of a new controller depends on the order of the existing ones if one of them has none; a requested address is ignored when an existing empty drive is filled."
  },
  {
   "property": "C68",
   "status": "partial",
   "theorems": [
    "Cot.C68_remove_file",
    "Cot.C68_no_dangling_partial",
    "Cot.C68_succeeds",
    "Cot.C68_profile_only_fails",
    "Cot.C68_mixed_style_fails",
    "Cot.C68_missing_fails"
   ],
   "note": "Absence of dangling references is proved when File ids are distinct, devices belong to the default profile and references are of one style; refuted without these (witnesses), and refuted for files missing on disk."
  },
  {
   "property": "C69",
   "status": "partial",
   "theorems": [
    "Cot.C69_by_name",
    "Cot.C69_by_id",
    "Cot.C69_by_address",
    "Cot.C69_only_device",
    "Cot.C69_found_partial",
    "Cot.C69_found_by_address_partial",
    "Cot.C69_profile_only_fails"
   ],
   "note": "Sound and complete for devices of the default profile; devices that exist only under a named profile are not found (witness)."
  },
  {
   "property": "C70",
   "status": "partial",
   "theorems": [
    "Cot.C70_files_partial",
    "Cot.C70_capacity",
    "Cot.C70_dangling_device_fails",
    "Cot.C70_dangling_disk_fails"
   ],
   "note": "Entries, sizes and capacities are proved (OVF 1.0 and 2.0, capacities between 1 and 2^63); that no Disk or device refers to a dropped File is false (witnesses)."
  },
  {
   "property": "C71",
   "status": "partial",
   "theorems": [
    "Cot.C71_add_file",
    "Cot.C71_remove_file",
    "Cot.C71_add_disk_partial",
    "Cot.C71_refused",
    "Cot.C71_subtype_fails",
    "Cot.C71_same_subtype_fails"
   ],
   "note": "Proved except for the sub-type of a controller whose sub-type depends on the profile, which is overwritten without a question (witness); for a sub-type that is already set the question is asked needlessly (witness)."
  },
  {
   "property": "C72",
   "status": "partial",
   "theorems": [
    "Cot.C72_archive_partial",
    "Cot.C72_directory_partial",
    "Cot.C72_subdirectory_fails"
   ],
   "note": "Proved for packages whose files have plain names and are not named like the descriptor or manifest, given that tarfile and the UTF-8 codec give back what was put in. Files named with a subdirectory are copied to the wrong place and are missing afterwards (witness)."
  },
  {
   "property": "C73",
   "status": "proved",
   "theorems": [
    "Cot.C73_archive",
    "Cot.C73_directory"
   ],
   "note": "Exact contents of the output, for every package whose files have plain names and are not named like the descriptor or manifest."
  },
  {
   "property": "C74",
   "status": "partial",
   "theorems": [
    "Cot.C74_archive",
    "Cot.C74_directory",
    "Cot.C74_archive_sources_partial",
    "Cot.C74_directory_sources_partial",
    "Cot.C74_in_place_fails",
    "Cot.C74_neighbour_fails"
   ],
   "note": "Proved for every prefix of the changes, also of failing runs. Overwriting an archive in place passes through a moment at which the package is lost (proved for every package), and a file of another origin in the output directory is overwritten without a question (witness)."
  },
  {
   "property": "C75",
   "status": "partial",
   "theorems": [
    "Cot.C75_complaints",
    "Cot.C75_silent_partial",
    "Cot.C75_files",
    "Cot.C75_opens",
    "Cot.C75_damage",
    "Cot.C75_damage_directory",
    "Cot.C75_algorithm_fails",
    "Cot.C75_subdirectory_fails"
   ],
   "note": "The complaints are characterised exactly, for manifests read with the algorithm of the OVF version. A manifest made with another algorithm makes an intact package look tampered with, and an archive with its descriptor in a subdirectory is accepted and then cannot be opened (witnesses)."
  },
  {
   "property": "C76",
   "status": "proved",
   "theorems": [
    "Cot.C76_profiles",
    "Cot.C76_consent",
    "Cot.C76_labels",
    "Cot.C76_ready",
    "Cot.C76_refuses"
   ],
   "note": "For packages of OVF 1 and 2 whose sections are not duplicated (EhStart)."
  },
  {
   "property": "C77",
   "status": "proved",
   "theorems": [
    "Cot.C77_isolation"
   ],
   "note": "For every combination of options, under EhStart."
  },
  {
   "property": "C78",
   "status": "proved",
   "theorems": [
    "Cot.C78_devices",
    "Cot.C78_descriptor"
   ],
   "note": "Under EhStart. The deletion of profiles is separated from the edits: it leaves the machines of the other profiles as they are."
  },
  {
   "property": "C79",
   "status": "partial",
   "theorems": [
    "Cot.C79_cpus",
    "Cot.C79_memory",
    "Cot.C79_subtypes",
    "Cot.C79_counts",
    "Cot.C79_lists_partial",
    "Cot.C79_names_partial",
    "Cot.C79_nic_names_fails",
    "Cot.C79_confirmed_nic_type_fails",
    "Cot.C79_confirmed_cpus_fails",
    "Cot.C79_cpu_of_other_profile_fails",
    "Cot.C79_values_skipped_fails",
    "Cot.C79_empty_lists_fails"
   ],
   "note": "Proved for the devices that there are; for NIC names on top of the placeholder mechanism (C08), for names and values that cannot be mistaken for placeholders. Witnesses: NICs beyond the expanded list of names are called None; a CPU is not created for a profile if another profile has one; values of lists are used up by NICs that the profile does not have; empty lists name the NICs None or raise IndexError; values that the user insisted on are refused."
  },
  {
   "property": "C80",
   "status": "proved",
   "theorems": [
    "Cot.C80_consent",
    "Cot.C80_connectivity",
    "Cot.C80_declined"
   ],
   "note": "Under EhStart; the numbers in the question are those of the package as it was."
  },
  {
   "property": "C81",
   "status": "partial",
   "theorems": [
    "Cot.C81_networks",
    "Cot.C81_connections_partial",
    "Cot.C81_inferred",
    "Cot.C81_kept",
    "Cot.C81_descriptions",
    "Cot.C81_new_nics_unconnected_fails"
   ],
   "note": "Proved for given networks, for inferred networks, for descriptions and for packages without networks. New NICs of a package that declares networks but has no NIC are connected to nothing (witness)."
  },
  {
   "property": "C82",
   "status": "proved",
   "theorems": [
    "Cot.C82_cpus",
    "Cot.C82_memory",
    "Cot.C82_counts",
    "Cot.C82_nic_types",
    "Cot.C82_controller_types",
    "Cot.C82_then_accepted",
    "Cot.C79_confirmed_nic_type_fails",
    "Cot.C79_confirmed_cpus_fails"
   ],
   "note": "All of the claim, with exact acceptance conditions. The two exceptions that it makes are real (witnesses): what the user insisted on is refused later for CPU counts of the platforms that list them and for NIC types."
  },
  {
   "property": "C83",
   "status": "proved",
   "theorems": [
    "Cot.C83_edit_product",
    "Cot.C83_refused",
    "Cot.C83_clear_fails"
   ],
   "note": "For packages of OVF 1 and 2 with at most one product section, and each of its texts at most once (ProductWF). Witness beside it: a text cannot be made empty on its own, the command refuses to run."
  },
  {
   "property": "C84",
   "status": "proved",
   "theorems": [
    "Cot.C84_properties",
    "Cot.C84_last",
    "Cot.C84_config",
    "Cot.C84_transports",
    "Cot.C84_consent",
    "Cot.C84_succeeds",
    "Cot.C84_refused",
    "Cot.C84_existing_asked_fails"
   ],
   "note": "For packages of OVF 1 and 2 with unique property keys (PropsWF). Witness beside it: an existing property without a value is asked about as if it did not exist."
  },
  {
   "property": "C85",
   "status": "partial",
   "theorems": [
    "Cot.C85_session",
    "Cot.C85_quit",
    "Cot.C85_again",
    "Cot.C85_keep",
    "Cot.C85_stored",
    "Cot.C85_refused_partial",
    "Cot.C85_force",
    "Cot.C85_eof",
    "Cot.C85_started",
    "Cot.C85_q_fails",
    "Cot.C85_refused_marks_fails"
   ],
   "note": "Each kind of line is characterised exactly, and every session as a whole. The last sentence is false (witnesses): properties named q or Q cannot be edited, to pick them ends the session; a refused value still marks the property as configurable. Numbers that wrap around (C41) are excluded where a line selects."
  },
  {
   "property": "C86",
   "status": "partial",
   "theorems": [
    "Cot.C86_arguments",
    "Cot.C86_image",
    "Cot.C86_medium_partial",
    "Cot.C86_refused",
    "Cot.C86_again",
    "Cot.C86_profile_only_fails",
    "Cot.C86_stale_file_fails",
    "Cot.C86_media_fails",
    "Cot.C86_same_name_fails"
   ],
   "note": "Proved for packages whose drives are all in the default configuration, on IDE, SCSI or SATA controllers with numeric addresses (Bays), for images of less than 2^70 bytes and capacities up to 2^63. Missing because false (witnesses): a drive that exists only in a named profile is not used, another is added at its address; a File of that name that no drive uses makes the command fail although there is an empty drive; a drive whose medium depends on the profile counts as empty; an extra file may have the name of the configuration file."
  },
  {
   "property": "C87",
   "status": "proved",
   "theorems": [
    "Cot.C87_one_reading",
    "Cot.C87_size",
    "Cot.C87_accepted",
    "Cot.C87_order",
    "Cot.C87_whole",
    "Cot.C87_huge_fails"
   ],
   "note": "For sizes of 2^53 bytes and more, which the code first rounds to a double, the bound is 1/1999 instead of 1/2000. From 1024 YiB on the code raises an IndexError (witness), which is outside the claim."
  },
  {
   "property": "C88",
   "status": "partial",
   "theorems": [
    "Cot.C88_result",
    "Cot.C88_warnings_partial",
    "Cot.C88_completes_partial",
    "Cot.C88_two_cpus_fails",
    "Cot.C88_no_quantity_fails",
    "Cot.C88_second_profile_fails",
    "Cot.C88_asked_before_fails",
    "Cot.C88_nic_types_fails"
   ],
   "note": "Proved for a platform object that has not been asked before, with at most one CPU item and one memory item in each profile, with numbers in them (PlainHardware; only for coming to an end). Missing because false (witnesses): two CPU items or one without quantity raise an exception and nothing is written; an unsupported value is reported for one profile only; a value that the same command has asked about is not reported; the types of NICs are reported for profiles that do not have the NIC."
  },
  {
   "property": "C89",
   "status": "partial",
   "theorems": [
    "Cot.C89_profiles",
    "Cot.C89_completes_partial",
    "Cot.C89_capacity_fails",
    "Cot.C89_no_quantity_fails",
    "Cot.C89_two_cpus_fails"
   ],
   "note": "Proved for whatever is shown; and that it is shown if each profile has at most one CPU and one memory item with numbers in them and sizes are below 1023 YiB. textwrap with breaking of long words (labels and descriptions) is a parameter that changes white space only (KeepsInk). Missing because false (witnesses): the capacity is that of all disks of the package, also for a profile without disks; a CPU item without quantity or two CPU items raise an exception and nothing is shown."
  },
  {
   "property": "C90",
   "status": "partial",
   "theorems": [
    "Cot.C90_files",
    "Cot.C90_completes_partial",
    "Cot.C90_profile_device_fails",
    "Cot.C90_no_id_fails",
    "Cot.C90_no_href_fails",
    "Cot.C90_two_disks_fails"
   ],
   "note": "Proved for whatever is shown; and that it is shown for Files and Disks stated properly (PlainFiles). Missing because false (witnesses): a device that is only in some profiles is not shown; a File without identifier or href and two Disks on one File raise an exception."
  },
  {
   "property": "C91",
   "status": "partial",
   "theorems": [
    "Cot.C91_product",
    "Cot.C91_annotation",
    "Cot.C91_licences",
    "Cot.C91_hardware",
    "Cot.C91_completes_partial",
    "Cot.C91_annotation_fails",
    "Cot.C91_two_products_fails"
   ],
   "note": "Proved for whatever is shown, and that it is shown with at most one product and annotation section. Missing because false (witnesses): an annotation with an empty first line is shown without its heading; two product sections raise an exception and nothing is shown."
  },
  {
   "property": "C92",
   "status": "partial",
   "theorems": [
    "Cot.C92_networks",
    "Cot.C92_nics",
    "Cot.C92_completes_partial",
    "Cot.C92_no_networks_fails",
    "Cot.C92_no_name_fails",
    "Cot.C92_profile_networks_fails"
   ],
   "note": "Proved for whatever is shown, and that it is shown if a network section has networks with names. Missing because false (witnesses): a network section without networks, or a network without name, raises an exception; a NIC with different networks in different profiles is shown with network None."
  },
  {
   "property": "C93",
   "status": "proved",
   "theorems": [
    "Cot.C93_transports",
    "Cot.C93_properties",
    "Cot.C93_completes"
   ],
   "note": "With at most one product section nothing is in the way."
  },
  {
   "property": "C94",
   "status": "proved",
   "theorems": [
    "Cot.C94_report",
    "Cot.C94_completes",
    "Cot.C94_packages",
    "Cot.C94_refused"
   ],
   "note": "Opening a package is a parameter (any result or exception per package). An exception other than VMInitError in a report ends the run; when it arises is what C89 to C92 list."
  },
  {
   "property": "C95",
   "status": "partial",
   "theorems": [
    "Cot.C95_call",
    "Cot.C95_success",
    "Cot.C95_output_partial",
    "Cot.C95_output_permission_fails"
   ],
   "note": "What a program does is a parameter. Proved completely for both functions as they are; missing because false (witness): when output is captured, a permission error is not retried with sudo although that was allowed."
  },
  {
   "property": "C96",
   "status": "proved",
   "theorems": [
    "Cot.C96_consent",
    "Cot.C96_uncached",
    "Cot.C96_answers",
    "Cot.C96_kept",
    "Cot.C96_stale_fails"
   ],
   "note": "All of the claim, for every history. Finding beyond it (witness): an answer that is kept is given again although the machine has changed in the meantime (qemu-img info of a disk that has been rewritten)."
  },
  {
   "property": "C97",
   "status": "proved",
   "theorems": [
    "Cot.C97_order",
    "Cot.C97_success",
    "Cot.C97_others"
   ],
   "note": "The package managers themselves (found, outcome of their commands) are parameters; they and sudo are assumed to be there."
  },
  {
   "property": "C98",
   "status": "partial",
   "theorems": [
    "Cot.C98_verify",
    "Cot.C98_verify_report",
    "Cot.C98_status_partial",
    "Cot.C98_success",
    "Cot.C98_idle",
    "Cot.C98_gets_to_report",
    "Cot.C98_abort_fails",
    "Cot.C98_iso_fails"
   ],
   "note": "The installation of each program is a parameter (C97 for the package managers). Missing because false (witnesses): without a package manager the command breaks off without a report, even with --ignore-errors; if only genisoimage is there, verification reports just that mkisofs is missing."
  },
  {
   "property": "C99",
   "status": "partial",
   "theorems": [
    "Cot.C99_verify",
    "Cot.C99_copy",
    "Cot.C99_mkdir",
    "Cot.C99_install",
    "Cot.C99_contents_partial",
    "Cot.C99_again",
    "Cot.C99_where",
    "Cot.C99_same_stamp_fails",
    "Cot.C99_in_the_way_fails"
   ],
   "note": "Files are parameters with laws (FileLaws, met by the example). Missing because false (witnesses): a page with the same size and time stamp but other content is taken for equal; a file where the directory should be ends the whole command."
  },
  {
   "property": "C100",
   "status": "proved",
   "theorems": [
    "Cot.C100_parse",
    "Cot.C100_show",
    "Cot.C100_order",
    "Cot.C100_version",
    "Cot.C100_select",
    "Cot.C100_four_numbers_fails"
   ],
   "note": "All of the claim, for ASCII digits. Finding beyond it (witness): a program whose version has four numbers makes the selection fail, although another choice is there."
  },
  {
   "property": "C101",
   "status": "partial",
   "theorems": [
    "Cot.C101_profile",
    "Cot.C101_connections",
    "Cot.C101_count",
    "Cot.C101_deploy_partial",
    "Cot.C101_completes",
    "Cot.C101_target_fails",
    "Cot.C101_no_tool_fails",
    "Cot.C101_unconnected_fails",
    "Cot.C101_profile_address_fails"
   ],
   "note": "ovftool and the server are parameters; ovftool is assumed to be found. Missing because false (witnesses): the target text does not tell user, password and server apart; without ovftool a package with properties leads to a TypeError (Python 3); a package with five unconnected serial ports is refused; an address that depends on the profile is ignored."
  },
  {
   "property": "C102",
   "status": "partial",
   "theorems": [
    "Cot.C102_ports_partial",
    "Cot.C102_done",
    "Cot.C102_late_fails",
    "Cot.C102_verify_fails"
   ],
   "note": "Proved for every server and answers. Missing because false (witnesses): an unsupported connection is noticed only after the machine was deployed; once a certificate was accepted, later servers are contacted without verification and without a question. A failure of disconnecting is not modelled."
  },
  {
   "property": "C103",
   "status": "proved",
   "theorems": [
    "Cot.C103_flatten",
    "Cot.C103_dict",
    "Cot.C103_set",
    "Cot.C103_noninteractive"
   ],
   "note": "Here the parsed arguments are the input; argparse is C121 and C122, and the way from the command line to the effect C123 and C125. The setters of the commands are a parameter (those that matter are C16, C51, C82 and others)."
  },
  {
   "property": "C104",
   "status": "proved",
   "theorems": [
    "Cot.C104_detect",
    "Cot.C104_factory",
    "Cot.C104_descriptor"
   ],
   "note": "Digits and letters after the extension are ASCII."
  },
  {
   "property": "C105",
   "status": "partial",
   "theorems": [
    "Cot.C105_usage",
    "Cot.C105_usage_ok",
    "Cot.C105_items_partial",
    "Cot.C105_examples_partial",
    "Cot.C105_nested_fails",
    "Cot.C105_quoted_fails",
    "Cot.C105_blank_fails"
   ],
   "note": "Proved for every width and text. Missing because false (witnesses): a text in brackets with brackets inside is broken; a quoted value with a blank is broken inside the quotes and then means something else; a usage string without parameters is an error. The wrapping of descriptions (textwrap with breaking of words) is a parameter."
  },
  {
   "property": "C106",
   "status": "proved",
   "theorems": [
    "Cot.C106_history",
    "Cot.C106_unique",
    "Cot.C106_used",
    "Cot.C106_order"
   ],
   "note": "The schema names are written down in Spec/Names for each version. C106_used ties the constants of the rest of the model to the lookup."
  },
  {
   "property": "C107",
   "status": "partial",
   "theorems": [
    "Cot.C107_open",
    "Cot.C107_refused_partial",
    "Cot.C107_error_fails"
   ],
   "note": "Proved: what is opened, with which parts, and that what is no Envelope is refused with the initialisation error, exactly. Missing because false (witness): an Envelope without References ends in KeyError, two ProductSections (allowed by the standard) in LookupError. XML parsing is not modelled."
  },
  {
   "property": "C108",
   "status": "partial",
   "theorems": [
    "Cot.C108_made",
    "Cot.C108_refused",
    "Cot.C108_succeeds",
    "Cot.C108_failed_partial",
    "Cot.C108_subformat_partial",
    "Cot.C108_leftover_fails",
    "Cot.C108_greedy_fails"
   ],
   "note": "Proved: all but the sentence on failed attempts, and the sub-format if its line has no further quotation mark. Missing because false (witnesses): a raw image whose files could not all be added stays, and blocks every further attempt; text quoted later in the createType line is taken for part of the sub-format."
  },
  {
   "property": "C109",
   "status": "partial",
   "theorems": [
    "Cot.C109_refused",
    "Cot.C109_sound",
    "Cot.C109_runs_partial",
    "Cot.C109_fails"
   ],
   "note": "Proved: nothing runs without what it needs, for every command; and what has all it needs runs, unless the last sentence fails. Missing because false (witnesses): a user who agreed is refused without a question when the same place is asked for less room afterwards; after a package that could not be loaded replaced a good one, the command ends with AttributeError instead of an input error."
  },
  {
   "property": "C110",
   "status": "partial",
   "theorems": [
    "Cot.C110_open_partial",
    "Cot.C110_replaced",
    "Cot.C110_exit_partial",
    "Cot.C110_interrupted_fails"
   ],
   "note": "Proved for all histories in which no removal fails and no load is interrupted; at exit also for those in which this happens, except (witness) between making the directory and registering it for removal, when it stays for ever."
  },
  {
   "property": "C111",
   "status": "partial",
   "theorems": [
    "Cot.C111_packages",
    "Cot.C111_idle",
    "Cot.C111_done",
    "Cot.C111_tidy",
    "Cot.C111_able_partial",
    "Cot.C111_able_fails"
   ],
   "note": "Proved: the packages used are the documented ones, nothing is done to programs that are there or cannot be installed, success means found, failures stop the installation and temporary directories are removed; on Linux, and for programs that are only packages, a program reported as installable is never refused. Missing because false (witness): on macOS with apt-get but no port, vmdktool is reported as installable and then refused."
  },
  {
   "property": "C112",
   "status": "partial",
   "theorems": [
    "Cot.C112_path",
    "Cot.C112_installed_partial",
    "Cot.C112_install",
    "Cot.C112_version",
    "Cot.C112_no_version",
    "Cot.C112_stale_fails"
   ],
   "note": "Proved: whatever COT says it found was found, and it keeps to it; the version is asked once. Missing because false (witness): after looking for a program in vain, COT keeps saying that it is not installed though it has appeared (another package may provide it), and installs it again."
  },
  {
   "property": "C113",
   "status": "partial",
   "theorems": [
    "Cot.C113_rest_partial",
    "Cot.C113_files_partial",
    "Cot.C113_unedited_partial",
    "Cot.C113_regenerated_fails"
   ],
   "note": "C113_rest_partial and C113_files_partial (what is written for the Files and Disks) are proved for OVF 1.x and 2.x after any edits (in OVF 0.9 all sections share one tag); C113_unedited_partial for all versions, if each device has one Item. Missing because false (witness): if a device has Items for several profiles, all Items are generated anew although nothing was edited, and the Item of another device may be damaged so that the saved descriptor cannot be read."
  },
  {
   "property": "C114",
   "status": "partial",
   "theorems": [
    "Cot.C114_fat_partial",
    "Cot.C114_iso_partial",
    "Cot.C114_blank_fails",
    "Cot.C114_case_fails"
   ],
   "note": "Proved for names without blanks on raw images, and for ISO images with Rock Ridge names or in the upper case of ISO 9660. Missing because false (witnesses): of names with blanks on raw images only the first word is reported; on ISO images without Rock Ridge names that contain both cases are reported in lower case, so that two files can get one name."
  },
  {
   "property": "C115",
   "status": "partial",
   "theorems": [
    "Cot.C115_reopen",
    "Cot.C115_hardware_partial",
    "Cot.C115_product"
   ],
   "note": "Proved for OVF 1.x and 2.x at the level of the element tree (writing the tree as XML text and parsing it are the XML library's). Missing: OVF 0.9, whose sections are told apart by an attribute, and hardware that is not storable (values with blanks at the ends, texts that look like expressions: see C54)."
  },
  {
   "property": "C116",
   "status": "partial",
   "theorems": [
    "Cot.C116_file",
    "Cot.C116_disk_partial",
    "Cot.C116_controller_fails",
    "Cot.C116_cdrom_fails"
   ],
   "note": "Proved for files outright, and for new hard disks with a given identifier when remove-file succeeds, up to the controller. Not true as stated: a controller that was added for the disk stays (C116_controller_fails), and a CD-ROM drive that was added for an image stays, empty (C116_cdrom_fails)."
  },
  {
   "property": "C117",
   "status": "proved",
   "theorems": [
    "Cot.C117_product",
    "Cot.C117_properties",
    "Cot.C117_twice_fails"
   ],
   "note": "All of the claim; for edit-properties the descriptor has at most one product section and each property once. A finding beyond it (witness): a command that names a property twice can be refused when it is run again (C117_twice_fails)."
  },
  {
   "property": "C118",
   "status": "partial",
   "theorems": [
    "Cot.C118_hardware_partial",
    "Cot.C118_description_fails"
   ],
   "note": "For commands without --network-descriptions and --nic-names, on packages of version 1.x or 2.x as C76 asks for, in which no two identifiers of devices are the same number. With an empty description the claim is false (witness C118_description_fails): for a new network the user is asked for a description instead, but the second run finds the network and empties its description."
  },
  {
   "property": "C119",
   "status": "partial",
   "theorems": [
    "Cot.C119_tree_partial",
    "Cot.C119_saved_partial",
    "Cot.C119_stable_partial",
    "Cot.C119_prefixes",
    "Cot.C119_names",
    "Cot.C119_opens",
    "Cot.C119_hardware_partial",
    "Cot.C119_reopen_partial",
    "Cot.C119_carriage_return_fails",
    "Cot.C119_control_fails",
    "Cot.C119_tab_fails",
    "Cot.C119_comment_fails"
   ],
   "note": "For trees that XML can hold: names of ASCII characters, texts of characters allowed in XML, without carriage returns (on Python 2.7, attributes without tabulators). Beyond that the claim is false, with witnesses: carriage returns become line feeds, control characters make the saved descriptor unreadable, on Python 2.7 a tabulator in an attribute becomes a blank, and comments are dropped. That the hardware is read the same is proved for Items with elements of the schema only, none of them empty. The model of ElementTree and expat (Model/XmlText) leaves out document type declarations, CDATA sections and non-ASCII names."
  },
  {
   "property": "C120",
   "status": "partial",
   "theorems": [
    "Cot.C120_means_partial",
    "Cot.C120_info_partial",
    "Cot.C120_blocks_partial",
    "Cot.C120_deploy_partial",
    "Cot.C120_help_partial",
    "Cot.C120_prints_partial",
    "Cot.C120_first_prints_partial",
    "Cot.C120_after_prints_partial",
    "Cot.C120_deploy_prints_partial",
    "Cot.C120_word_prints_partial",
    "Cot.C120_unknown",
    "Cot.C120_ambiguous_fails",
    "Cot.C120_abbreviation_fails",
    "Cot.C120_swallows_fails",
    "Cot.C120_trailing_fails"
   ],
   "note": "For command lines of the form of Spec/Argparse (CmdLine): missing are two dashes as a value or at the end. False in three places, with witnesses: two dashes at the end are refused after the value of an option; the main parser also looks at the arguments of the command, so that an abbreviation such as --ver, which edit-product takes, is refused as ambiguous; and an option that takes several values swallows a package given after them. argparse is modelled from Python 3.11 and was compared with it on random command lines."
  },
  {
   "property": "C121",
   "status": "partial",
   "theorems": [
    "Cot.C121_manual",
    "Cot.C121_reaches_partial",
    "Cot.C121_deploy_partial",
    "Cot.C121_examples",
    "Cot.C121_undocumented_fails"
   ],
   "note": "The tables of the manual are all compared. That the values reach the attributes is proved for the eight commands with one-word arguments and for deploy to ESXi, on the command lines of C120; what info and help make of theirs is C128 and C130. One flag is not in the manual (witness): -ds for --datastore. What the setters of the attributes do with a value is in the properties of the commands."
  },
  {
   "property": "C122",
   "status": "partial",
   "theorems": [
    "Cot.C122_order_partial",
    "Cot.C122_deploy_partial",
    "Cot.C122_info_partial"
   ],
   "note": "Equality of the whole results of the parser, for the eight commands with one-word arguments, for deploy to ESXi, and for info with its packages together (apart they are refused, C120_blocks_partial); help has no option but its help flag. Missing are two dashes as a value or at the end, and lines that ask for a help text (C120_prints_partial). Lines that are ambiguous for the main parser are excluded: C120_abbreviation_fails shows that they are refused."
  },
  {
   "property": "C123",
   "status": "partial",
   "theorems": [
    "Cot.C123_request_partial",
    "Cot.C123_counts_partial",
    "Cot.C123_effects_partial",
    "Cot.C123_profiles_partial",
    "Cot.C123_networks_partial",
    "Cot.C123_nic_names_partial",
    "Cot.C123_runs_partial",
    "Cot.C123_nothing_partial",
    "Cot.C123_prints_partial"
   ],
   "note": "The command lines are those of C120 and C121; with a help flag among the arguments nothing is changed (C123_prints_partial). The opening of the package and the question about the output are parameters; the package is given as it was opened. The end-to-end statement about the package is spelled out for every option: counts of NICs and serial ports, CPUs, memory, sub-types of controllers, MAC addresses, serial connections, profiles, system types, NIC types, networks with their descriptions, and NIC names (that do not look like placeholders); and for the profiles that are not named and the devices that no option names. What happens when a user does not insist on an unsupported value is C82."
  },
  {
   "property": "C124",
   "status": "partial",
   "theorems": [
    "Cot.C124_product_partial",
    "Cot.C124_properties_partial",
    "Cot.C124_hardware_partial",
    "Cot.C124_files_partial",
    "Cot.C124_networks_partial",
    "Cot.C124_nics_partial",
    "Cot.C124_variants_partial",
    "Cot.C124_licences_partial",
    "Cot.C124_annotation_partial"
   ],
   "note": "Composed from C83 and C84 (the commands), C115 (saving), C119 (XML text and reopening), C91 and C93 (the report). The save is any that succeeds, and that XML can hold the tree that is saved is a hypothesis (C119 tells which trees these are). The fields of the product must not have elements within them, as their text would be lost when reindenting. A label or a description given on the command line is the text of the element that is told, if that element has no elements within it. For the hardware, any history of edits on the devices that were loaded is covered, by C115, C119 and C89; the devices must be ones that C54 can store and the Items that are saved must be plain; what the command line of edit-hardware does to the devices is C123. The table of files is by C70, C113 and C90 in the same way: the lines are about the files that the package has when it is saved, however they came there. The networks are those of the package that a NIC in the saved hardware section is connected to (C45), for Items with at most one Connection and network descriptions without elements within them. The NICs are told with their network; the name of a NIC is not followed through the reload, as it may be stated by a placeholder. The kinds of hardware are the system types stated before saving and the subtypes that the edits led to. Licences and annotation are the ones from before saving, if they have no elements within them. OVF 0.9 and the questions of edit-properties without options are not covered."
  },
  {
   "property": "C125",
   "status": "partial",
   "theorems": [
    "Cot.C125_product_partial",
    "Cot.C125_prints_partial",
    "Cot.C125_product_runs_partial",
    "Cot.C125_properties_partial",
    "Cot.C125_value_partial",
    "Cot.C125_add_file_partial",
    "Cot.C125_remove_file_partial",
    "Cot.C125_inject_partial",
    "Cot.C125_add_disk_partial",
    "Cot.C125_disk_added_partial",
    "Cot.C125_add_file_runs_partial",
    "Cot.C125_remove_file_runs_partial",
    "Cot.C125_inject_runs_partial",
    "Cot.C125_properties_runs_partial",
    "Cot.C125_add_disk_runs_partial"
   ],
   "note": "The way from the arguments of the process to the effect on the package. Opening the package and agreeing to the output are parameters; the platform of inject-config is a parameter. edit-product is for OVF 1.x and 2.x and a value of edit-properties is for properties without a line break. The other direction is proved too: a right command line whose files exist has exactly the result, package or error, that the request has which it states. For add-disk the recognition, conversion and capacity of the image are parameters (C47, C61), the capacity is assumed to be between 1 and 2^63, and the address, name and description are for a drive that is new. The package is not written here (C124, C115)."
  },
  {
   "property": "C126",
   "status": "partial",
   "theorems": [
    "Cot.C126_once_partial",
    "Cot.C126_after",
    "Cot.C126_flags_partial",
    "Cot.C126_twice_fails"
   ],
   "note": "Proved for every history in which the last run of each other CLI object ended in the regular way; so for one CLI object without any restriction. False otherwise (witness): after a run without a subcommand, messages of another CLI object are shown twice, as the handler is left behind. The number of -v and -q is for the command lines of C120. Python's logging module is modelled as far as COT uses it; handlers of the root logger are not."
  },
  {
   "property": "C127",
   "status": "partial",
   "theorems": [
    "Cot.C127_request_partial",
    "Cot.C127_deploys_partial",
    "Cot.C127_runs",
    "Cot.C127_prints_partial",
    "Cot.C127_alias_fails"
   ],
   "note": "Proved for esxi, for the command lines of C120, with ovftool installed and shlex.split as a parameter. False for the other names of the hypervisor that the command offers (vcenter, vmware, vsphere): proved that they are always refused, on every command line, as the setter of the attribute accepts esxi only."
  },
  {
   "property": "C128",
   "status": "partial",
   "theorems": [
    "Cot.C128_info_partial",
    "Cot.C128_told_partial",
    "Cot.C128_blocks_partial",
    "Cot.C128_prints_partial"
   ],
   "note": "Proved for command lines without words that argparse could take for options of the program, and without two dashes (as in C120). What each report says is C94."
  },
  {
   "property": "C129",
   "status": "partial",
   "theorems": [
    "Cot.C129_install_partial",
    "Cot.C129_verify_partial",
    "Cot.C129_success_partial",
    "Cot.C129_prints_partial"
   ],
   "note": "Proved for command lines without words that argparse could take for options of the program (as in C120). What the run does is C98, with its simplifications."
  },
  {
   "property": "C130",
   "status": "partial",
   "theorems": [
    "Cot.C130_help_partial",
    "Cot.C130_alone_partial",
    "Cot.C130_every",
    "Cot.C130_again_fails"
   ],
   "note": "Proved for command lines of C120 and Python 3.2 and later; the help text itself is argparse's and identified by its parser. The last sentence is proved for a new process and false otherwise (witness): after help info, help alone prints the help of info again, because the attribute of the command is not set back."
  },
  {
   "property": "C131",
   "status": "partial",
   "theorems": [
    "Cot.C131_where_partial",
    "Cot.C131_first_partial",
    "Cot.C131_asked",
    "Cot.C131_again_fails",
    "Cot.C131_overwrites_fails"
   ],
   "note": "Proved for a new process, and exactly what happens for every history (the state of the object is arbitrary). False from the second run of a command on (witness): the place where the first run wrote is kept, so that a run without --output writes another package over it without a question, with values of the first run that were not asked for. The work between setting the attributes and writing is left out; command lines as in C120."
  }
 ]
}