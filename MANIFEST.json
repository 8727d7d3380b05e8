{
 "claims": [
  {
   "property": "C01",
   "status": "proved",
   "theorems": [
    "Verif.Props.C01_unique_name_type",
    "Verif.Props.C01_enumeration_refines"
   ],
   "note": ""
  },
  {
   "property": "C02",
   "status": "proved",
   "theorems": [
    "Verif.Props.C02_lookup_typed",
    "Verif.Props.C02_exists_typed",
    "Verif.Props.C02_lookup_untyped",
    "Verif.Props.C02_exists_untyped"
   ],
   "note": "untyped lookup is proved for histories without removal; the removal case is C05"
  },
  {
   "property": "C03",
   "status": "proved",
   "theorems": [
    "Verif.Props.C03_create_delivers",
    "Verif.Props.C03_create_idempotent"
   ],
   "note": ""
  },
  {
   "property": "C04",
   "status": "proved",
   "theorems": [
    "Verif.Props.C04_order_stable"
   ],
   "note": ""
  },
  {
   "property": "C05",
   "status": "partial",
   "theorems": [
    "Verif.Props.C05_remove_partial",
    "Verif.Props.C05_missing_name_keyError",
    "Verif.Props.C05_untyped_exists_broken",
    "Verif.Props.C05_untyped_lookup_broken",
    "Verif.Props.C05_wrong_exception"
   ],
   "note": "the code leaves an empty index entry behind; the untyped part of the claim is refuted"
  },
  {
   "property": "C06",
   "status": "partial",
   "theorems": [
    "Verif.Props.C06_typed_create",
    "Verif.Props.C06_typed_count",
    "Verif.Props.C06_noclash_partial",
    "Verif.Props.C06_name_clash_broken",
    "Verif.Props.C06_broken_count"
   ],
   "note": "proved for the 109 typed create methods; for the others proved without name clash and refuted with one"
  },
  {
   "property": "C07",
   "status": "partial",
   "theorems": [
    "Verif.Props.C07_dedicated_list_partial",
    "Verif.Props.C07_create_again",
    "Verif.Props.C07_searched_list",
    "Verif.Props.C07_duplicates_broken",
    "Verif.Props.C07_broken_count",
    "Verif.Props.C07_field_broken",
    "Verif.Props.C07_removal_broken",
    "Verif.Props.C07_lists_uniform"
   ],
   "note": "proved for the checked patterns, refuted for the 59 methods whose check is ineffective"
  },
  {
   "property": "C08",
   "status": "proved",
   "theorems": [
    "Verif.Props.C08_create_package",
    "Verif.Props.C08_create_again",
    "Verif.Props.C08_listing"
   ],
   "note": ""
  },
  {
   "property": "C09",
   "status": "partial",
   "theorems": [
    "Verif.Props.C09_full_name",
    "Verif.Props.C09_resolves",
    "Verif.Props.C09_find_sound",
    "Verif.Props.C09_ambiguous_broken"
   ],
   "note": "proved for elements whose path is unambiguous; refuted when two members of one container share a short name"
  },
  {
   "property": "C10",
   "status": "proved",
   "theorems": [
    "Verif.Props.C10_concat",
    "Verif.Props.C10_empty",
    "Verif.Props.C10_segment",
    "Verif.Props.C10_slashes",
    "Verif.Props.C10_member"
   ],
   "note": ""
  },
  {
   "property": "C100",
   "status": "proved",
   "theorems": [
    "Verif.Props.C100_texts",
    "Verif.Props.C100_space"
   ],
   "note": "texts that are blank may make values appear or disappear, so both the old and the new text must not be blank in the first part; C100_needed shows that the exceptions of the second part are needed"
  },
  {
   "property": "C11",
   "status": "proved",
   "theorems": [
    "Verif.Props.C11_dest",
    "Verif.Props.C11_no_dest"
   ],
   "note": ""
  },
  {
   "property": "C12",
   "status": "partial",
   "theorems": [
    "Verif.Props.C12_broken",
    "Verif.Props.C12_singleton_partial"
   ],
   "note": "absolute lookup always starts at the process-wide document; refuted for other documents"
  },
  {
   "property": "C13",
   "status": "proved",
   "theorems": [
    "Verif.Props.C13_clear_members",
    "Verif.Props.C13_clear_registries",
    "Verif.Props.C13_attributes"
   ],
   "note": ""
  },
  {
   "property": "C14",
   "status": "partial",
   "theorems": [
    "Verif.Props.C14_objects",
    "Verif.Props.C14_no_uuid",
    "Verif.Props.C14_duplicates_partial",
    "Verif.Props.C14_duplicates_broken",
    "Verif.Props.C14_cli_report"
   ],
   "note": "the duplicate query of the document lists every UUID (refuted); the checker tool, which filters again, is proved right"
  },
  {
   "property": "C15",
   "status": "proved",
   "theorems": [
    "Verif.Props.C15_to_implementation",
    "Verif.Props.C15_to_application",
    "Verif.Props.C15_inverse"
   ],
   "note": ""
  },
  {
   "property": "C16",
   "status": "partial",
   "theorems": [
    "Verif.Props.C16_sound",
    "Verif.Props.C16_chain_partial",
    "Verif.Props.C16_not_followed_broken",
    "Verif.Props.C16_cycle_broken"
   ],
   "note": "references are never followed when the category is a literal object, and cycles do not terminate; both refuted"
  },
  {
   "property": "C17",
   "status": "proved",
   "theorems": [
    "Verif.Props.C17_first_wins",
    "Verif.Props.C17_systems_listing",
    "Verif.Props.C17_root"
   ],
   "note": ""
  },
  {
   "property": "C18",
   "status": "proved",
   "theorems": [
    "Verif.Props.C18_release",
    "Verif.Props.C18_injective"
   ],
   "note": ""
  },
  {
   "property": "C19",
   "status": "proved",
   "theorems": [
    "Verif.Props.C19_verbatim"
   ],
   "note": ""
  },
  {
   "property": "C20",
   "status": "partial",
   "theorems": [
    "Verif.Props.C20_words",
    "Verif.Props.C20_hex",
    "Verif.Props.C20_bin",
    "Verif.Props.C20_decimal",
    "Verif.Props.C20_decimal_integer_partial",
    "Verif.Props.C20_large_broken",
    "Verif.Props.C20_octal_broken"
   ],
   "note": "octal texts and decimal integers beyond 53 bits are not converted to the number they denote (refuted); the rest is proved"
  },
  {
   "property": "C21",
   "status": "partial",
   "theorems": [
    "Verif.Props.C21_accepted_iff",
    "Verif.Props.C21_rejected_partial",
    "Verif.Props.C21_trailing_broken",
    "Verif.Props.C21_rejected_text_kept_broken"
   ],
   "note": "the accepted texts are characterised exactly; they include trailing garbage after hex/binary numbers (refuted)"
  },
  {
   "property": "C22",
   "status": "proved",
   "theorems": [
    "Verif.Props.C22_accepted",
    "Verif.Props.C22_rejected",
    "Verif.Props.C22_unambiguous"
   ],
   "note": ""
  },
  {
   "property": "C23",
   "status": "partial",
   "theorems": [
    "Verif.Props.C23_written",
    "Verif.Props.C23_int_partial",
    "Verif.Props.C23_text_partial",
    "Verif.Props.C23_boolean_partial",
    "Verif.Props.C23_stale_broken",
    "Verif.Props.C23_bool_broken",
    "Verif.Props.C23_boolean_stale_broken"
   ],
   "note": "an object that was given a text keeps writing it whatever is assigned later (refuted); what is written is characterised exactly"
  },
  {
   "property": "C24",
   "status": "partial",
   "theorems": [
    "Verif.Props.C24_int_partial",
    "Verif.Props.C24_history_partial",
    "Verif.Props.C24_text_broken",
    "Verif.Props.C24_loaded",
    "Verif.Props.C24_loaded_negative"
   ],
   "note": "proved for assignments of numbers and for loading; assigning a text with a minus sign is accepted (refuted)"
  },
  {
   "property": "C25",
   "status": "partial",
   "theorems": [
    "Verif.Props.C25_short",
    "Verif.Props.C25_whole",
    "Verif.Props.C25_short_broken",
    "Verif.Props.C27_reference"
   ],
   "note": "short values proved for word segments, refuted for others"
  },
  {
   "property": "C26",
   "status": "proved",
   "theorems": [
    "Verif.Props.C26_revision",
    "Verif.Props.C26_loaded"
   ],
   "note": ""
  },
  {
   "property": "C27",
   "status": "partial",
   "theorems": [
    "Verif.Props.C27_loaded",
    "Verif.Props.C27_literal",
    "Verif.Props.C27_reference",
    "Verif.Props.C27_limit",
    "Verif.Props.C27_number",
    "Verif.Props.C27_boolean_uuid_broken",
    "Verif.Props.C27_time_attributes_broken",
    "Verif.Props.C27_float_unset_broken"
   ],
   "note": "proved for every value the loader makes and for literals, references, limits and numbers in general; refuted for UUID of booleans, T/UUID of times and floats without value"
  },
  {
   "property": "C28",
   "status": "proved",
   "theorems": [
    "Verif.Props.C28_written",
    "Verif.Props.C28_read",
    "Verif.Props.C28_absent"
   ],
   "note": ""
  },
  {
   "property": "C29",
   "status": "proved",
   "theorems": [
    "Verif.Props.C29_foreign",
    "Verif.Props.C29_reader",
    "Verif.Props.C29_attribute",
    "Verif.Props.C29_swap",
    "Verif.Props.C29_first"
   ],
   "note": ""
  },
  {
   "property": "C30",
   "status": "partial",
   "theorems": [
    "Verif.Props.C30_exact",
    "Verif.Props.C30_partial",
    "Verif.Props.C30_iff",
    "Verif.Props.C30_saved_iff",
    "Verif.Props.C30_broken"
   ],
   "note": "proved for all writable trees: what is read is computed exactly; content is kept if and only if no attribute value has a tab or line end and no leaf text a carriage return (refuted for the others)"
  },
  {
   "property": "C31",
   "status": "partial",
   "theorems": [
    "Verif.Props.C31_partial",
    "Verif.Props.C31_iff",
    "Verif.Props.C31_broken"
   ],
   "note": "proved for trees without quotation marks in attribute values, and for no others; refuted by witnesses with them"
  },
  {
   "property": "C32",
   "status": "partial",
   "theorems": [
    "Verif.Props.C32_partial",
    "Verif.Props.C32_broken",
    "Verif.Props.C32_document_broken"
   ],
   "note": "leaf texts are stable; text before inline markup grows with every cycle, which is proved for every such text and number of cycles"
  },
  {
   "property": "C33",
   "status": "partial",
   "theorems": [
    "Verif.Props.C33_fuel",
    "Verif.Props.C33_partial",
    "Verif.Props.C33_object_partial",
    "Verif.Props.C33_broken",
    "Verif.Props.C33_written",
    "Verif.Props.C33_file_partial"
   ],
   "note": "proved for every document and for each of the 709 reader/writer pairs, outside the defects listed in Spec/Defects.lean; each entry of that list is shown to be a real loss by C33_broken"
  },
  {
   "property": "C34",
   "status": "partial",
   "theorems": [
    "Verif.Props.C34_partial",
    "Verif.Props.C33_object_partial",
    "Verif.Props.C33_file_partial"
   ],
   "note": "same condition as C33"
  },
  {
   "property": "C35",
   "status": "partial",
   "theorems": [
    "Verif.Props.C35_C38_elements_partial",
    "Verif.Props.C35_broken",
    "Verif.Props.C35_broken_collection"
   ],
   "note": "proved for all but three of the accepted element kinds, refuted for these"
  },
  {
   "property": "C36",
   "status": "partial",
   "theorems": [
    "Verif.Props.C36_modes_agree",
    "Verif.Props.C36_save_modes_agree",
    "Verif.Props.C36_foreign_partial",
    "Verif.Props.C36_pruned",
    "Verif.Props.C36_unsupported_skipped",
    "Verif.Props.C36_supported_read",
    "Verif.Props.C36_unsupported_raises",
    "Verif.Props.C36_missing_raises",
    "Verif.Props.C36_missing_skipped",
    "Verif.Props.C36_unbound_broken",
    "Verif.Props.C36_first_broken"
   ],
   "note": "proved for elements with unknown tags at every place but value specifications and the few places where the reader takes the first child; refuted there"
  },
  {
   "property": "C37",
   "status": "proved",
   "theorems": [
    "Verif.Props.C37_sdg",
    "Verif.Props.C37_adminData"
   ],
   "note": ""
  },
  {
   "property": "C38",
   "status": "partial",
   "theorems": [
    "Verif.Props.C38_packages",
    "Verif.Props.C38_document",
    "Verif.Props.C35_C38_elements_partial",
    "Verif.Props.C35_broken"
   ],
   "note": "package order proved; the elements the writer drops are those of C35"
  },
  {
   "property": "C39",
   "status": "partial",
   "theorems": [
    "Verif.Props.C39_new",
    "Verif.Props.C39_partial",
    "Verif.Props.C39_files_partial",
    "Verif.Props.C39_alone",
    "Verif.Props.C39_order_partial",
    "Verif.Props.C39_find_partial",
    "Verif.Props.C39_broken",
    "Verif.Props.C39_find_broken"
   ],
   "note": "what is there after loading several files, and that the order does not matter, is proved; \"first definition wins\" is refuted (later files overwrite or even erase attributes), and lookup fails where a package and an element share a name"
  },
  {
   "property": "C40",
   "status": "proved",
   "theorems": [
    "Verif.Props.C40",
    "Verif.Props.C40_history"
   ],
   "note": ""
  },
  {
   "property": "C41",
   "status": "proved",
   "theorems": [
    "Verif.Props.C41_removed",
    "Verif.Props.C41_unchanged",
    "Verif.Props.C41_nested_kept"
   ],
   "note": ""
  },
  {
   "property": "C42",
   "status": "partial",
   "theorems": [
    "Verif.Props.C42_listed",
    "Verif.Props.C42_listed_partial",
    "Verif.Props.C42_blank_count",
    "Verif.Props.C42_lines",
    "Verif.Props.C42_crlf",
    "Verif.Props.C42_blank_broken",
    "Verif.Props.C42_directory",
    "Verif.Props.C42_no_invention",
    "Verif.Props.C42_order",
    "Verif.Props.C42_total",
    "Verif.Props.C42_join",
    "Verif.Props.C42_cli_missing",
    "Verif.Props.C42_cli_agrees",
    "Verif.Props.C42_cli_comment_broken"
   ],
   "note": "blank lines give empty paths, so the claim holds for list files without them; the exact result is proved for every content"
  },
  {
   "property": "C43",
   "status": "proved",
   "theorems": [
    "Verif.Props.C43_sorted",
    "Verif.Props.C43_order_independent"
   ],
   "note": ""
  },
  {
   "property": "C44",
   "status": "partial",
   "theorems": [
    "Verif.Props.C44_fits",
    "Verif.Props.C44_exact",
    "Verif.Props.C44_fresh_partial",
    "Verif.Props.C44_history_partial",
    "Verif.Props.C44_document",
    "Verif.Props.C44_reused_broken",
    "Verif.Props.C44_reused_witness",
    "Verif.Props.C44_endpoints_broken",
    "Verif.Props.C44_other_kind_broken"
   ],
   "note": "proved for new names; refuted for names the composition knows and for the end points the writer reads"
  },
  {
   "property": "C45",
   "status": "partial",
   "theorems": [
    "Verif.Props.C45_last_value_partial",
    "Verif.Props.C45_last_value_any",
    "Verif.Props.C45_adders_do_not_interfere",
    "Verif.Props.C45_initial_partial",
    "Verif.Props.C45_from_new_partial",
    "Verif.Props.C45_getters_total",
    "Verif.Props.C45_none_broken",
    "Verif.Props.C45_none_count",
    "Verif.Props.C45_unset_broken"
   ],
   "note": "proved for the 1371 setters that ignore None; 607 setters store None, so the claim is refuted for them and the exact behaviour is proved instead"
  },
  {
   "property": "C46",
   "status": "partial",
   "theorems": [
    "Verif.Props.C46_append_partial",
    "Verif.Props.C46_append_later_partial",
    "Verif.Props.C46_append_any",
    "Verif.Props.C46_append_once",
    "Verif.Props.C46_count",
    "Verif.Props.C46_none_broken",
    "Verif.Props.C46_twice_broken",
    "Verif.Props.C46_overwrite_broken"
   ],
   "note": "proved for the 234 adders that ignore None; 141 adders append None and 10 drop duplicates: refuted for them, exact behaviour proved"
  },
  {
   "property": "C47",
   "status": "partial",
   "theorems": [
    "Verif.Props.C47_own_dest_broken",
    "Verif.Props.C47_known_dest_partial"
   ],
   "note": "the DEST table does not know most tags; refuted in general, proved for tags in the table"
  },
  {
   "property": "C48",
   "status": "proved",
   "theorems": [
    "Verif.Props.C48_behavior_map"
   ],
   "note": ""
  },
  {
   "property": "C49",
   "status": "partial",
   "theorems": [
    "Verif.Props.C49_assembly_columns",
    "Verif.Props.C49_delegation_columns",
    "Verif.Props.C49_rows_added",
    "Verif.Props.C49_missing_partial",
    "Verif.Props.C49_missing_broken",
    "Verif.Props.C49_report_assembly_partial",
    "Verif.Props.C49_report_delegation_partial",
    "Verif.Props.C49_report_broken"
   ],
   "note": "columns located by title: proved; a later sheet without a title is read with old columns, the report fails on loaded connectors: refuted"
  },
  {
   "property": "C50",
   "status": "proved",
   "theorems": [
    "Verif.Props.C50"
   ],
   "note": ""
  },
  {
   "property": "C51",
   "status": "partial",
   "theorems": [
    "Verif.Props.C51_partial",
    "Verif.Props.C51_doubled",
    "Verif.Props.C51_same_partial",
    "Verif.Props.C51_broken"
   ],
   "note": "packages and elements: proved; every other attribute: unchanged, or a list the parser appends to, which is then there twice; so false, and true for documents without such lists"
  },
  {
   "property": "C52",
   "status": "partial",
   "theorems": [
    "Verif.Props.C52_listing",
    "Verif.Props.C52_order",
    "Verif.Props.C52_created",
    "Verif.Props.C52_created_count",
    "Verif.Props.C52_removal_broken"
   ],
   "note": "proved for listings of the members, and for lists of their own as far as nothing was removed: a removed port is still listed"
  },
  {
   "property": "C53",
   "status": "proved",
   "theorems": [
    "Verif.Props.C53_collected",
    "Verif.Props.C53_printed",
    "Verif.Props.C53_names"
   ],
   "note": ""
  },
  {
   "property": "C54",
   "status": "partial",
   "theorems": [
    "Verif.Props.C54_dumped",
    "Verif.Props.C54_times",
    "Verif.Props.C54_once_partial",
    "Verif.Props.C54_once_broken"
   ],
   "note": "a package inside n others is printed 2^n times; top-level packages once"
  },
  {
   "property": "C55",
   "status": "partial",
   "theorems": [
    "Verif.Props.C55_formatted",
    "Verif.Props.C55_kept_partial",
    "Verif.Props.C55_text",
    "Verif.Props.C55_again_partial",
    "Verif.Props.C55_kept_broken",
    "Verif.Props.C55_again_broken"
   ],
   "note": "structure always kept; texts of leaves kept exactly when they have no blank line inside; attributes kept without tabs and line ends"
  },
  {
   "property": "C56",
   "status": "partial",
   "theorems": [
    "Verif.Props.C56_means",
    "Verif.Props.C56_relative_partial",
    "Verif.Props.C56_absolute_partial",
    "Verif.Props.C56_total",
    "Verif.Props.C56_comment_broken",
    "Verif.Props.C56_blank_broken"
   ],
   "note": "proved for file names without leading # or white space at the ends; a name that looks like a comment is lost, an empty path stops the tool"
  },
  {
   "property": "C57",
   "status": "partial",
   "theorems": [
    "Verif.Props.C57_saved",
    "Verif.Props.C57_built",
    "Verif.Props.C57_loaded",
    "Verif.Props.C57_nothing",
    "Verif.Props.C57_output",
    "Verif.Props.C57_reload_partial",
    "Verif.Props.C57_nested_broken",
    "Verif.Props.C57_warning_broken"
   ],
   "note": "what is written and loaded is proved for every document that loads (reloading under the conditions of C33); admin data inside of elements stays, and -w does not reach the writer"
  },
  {
   "property": "C58",
   "status": "partial",
   "theorems": [
    "Verif.Props.C58_swc_partial",
    "Verif.Props.C58_signals_partial",
    "Verif.Props.C58_memory_broken",
    "Verif.Props.list_case",
    "Verif.Props.C58_parameter_broken"
   ],
   "note": "parameter components are not listed, memory-section lists system signals and ignores its format option"
  },
  {
   "property": "C59",
   "status": "proved",
   "theorems": [
    "Verif.Props.C59_stripped",
    "Verif.Props.C59_form",
    "Verif.Props.C59_added",
    "Verif.Props.C59_references",
    "Verif.Props.C59_lines",
    "Verif.Props.C59_joined"
   ],
   "note": "about the parser behind ElementTree.parse as modelled in Model/Markup; document types are not modelled"
  },
  {
   "property": "C60",
   "status": "partial",
   "theorems": [
    "Verif.Props.C60_report_partial",
    "Verif.Props.C60_document",
    "Verif.Props.C60_reports",
    "Verif.Props.C60_package_broken",
    "Verif.Props.C60_unread_broken",
    "Verif.Props.C60_twice_broken"
   ],
   "note": "duplicates among elements of packages are reported, what is reported is a duplicate; a duplicate on a package stops the tool; UUIDs of ECUC-DESTINATION-URI-DEF-SET are not read; five kinds of elements are read twice; for UUIDs deeper inside of elements completeness is in terms of the objects of the loaded document"
  },
  {
   "property": "C61",
   "status": "proved",
   "theorems": [
    "Verif.Props.C61_systems",
    "Verif.Props.C61_compositions",
    "Verif.Props.C61_root",
    "Verif.Props.C61_behavior",
    "Verif.Props.C61_types"
   ],
   "note": "about the calls of the registries as modelled in Model/Calls; the lookup of a path is a parameter"
  },
  {
   "property": "C62",
   "status": "partial",
   "theorems": [
    "Verif.Props.C62_loaded_partial",
    "Verif.Props.C62_added_partial",
    "Verif.Props.C62_rejected",
    "Verif.Props.C62_both_broken",
    "Verif.Props.C62_nonvolatile_broken"
   ],
   "note": "proved for ports that provide and ports that require; PRPortPrototype checks nothing; NvRequireComSpec can not be loaded on an R port"
  },
  {
   "property": "C63",
   "status": "partial",
   "theorems": [
    "Verif.Props.C63_fits",
    "Verif.Props.C63_fits_more",
    "Verif.Props.C63_built_partial",
    "Verif.Props.C63_merged_partial",
    "Verif.Props.C63_texts",
    "Verif.Props.C63_files_partial"
   ],
   "note": "proved outside the defects listed in Spec/Defects.lean; numbers assigned by a program without a text are the subject of C66"
  },
  {
   "property": "C64",
   "status": "partial",
   "theorems": [
    "Verif.Props.C64_elements",
    "Verif.Props.C64_refused",
    "Verif.Props.C64_file_partial",
    "Verif.Props.C64_wiring_broken",
    "Verif.Props.C64_delegation_broken"
   ],
   "note": "what stays and what changes is proved for every document that loads, and that the output loads; but the new connectors connect nothing, rows with a known name create none, and a file with a new delegation connector only loads in warning mode"
  },
  {
   "property": "C65",
   "status": "partial",
   "theorems": [
    "Verif.Props.C65_partial",
    "Verif.Props.C65_broken"
   ],
   "note": "a report is written exactly if no composition in the files has a connector; the report of a loaded connector raises AttributeError"
  },
  {
   "property": "C66",
   "status": "partial",
   "theorems": [
    "Verif.Props.C66_saved_partial",
    "Verif.Props.C66_value_partial",
    "Verif.Props.C66_same_number",
    "Verif.Props.C66_assigned",
    "Verif.Props.C66_assigned_boolean",
    "Verif.Props.C66_large_broken",
    "Verif.Props.C66_infinite_broken",
    "Verif.Props.C66_unset_broken",
    "Verif.Props.C66_bool_broken",
    "Verif.Props.C66_stale_broken"
   ],
   "note": "proved for integers of up to 53 bits, floats with a decimal text and truth values of boolean attributes, in documents without the attributes of Spec/Defects.lean; larger integers change, infinity, nan, unset floats and truth values assigned to numbers make a file that cannot be loaded, and a number that was read keeps its text"
  },
  {
   "property": "C67",
   "status": "partial",
   "theorems": [
    "Verif.Props.C67_built_partial",
    "Verif.Props.C67_loaded_partial"
   ],
   "note": "proved for documents without the attributes that save loses (Spec/Defects.lean)"
  },
  {
   "property": "C68",
   "status": "partial",
   "theorems": [
    "Verif.Props.C68_ms_partial",
    "Verif.Props.C68_even_partial",
    "Verif.Props.C68_second",
    "Verif.Props.C68_bound",
    "Verif.Props.C68_seconds",
    "Verif.Props.C68_truncated",
    "Verif.Props.C68_infinite",
    "Verif.Props.C68_no_value",
    "Verif.Props.C68_absent",
    "Verif.Props.C68_lost_broken",
    "Verif.Props.C68_zero_broken"
   ],
   "note": "exact formula for which numbers of milliseconds are reported one less (1.001 s is the first); proved without exception up to one second; below one millisecond BSW events report 0; where a tie decides, the rule that ties go to the even double is assumed"
  },
  {
   "property": "C69",
   "status": "partial",
   "theorems": [
    "Verif.Props.C69_finishes",
    "Verif.Props.C69_lines_partial",
    "Verif.Props.C69_files_partial",
    "Verif.Props.C69_operation_broken",
    "Verif.Props.C69_timing_broken"
   ],
   "note": "the tool comes to its end exactly if there is no client-server operation and no BSW timing event, and then prints exactly these lines; otherwise it raises AttributeError or TypeError"
  },
  {
   "property": "C70",
   "status": "partial",
   "theorems": [
    "Verif.Props.C70_exception",
    "Verif.Props.C70_complete",
    "Verif.Props.C70_truncated",
    "Verif.Props.C70_interrupted_partial",
    "Verif.Props.C70_lost_broken"
   ],
   "note": "exceptions change no file, and what an interrupted save leaves is never loaded as something else; but the old file is lost as soon as it is opened"
  },
  {
   "property": "C71",
   "status": "partial",
   "theorems": [
    "Verif.Props.C71_construct_partial",
    "Verif.Props.C71_calls",
    "Verif.Props.C71_created",
    "Verif.Props.C71_document",
    "Verif.Props.C71_loaded",
    "Verif.Props.C71_blank_partial",
    "Verif.Props.C71_count",
    "Verif.Props.C71_abstract_broken",
    "Verif.Props.C71_event_broken",
    "Verif.Props.C71_enum_broken"
   ],
   "note": "two classes declared abstract can be constructed; BswInterruptEvent cannot; two enumerations need an argument"
  },
  {
   "property": "C72",
   "status": "partial",
   "theorems": [
    "Verif.Props.C72_lookup_partial",
    "Verif.Props.C72_unique_partial",
    "Verif.Props.C72_unique_class_partial",
    "Verif.Props.C72_history",
    "Verif.Props.C72_unseen",
    "Verif.Props.C72_repair",
    "Verif.Props.C72_stale_broken"
   ],
   "note": "lookups use the name an object had when it was added: right as long as members are not renamed"
  },
  {
   "property": "C73",
   "status": "partial",
   "theorems": [
    "Verif.Props.C73_settled_partial",
    "Verif.Props.C73_one_thread",
    "Verif.Props.C73_some",
    "Verif.Props.C73_race_broken"
   ],
   "note": "fails for calls that overlap with the first construction; holds for every schedule after it"
  },
  {
   "property": "C74",
   "status": "partial",
   "theorems": [
    "Verif.Props.C74_current",
    "Verif.Props.C74_create",
    "Verif.Props.C74_no_name",
    "Verif.Props.C74_renamed",
    "Verif.Props.C74_one_per_name",
    "Verif.Props.C74_section",
    "Verif.Props.C74_slot_partial",
    "Verif.Props.C74_slot_broken",
    "Verif.Props.C74_values_partial",
    "Verif.Props.C74_values_broken",
    "Verif.Props.C74_descriptors_partial",
    "Verif.Props.C74_descriptors_broken",
    "Verif.Props.C74_descriptors_all"
   ],
   "note": "queries, pin groups and sections: for every history; fails for key slot contents, value lists and descriptors without category"
  },
  {
   "property": "C75",
   "status": "partial",
   "theorems": [
    "Verif.Props.C75_independent_partial",
    "Verif.Props.C75_set",
    "Verif.Props.C75_add_exact",
    "Verif.Props.C75_new",
    "Verif.Props.C75_shared_broken"
   ],
   "note": "setters store and getters return lists themselves: proved for programs that share no lists, exact effect of an adder on all others proved, refuted with sharing"
  },
  {
   "property": "C76",
   "status": "proved",
   "theorems": [
    "Verif.Props.C76_load",
    "Verif.Props.C76_load_into",
    "Verif.Props.C76_load_all"
   ],
   "note": ""
  },
  {
   "property": "C77",
   "status": "partial",
   "theorems": [
    "Verif.Props.C77_other_files",
    "Verif.Props.C77_status_partial",
    "Verif.Props.C77_format_partial",
    "Verif.Props.C77_format_broken",
    "Verif.Props.C77_input_lost_broken"
   ],
   "note": "arxml-format and armodel-uuid-checker without -v, armodel-system-signal and armodel-memory-section always end with status 0; an input named like the log file in the directory of the output is deleted; the rest is proved"
  },
  {
   "property": "C78",
   "status": "proved",
   "theorems": [
    "Verif.Props.C78_load",
    "Verif.Props.C78_load_into",
    "Verif.Props.C78_load_all",
    "Verif.Props.C78_strip"
   ],
   "note": ""
  },
  {
   "property": "C79",
   "status": "proved",
   "theorems": [
    "Verif.Props.C79_grammar",
    "Verif.Props.C79_unambiguous"
   ],
   "note": "about the parser as modelled in Model/Markup; document types are not modelled"
  },
  {
   "property": "C80",
   "status": "proved",
   "theorems": [
    "Verif.Props.C80_names",
    "Verif.Props.C80_same",
    "Verif.Props.C80_usual",
    "Verif.Props.C80_prefix",
    "Verif.Props.C80_saved",
    "Verif.Props.C80_dom"
   ],
   "note": "about the parser as modelled in Model/Markup and Model/Namespace"
  },
  {
   "property": "C81",
   "status": "partial",
   "theorems": [
    "Verif.Props.C81_root",
    "Verif.Props.C81_foreign",
    "Verif.Props.C81_broken"
   ],
   "note": "the namespace of the root is not compared with that of AUTOSAR 4: a file of another schema loads as a document without packages; a root of another name is rejected"
  },
  {
   "property": "C82",
   "status": "proved",
   "theorems": [
    "Verif.Props.C82_file",
    "Verif.Props.C82_files",
    "Verif.Props.C82_independent",
    "Verif.Props.C82_untouched",
    "Verif.Props.C82_exists",
    "Verif.Props.C82_order",
    "Verif.Props.C82_packages",
    "Verif.Props.C82_elements"
   ],
   "note": "for loads the model of loading covers (DESIGN.md, Simplifications)"
  },
  {
   "property": "C83",
   "status": "partial",
   "theorems": [
    "Verif.Props.C83_divided_partial",
    "Verif.Props.C83_both_partial",
    "Verif.Props.C83_per_package",
    "Verif.Props.C83_per_element",
    "Verif.Props.C83_broken"
   ],
   "note": "proved for divisions that repeat, in each part of a package, what is written about it besides its lists; otherwise the last part erases it (refuted)"
  },
  {
   "property": "C84",
   "status": "partial",
   "theorems": [
    "Verif.Props.C84_exact_partial",
    "Verif.Props.C84_history",
    "Verif.Props.C84_distinct",
    "Verif.Props.C84_binding",
    "Verif.Props.C84_count",
    "Verif.Props.C84_empty_broken",
    "Verif.Props.C84_unchecked_broken",
    "Verif.Props.C84_limit_broken"
   ],
   "note": "which texts are valid is proved for all classes and histories; but assigning an invalid text is not refused, six classes accept nothing, and the interval types of limits in files are never valid (refuted)"
  },
  {
   "property": "C85",
   "status": "partial",
   "theorems": [
    "Verif.Props.C85_typed",
    "Verif.Props.C85_object",
    "Verif.Props.C85_identity",
    "Verif.Props.C85_program_partial",
    "Verif.Props.C85_file_partial",
    "Verif.Props.C85_shaped",
    "Verif.Props.C85_set",
    "Verif.Props.C85_add",
    "Verif.Props.C85_create",
    "Verif.Props.C85_unset",
    "Verif.Props.C85_remove",
    "Verif.Props.C85_inside",
    "Verif.Props.C85_methods",
    "Verif.Props.C85_creates",
    "Verif.Props.C85_missing_broken"
   ],
   "note": "proved for all sequences of calls, except for the attributes that are lost or changed by saving (Spec/Defects.lean) and, for the existence of plain methods, the listed attributes; save does not notice that a mandatory attribute is missing (refuted)"
  },
  {
   "property": "C86",
   "status": "partial",
   "theorems": [
    "Verif.Props.C86_saved_partial",
    "Verif.Props.C86_unsaved",
    "Verif.Props.C86_never_loaded",
    "Verif.Props.C86_not_written",
    "Verif.Props.C86_unwritten",
    "Verif.Props.C86_either",
    "Verif.Props.C86_broken"
   ],
   "note": "proved for all attributes but the 880 in the table (Gen/Unsaved.lean); each of those can be set and is never loaded, and about 500 are not written either (refuted); that what is read is also written is C33 and C85"
  },
  {
   "property": "C87",
   "status": "partial",
   "theorems": [
    "Verif.Props.C87_named_partial",
    "Verif.Props.C87_absent",
    "Verif.Props.C87_broken"
   ],
   "note": "proved for all attributes but responseOnEventRef of DiagnosticConnection, which is read from RESPONSE-REF (refuted for it); endings of plurals and references are not compared, 17 attributes have other names than their element, listed in Spec/Tags.lean"
  },
  {
   "property": "C88",
   "status": "proved",
   "theorems": [
    "Verif.Props.C88_order"
   ],
   "note": "for the values one statement of the reader finds; the element collection, which several statements fill, has the values of each statement in the order of the file"
  },
  {
   "property": "C89",
   "status": "partial",
   "theorems": [
    "Verif.Props.C89_lists_partial",
    "Verif.Props.C89_single",
    "Verif.Props.C89_cut",
    "Verif.Props.C89_broken"
   ],
   "note": "proved for all lists but dataIds of EndToEndTransformationISignalProps, of which only the first value is loaded (refuted for it); single values: proved for all"
  },
  {
   "property": "C90",
   "status": "partial",
   "theorems": [
    "Verif.Props.C90_order",
    "Verif.Props.C90_apart_partial",
    "Verif.Props.C90_file_partial"
   ],
   "note": "independence of the order: proved for all documents and the objects listed in freeOrder; that different documents give different files: up to the attributes of Spec/Defects.lean, which are lost"
  },
  {
   "property": "C91",
   "status": "partial",
   "theorems": [
    "Verif.Props.C91_errors",
    "Verif.Props.C91_saved_partial",
    "Verif.Props.C91_loaded_partial",
    "Verif.Props.C91_broken",
    "Verif.Props.C91_strict_broken"
   ],
   "note": "save raises exceptions for the objects listed in Spec/Saving.lean, and for nothing else"
  },
  {
   "property": "C92",
   "status": "partial",
   "theorems": [
    "Verif.Props.C92_partial",
    "Verif.Props.C92_named",
    "Verif.Props.C92_into_partial",
    "Verif.Props.C92_other_partial",
    "Verif.Props.C92_files_partial",
    "Verif.Props.C92_order_partial",
    "Verif.Props.C92_rejected",
    "Verif.Props.C92_errors",
    "Verif.Props.C92_modes",
    "Verif.Props.C92_broken"
   ],
   "note": "nothing is said about files in which an element has an empty name, or elements of different classes in one collection have the same name"
  },
  {
   "property": "C93",
   "status": "proved",
   "theorems": [
    "Verif.Props.C93_saved",
    "Verif.Props.C93_rejected",
    "Verif.Props.C36_save_modes_agree"
   ],
   "note": "for all documents, typed or not; which objects of typed documents have faults is C91"
  },
  {
   "property": "C94",
   "status": "proved",
   "theorems": [
    "Verif.Props.C94_change",
    "Verif.Props.C94_call"
   ],
   "note": "for objects inside of a document; for calls on the document itself there is nothing around"
  },
  {
   "property": "C95",
   "status": "proved",
   "theorems": [
    "Verif.Props.C95_exchange",
    "Verif.Props.C95_part"
   ],
   "note": "for 692 of the 703 kinds of elements objects are made of; the other eleven (twoWays) are also read directly, as a value or by a path that leads through them"
  },
  {
   "property": "C96",
   "status": "proved",
   "theorems": [
    "Verif.Props.C96_insert"
   ],
   "note": "for 452 of the 461 kinds of elements objects are made of in a loop; the other nine (otherWays) are read in another way elsewhere"
  },
  {
   "property": "C97",
   "status": "proved",
   "theorems": [
    "Verif.Props.C97_carry"
   ],
   "note": "for the kinds of elements of C95"
  },
  {
   "property": "C98",
   "status": "proved",
   "theorems": [
    "Verif.Props.C98_remove",
    "Verif.Props.C98_all",
    "Verif.Props.C98_needed"
   ],
   "note": "for the kinds of elements of C96"
  },
  {
   "property": "C99",
   "status": "proved",
   "theorems": [
    "Verif.Props.C99_shrink",
    "Verif.Props.C99_grow",
    "Verif.Props.C99_receiver_broken"
   ],
   "note": "for the kinds of elements of C96 but two (movers): a RECEIVER-IREF and a PORT-DEFINED-ARGUMENT-VALUE change the place other elements are written to"
  }
 ]
}