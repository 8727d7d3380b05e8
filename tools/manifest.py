"""Write MANIFEST.json."""
import json
P = 'Verif.Props.'
C = {}


def claim(pid, status, theorems, note=''):
    C[pid] = {"property": pid, "status": status, "theorems": [P + t for t in theorems.split()], "note": note}


claim('C01', 'proved', 'C01_unique_name_type C01_enumeration_refines')
claim('C02', 'proved', 'C02_lookup_typed C02_exists_typed C02_lookup_untyped C02_exists_untyped',
      'untyped lookup is proved for histories without removal; the removal case is C05')
claim('C03', 'proved', 'C03_create_delivers C03_create_idempotent')
claim('C04', 'proved', 'C04_order_stable')
claim('C05', 'partial', 'C05_remove_partial C05_missing_name_keyError C05_untyped_exists_broken C05_untyped_lookup_broken C05_wrong_exception',
      'the code leaves an empty index entry behind; the untyped part of the claim is refuted')
claim('C06', 'partial', 'C06_typed_create C06_typed_count C06_noclash_partial C06_name_clash_broken C06_broken_count',
      'proved for the 109 typed create methods; for the others proved without name clash and refuted with one')
claim('C07', 'partial', 'C07_dedicated_list_partial C07_create_again C07_searched_list C07_duplicates_broken C07_broken_count C07_field_broken C07_removal_broken C07_lists_uniform',
      'proved for the checked patterns, refuted for the 59 methods whose check is ineffective')
claim('C08', 'proved', 'C08_create_package C08_create_again C08_listing')
claim('C09', 'partial', 'C09_full_name C09_resolves C09_find_sound C09_ambiguous_broken',
      'proved for elements whose path is unambiguous; refuted when two members of one container share a short name')
claim('C10', 'proved', 'C10_concat C10_empty C10_segment C10_slashes C10_member')
claim('C11', 'proved', 'C11_dest C11_no_dest')
claim('C12', 'partial', 'C12_broken C12_singleton_partial',
      'absolute lookup always starts at the process-wide document; refuted for other documents')
claim('C13', 'proved', 'C13_clear_members C13_clear_registries C13_attributes')
claim('C14', 'partial', 'C14_objects C14_no_uuid C14_duplicates_partial C14_duplicates_broken C14_cli_report',
      'the duplicate query of the document lists every UUID (refuted); the checker tool, which filters again, is proved right')
claim('C15', 'proved', 'C15_to_implementation C15_to_application C15_inverse')
claim('C16', 'partial', 'C16_sound C16_chain_partial C16_not_followed_broken C16_cycle_broken',
      'references are never followed when the category is a literal object, and cycles do not terminate; both refuted')
claim('C17', 'proved', 'C17_first_wins C17_systems_listing C17_root')
claim('C18', 'proved', 'C18_release C18_injective')
claim('C19', 'proved', 'C19_verbatim')
claim('C20', 'partial', 'C20_words C20_hex C20_bin C20_decimal C20_decimal_integer_partial C20_large_broken C20_octal_broken',
      'octal texts and decimal integers beyond 53 bits are not converted to the number they denote (refuted); the rest is proved')
claim('C21', 'partial', 'C21_accepted_iff C21_rejected_partial C21_trailing_broken C21_rejected_text_kept_broken',
      'the accepted texts are characterised exactly; they include trailing garbage after hex/binary numbers (refuted)')
claim('C22', 'proved', 'C22_accepted C22_rejected C22_unambiguous')
claim('C23', 'partial', 'C23_written C23_int_partial C23_text_partial C23_boolean_partial C23_stale_broken C23_bool_broken C23_boolean_stale_broken',
      'an object that was given a text keeps writing it whatever is assigned later (refuted); what is written is characterised exactly')
claim('C24', 'partial', 'C24_int_partial C24_history_partial C24_text_broken C24_loaded C24_loaded_negative',
      'proved for assignments of numbers and for loading; assigning a text with a minus sign is accepted (refuted)')
claim('C25', 'partial', 'C25_short C25_whole C25_short_broken C27_reference',
      'short values proved for word segments, refuted for others')
claim('C26', 'proved', 'C26_revision C26_loaded')
claim('C27', 'partial', 'C27_loaded C27_literal C27_reference C27_limit C27_number C27_boolean_uuid_broken C27_time_attributes_broken C27_float_unset_broken',
      'proved for every value the loader makes and for literals, references, limits and numbers in general; refuted for UUID of booleans, T/UUID of times and floats without value')
claim('C28', 'proved', 'C28_written C28_read C28_absent')
claim('C29', 'proved', 'C29_foreign C29_reader C29_attribute C29_swap C29_first')
claim('C30', 'partial', 'C30_exact C30_partial C30_iff C30_saved_iff C30_broken',
      'proved for all writable trees: what is read is computed exactly; content is kept if and only if no attribute value has a tab or line end '
      'and no leaf text a carriage return (refuted for the others)')
claim('C31', 'partial', 'C31_partial C31_iff C31_broken', 'proved for trees without quotation marks in attribute values, and for no others; refuted by witnesses with them')
claim('C32', 'partial', 'C32_partial C32_broken C32_document_broken',
      'leaf texts are stable; text before inline markup grows with every cycle, which is proved for every such text and number of cycles')
claim('C33', 'partial', 'C33_fuel C33_partial C33_object_partial C33_broken C33_written C33_file_partial',
      'proved for every document and for each of the 709 reader/writer pairs, outside the defects listed in Spec/Defects.lean; '
      'each entry of that list is shown to be a real loss by C33_broken')
claim('C34', 'partial', 'C34_partial C33_object_partial C33_file_partial', 'same condition as C33')
claim('C35', 'partial', 'C35_C38_elements_partial C35_broken C35_broken_collection',
      'proved for all but three of the accepted element kinds, refuted for these')
claim('C36', 'partial', 'C36_modes_agree C36_save_modes_agree C36_foreign_partial C36_pruned C36_unsupported_skipped C36_supported_read '
      'C36_unsupported_raises C36_missing_raises C36_missing_skipped C36_unbound_broken C36_first_broken',
      'proved for elements with unknown tags at every place but value specifications and the few places where the reader takes the first child; refuted there')
claim('C37', 'proved', 'C37_sdg C37_adminData')
claim('C38', 'partial', 'C38_packages C38_document C35_C38_elements_partial C35_broken',
      'package order proved; the elements the writer drops are those of C35')
claim('C39', 'partial', 'C39_new C39_partial C39_files_partial C39_alone C39_order_partial C39_find_partial C39_broken C39_find_broken',
      'what is there after loading several files, and that the order does not matter, is proved; "first definition wins" is refuted (later files overwrite or even erase '
      'attributes), and lookup fails where a package and an element share a name')
claim('C40', 'proved', 'C40 C40_history')
claim('C41', 'proved', 'C41_removed C41_unchanged C41_nested_kept')
claim('C42', 'partial', 'C42_listed C42_listed_partial C42_blank_count C42_lines C42_crlf C42_blank_broken C42_directory C42_no_invention C42_order C42_total C42_join C42_cli_missing '
      'C42_cli_agrees C42_cli_comment_broken',
      'blank lines give empty paths, so the claim holds for list files without them; the exact result is proved for every content')
claim('C43', 'proved', 'C43_sorted C43_order_independent')
claim('C44', 'partial', 'C44_fits C44_exact C44_fresh_partial C44_history_partial C44_document C44_reused_broken C44_reused_witness C44_endpoints_broken '
      'C44_other_kind_broken',
      'proved for new names; refuted for names the composition knows and for the end points the writer reads')
claim('C45', 'partial', 'C45_last_value_partial C45_last_value_any C45_adders_do_not_interfere C45_initial_partial C45_from_new_partial C45_getters_total '
      'C45_none_broken C45_none_count C45_unset_broken',
      'proved for the 1371 setters that ignore None; 607 setters store None, so the claim is refuted for them and the exact behaviour is proved instead')
claim('C46', 'partial', 'C46_append_partial C46_append_later_partial C46_append_any C46_append_once C46_count C46_none_broken C46_twice_broken C46_overwrite_broken',
      'proved for the 234 adders that ignore None; 141 adders append None and 10 drop duplicates: refuted for them, exact behaviour proved')
claim('C47', 'partial', 'C47_own_dest_broken C47_known_dest_partial',
      'the DEST table does not know most tags; refuted in general, proved for tags in the table')
claim('C48', 'proved', 'C48_behavior_map')

claim('C49', 'partial', 'C49_assembly_columns C49_delegation_columns C49_rows_added C49_missing_partial C49_missing_broken C49_report_assembly_partial C49_report_delegation_partial C49_report_broken',
      'columns located by title: proved; a later sheet without a title is read with old columns, the report fails on loaded connectors: refuted')
claim('C50', 'proved', 'C50')
claim('C51', 'partial', 'C51_partial C51_doubled C51_same_partial C51_broken',
      'packages and elements: proved; every other attribute: unchanged, or a list the parser appends to, which is then there twice; so false, and true for documents without such lists')
claim('C52', 'partial', 'C52_listing C52_order C52_created C52_created_count C52_removal_broken',
      'proved for listings of the members, and for lists of their own as far as nothing was removed: a removed port is still listed')
claim('C53', 'proved', 'C53_collected C53_printed C53_names')
claim('C54', 'partial', 'C54_dumped C54_times C54_once_partial C54_once_broken', 'a package inside n others is printed 2^n times; top-level packages once')
claim('C55', 'partial', 'C55_formatted C55_kept_partial C55_text C55_again_partial C55_kept_broken C55_again_broken',
      'structure always kept; texts of leaves kept exactly when they have no blank line inside; attributes kept without tabs and line ends')
claim('C56', 'partial', 'C56_means C56_relative_partial C56_absolute_partial C56_total C56_comment_broken C56_blank_broken',
      'proved for file names without leading # or white space at the ends; a name that looks like a comment is lost, an empty path stops the tool')
claim('C57', 'partial', 'C57_saved C57_built C57_loaded C57_nothing C57_output C57_reload_partial C57_nested_broken C57_warning_broken',
      'what is written and loaded is proved for every document that loads (reloading under the conditions of C33); admin data inside of elements stays, and -w does not reach the writer')
claim('C58', 'partial', 'C58_swc_partial C58_signals_partial C58_memory_broken list_case C58_parameter_broken',
      'parameter components are not listed, memory-section lists system signals and ignores its format option')
claim('C59', 'proved', 'C59_stripped C59_form C59_added C59_references C59_lines C59_joined',
      'about the parser behind ElementTree.parse as modelled in Model/Markup; document types are not modelled')
claim('C60', 'partial', 'C60_report_partial C60_document C60_reports C60_package_broken C60_unread_broken C60_twice_broken',
      'duplicates among elements of packages are reported, what is reported is a duplicate; a duplicate on a package stops the tool; UUIDs of ECUC-DESTINATION-URI-DEF-SET are not read; five kinds of elements are read twice; for UUIDs deeper inside of elements completeness is in terms of the objects of the loaded document')
claim('C61', 'proved', 'C61_systems C61_compositions C61_root C61_behavior C61_types',
      'about the calls of the registries as modelled in Model/Calls; the lookup of a path is a parameter')
claim('C62', 'partial', 'C62_loaded_partial C62_added_partial C62_rejected C62_both_broken C62_nonvolatile_broken',
      'proved for ports that provide and ports that require; PRPortPrototype checks nothing; NvRequireComSpec can not be loaded on an R port')
claim('C63', 'partial', 'C63_fits C63_fits_more C63_built_partial C63_merged_partial C63_texts C63_files_partial',
      'proved outside the defects listed in Spec/Defects.lean; numbers assigned by a program without a text are the subject of C66')
claim('C64', 'partial', 'C64_elements C64_refused C64_file_partial C64_wiring_broken C64_delegation_broken',
      'what stays and what changes is proved for every document that loads, and that the output loads; but the new connectors connect nothing, rows with a known name create none, and a file with a new delegation connector only loads in warning mode')
claim('C65', 'partial', 'C65_partial C65_broken', 'a report is written exactly if no composition in the files has a connector; the report of a loaded connector raises AttributeError')
claim('C66', 'partial', 'C66_saved_partial C66_value_partial C66_same_number C66_assigned C66_assigned_boolean C66_large_broken C66_infinite_broken C66_unset_broken C66_bool_broken C66_stale_broken',
      'proved for integers of up to 53 bits, floats with a decimal text and truth values of boolean attributes, in documents without the attributes of Spec/Defects.lean; larger integers change, infinity, nan, unset floats and truth values assigned to numbers make a file that cannot be loaded, and a number that was read keeps its text')
claim('C67', 'partial', 'C67_built_partial C67_loaded_partial', 'proved for documents without the attributes that save loses (Spec/Defects.lean)')
claim('C68', 'partial', 'C68_ms_partial C68_even_partial C68_second C68_bound C68_seconds C68_truncated C68_infinite C68_no_value C68_absent C68_lost_broken C68_zero_broken',
      'exact formula for which numbers of milliseconds are reported one less (1.001 s is the first); proved without exception up to one second; below one millisecond BSW events report 0; where a tie decides, the rule that ties go to the even double is assumed')
claim('C69', 'partial', 'C69_finishes C69_lines_partial C69_files_partial C69_operation_broken C69_timing_broken',
      'the tool comes to its end exactly if there is no client-server operation and no BSW timing event, and then prints exactly these lines; otherwise it raises AttributeError or TypeError')
claim('C70', 'partial', 'C70_exception C70_complete C70_truncated C70_interrupted_partial C70_lost_broken',
      'exceptions change no file, and what an interrupted save leaves is never loaded as something else; but the old file is lost as soon as it is opened')
claim('C71', 'partial', 'C71_construct_partial C71_calls C71_created C71_document C71_loaded C71_blank_partial C71_count C71_abstract_broken C71_event_broken C71_enum_broken',
      'two classes declared abstract can be constructed; BswInterruptEvent cannot; two enumerations need an argument')
claim('C72', 'partial', 'C72_lookup_partial C72_unique_partial C72_unique_class_partial C72_history C72_unseen C72_repair C72_stale_broken',
      'lookups use the name an object had when it was added: right as long as members are not renamed')
claim('C73', 'partial', 'C73_settled_partial C73_one_thread C73_some C73_race_broken',
      'fails for calls that overlap with the first construction; holds for every schedule after it')
claim('C74', 'partial', 'C74_current C74_create C74_no_name C74_renamed C74_one_per_name C74_section C74_slot_partial C74_slot_broken C74_values_partial C74_values_broken C74_descriptors_partial C74_descriptors_broken C74_descriptors_all',
      'queries, pin groups and sections: for every history; fails for key slot contents, value lists and descriptors without category')
claim('C75', 'partial', 'C75_independent_partial C75_set C75_add_exact C75_new C75_shared_broken',
      'setters store and getters return lists themselves: proved for programs that share no lists, exact effect of an adder on all others proved, refuted with sharing')
claim('C76', 'proved', 'C76_load C76_load_into C76_load_all')
claim('C77', 'partial', 'C77_other_files C77_status_partial C77_format_partial C77_format_broken C77_input_lost_broken',
      'arxml-format and armodel-uuid-checker without -v, armodel-system-signal and armodel-memory-section always end with status 0; an input named like the log file in the directory of the output is deleted; the rest is proved')
claim('C78', 'proved', 'C78_load C78_load_into C78_load_all C78_strip')
claim('C79', 'proved', 'C79_grammar C79_unambiguous', 'about the parser as modelled in Model/Markup; document types are not modelled')
claim('C80', 'proved', 'C80_names C80_same C80_usual C80_prefix C80_saved C80_dom', 'about the parser as modelled in Model/Markup and Model/Namespace')
claim('C81', 'partial', 'C81_root C81_foreign C81_broken', 'the namespace of the root is not compared with that of AUTOSAR 4: a file of another schema loads as a document without packages; a root of another name is rejected')
claim('C82', 'proved', 'C82_file C82_files C82_independent C82_untouched C82_exists C82_order C82_packages C82_elements', 'for loads the model of loading covers (DESIGN.md, Simplifications)')
claim('C83', 'partial', 'C83_divided_partial C83_both_partial C83_per_package C83_per_element C83_broken', 'proved for divisions that repeat, in each part of a package, what is written about it besides its lists; otherwise the last part erases it (refuted)')
claim('C84', 'partial', 'C84_exact_partial C84_history C84_distinct C84_binding C84_count C84_empty_broken C84_unchecked_broken C84_limit_broken', 'which texts are valid is proved for all classes and histories; but assigning an invalid text is not refused, six classes accept nothing, and the interval types of limits in files are never valid (refuted)')
claim('C85', 'partial', 'C85_typed C85_object C85_identity C85_program_partial C85_file_partial C85_shaped C85_set C85_add C85_create C85_unset C85_remove C85_inside C85_methods C85_creates C85_missing_broken', 'proved for all sequences of calls, except for the attributes that are lost or changed by saving (Spec/Defects.lean) and, for the existence of plain methods, the listed attributes; save does not notice that a mandatory attribute is missing (refuted)')
claim('C86', 'partial', 'C86_saved_partial C86_unsaved C86_never_loaded C86_not_written C86_unwritten C86_either C86_broken', 'proved for all attributes but the 880 in the table (Gen/Unsaved.lean); each of those can be set and is never loaded, and about 500 are not written either (refuted); that what is read is also written is C33 and C85')
claim('C87', 'partial', 'C87_named_partial C87_absent C87_broken', 'proved for all attributes but responseOnEventRef of DiagnosticConnection, which is read from RESPONSE-REF (refuted for it); endings of plurals and references are not compared, 17 attributes have other names than their element, listed in Spec/Tags.lean')
claim('C88', 'proved', 'C88_order', 'for the values one statement of the reader finds; the element collection, which several statements fill, has the values of each statement in the order of the file')
claim('C89', 'partial', 'C89_lists_partial C89_single C89_cut C89_broken', 'proved for all lists but dataIds of EndToEndTransformationISignalProps, of which only the first value is loaded (refuted for it); single values: proved for all')
claim('C90', 'partial', 'C90_order C90_apart_partial C90_file_partial', 'independence of the order: proved for all documents and the objects listed in freeOrder; that different documents give different files: up to the attributes of Spec/Defects.lean, which are lost')
claim('C91', 'partial', 'C91_errors C91_saved_partial C91_loaded_partial C91_broken C91_strict_broken', 'save raises exceptions for the objects listed in Spec/Saving.lean, and for nothing else')
claim('C92', 'partial', 'C92_partial C92_named C92_into_partial C92_other_partial C92_files_partial C92_order_partial C92_rejected C92_errors C92_modes C92_broken', 'nothing is said about files in which an element has an empty name, or elements of different classes in one collection have the same name')
claim('C93', 'proved', 'C93_saved C93_rejected C36_save_modes_agree', 'for all documents, typed or not; which objects of typed documents have faults is C91')
claim('C94', 'proved', 'C94_change C94_call', 'for objects inside of a document; for calls on the document itself there is nothing around')
claim('C95', 'proved', 'C95_exchange C95_part', 'for 692 of the 703 kinds of elements objects are made of; the other eleven (twoWays) are also read directly, as a value or by a path that leads through them')
claim('C96', 'proved', 'C96_insert', 'for 452 of the 461 kinds of elements objects are made of in a loop; the other nine (otherWays) are read in another way elsewhere')
claim('C97', 'proved', 'C97_carry', 'for the kinds of elements of C95')
claim('C98', 'proved', 'C98_remove C98_all C98_needed', 'for the kinds of elements of C96')
claim('C99', 'proved', 'C99_shrink C99_grow C99_receiver_broken', 'for the kinds of elements of C96 but two (movers): a RECEIVER-IREF and a PORT-DEFINED-ARGUMENT-VALUE change the place other elements are written to')
claim('C100', 'proved', 'C100_texts C100_space', 'texts that are blank may make values appear or disappear, so both the old and the new text must not be blank in the first part; C100_needed shows that the exceptions of the second part are needed')


def write():
    json.dump({"claims": [C[k] for k in sorted(C)]}, open('/verif/MANIFEST.json', 'w'), indent=1)


if __name__ == '__main__':
    write()
