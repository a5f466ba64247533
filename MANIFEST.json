{
 "claims": [
  {
   "property": "C01",
   "status": "proved",
   "theorems": [
    "OneNote.C01_compact_roundtrip",
    "OneNote.C01_compact_every_value",
    "OneNote.C01_compact_only_encodings"
   ],
   "note": "Round trip for every legal width, every u64 encodable, and only legal encodings accepted."
  },
  {
   "property": "C02",
   "status": "proved",
   "theorems": [
    "OneNote.C02_exguid_roundtrip",
    "OneNote.C02_exguid_every_value",
    "OneNote.C02_exguid_only_encodings",
    "OneNote.C02_exguid_rejects",
    "OneNote.C02_exguid_legal_first_byte"
   ],
   "note": "All five forms; rejection of every other first byte; legal first bytes only fail with EOF."
  },
  {
   "property": "C03",
   "status": "proved",
   "theorems": [
    "OneNote.C03_guid_layout",
    "OneNote.C03_guid_injective",
    "OneNote.C03_guid_surjective",
    "OneNote.C03_guid_short"
   ],
   "note": "Bijection between 16-byte strings and GUIDs; EOF below 16 bytes."
  },
  {
   "property": "C04",
   "status": "proved",
   "theorems": [
    "OneNote.C04_header16_roundtrip",
    "OneNote.C04_header32_roundtrip",
    "OneNote.C04_end_roundtrip",
    "OneNote.C04_hasEnd8",
    "OneNote.C04_headers_only_encodings",
    "OneNote.C04_header_rejects",
    "OneNote.C04_expected_type"
   ],
   "note": "Round trips for all header kinds, converse (only encodings accepted), explicit rejection."
  },
  {
   "property": "C05",
   "status": "proved",
   "theorems": [
    "OneNote.C05_truncation",
    "OneNote.C05_consumes_prefix",
    "OneNote.C05_section",
    "OneNote.C05_section_length",
    "OneNote.C05_notebook"
   ],
   "note": "For the container parser, for sections and for notebooks: every accepted input and every truncation point."
  },
  {
   "property": "C06",
   "status": "proved",
   "theorems": [
    "OneNote.C06_trailing_bytes",
    "OneNote.C06_section",
    "OneNote.C06_section_tail",
    "OneNote.C06_notebook"
   ],
   "note": "For the container parser, for sections and for notebooks; the unread tail can be replaced by anything."
  },
  {
   "property": "C07",
   "status": "proved",
   "theorems": [
    "OneNote.C07_loop_deterministic",
    "OneNote.C07_loops_terminate",
    "OneNote.C07_container_terminates",
    "OneNote.C07_count_bounded"
   ],
   "note": "Fuel-free big-step semantics of each loop: at most one iteration per unread byte; the whole container parser never reaches the fuel bound or panics."
  },
  {
   "property": "C08",
   "status": "proved",
   "theorems": [
    "OneNote.C08_no_amplification",
    "OneNote.C08_count_too_large"
   ],
   "note": "Size of the parsed container at most the bytes consumed; oversized counts are errors."
  },
  {
   "property": "C09",
   "status": "proved",
   "theorems": [
    "OneNote.C09_package_round_trip",
    "OneNote.C09_file_round_trip",
    "OneNote.C09_every_package_has_a_file",
    "OneNote.C09_last_element_kept",
    "OneNote.C09_last_entry_kept",
    "OneNote.C09_no_duplicates"
   ],
   "note": "Every legal serialisation (relational encoder, all width choices) of any element list is read back exactly; later element of the same id wins."
  },
  {
   "property": "C10",
   "status": "partial",
   "theorems": [
    "OneNote.C10_fragment_rejected",
    "OneNote.C10_refuted",
    "OneNote.C10_fields_partial",
    "OneNote.C10_file_rejected",
    "OneNote.C10_section_refuted"
   ],
   "note": "Property is false of the code: every package with a well-formed fragment is rejected (C10_fragment_rejected). The fields themselves are read back (C10_fields_partial)."
  },
  {
   "property": "C11",
   "status": "partial",
   "theorems": [
    "OneNote.C11_metadata_rejected",
    "OneNote.C11_refuted",
    "OneNote.C11_without_block_partial",
    "OneNote.C11_file_rejected",
    "OneNote.C11_section_refuted"
   ],
   "note": "Property is false of the code: every object group with a metadata block is rejected whatever it contains (C11_metadata_rejected). Groups without the block are read (C11_without_block_partial)."
  },
  {
   "property": "C12",
   "status": "proved",
   "theorems": [
    "OneNote.C12_unknown_format_rejected",
    "OneNote.C12_accepted_formats",
    "OneNote.C12_rejected",
    "OneNote.C12_section"
   ],
   "note": "Every byte string; both directions. The format GUID of a container embedded in a revision store is not checked by the code and not claimed."
  },
  {
   "property": "C13",
   "status": "proved",
   "theorems": [
    "OneNote.C13_embedded_position",
    "OneNote.C13_embedded_round_trip",
    "OneNote.C13_rejected",
    "OneNote.C13_section"
   ],
   "note": "Exact behaviour for every header and every 64/32-bit log reference, and the round trip of an embedded container."
  },
  {
   "property": "C14",
   "status": "proved",
   "theorems": [
    "OneNote.C14_round_trip",
    "OneNote.C14_accepts_only",
    "OneNote.C14_unknown_type"
   ],
   "note": ""
  },
  {
   "property": "C15",
   "status": "proved",
   "theorems": [
    "OneNote.C15_lookup_found",
    "OneNote.C15_lookup_absent",
    "OneNote.C15_lookup_parsed"
   ],
   "note": ""
  },
  {
   "property": "C16",
   "status": "proved",
   "theorems": [
    "OneNote.C16_round_trip",
    "OneNote.C16_accepts_only"
   ],
   "note": ""
  },
  {
   "property": "C17",
   "status": "partial",
   "theorems": [
    "OneNote.C17_reference_list_partial",
    "OneNote.C17_single_reference_partial",
    "OneNote.C17_from_file_partial",
    "OneNote.C17_refuted_nested_set",
    "OneNote.C17_refuted_repeated",
    "OneNote.C17_file_refuted"
   ],
   "note": "False of the code as stated (nested property sets of type 0x11 are not counted, repeated property ids lose a contribution): refuted with witnesses; proved for files without these."
  },
  {
   "property": "C18",
   "status": "partial",
   "theorems": [
    "OneNote.C18_characterisation_partial",
    "OneNote.C18_from_file_partial",
    "OneNote.C18_refuted",
    "OneNote.C18_refuted_wrong_cell",
    "OneNote.C18_file_refuted"
   ],
   "note": "False of the code: object space references are looked up at a relative index. Refuted with witnesses; exact characterisation and the case in which it is right are proved."
  },
  {
   "property": "C19",
   "status": "partial",
   "theorems": [
    "OneNote.C19_refuted",
    "OneNote.C19_refuted_first",
    "OneNote.C19_slices_partial",
    "OneNote.C19_first_from_file_partial"
   ],
   "note": "False of the code: every nested set of a property uses the slice of the first. Refuted with witnesses; the slices actually used are characterised."
  },
  {
   "property": "C20",
   "status": "proved",
   "theorems": [
    "OneNote.C20_once",
    "OneNote.C20_several",
    "OneNote.C20_own_position",
    "OneNote.C20_absent",
    "OneNote.C20_never_foreign"
   ],
   "note": ""
  },
  {
   "property": "C21",
   "status": "proved",
   "theorems": [
    "OneNote.C21_starts_at_newest",
    "OneNote.C21_newest_object_wins",
    "OneNote.C21_exactly_the_declared"
   ],
   "note": ""
  },
  {
   "property": "C22",
   "status": "partial",
   "theorems": [
    "OneNote.C22_oldest_wins_partial",
    "OneNote.C22_single_declaration_partial",
    "OneNote.C22_refuted"
   ],
   "note": "False of the code: the oldest declaration of a root wins. Refuted; the actual behaviour and the single-declaration case are proved."
  },
  {
   "property": "C23",
   "status": "partial",
   "theorems": [
    "OneNote.C23_bound_is_exact",
    "OneNote.C23_finite_history_partial",
    "OneNote.C23_no_revision_partial",
    "OneNote.C23_cycle_never_ends",
    "OneNote.C23_refuted",
    "OneNote.C23_refuted_file"
   ],
   "note": "False of the code for cyclic base revisions (never ends): refuted. Termination is proved for every acyclic history and the model bound is proved exact."
  },
  {
   "property": "C24",
   "status": "partial",
   "theorems": [
    "OneNote.C24_deterministic_partial",
    "OneNote.C24_rejection_partial",
    "OneNote.C24_section_partial",
    "OneNote.C24_outcome_partial",
    "OneNote.C24_notebook_partial",
    "OneNote.C24_reference_counts",
    "OneNote.C24_refuted",
    "OneNote.C24_section_refuted",
    "OneNote.C24_refuted_error"
   ],
   "note": "False of the code for ambiguous files (several storage indexes/manifests, equal serial numbers) and for the kind of error: refuted with concrete files. Determinism is proved for every unambiguous file."
  },
  {
   "property": "C25",
   "status": "proved",
   "theorems": [
    "OneNote.C25_section",
    "OneNote.C25_section_file",
    "OneNote.C25_notebook",
    "OneNote.C25_not_a_section",
    "OneNote.C25_not_the_right_file",
    "OneNote.C25_never_both"
   ],
   "note": ""
  },
  {
   "property": "C26",
   "status": "partial",
   "theorems": [
    "OneNote.C26_store",
    "OneNote.C26_buffer_partial",
    "OneNote.C26_section_file_partial",
    "OneNote.C26_notebook_partial",
    "OneNote.C26_number_list_refuted",
    "OneNote.C26_ink_refuted"
   ],
   "note": "False: a number list with an empty format (C26_number_list_refuted) and a text with fewer references to ink than ink runs (C26_ink_refuted) make the parser panic, each shown with a complete file. Proved that nothing else does, for sections, section files and notebooks, and that reading the store never panics."
  },
  {
   "property": "C27",
   "status": "proved",
   "theorems": [
    "OneNote.C27_roundtrip",
    "OneNote.C27_any_encoding"
   ],
   "note": ""
  },
  {
   "property": "C28",
   "status": "partial",
   "theorems": [
    "OneNote.C28_missing_numbers_partial",
    "OneNote.C28_overlong_partial",
    "OneNote.C28_truncated_accepted",
    "OneNote.C28_accepted_exactly",
    "OneNote.C28_truncation_refuted",
    "OneNote.C28_overflow_refuted",
    "OneNote.C28_file_refuted"
   ],
   "note": "false of the code: data ending inside a number, and bits beyond the 64th, are accepted (C28_truncation_refuted, C28_overflow_refuted); missing numbers and numbers over ten bytes are rejected, and C28_accepted_exactly says exactly what is accepted"
  },
  {
   "property": "C29",
   "status": "proved",
   "theorems": [
    "OneNote.C29_points",
    "OneNote.C29_missing_dimension",
    "OneNote.C29_no_overrun",
    "OneNote.C29_dimensions"
   ],
   "note": ""
  },
  {
   "property": "C30",
   "status": "partial",
   "theorems": [
    "OneNote.C30_scaling_partial",
    "OneNote.C30_pen_size_partial",
    "OneNote.C30_scaling_refuted",
    "OneNote.C30_pen_size_refuted",
    "OneNote.C30_file_refuted"
   ],
   "note": "Refuted in full: the vertical scale is read from the x-scaling property and a stroke width and height are swapped (C30_scaling_refuted, C30_pen_size_refuted). The _partial theorems state what is read instead."
  },
  {
   "property": "C31",
   "status": "proved",
   "theorems": [
    "OneNote.C31_decode_iff",
    "OneNote.C31_unpaired_surrogate",
    "OneNote.C31_string_property"
   ],
   "note": ""
  },
  {
   "property": "C32",
   "status": "partial",
   "theorems": [
    "OneNote.C32_entry",
    "OneNote.C32_rejected",
    "OneNote.C32_accepted",
    "OneNote.C32_confined_partial",
    "OneNote.C32_group_toc_refuted"
   ],
   "note": "Entries themselves are confined (C32_entry, C32_rejected, C32_accepted) and the notebook depends on nothing outside its directory except onetoc2 files found by listing section groups (C32_confined_partial). In full it is false: a section group table of contents that is a symbolic link is opened without the check (C32_group_toc_refuted)."
  },
  {
   "property": "C33",
   "status": "proved",
   "theorems": [
    "OneNote.C33_order",
    "OneNote.C33_same_names",
    "OneNote.C33_complete",
    "OneNote.C33_all_listed",
    "OneNote.C33_notebook"
   ],
   "note": ""
  },
  {
   "property": "C34",
   "status": "partial",
   "theorems": [
    "OneNote.C34_adjacent_partial",
    "OneNote.C34_own_ids_partial",
    "OneNote.C34_refuted",
    "OneNote.C34_file_refuted",
    "OneNote.C34_same_id_refuted",
    "OneNote.C34_notebook_refuted"
   ],
   "note": "Refuted: only a name that directly follows the same name is dropped (C34_refuted, C34_same_id_refuted, C34_file_refuted). The _partial theorems state what holds."
  },
  {
   "property": "C35",
   "status": "proved",
   "theorems": [
    "OneNote.C35_entries",
    "OneNote.C35_first_failure",
    "OneNote.C35_unresolved"
   ],
   "note": ""
  },
  {
   "property": "C36",
   "status": "partial",
   "theorems": [
    "OneNote.C36_display_name_partial",
    "OneNote.C36_refuted",
    "OneNote.C36_file_partial"
   ],
   "note": "refuted for names that end in .one more than once; everything else proved, for bytes and for files"
  },
  {
   "property": "C37",
   "status": "proved",
   "theorems": [
    "OneNote.C37_color",
    "OneNote.C37_colorRef",
    "OneNote.C37_missing_or_wrong_type"
   ],
   "note": ""
  },
  {
   "property": "C38",
   "status": "proved",
   "theorems": [
    "OneNote.C38_every_value",
    "OneNote.C38_layout",
    "OneNote.C38_missing_or_wrong_type"
   ],
   "note": ""
  },
  {
   "property": "C39",
   "status": "proved",
   "theorems": [
    "OneNote.C39_shape",
    "OneNote.C39_shape_injective",
    "OneNote.C39_checkable",
    "OneNote.C39_item_type",
    "OneNote.C39_item_status",
    "OneNote.C39_definition_status",
    "OneNote.C39_definition"
   ],
   "note": ""
  },
  {
   "property": "C40",
   "status": "partial",
   "theorems": [
    "OneNote.C40_section",
    "OneNote.C40_section_file",
    "OneNote.C40_all_references_partial",
    "OneNote.C40_dropped_refuted"
   ],
   "note": "Proved in full for the references that resolve, from the bytes down to the leaves. The clause that every stored reference appears is refuted: a reference for which the object records no identifier is dropped without an error."
  },
  {
   "property": "C41",
   "status": "partial",
   "theorems": [
    "OneNote.C41_more_calls",
    "OneNote.C41_more_calls_notebook",
    "OneNote.C41_section_partial",
    "OneNote.C41_buffer_partial",
    "OneNote.C41_notebook_partial",
    "OneNote.C41_page_cycle",
    "OneNote.C41_cycle_not_shown",
    "OneNote.C41_refuted",
    "OneNote.C41_toc_refuted",
    "OneNote.C41_link_refuted"
   ],
   "note": "False for files whose objects refer to themselves: C41_refuted and C41_toc_refuted give complete files on which assembling the document runs out of every number of nested calls. Proved for every file in which no object that can be got to from the roots is its own descendant (sections and notebooks; cycles among objects nothing refers to are allowed; for notebooks with a limit on the length of paths, and C41_link_refuted shows that it is needed), that the bound of the model never changes a result, and conversely that a file is never shown if a part of one of its pages contains itself."
  },
  {
   "property": "C42",
   "status": "partial",
   "theorems": [
    "OneNote.C42_same_directory_partial",
    "OneNote.C42_bare_name_refuted",
    "OneNote.C42_refuted"
   ],
   "note": "Refuted for bare file names: the parent of a bare file name is the empty path, which does not canonicalize, so every existing entry is rejected. Proved: two spellings of the directory that resolve alike give the same result."
  },
  {
   "property": "C43",
   "status": "proved",
   "theorems": [
    "OneNote.C43_section",
    "OneNote.C43_buffer",
    "OneNote.C43_unique",
    "OneNote.C43_page",
    "OneNote.C43_outline",
    "OneNote.C43_text",
    "OneNote.C43_image",
    "OneNote.C43_file",
    "OneNote.C43_ink"
   ],
   "note": "soundness and completeness for whole sections; the types required are those the readers ask for (see Spec/Objects)"
  },
  {
   "property": "C44",
   "status": "partial",
   "theorems": [
    "OneNote.C44_page_size_refuted",
    "OneNote.C44_file_refuted",
    "OneNote.C44_others_partial"
   ],
   "note": "refuted for the page size (every page that stores it, and a complete file); proved for all other properties with single values"
  },
  {
   "property": "C45",
   "status": "partial",
   "theorems": [
    "OneNote.C45_accepted_exactly",
    "OneNote.C45_package_exactly",
    "OneNote.C45_open_fragment_refuted",
    "OneNote.C45_serial_refuted",
    "OneNote.C45_legal_partial"
   ],
   "note": "refuted: a fragment without end header and a serial number with a wrong type byte are accepted; C45_accepted_exactly gives the exact set of accepted files"
  },
  {
   "property": "C46",
   "status": "proved",
   "theorems": [
    "OneNote.C46_store_sound",
    "OneNote.C46_store_exactly",
    "OneNote.C46_rejected_exactly",
    "OneNote.C46_unique",
    "OneNote.C46_lookup"
   ],
   "note": "Soundness for every accepted container; exactness, rejection and uniqueness for containers without ambiguities (for the others the result depends on hash order, see C24)."
  },
  {
   "property": "C47",
   "status": "proved",
   "theorems": [
    "OneNote.C47_section_sound",
    "OneNote.C47_section_complete",
    "OneNote.C47_section_exactly",
    "OneNote.C47_unique"
   ],
   "note": "Soundness for every byte string; completeness and uniqueness for files without ambiguities (for the others the result depends on hash order, see C24)."
  },
  {
   "property": "C48",
   "status": "proved",
   "theorems": [
    "OneNote.C48_notebook_sound",
    "OneNote.C48_notebook_complete",
    "OneNote.C48_only_what_is_read",
    "OneNote.C48_notebook_exactly",
    "OneNote.C48_unique"
   ],
   "note": "Soundness without assumptions; completeness, exactness and uniqueness for files that leave no choice to hash map iteration (C24 refutes the rest)."
  },
  {
   "property": "C49",
   "status": "proved",
   "theorems": [
    "OneNote.C49_encoding",
    "OneNote.C49_order",
    "OneNote.C49_unreferenced",
    "OneNote.C49_store",
    "OneNote.C49_notebook",
    "OneNote.C49_duplicates"
   ],
   "note": "Encoding and container fields: exact equality for every iteration order. Order and unreferenced elements: files without ambiguity (see C24). With duplicate identifiers the order does matter (C49_duplicates)."
  },
  {
   "property": "C50",
   "status": "proved",
   "theorems": [
    "OneNote.C50_section",
    "OneNote.C50_length",
    "OneNote.C50_notebook"
   ],
   "note": "Holds for every input without assumption. Which attachment has which bytes is C47."
  },
  {
   "property": "C51",
   "status": "partial",
   "theorems": [
    "OneNote.C51_doubling_refuted",
    "OneNote.C51_power_refuted",
    "OneNote.C51_lists_partial",
    "OneNote.C51_unshared_partial"
   ],
   "note": "Refuted: each reference is followed anew, so a small file can show an exponentially large document. Proved: no list is longer than the file, and without shared parts a page has at most as many parts as the file has bytes."
  },
  {
   "property": "C52",
   "status": "proved",
   "theorems": [
    "OneNote.C52_title_text",
    "OneNote.C52_no_title_text",
    "OneNote.C52_never_empty"
   ],
   "note": ""
  },
  {
   "property": "C53",
   "status": "partial",
   "theorems": [
    "OneNote.C53_name_comes_back",
    "OneNote.C53_entry_name_partial",
    "OneNote.C53_missing_refuted",
    "OneNote.C53_confused_refuted"
   ],
   "note": "Refuted for names that contain ^M or ^J (C53_missing_refuted, C53_confused_refuted); proved for all other names, with the exact condition (C53_name_comes_back)."
  },
  {
   "property": "C54",
   "status": "partial",
   "theorems": [
    "OneNote.C54_notebook_partial",
    "OneNote.C54_section_partial",
    "OneNote.C54_shows_or_panics",
    "OneNote.C54_one_argument",
    "OneNote.C54_any_notebook_refuted"
   ],
   "note": "Refuted for tables of contents whose extension is not onetoc2 in lower case (C54_any_notebook_refuted); what the program shows is characterised exactly otherwise."
  },
  {
   "property": "C55",
   "status": "partial",
   "theorems": [
    "OneNote.C55_unknown_kind_refuted",
    "OneNote.C55_listed_kind_partial",
    "OneNote.C55_page_content",
    "OneNote.C55_element_content"
   ],
   "note": "Refuted for every kind number outside the table of known kinds; the theorems say exactly when content is shown as unknown."
  },
  {
   "property": "C56",
   "status": "partial",
   "theorems": [
    "OneNote.C56_page_cells",
    "OneNote.C56_own_space_partial",
    "OneNote.C56_isolated_partial",
    "OneNote.C56_damaged_page_refuted"
   ],
   "note": "Refuted: one damaged page makes the section an error. Proved: a page shows its own object space only."
  },
  {
   "property": "C57",
   "status": "partial",
   "theorems": [
    "OneNote.C57_beyond_refuted",
    "OneNote.C57_drawing_refuted",
    "OneNote.C57_units_refuted",
    "OneNote.C57_positions",
    "OneNote.C57_runs_partial",
    "OneNote.C57_every_text"
   ],
   "note": "Refuted in three ways; proved for texts without drawings and without characters above U+FFFF."
  },
  {
   "property": "C58",
   "status": "partial",
   "theorems": [
    "OneNote.C58_size_refuted",
    "OneNote.C58_locked_refuted",
    "OneNote.C58_absent_refuted",
    "OneNote.C58_never_refuted",
    "OneNote.C58_documented_partial",
    "OneNote.C58_corrected",
    "OneNote.C58_stored_partial"
   ],
   "note": "Refuted for the counts and for the documented calculation; proved what the counts, rows and bits shown are."
  },
  {
   "property": "C59",
   "status": "proved",
   "theorems": [
    "OneNote.C59_page",
    "OneNote.C59_section",
    "OneNote.C59_toc",
    "OneNote.C59_file",
    "OneNote.C59_added",
    "OneNote.C59_removed",
    "OneNote.C59_content",
    "OneNote.C59_page_content"
   ],
   "note": "Equality of results, including errors, for spaces, stores, tables of contents and files; every content shown is an object that can be got to."
  },
  {
   "property": "C60",
   "status": "partial",
   "theorems": [
    "OneNote.C60_refuted",
    "OneNote.C60_text_partial",
    "OneNote.C60_image_partial",
    "OneNote.C60_file_partial",
    "OneNote.C60_table_partial"
   ],
   "note": "refuted: the second note tag of an object shows the definition of the first; number, order, time and status of all tags and the definition of the first are proved"
  },
  {
   "property": "C61",
   "status": "partial",
   "theorems": [
    "OneNote.C61_objects_partial",
    "OneNote.C61_store_partial",
    "OneNote.C61_notebook_partial",
    "OneNote.C61_refuted"
   ],
   "note": "refuted for roots that a newer revision replaces; proved for objects"
  },
  {
   "property": "C62",
   "status": "partial",
   "theorems": [
    "OneNote.C62_unique",
    "OneNote.C62_refuted",
    "OneNote.C62_text_partial"
   ],
   "note": "Refuted: the text of a paragraph with an embedded object is not shown (C62_refuted). Every other paragraph shows exactly its stored text (C62_text_partial)."
  },
  {
   "property": "C63",
   "status": "proved",
   "theorems": [
    "OneNote.C63_shown",
    "OneNote.C63_read_iff",
    "OneNote.C63_refused",
    "OneNote.C63_round_trip",
    "OneNote.C63_distinct",
    "OneNote.C63_literal",
    "OneNote.C63_constants"
   ],
   "note": ""
  },
  {
   "property": "C64",
   "status": "proved",
   "theorems": [
    "OneNote.C64_points",
    "OneNote.C64_determined",
    "OneNote.C64_exact",
    "OneNote.C64_order",
    "OneNote.C64_box",
    "OneNote.C64_box_size",
    "OneNote.C64_box_extent",
    "OneNote.C64_bound_is_sharp"
   ],
   "note": "For every stored path. The 2^24 bound is shown to be sharp."
  },
  {
   "property": "C65",
   "status": "partial",
   "theorems": [
    "OneNote.C65_nan_refuted",
    "OneNote.C65_overflow_refuted",
    "OneNote.C65_moderate_partial",
    "OneNote.C65_in_text_partial"
   ],
   "note": "Refuted: scales that are NaN or infinite are used, and finite scales near the limit overflow. Proved for drawings whose scale is absent or at most 2^64."
  },
  {
   "property": "C66",
   "status": "partial",
   "theorems": [
    "OneNote.C66_refuted",
    "OneNote.C66_file_partial",
    "OneNote.C66_image_partial"
   ],
   "note": "Refuted: names are not checked (C66_refuted). Proved: every name is exactly the stored one, without NUL."
  },
  {
   "property": "C67",
   "status": "partial",
   "theorems": [
    "OneNote.C67_formulas_partial",
    "OneNote.C67_drawings",
    "OneNote.C67_refuted"
   ],
   "note": "Refuted for texts that store data for fewer runs than they have (C67_refuted). Proved: formulas and drawings are never assigned to another run, and the number is right when data is stored for every run."
  },
  {
   "property": "C68",
   "status": "proved",
   "theorems": [
    "OneNote.C68_scale",
    "OneNote.C68_one",
    "OneNote.C68_inside",
    "OneNote.C68_edges_are_rounded"
   ],
   "note": ""
  },
  {
   "property": "C69",
   "status": "proved",
   "theorems": [
    "OneNote.C69_round_trip",
    "OneNote.C69_small_files",
    "OneNote.C69_nothing_lost"
   ],
   "note": "For sections within the limits of the file format (SectionWithin); C69_small_files: every section with a file of less than 256 MB is."
  },
  {
   "property": "C70",
   "status": "proved",
   "theorems": [
    "OneNote.C70_storable",
    "OneNote.C70_exactly",
    "OneNote.C70_written_again",
    "OneNote.C70_notebook"
   ],
   "note": ""
  },
  {
   "property": "C71",
   "status": "proved",
   "theorems": [
    "OneNote.C71_read_back",
    "OneNote.C71_can_be_saved",
    "OneNote.C71_nothing_lost"
   ],
   "note": "Every notebook whose entries have usable names can be laid out on a disk as the parser expects it, and is read back exactly; table of contents, section groups and section files."
  },
  {
   "property": "C72",
   "status": "proved",
   "theorems": [
    "OneNote.C72_name",
    "OneNote.C72_error",
    "OneNote.C72_path",
    "OneNote.C72_path_error",
    "OneNote.C72_notebook"
   ],
   "note": "For every file, name, path, file system and notebook."
  },
  {
   "property": "C73",
   "status": "proved",
   "theorems": [
    "OneNote.C73_places",
    "OneNote.C73_deleted"
   ],
   "note": "For every set of deleted paths that does not contain the table of contents of a directory that is left."
  },
  {
   "property": "C74",
   "status": "proved",
   "theorems": [
    "OneNote.C74_section",
    "OneNote.C74_notebook"
   ],
   "note": "For files without ambiguous revisions (hypothesis PlainFile, see C24)."
  },
  {
   "property": "C75",
   "status": "proved",
   "theorems": [
    "OneNote.C75_section",
    "OneNote.C75_notebook"
   ],
   "note": "Properties that take references and are not read are not covered (adding one shifts the references of those behind it)."
  },
  {
   "property": "C76",
   "status": "partial",
   "theorems": [
    "OneNote.C76_calls",
    "OneNote.C76_refuted",
    "OneNote.C76_partial",
    "OneNote.C76_sets_refuted"
   ],
   "note": "Refuted: for every number of nested calls there is a section file that needs more (C76_refuted, C76_sets_refuted). Proved: the nested calls needed are exactly the nesting depth of the section, and at most the bytes of the file (C76_calls, C76_partial)."
  },
  {
   "property": "C77",
   "status": "proved",
   "theorems": [
    "OneNote.C77_same_page",
    "OneNote.C77_saved",
    "OneNote.C77_cells"
   ],
   "note": "for files without hash-order ambiguities that can be read; C56 covers what happens when a page is damaged"
  },
  {
   "property": "C78",
   "status": "proved",
   "theorems": [
    "OneNote.C78_edited",
    "OneNote.C78_others"
   ],
   "note": "the tree of files the tables of contents lead to is kept"
  },
  {
   "property": "C79",
   "status": "partial",
   "theorems": [
    "OneNote.C79_all_lost",
    "OneNote.C79_partial",
    "OneNote.C79_refuted"
   ],
   "note": "refuted: any unreadable listed section file makes the notebook an error; proved for files that are not listed"
  },
  {
   "property": "C80",
   "status": "partial",
   "theorems": [
    "OneNote.C80_store_partial",
    "OneNote.C80_section_partial",
    "OneNote.C80_sixty_four",
    "OneNote.C80_references_partial",
    "OneNote.C80_refuted",
    "OneNote.C80_references_refuted"
   ],
   "note": "refuted: sizes and reference counts are cut to 32 bits; proved that everything a 64-bit build reads is read with the same result"
  },
  {
   "property": "C81",
   "status": "partial",
   "theorems": [
    "OneNote.C81_unchanged",
    "OneNote.C81_partial",
    "OneNote.C81_refuted"
   ],
   "note": "Refuted: C81_refuted. C81_partial: every section was on the disk at one moment; C81_unchanged: on an unchanging disk the timed model agrees with the model of all other theorems."
  },
  {
   "property": "C82",
   "status": "partial",
   "theorems": [
    "OneNote.C82_partial",
    "OneNote.C82_refuted"
   ],
   "note": "Refuted: C82_refuted (check and use are separate operations). C82_partial holds for disks on which no path appears, vanishes or comes to lead elsewhere."
  },
  {
   "property": "C83",
   "status": "proved",
   "theorems": [
    "OneNote.C83_groups",
    "OneNote.C83_sections"
   ],
   "note": ""
  },
  {
   "property": "C84",
   "status": "proved",
   "theorems": [
    "OneNote.C84_container",
    "OneNote.C84_buffer",
    "OneNote.C84_not_a_section",
    "OneNote.C84_file",
    "OneNote.C84_notebook"
   ],
   "note": "The model does not tell messages of errors apart, only kinds."
  },
  {
   "property": "C85",
   "status": "proved",
   "theorems": [
    "OneNote.C85_places",
    "OneNote.C85_same_part",
    "OneNote.C85_edit",
    "OneNote.C85_section"
   ],
   "note": "an edit shows only at the places of the edited objects, those referring to them and those below; over places at every depth"
  },
  {
   "property": "C86",
   "status": "partial",
   "theorems": [
    "OneNote.C86_same_errors",
    "OneNote.C86_notebook_partial",
    "OneNote.C86_section_partial",
    "OneNote.C86_buffer_partial",
    "OneNote.C86_refuted"
   ],
   "note": "refuted: errors for unreadable, damaged or malformed files name no file (C86_refuted); proved: the three kinds that name a file name one at fault"
  },
  {
   "property": "C87",
   "status": "proved",
   "theorems": [
    "OneNote.C87_edited",
    "OneNote.C87_unreadable",
    "OneNote.C87_exactly"
   ],
   "note": "for files without hash-order ambiguities whose data elements form a store; the list of pages is left alone"
  },
  {
   "property": "C88",
   "status": "proved",
   "theorems": [
    "OneNote.C88_entry",
    "OneNote.C88_inside",
    "OneNote.C88_rejected",
    "OneNote.C88_without_sanitiser",
    "OneNote.C88_drive",
    "OneNote.C88_drive_relative",
    "OneNote.C88_share",
    "OneNote.C88_server",
    "OneNote.C88_verbatim_drive",
    "OneNote.C88_absolute",
    "OneNote.C88_drive_not_absolute"
   ],
   "note": "The sanitiser must not let colons pass; the path functions of std are modelled from their documentation and source."
  },
  {
   "property": "C89",
   "status": "partial",
   "theorems": [
    "OneNote.C89_same_partial",
    "OneNote.C89_section_partial",
    "OneNote.C89_refuted",
    "OneNote.C89_refuted_without_sanitiser"
   ],
   "note": "Refuted: C89_refuted shows the entry g\\\\s opened on Windows and rejected elsewhere. Proved: without backslashes and colons in the names, notebooks and section files are read the same on both."
  },
  {
   "property": "C90",
   "status": "proved",
   "theorems": [
    "OneNote.C90_exactly",
    "OneNote.C90_page_unique",
    "OneNote.C90_list_changed"
   ],
   "note": "For files without ambiguities (C24), as C47."
  },
  {
   "property": "C91",
   "status": "partial",
   "theorems": [
    "OneNote.C91_partial",
    "OneNote.C91_refuted",
    "OneNote.C91_links_refuted"
   ],
   "note": "Refuted: repeated names (C91_refuted) and links (C91_links_refuted) multiply the sections shown. C91_partial: at most as many sections as files if names are listed once and there are no links."
  },
  {
   "property": "C92",
   "status": "partial",
   "theorems": [
    "OneNote.C92_refuted",
    "OneNote.C92_factor_refuted",
    "OneNote.C92_partial"
   ],
   "note": "Refuted: n cells that share a revision of n objects are held as n * n objects (C92_refuted, C92_factor_refuted). C92_partial: at most a quarter of the square of the size of the file."
  },
  {
   "property": "C93",
   "status": "proved",
   "theorems": [
    "OneNote.C93_storable",
    "OneNote.C93_saved",
    "OneNote.C93_saved_again",
    "OneNote.C93_exactly",
    "OneNote.C93_many_names"
   ],
   "note": ""
  },
  {
   "property": "C94",
   "status": "partial",
   "theorems": [
    "OneNote.C94_section_partial",
    "OneNote.C94_notebook_partial",
    "OneNote.C94_set_refuted",
    "OneNote.C94_tag_refuted"
   ],
   "note": "False in general: a reference in an unknown single nested property set (type 0x11) shifts the references of all later properties (C94_set_refuted), and an unknown property with the identifier of a note tag definition hides that definition (C94_tag_refuted). Proved for all other properties; those that take references to object spaces keep their order."
  },
  {
   "property": "C95",
   "status": "partial",
   "theorems": [
    "OneNote.C95_one_toc_partial",
    "OneNote.C95_same_order_partial",
    "OneNote.C95_refuted"
   ],
   "note": "Refuted: a section group with two tables of contents shows the one listed first (C95_refuted). Proved when no directory has two tables of contents, or when directories are listed in the same order."
  },
  {
   "property": "C96",
   "status": "partial",
   "theorems": [
    "OneNote.C96_same_program",
    "OneNote.C96_refuted",
    "OneNote.C96_factor_refuted",
    "OneNote.C96_quadratic_refuted",
    "OneNote.C96_partial"
   ],
   "note": "Refuted: for every n a section file of some hundred bytes times n takes n*n*n steps (C96_refuted, C96_factor_refuted, C96_quadratic_refuted). C96_partial: at most the third power of the size, for every outcome. C96_same_program: the counting functions are the same program."
  },
  {
   "property": "C97",
   "status": "proved",
   "theorems": [
    "OneNote.C97_rearranged"
   ],
   "note": ""
  },
  {
   "property": "C98",
   "status": "partial",
   "theorems": [
    "OneNote.C98_unique",
    "OneNote.C98_length_refuted",
    "OneNote.C98_surrogate_refuted",
    "OneNote.C98_partial"
   ],
   "note": "Refuted: the stored length of a list format is not used, and half a surrogate pair is shown as U+FFFD. Proved: all units after the first are shown, and the stored format if the length counts all of them and they are a text."
  },
  {
   "property": "C99",
   "status": "proved",
   "theorems": [
    "OneNote.C99_container",
    "OneNote.C99_numbers",
    "OneNote.C99_colour",
    "OneNote.C99_path",
    "OneNote.C99_embedded",
    "OneNote.C99_identifiers",
    "OneNote.C99_references",
    "OneNote.C99_operations",
    "OneNote.C99_narrow_refuted"
   ],
   "note": "64-bit builds and files below 4 GB; function by function, not for the parser as a whole. C99_narrow_refuted: with a 32-bit usize it is false."
  },
  {
   "property": "C100",
   "status": "partial",
   "theorems": [
    "OneNote.C100_ignored",
    "OneNote.C100_refuted",
    "OneNote.C100_partial"
   ],
   "note": "Refuted: a section file whose only page is marked as deleted shows the page (C100_refuted), and the mark never has an effect (C100_ignored). C100_partial proves the other half: the pages shown are exactly those listed, in their places."
  },
  {
   "property": "C101",
   "status": "partial",
   "theorems": [
    "OneNote.C101_partial",
    "OneNote.C101_refuted"
   ],
   "note": "Refuted: a page with the stored level 2^32 - 1 is shown with the level -1 (C101_refuted). C101_partial proves that levels less than 2^31 are shown as stored, that a missing level is zero, and that all others are negative."
  },
  {
   "property": "C102",
   "status": "partial",
   "theorems": [
    "OneNote.C102_partial",
    "OneNote.C102_refuted",
    "OneNote.C102_case_refuted",
    "OneNote.C102_windows_partial"
   ],
   "note": "The property is false: C102_refuted and C102_case_refuted. C102_partial proves that recycle bins have no influence if no listed name leads into one."
  },
  {
   "property": "C103",
   "status": "partial",
   "theorems": [
    "OneNote.C103_partial",
    "OneNote.C103_deleted_partial",
    "OneNote.C103_refuted"
   ],
   "note": "The property is false: C103_refuted. C103_partial and C103_deleted_partial prove that files that are not listed can be added and deleted if none comes before the table of contents of its directory with a name that ends in .onetoc2."
  }
 ]
}