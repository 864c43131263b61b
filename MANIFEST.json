{
 "claims": [
  {
   "property": "C01",
   "status": "proved",
   "theorems": [
    "Arinc.C01_accepts_only_records",
    "Arinc.C01_rejects_others"
   ],
   "note": ""
  },
  {
   "property": "C02",
   "status": "proved",
   "theorems": [
    "Arinc.C02_unsupported_section"
   ],
   "note": ""
  },
  {
   "property": "C03",
   "status": "proved",
   "theorems": [
    "Arinc.C03_resolution"
   ],
   "note": ""
  },
  {
   "property": "C04",
   "status": "proved",
   "theorems": [
    "Arinc.C04_C06_fixed_columns",
    "Arinc.C04_verbatim"
   ],
   "note": ""
  },
  {
   "property": "C05",
   "status": "proved",
   "theorems": [
    "Arinc.C05_envelope"
   ],
   "note": ""
  },
  {
   "property": "C06",
   "status": "proved",
   "theorems": [
    "Arinc.C04_C06_fixed_columns",
    "Arinc.C06_same_names"
   ],
   "note": ""
  },
  {
   "property": "C07",
   "status": "proved",
   "theorems": [
    "Arinc.C07_trailing_whitespace"
   ],
   "note": ""
  },
  {
   "property": "C08",
   "status": "partial",
   "theorems": [
    "Arinc.C08_leading_whitespace_partial",
    "Arinc.C08_refuted",
    "Arinc.C08_refuted_fields"
   ],
   "note": "The code violates the full property (C08_refuted, C08_refuted_fields). Proved: shape outcome and raw text are unaffected."
  },
  {
   "property": "C09",
   "status": "proved",
   "theorems": [
    "Arinc.C09_read_raises_iff"
   ],
   "note": "Exact characterisation (iff) of the exceptions of read."
  },
  {
   "property": "C10",
   "status": "partial",
   "theorems": [
    "Arinc.C10_refuted_raises",
    "Arinc.C10_unsupported_application_partial"
   ],
   "note": "False for ER, EV, HV, PP (C10_refuted_raises; exact set in C09) and HC (C11_refuted). Proved for every other section."
  },
  {
   "property": "C11",
   "status": "partial",
   "theorems": [
    "Arinc.C11_declared_application_partial",
    "Arinc.C11_refuted"
   ],
   "note": "False for HC (C11_refuted). Proved for every other section."
  },
  {
   "property": "C12",
   "status": "proved",
   "theorems": [
    "Arinc.C12_bad_continuation_no",
    "Arinc.C12_otherwise_silent"
   ],
   "note": ""
  },
  {
   "property": "C13",
   "status": "proved",
   "theorems": [
    "Arinc.C13_fresh",
    "Arinc.C13_hasCont_primary",
    "Arinc.C13_primary_reports_column"
   ],
   "note": ""
  },
  {
   "property": "C14",
   "status": "partial",
   "theorems": [
    "Arinc.C14_primary_partial",
    "Arinc.C14_refuted"
   ],
   "note": "False for AS, EU, R, RA, TC, on every accepted line (C14_refuted). Proved for every other section."
  },
  {
   "property": "C15",
   "status": "proved",
   "theorems": [
    "Arinc.C15_refuted_EU",
    "Arinc.C15_reuse"
   ],
   "note": "Stated, as in the property, for lines that are not EU; C15_refuted_EU shows the exclusion is needed."
  },
  {
   "property": "C16",
   "status": "partial",
   "theorems": [
    "Arinc.C16_not_stale_partial",
    "Arinc.C16_refuted"
   ],
   "note": "False for sections without a continuation column (C16_refuted). Proved for all others."
  },
  {
   "property": "C17",
   "status": "partial",
   "theorems": [
    "Arinc.C17_coherent_partial",
    "Arinc.C17_refuted_continuation",
    "Arinc.C17_refuted_raise",
    "Arinc.C17_refuted_section",
    "Arinc.C17_what_is_left"
   ],
   "note": "False after three kinds of failure (C17_refuted_*). Proved for shape failures, unsupported application types and successes; C17_what_is_left classifies all failures."
  },
  {
   "property": "C18",
   "status": "partial",
   "theorems": [
    "Arinc.C18_primary_layout_partial",
    "Arinc.C18_refuted"
   ],
   "note": "The code violates the property on every line: C18_refuted is the universally quantified negation."
  },
  {
   "property": "C19",
   "status": "proved",
   "theorems": [
    "Arinc.C19_returns_iff",
    "Arinc.C19_table"
   ],
   "note": ""
  },
  {
   "property": "C20",
   "status": "proved",
   "theorems": [
    "Arinc.C20_history_independent",
    "Arinc.C20_repeatable"
   ],
   "note": ""
  },
  {
   "property": "C21",
   "status": "proved",
   "theorems": [
    "Arinc.C21_grown",
    "Arinc.C21_lookup"
   ],
   "note": ""
  },
  {
   "property": "C22",
   "status": "proved",
   "theorems": [
    "Arinc.C22_module_functions",
    "Arinc.C22_objects"
   ],
   "note": ""
  },
  {
   "property": "C23",
   "status": "proved",
   "theorems": [
    "Arinc.C23_first_error"
   ],
   "note": ""
  },
  {
   "property": "C24",
   "status": "proved",
   "theorems": [
    "Arinc.C24_kinds"
   ],
   "note": ""
  },
  {
   "property": "C25",
   "status": "proved",
   "theorems": [
    "Arinc.C25_false",
    "Arinc.C25_prints",
    "Arinc.C25_silent",
    "Arinc.C25_true"
   ],
   "note": ""
  },
  {
   "property": "C26",
   "status": "proved",
   "theorems": [
    "Arinc.C26_raises_iff",
    "Arinc.C26_true_iff"
   ],
   "note": "Exact characterisation; the domains are in Spec/Domain.lean."
  },
  {
   "property": "C27",
   "status": "proved",
   "theorems": [
    "Arinc.C27_always_displayed",
    "Arinc.C27_list_exact",
    "Arinc.C27_never_raises"
   ],
   "note": "Also proved that the list of sections is exact."
  },
  {
   "property": "C28",
   "status": "partial",
   "theorems": [
    "Arinc.C28_exit_only_on_bad_frequency_partial",
    "Arinc.C28_refuted"
   ],
   "note": "False as an unconditional claim (C28_refuted). Proved: the exact cause."
  },
  {
   "property": "C29",
   "status": "proved",
   "theorems": [
    "Arinc.C29_all_lines",
    "Arinc.C29_concatenation",
    "Arinc.C29_first_exception",
    "Arinc.C29_lines_of_text",
    "Arinc.C29_unreadable"
   ],
   "note": ""
  },
  {
   "property": "C30",
   "status": "proved",
   "theorems": [
    "Arinc.C30_line_endings",
    "Arinc.C30_only_lines_matter"
   ],
   "note": "Also for search."
  },
  {
   "property": "C31",
   "status": "proved",
   "theorems": [
    "Arinc.C31_blank_line",
    "Arinc.C31_final_newline",
    "Arinc.C31_other_lines"
   ],
   "note": "Also for search."
  },
  {
   "property": "C32",
   "status": "partial",
   "theorems": [
    "Arinc.C32_after_fault_partial",
    "Arinc.C32_before_fault_partial",
    "Arinc.C32_refuted"
   ],
   "note": "The code violates the full property (C32_refuted). Proved: lines before the first raising line are processed, later lines have no effect; C29_all_lines covers files without a raising line."
  },
  {
   "property": "C33",
   "status": "proved",
   "theorems": [
    "Arinc.C33_exact",
    "Arinc.C33_prints"
   ],
   "note": ""
  },
  {
   "property": "C34",
   "status": "proved",
   "theorems": [
    "Arinc.C34_empty",
    "Arinc.C34_more_filters",
    "Arinc.C34_set",
    "Arinc.C34_singleton"
   ],
   "note": ""
  },
  {
   "property": "C35",
   "status": "proved",
   "theorems": [
    "Arinc.C35_raises_iff",
    "Arinc.C35_returns_iff"
   ],
   "note": ""
  },
  {
   "property": "C36",
   "status": "proved",
   "theorems": [
    "Arinc.C36_all_files",
    "Arinc.C36_first_exception",
    "Arinc.C36_scan_order",
    "Arinc.C36_unreadable"
   ],
   "note": ""
  },
  {
   "property": "C37",
   "status": "proved",
   "theorems": [
    "Arinc.C37_accepted",
    "Arinc.C37_output",
    "Arinc.C37_read",
    "Arinc.C37_refuted_surrogate_pair",
    "Arinc.C37_round_trip"
   ],
   "note": "For texts without a high surrogate followed by a low one (C37_refuted_surrogate_pair shows the condition is needed); after a read it is enough that the line meets it (C37_accepted, C37_read)."
  },
  {
   "property": "C38",
   "status": "proved",
   "theorems": [
    "Arinc.C38_same_object"
   ],
   "note": ""
  },
  {
   "property": "C39",
   "status": "partial",
   "theorems": [
    "Arinc.C39_exceptions_exact",
    "Arinc.C39_field_kept_iff",
    "Arinc.C39_lossless_partial",
    "Arinc.C39_refuted"
   ],
   "note": "False for the record kinds that repeat a field name (C39_refuted, exact list C39_exceptions_exact). Proved for all others."
  },
  {
   "property": "C40",
   "status": "proved",
   "theorems": [
    "Arinc.C40_printable"
   ],
   "note": ""
  },
  {
   "property": "C41",
   "status": "partial",
   "theorems": [
    "Arinc.C41_feet_partial",
    "Arinc.C41_refuted",
    "Arinc.C41_text"
   ],
   "note": "False of zero, which is shown as \" ft\" (C41_refuted, for every field of the family). Proved for every other number and for text."
  },
  {
   "property": "C42",
   "status": "partial",
   "theorems": [
    "Arinc.C42_runway_partial",
    "Arinc.C42_text",
    "Arinc.C42_zero"
   ],
   "note": "Zero is shown as \"00 ft\" (C42_zero). Proved for every other number and for text."
  },
  {
   "property": "C43",
   "status": "proved",
   "theorems": [
    "Arinc.C43_accepted",
    "Arinc.C43_injective",
    "Arinc.C43_records",
    "Arinc.C43_year"
   ],
   "note": ""
  },
  {
   "property": "C44",
   "status": "proved",
   "theorems": [
    "Arinc.C44_exact",
    "Arinc.C44_records"
   ],
   "note": ""
  },
  {
   "property": "C45",
   "status": "proved",
   "theorems": [
    "Arinc.C45_blank",
    "Arinc.C45_course",
    "Arinc.C45_course_true",
    "Arinc.C45_distance",
    "Arinc.C45_time"
   ],
   "note": "Distances even up to 15 digits."
  },
  {
   "property": "C46",
   "status": "proved",
   "theorems": [
    "Arinc.C46_blank",
    "Arinc.C46_injective",
    "Arinc.C46_variation"
   ],
   "note": "Up to 4300 digits, the limit of int()."
  },
  {
   "property": "C47",
   "status": "partial",
   "theorems": [
    "Arinc.C47_offset_partial",
    "Arinc.C47_other_letter",
    "Arinc.C47_refuted",
    "Arinc.C47_unsupported"
   ],
   "note": "False of A to L (C47_refuted: always a double minus); other letters raise (C47_other_letter). Proved for M to Z."
  },
  {
   "property": "C48",
   "status": "proved",
   "theorems": [
    "Arinc.C48_blank",
    "Arinc.C48_invalid",
    "Arinc.C48_time",
    "Arinc.C48_total"
   ],
   "note": ""
  },
  {
   "property": "C49",
   "status": "proved",
   "theorems": [
    "Arinc.C49_blank",
    "Arinc.C49_documented",
    "Arinc.C49_otherwise",
    "Arinc.C49_path_terminator",
    "Arinc.C49_route_type",
    "Arinc.C49_tables"
   ],
   "note": ""
  },
  {
   "property": "C50",
   "status": "proved",
   "theorems": [
    "Arinc.C50_accepted",
    "Arinc.C50_distinct",
    "Arinc.C50_named"
   ],
   "note": ""
  },
  {
   "property": "C51",
   "status": "partial",
   "theorems": [
    "Arinc.C51_refuted",
    "Arinc.C51_section_code_partial"
   ],
   "note": "Proved for every section but PN, for lines with the section code in the columns of their section. False of PN (C51_refuted)."
  },
  {
   "property": "C52",
   "status": "partial",
   "theorems": [
    "Arinc.C52_continuation_number_partial",
    "Arinc.C52_exact",
    "Arinc.C52_primary"
   ],
   "note": "False of exactly PT and the continuation records of PK and HK (C52_exact); proved for all other kinds."
  },
  {
   "property": "C53",
   "status": "partial",
   "theorems": [
    "Arinc.C53_application_type_partial",
    "Arinc.C53_refuted"
   ],
   "note": "False of EP continuation records (C53_refuted); for EU the layout is chosen on the restriction type, another field. Proved for all other kinds."
  },
  {
   "property": "C54",
   "status": "proved",
   "theorems": [
    "Arinc.C54_exact",
    "Arinc.C54_passthrough",
    "Arinc.C54_records"
   ],
   "note": ""
  },
  {
   "property": "C55",
   "status": "proved",
   "theorems": [
    "Arinc.C55_output",
    "Arinc.C55_value"
   ],
   "note": ""
  },
  {
   "property": "C56",
   "status": "proved",
   "theorems": [
    "Arinc.C56_positions"
   ],
   "note": ""
  },
  {
   "property": "C57",
   "status": "partial",
   "theorems": [
    "Arinc.C57_key_fields_partial",
    "Arinc.C57_refuted"
   ],
   "note": "False of exactly the continuation records of PK and HK and of PA with application type P (C57_refuted); proved for all other kinds."
  },
  {
   "property": "C58",
   "status": "partial",
   "theorems": [
    "Arinc.C58_one_field_partial",
    "Arinc.C58_refuted"
   ],
   "note": "False of exactly the fifteen kinds in Spec.overlapping (C58_refuted); proved for all other kinds."
  },
  {
   "property": "C59",
   "status": "proved",
   "theorems": [
    "Arinc.C59_read",
    "Arinc.C59_registry"
   ],
   "note": ""
  },
  {
   "property": "C60",
   "status": "proved",
   "theorems": [
    "Arinc.C60_float"
   ],
   "note": ""
  },
  {
   "property": "C61",
   "status": "proved",
   "theorems": [
    "Arinc.C61_approach",
    "Arinc.C61_boundary_via",
    "Arinc.C61_continuation_number",
    "Arinc.C61_name_format",
    "Arinc.C61_sequence_number",
    "Arinc.C61_waypoint_type",
    "Arinc.C61_waypoint_usage"
   ],
   "note": ""
  },
  {
   "property": "C62",
   "status": "partial",
   "theorems": [
    "Arinc.C62_refuted",
    "Arinc.C62_same_width_partial"
   ],
   "note": "Proved for every type but the 23 in Spec.mixedWidth, of each of which it is false (C62_refuted)."
  },
  {
   "property": "C63",
   "status": "partial",
   "theorems": [
    "Arinc.C63_order_partial",
    "Arinc.C63_refuted"
   ],
   "note": "Proved for every kind but the fifteen in Spec.overlapping, of each of which it is false (C63_refuted)."
  },
  {
   "property": "C64",
   "status": "proved",
   "theorems": [
    "Arinc.C64_bad_value",
    "Arinc.C64_blank_number",
    "Arinc.C64_name",
    "Arinc.C64_route_identifier",
    "Arinc.C64_route_identifier_otherwise",
    "Arinc.C64_speed_limit",
    "Arinc.C64_trimmed",
    "Arinc.C64_trimmed_blank",
    "Arinc.C64_trimmed_otherwise"
   ],
   "note": ""
  },
  {
   "property": "C65",
   "status": "proved",
   "theorems": [
    "Arinc.C65_none_iff",
    "Arinc.C65_number_iff",
    "Arinc.C65_types"
   ],
   "note": ""
  },
  {
   "property": "C66",
   "status": "proved",
   "theorems": [
    "Arinc.C66_read_twice"
   ],
   "note": ""
  },
  {
   "property": "C67",
   "status": "partial",
   "theorems": [
    "Arinc.C67_refuted",
    "Arinc.C67_search_again_partial"
   ],
   "note": "False of records with blanks in front (C67_refuted); proved for all others."
  },
  {
   "property": "C68",
   "status": "proved",
   "theorems": [
    "Arinc.C68_count",
    "Arinc.C68_tables_of_hits"
   ],
   "note": ""
  },
  {
   "property": "C69",
   "status": "partial",
   "theorems": [
    "Arinc.C69_refuted",
    "Arinc.C69_table_and_json_partial"
   ],
   "note": "False of records that repeat a field name (C69_refuted); proved for all others."
  },
  {
   "property": "C70",
   "status": "proved",
   "theorems": [
    "Arinc.C70_blank",
    "Arinc.C70_cycle_date",
    "Arinc.C70_which"
   ],
   "note": ""
  },
  {
   "property": "C71",
   "status": "proved",
   "theorems": [
    "Arinc.C71_route_type",
    "Arinc.C71_synonyms",
    "Arinc.C71_told_apart"
   ],
   "note": ""
  },
  {
   "property": "C72",
   "status": "partial",
   "theorems": [
    "Arinc.C72_columns_partial",
    "Arinc.C72_fields",
    "Arinc.C72_refuted"
   ],
   "note": "C72_fields proves names and order for every kind; C72_columns_partial the columns and types of all fields but the 59 marked \"but\" in Spec/Standard.lean, of which it is false (C72_refuted)."
  },
  {
   "property": "C73",
   "status": "proved",
   "theorems": [
    "Arinc.C73_fresh",
    "Arinc.C73_reachable"
   ],
   "note": "For every Unicode database that agrees with ASCII."
  },
  {
   "property": "C74",
   "status": "proved",
   "theorems": [
    "Arinc.C74_complete",
    "Arinc.C74_iff",
    "Arinc.C74_meaning",
    "Arinc.C74_widths"
   ],
   "note": "For values of ASCII characters."
  },
  {
   "property": "C75",
   "status": "proved",
   "theorems": [
    "Arinc.C75_accepted_iff",
    "Arinc.C75_read",
    "Arinc.C75_unique"
   ],
   "note": ""
  },
  {
   "property": "C76",
   "status": "proved",
   "theorems": [
    "Arinc.C76_decode",
    "Arinc.C76_file",
    "Arinc.C76_iff",
    "Arinc.C76_parse",
    "Arinc.C76_table",
    "Arinc.C76_table_exists"
   ],
   "note": "For lines of ASCII characters."
  },
  {
   "property": "C77",
   "status": "proved",
   "theorems": [
    "Arinc.C77_one_fate",
    "Arinc.C77_read"
   ],
   "note": ""
  },
  {
   "property": "C78",
   "status": "proved",
   "theorems": [
    "Arinc.C78_verdict"
   ],
   "note": "For values of ASCII characters."
  },
  {
   "property": "C79",
   "status": "proved",
   "theorems": [
    "Arinc.C79_parse",
    "Arinc.C79_read_file",
    "Arinc.C79_read_folder"
   ],
   "note": "For lines of ASCII characters without numbers written in unusual ways."
  },
  {
   "property": "C80",
   "status": "proved",
   "theorems": [
    "Arinc.C80_search"
   ],
   "note": ""
  },
  {
   "property": "C81",
   "status": "proved",
   "theorems": [
    "Arinc.C81_all_fields",
    "Arinc.C81_json",
    "Arinc.C81_pretty"
   ],
   "note": "For lines in which no high surrogate is directly followed by a low one."
  },
  {
   "property": "C82",
   "status": "proved",
   "theorems": [
    "Arinc.C82_fields",
    "Arinc.C82_last",
    "Arinc.C82_not_initialised",
    "Arinc.C82_primary",
    "Arinc.C82_raw",
    "Arinc.C82_section",
    "Arinc.C82_told"
   ],
   "note": ""
  },
  {
   "property": "C83",
   "status": "proved",
   "theorems": [
    "Arinc.C83_finishes",
    "Arinc.C83_prefix",
    "Arinc.C83_same_as_alone",
    "Arinc.C83_tables"
   ],
   "note": "Record objects are not shared between threads; one dictionary operation or print is one atomic step."
  },
  {
   "property": "C84",
   "status": "proved",
   "theorems": [
    "Arinc.C84_cell",
    "Arinc.C84_parse",
    "Arinc.C84_table",
    "Arinc.C84_tenths"
   ],
   "note": "str(float) is modelled (shortest decimal that reads back); the table around the cells is the subject of C106."
  },
  {
   "property": "C85",
   "status": "proved",
   "theorems": [
    "Arinc.C85_crossing_height",
    "Arinc.C85_distance",
    "Arinc.C85_float",
    "Arinc.C85_int",
    "Arinc.C85_rounding",
    "Arinc.C85_unique"
   ],
   "note": ""
  },
  {
   "property": "C86",
   "status": "proved",
   "theorems": [
    "Arinc.C86_agrees",
    "Arinc.C86_field",
    "Arinc.C86_parse",
    "Arinc.C86_read_file",
    "Arinc.C86_read_folder"
   ],
   "note": ""
  },
  {
   "property": "C87",
   "status": "proved",
   "theorems": [
    "Arinc.C87_digits",
    "Arinc.C87_enough",
    "Arinc.C87_fewest",
    "Arinc.C87_injective",
    "Arinc.C87_length",
    "Arinc.C87_one",
    "Arinc.C87_parse",
    "Arinc.C87_read_file",
    "Arinc.C87_read_folder",
    "Arinc.C87_round_trip",
    "Arinc.C87_str"
   ],
   "note": "The table around the cells is the subject of C106."
  },
  {
   "property": "C88",
   "status": "proved",
   "theorems": [
    "Arinc.C88_ascii",
    "Arinc.C88_parse",
    "Arinc.C88_read_file",
    "Arinc.C88_read_folder",
    "Arinc.C88_search"
   ],
   "note": "The drawing around the cells of a table is C106."
  },
  {
   "property": "C89",
   "status": "proved",
   "theorems": [
    "Arinc.C89_ascii",
    "Arinc.C89_cut",
    "Arinc.C89_latin1",
    "Arinc.C89_printable",
    "Arinc.C89_read_file",
    "Arinc.C89_read_folder",
    "Arinc.C89_search",
    "Arinc.C89_text"
   ],
   "note": "For systems whose default encoding is UTF-8; that decoding in pieces gives the same is C94."
  },
  {
   "property": "C90",
   "status": "partial",
   "theorems": [
    "Arinc.C90_first_line",
    "Arinc.C90_header_partial",
    "Arinc.C90_refuted"
   ],
   "note": "False of files that begin with a record: it is lost without a message (C90_refuted; C90_first_line says so of every file). Proved for files whose first line is no record."
  },
  {
   "property": "C91",
   "status": "proved",
   "theorems": [
    "Arinc.C91_again",
    "Arinc.C91_late",
    "Arinc.C91_others",
    "Arinc.C91_prefix",
    "Arinc.C91_read_file",
    "Arinc.C91_tables"
   ],
   "note": "A print that fails is taken to print nothing of its line."
  },
  {
   "property": "C92",
   "status": "partial",
   "theorems": [
    "Arinc.C92_ignored",
    "Arinc.C92_proper_partial",
    "Arinc.C92_refuted",
    "Arinc.C92_same",
    "Arinc.C92_search"
   ],
   "note": "False of tuples, sets and other objects, which are ignored, and of lists with elements that are no strings (C92_refuted, C92_ignored); C92_search says what happens with every argument. Proved for strings and lists of strings."
  },
  {
   "property": "C93",
   "status": "partial",
   "theorems": [
    "Arinc.C93_folder_files",
    "Arinc.C93_folder_raises",
    "Arinc.C93_folder_returns_partial",
    "Arinc.C93_interrupted",
    "Arinc.C93_read_file",
    "Arinc.C93_refuted",
    "Arinc.C93_same",
    "Arinc.C93_search"
   ],
   "note": "False of the directory of read_folder if it raises (C93_refuted; C93_folder_raises: always). Proved for all files, and for the directory if read_folder returns."
  },
  {
   "property": "C94",
   "status": "proved",
   "theorems": [
    "Arinc.C94_read_file",
    "Arinc.C94_read_folder",
    "Arinc.C94_same",
    "Arinc.C94_search"
   ],
   "note": "For systems whose default encoding is UTF-8."
  },
  {
   "property": "C95",
   "status": "partial",
   "theorems": [
    "Arinc.C95_attributes_partial",
    "Arinc.C95_finishes",
    "Arinc.C95_readers",
    "Arinc.C95_refuted",
    "Arinc.C95_results_partial",
    "Arinc.C95_same_kind",
    "Arinc.C95_same_line"
   ],
   "note": "False if any thread calls read (C95_refuted). Proved: what always holds of the object and of results; everything as alone if nobody calls read or all read the same line; acceptance if all read records of one section and continuation number. What records and LegTypeDesc give is taken from C83."
  },
  {
   "property": "C96",
   "status": "partial",
   "theorems": [
    "Arinc.C96_ascii",
    "Arinc.C96_first_lines_partial",
    "Arinc.C96_lines",
    "Arinc.C96_output_partial",
    "Arinc.C96_refuted",
    "Arinc.C96_torn"
   ],
   "note": "False of files with lines longer than a record (C96_refuted). Proved for all others; C96_lines and C96_torn hold for all files."
  },
  {
   "property": "C97",
   "status": "partial",
   "theorems": [
    "Arinc.C97_nothing_invented",
    "Arinc.C97_nothing_missed",
    "Arinc.C97_refuted_growing",
    "Arinc.C97_refuted_rewritten",
    "Arinc.C97_unchanged"
   ],
   "note": "False in so far as a record can be lost before one that is shown (C97_refuted_growing), and of files that are rewritten in place (C97_refuted_rewritten). Proved: files that do not change; that nothing is missed that was there when the file was opened, and nothing invented, for files that only grow and have no lines of more than 132 characters."
  },
  {
   "property": "C98",
   "status": "partial",
   "theorems": [
    "Arinc.C98_refuted",
    "Arinc.C98_stable_partial",
    "Arinc.C98_unchanged",
    "Arinc.C98_vanished"
   ],
   "note": "False if read_folder raises (C98_refuted, C98_vanished). Proved whenever it returns. What os.scandir guarantees is a hypothesis (POSIX)."
  },
  {
   "property": "C99",
   "status": "partial",
   "theorems": [
    "Arinc.C99_count",
    "Arinc.C99_one_line_partial",
    "Arinc.C99_quotes",
    "Arinc.C99_reads",
    "Arinc.C99_refuted",
    "Arinc.C99_tells_partial",
    "Arinc.C99_verbatim"
   ],
   "note": "False of filters that are one string (C99_refuted). Proved for lists of strings, and for the count of any summary."
  },
  {
   "property": "C100",
   "status": "partial",
   "theorems": [
    "Arinc.C100_folder",
    "Arinc.C100_line",
    "Arinc.C100_output",
    "Arinc.C100_output_only_prints",
    "Arinc.C100_refuted",
    "Arinc.C100_single_line"
   ],
   "note": "False of output, which is compared with True by identity (C100_refuted); exactly what it does is proved (C100_output). The rest holds."
  },
  {
   "property": "C101",
   "status": "partial",
   "theorems": [
    "Arinc.C101_ascii",
    "Arinc.C101_file_partial",
    "Arinc.C101_folder",
    "Arinc.C101_lost",
    "Arinc.C101_refuted",
    "Arinc.C101_text",
    "Arinc.C101_undefined"
   ],
   "note": "False of files that are not ASCII (C101_refuted). Proved for ASCII; for the others exactly which records are lost (C101_lost, C101_file_partial). Code pages with two bytes for a character are not modelled."
  },
  {
   "property": "C102",
   "status": "proved",
   "theorems": [
    "Arinc.C102_ascii",
    "Arinc.C102_decode",
    "Arinc.C102_needed",
    "Arinc.C102_read",
    "Arinc.C102_same"
   ],
   "note": "The characters outside ASCII do matter: C102_needed has a line accepted under one database only."
  },
  {
   "property": "C103",
   "status": "partial",
   "theorems": [
    "Arinc.C103_iff",
    "Arinc.C103_refuted",
    "Arinc.C103_told_partial"
   ],
   "note": "False of every kind of record (C103_refuted). C103_iff says exactly which columns are shown (the table of gaps in Spec/Hidden.lean); given what is in the gaps, the record can be recovered (C103_told_partial)."
  },
  {
   "property": "C104",
   "status": "partial",
   "theorems": [
    "Arinc.C104_ascii",
    "Arinc.C104_fits",
    "Arinc.C104_history",
    "Arinc.C104_page",
    "Arinc.C104_refuted",
    "Arinc.C104_summary",
    "Arinc.C104_text",
    "Arinc.C104_utf8"
   ],
   "note": "That a record that cannot be printed costs no other record is false (C104_refuted). Proved: what happens in every case, and that nothing happens when the encoding has the characters. That the frames of tables and the colour codes do not matter is C107_encoding."
  },
  {
   "property": "C105",
   "status": "partial",
   "theorems": [
    "Arinc.C105_added",
    "Arinc.C105_apart",
    "Arinc.C105_looked_up",
    "Arinc.C105_refuted",
    "Arinc.C105_removed"
   ],
   "note": "That looking into the table changes nothing is false (C105_refuted, C105_looked_up). Proved: what is not affected, and the effect of adding and removing entries. Entries that a program adds are objects like those of the library."
  },
  {
   "property": "C106",
   "status": "proved",
   "theorems": [
    "Arinc.C106_no_wrap",
    "Arinc.C106_read_back",
    "Arinc.C106_rectangle",
    "Arinc.C106_same",
    "Arinc.C106_table"
   ],
   "note": "The drawing by PrettyTable 3.9.0 (the version the project requires; its source is not in the repository) is modelled as documented in Model/Table.lean. Of wcwidth only that a text of printable ASCII characters is as wide as it is long is assumed."
  },
  {
   "property": "C107",
   "status": "proved",
   "theorems": [
    "Arinc.C107_any_outcome",
    "Arinc.C107_complaint",
    "Arinc.C107_encoding",
    "Arinc.C107_fixpoint",
    "Arinc.C107_folder",
    "Arinc.C107_read_back",
    "Arinc.C107_search",
    "Arinc.C107_search_again"
   ],
   "note": "termcolor 2.3.0 and PrettyTable 3.9.0 (the versions the project requires; their sources are not in the repository) are modelled. Records with blanks in front are the exception known from C67."
  },
  {
   "property": "C108",
   "status": "partial",
   "theorems": [
    "Arinc.C108_folder",
    "Arinc.C108_folder_status",
    "Arinc.C108_message",
    "Arinc.C108_names_partial",
    "Arinc.C108_names_refuted",
    "Arinc.C108_names_value",
    "Arinc.C108_read_file",
    "Arinc.C108_same",
    "Arinc.C108_search",
    "Arinc.C108_search_status",
    "Arinc.C108_status",
    "Arinc.C108_status_refuted",
    "Arinc.C108_text"
   ],
   "note": "The full statement does not hold: the exceptions about an IFR capability (5.108), a time zone (5.178) and a guard/transmit indicator (5.182), and most about an application type, do not tell the value (C108_names_refuted); a bad frequency ends the program with exit status 0 and the rest of the file is not read (C108_status_refuted). C108_status, C108_folder_status and C108_search_status say exactly when the status is 0; for a search it is as it should be. Messages of OSError, UnicodeDecodeError, IndexError and AttributeError are not modelled."
  },
  {
   "property": "C109",
   "status": "proved",
   "theorems": [
    "Arinc.C109_by_value",
    "Arinc.C109_call",
    "Arinc.C109_copies_share",
    "Arinc.C109_forgotten",
    "Arinc.C109_kept",
    "Arinc.C109_new_list",
    "Arinc.C109_own_list"
   ],
   "note": "For 'earlier changes are forgotten' airway restrictions (EU) are excepted, as in C15. copy.copy is Python's: a new object with the same attributes. Attributes set to values of other types are not modelled."
  },
  {
   "property": "C110",
   "status": "proved",
   "theorems": [
    "Arinc.C110_read_file",
    "Arinc.C110_read_folder"
   ],
   "note": ""
  },
  {
   "property": "C111",
   "status": "proved",
   "theorems": [
    "Arinc.C111_read",
    "Arinc.C111_rows",
    "Arinc.C111_shown"
   ],
   "note": "Columns are counted from 0 in Deciding. The examples show that damage in the deciding columns does change the kind of record."
  },
  {
   "property": "C112",
   "status": "proved",
   "theorems": [
    "Arinc.C112_ascii",
    "Arinc.C112_bound",
    "Arinc.C112_kept"
   ],
   "note": ""
  },
  {
   "property": "C113",
   "status": "proved",
   "theorems": [
    "Arinc.C113_both",
    "Arinc.C113_extract",
    "Arinc.C113_lines",
    "Arinc.C113_narrow",
    "Arinc.C113_weaker"
   ],
   "note": "For records with blanks in front the extract has the records without the blanks (C113_extract); they may be other records (C67). With a string filter that contains line ends the summary can contain a record (see the last example)."
  },
  {
   "property": "C114",
   "status": "proved",
   "theorems": [
    "Arinc.C114_order_matters",
    "Arinc.C114_read_file",
    "Arinc.C114_search",
    "Arinc.C114_selection",
    "Arinc.C114_split"
   ],
   "note": "If a line raises, the order matters to what is printed (C114_order_matters), but not to whether something raises."
  },
  {
   "property": "C115",
   "status": "proved",
   "theorems": [
    "Arinc.C115_parse",
    "Arinc.C115_read_file",
    "Arinc.C115_read_folder",
    "Arinc.C115_search",
    "Arinc.C115_table"
   ],
   "note": "The factors are bounds for the worst case that are easy to state, not the largest ratios. No limit is kept by the code on purpose: a field of four characters can be shown with 101 (`9e99` as a course)."
  },
  {
   "property": "C116",
   "status": "proved",
   "theorems": [
    "Arinc.C116_decode",
    "Arinc.C116_json",
    "Arinc.C116_json_lines",
    "Arinc.C116_json_records",
    "Arinc.C116_lines",
    "Arinc.C116_load",
    "Arinc.C116_readme",
    "Arinc.C116_refuted_CR",
    "Arinc.C116_save"
   ],
   "note": "If a field contains a CR (possible for a line given to read directly), the table read back differs (C116_refuted_CR), the JSON text does not. A table with a surrogate cannot be written at all (C116_save)."
  },
  {
   "property": "C117",
   "status": "proved",
   "theorems": [
    "Arinc.C117_decode",
    "Arinc.C117_detect",
    "Arinc.C117_displaced",
    "Arinc.C117_envelope",
    "Arinc.C117_parse",
    "Arinc.C117_refuted",
    "Arinc.C117_table"
   ],
   "note": "The expectation that blanks are refused or of no effect is refuted (C117_refuted): a record that is read without complaint with and without a blank, and shows another cycle date."
  },
  {
   "property": "C118",
   "status": "proved",
   "theorems": [
    "Arinc.C118_all",
    "Arinc.C118_least",
    "Arinc.C118_per_line",
    "Arinc.C118_turns"
   ],
   "note": "One print or one operation of a dictionary is one turn, as in C83."
  },
  {
   "property": "C119",
   "status": "proved",
   "theorems": [
    "Arinc.Lang.C119_decoders",
    "Arinc.Lang.C119_field",
    "Arinc.Lang.C119_module",
    "Arinc.Lang.C119_never_stuck"
   ],
   "note": "The syntax trees are those of Python's parser (tools/source.py); what they mean is Model/Lang.lean."
  },
  {
   "property": "C120",
   "status": "proved",
   "theorems": [
    "Arinc.Lang.C120_application_type",
    "Arinc.Lang.C120_attributes",
    "Arinc.Lang.C120_module",
    "Arinc.Lang.C120_never_stuck",
    "Arinc.Lang.C120_read"
   ],
   "note": "The syntax trees are those of Python's parser (tools/source.py); what they mean is Model/Lang.lean."
  },
  {
   "property": "C121",
   "status": "proved",
   "theorems": [
    "Arinc.Lang.C121_never_stuck",
    "Arinc.Lang.C121_new",
    "Arinc.Lang.C121_record"
   ],
   "note": "single_line is a bool. The syntax trees are those of Python's parser (tools/source.py); what they mean is Model/Lang.lean."
  },
  {
   "property": "C122",
   "status": "proved",
   "theorems": [
    "Arinc.Lang.C122_depth",
    "Arinc.Lang.C122_never_stuck",
    "Arinc.Lang.C122_session"
   ],
   "note": "A path is what open and os.scandir make of it. Filters of other types are in Model/Args.lean only. The syntax trees are those of Python's parser (tools/source.py); what they mean is Model/Lang.lean."
  },
  {
   "property": "C123",
   "status": "proved",
   "theorems": [
    "Arinc.Lang.C123_fields",
    "Arinc.Lang.C123_history",
    "Arinc.Lang.C123_parse",
    "Arinc.Lang.C123_read",
    "Arinc.Lang.C123_read_file",
    "Arinc.Lang.C123_read_folder",
    "Arinc.Lang.C123_search"
   ],
   "note": "Puts C119-C122 (source and model) and C75-C81, C108 (model and specification) together. Of exceptions the specification says which; C108 has the messages."
  },
  {
   "property": "C124",
   "status": "proved",
   "theorems": [
    "Arinc.Lang.C124_functions",
    "Arinc.Lang.C124_modules",
    "Arinc.Lang.C124_objects",
    "Arinc.Lang.C124_program"
   ],
   "note": "Objects are values here: a program that changes an object or its list of fields by hand is in Model/Objects.lean (C109) only."
  },
  {
   "property": "C125",
   "status": "proved",
   "theorems": [
    "Arinc.Lang.C125_decode",
    "Arinc.Lang.C125_json",
    "Arinc.Lang.C125_pretty"
   ],
   "note": "C81 and C76 carried over to the syntax trees by C124. Relative to Python's parser, tools/source.py and the semantics in Model/Lang.lean."
  }
 ]
}