{
 "claims": [
  {
   "property": "C01",
   "status": "proved",
   "theorems": [
    "Oclint.C01_raw_results_complete",
    "Oclint.C01_raw_counts"
   ],
   "note": ""
  },
  {
   "property": "C02",
   "status": "proved",
   "theorems": [
    "Oclint.C02_dedup_firsts",
    "Oclint.C02_dedup_properties",
    "Oclint.C02_dedup_idempotent",
    "Oclint.C02_equality_is_all_fields",
    "Oclint.C02_dedup_code_hash"
   ],
   "note": ""
  },
  {
   "property": "C03",
   "status": "proved",
   "theorems": [
    "Oclint.C03_questions_are_pure",
    "Oclint.C03_fresh_answer",
    "Oclint.C03_frozen_answer",
    "Oclint.C03_stale_witness"
   ],
   "note": ""
  },
  {
   "property": "C04",
   "status": "proved",
   "theorems": [
    "Oclint.C04_priority_count",
    "Oclint.C04_priority_count_ub_iff",
    "Oclint.C04_priorities_partition"
   ],
   "note": ""
  },
  {
   "property": "C05",
   "status": "proved",
   "theorems": [
    "Oclint.C05_number_of_files",
    "Oclint.C05_files_with_violations_are",
    "Oclint.C05_files_with_violations_le",
    "Oclint.C05_files_with_violations_zero_iff",
    "Oclint.C05_files_with_violations_exact",
    "Oclint.C05_undercount_witness"
   ],
   "note": "The general equality with distinct paths is refuted by C05_undercount_witness, as the statement says."
  },
  {
   "property": "C06",
   "status": "proved",
   "theorems": [
    "Oclint.C06_nonnegative_index",
    "Oclint.C06_negative_index"
   ],
   "note": ""
  },
  {
   "property": "C07",
   "status": "proved",
   "theorems": [
    "Oclint.C07_configuration_is_a_map",
    "Oclint.C07_writes_succeed",
    "Oclint.C07_undefined",
    "Oclint.C07_getters_are_pure",
    "Oclint.C07_raw_read"
   ],
   "note": ""
  },
  {
   "property": "C08",
   "status": "proved",
   "theorems": [
    "Oclint.C08_every_text",
    "Oclint.C08_atoi_reads_decimal",
    "Oclint.C08_int_round_trip",
    "Oclint.C08_garbage_is_zero"
   ],
   "note": "C08_every_text is the whole statement: what atoi does on every text."
  },
  {
   "property": "C09",
   "status": "proved",
   "theorems": [
    "Oclint.C09_identifier_is_camel_case",
    "Oclint.C09_identifier_letters",
    "Oclint.C09_identifier_idempotent"
   ],
   "note": ""
  },
  {
   "property": "C10",
   "status": "proved",
   "theorems": [
    "Oclint.C10_carrier_records"
   ],
   "note": ""
  },
  {
   "property": "C11",
   "status": "proved",
   "theorems": [
    "Oclint.C11_last_request_wins"
   ],
   "note": ""
  },
  {
   "property": "C12",
   "status": "proved",
   "theorems": [
    "Oclint.C12_multiplicity",
    "Oclint.C12_default_all",
    "Oclint.C12_disabling_all_enabled",
    "Oclint.C12_names"
   ],
   "note": ""
  },
  {
   "property": "C13",
   "status": "partial",
   "theorems": [
    "Oclint.C13_precedence_partial",
    "Oclint.C13_processing_succeeds_partial"
   ],
   "note": "Proved for configuration files whose texts stay readable. The code frees them first: C68_options_undefined refutes the property for every consulted file with a text entry, C68_options_defined links this model to the code otherwise."
  },
  {
   "property": "C14",
   "status": "partial",
   "theorems": [
    "Oclint.C14_rule_paths_partial",
    "Oclint.C14_rule_configuration_partial",
    "Oclint.C14_rule_selection_partial"
   ],
   "note": "Proved for configuration files whose texts stay readable. The code frees them first: C68_options_undefined refutes the property for every consulted file with a text entry, C68_options_defined links this model to the code otherwise."
  },
  {
   "property": "C15",
   "status": "proved",
   "theorems": [
    "Oclint.C15_rc_split_any",
    "Oclint.C15_rc_split",
    "Oclint.C15_far_witness"
   ],
   "note": ""
  },
  {
   "property": "C16",
   "status": "partial",
   "theorems": [
    "Oclint.C16_output_path",
    "Oclint.C16_relative_to_cwd_partial",
    "Oclint.C16_long_cwd_witness"
   ],
   "note": "Resolution against the real working directory is proved for directories shorter than 300 bytes; C16_long_cwd_witness refutes it for longer ones (fixed getcwd buffer). Like C13 it presupposes that option processing is defined (C68)."
  },
  {
   "property": "C17",
   "status": "partial",
   "theorems": [
    "Oclint.C17_exit_code_unique",
    "Oclint.C17_exit_code",
    "Oclint.C17_bad_command_line",
    "Oclint.C17_always_exits_partial",
    "Oclint.C17_success_iff"
   ],
   "note": "Exit codes are characterised exactly whenever option processing is defined. That the program always exits holds only if no consulted configuration file has a text entry (C68)."
  },
  {
   "property": "C18",
   "status": "proved",
   "theorems": [
    "Oclint.C18_gate",
    "Oclint.C18_gate_monotone",
    "Oclint.C18_dedup_never_hurts",
    "Oclint.C18_other_priorities"
   ],
   "note": ""
  },
  {
   "property": "C19",
   "status": "proved",
   "theorems": [
    "Oclint.C19_compile_jobs"
   ],
   "note": ""
  },
  {
   "property": "C20",
   "status": "proved",
   "theorems": [
    "Oclint.C20_global_equals_per_file",
    "Oclint.C20_no_checker_no_bugs",
    "Oclint.C20_same_outcome",
    "Oclint.C20_message_witness"
   ],
   "note": ""
  },
  {
   "property": "C21",
   "status": "proved",
   "theorems": [
    "Oclint.C21_normal_pass",
    "Oclint.C21_checker_pass"
   ],
   "note": ""
  },
  {
   "property": "C22",
   "status": "proved",
   "theorems": [
    "Oclint.C22_normal_command_line",
    "Oclint.C22_checker_command_line",
    "Oclint.C22_out_of_bounds",
    "Oclint.C22_flags",
    "Oclint.C22_front_end_job"
   ],
   "note": ""
  },
  {
   "property": "C23",
   "status": "proved",
   "theorems": [
    "Oclint.C23_replacement",
    "Oclint.C23_termination",
    "Oclint.C23_no_escape_left"
   ],
   "note": ""
  },
  {
   "property": "C24",
   "status": "proved",
   "theorems": [
    "Oclint.C24_rules_loaded",
    "Oclint.C24_first_broken_rule",
    "Oclint.C24_reporter_selected",
    "Oclint.C24_reporter_error"
   ],
   "note": ""
  },
  {
   "property": "C25",
   "status": "proved",
   "theorems": [
    "Oclint.C25_one_set_per_unit",
    "Oclint.C25_set_count"
   ],
   "note": ""
  },
  {
   "property": "C26",
   "status": "proved",
   "theorems": [
    "Oclint.C26_line_marker",
    "Oclint.C26_consistent",
    "Oclint.C26_recorded",
    "Oclint.C26_header_witness",
    "Oclint.C26_stale_witness"
   ],
   "note": "C26_header_witness and C26_stale_witness show the header and stale-path behaviour."
  },
  {
   "property": "C27",
   "status": "proved",
   "theorems": [
    "Oclint.C27_suppressed_iff",
    "Oclint.C27_inherited",
    "Oclint.C27_no_rule",
    "Oclint.C27_recorded",
    "Oclint.C27_chain_cut_witness"
   ],
   "note": ""
  },
  {
   "property": "C28",
   "status": "proved",
   "theorems": [
    "Oclint.C28_comment_of",
    "Oclint.C28_requested",
    "Oclint.C28_enforce",
    "Oclint.C28_one_rule",
    "Oclint.C28_exact_rule",
    "Oclint.C28_unqualified",
    "Oclint.C28_comment",
    "Oclint.C28_no_comment"
   ],
   "note": ""
  },
  {
   "property": "C29",
   "status": "partial",
   "theorems": [
    "Oclint.C29_answer_exact",
    "Oclint.C29_independent_partial",
    "Oclint.C29_leak_witness",
    "Oclint.C29_libraries",
    "Oclint.C29_one_rule_per_library"
   ],
   "note": "The maps live in the library of the rule (static helper library), so rules of different libraries do not disturb each other: C29_libraries, and C29_one_rule_per_library for the shipped layout. For rules of the same library independence is proved when all calls for a path name the same rule; the general claim is refuted by C29_leak_witness (the range map is keyed by path only). C29_answer_exact states the answer in every history."
  },
  {
   "property": "C30",
   "status": "proved",
   "theorems": [
    "Oclint.C30_language_supported",
    "Oclint.C30_defaults",
    "Oclint.C30_plain_unit",
    "Oclint.C30_cuda_unit",
    "Oclint.C30_no_language"
   ],
   "note": ""
  },
  {
   "property": "C31",
   "status": "proved",
   "theorems": [
    "Oclint.C31_each_line",
    "Oclint.C31_lines_unique",
    "Oclint.C31_apply"
   ],
   "note": ""
  },
  {
   "property": "C32",
   "status": "proved",
   "theorems": [
    "Oclint.C32_long_line",
    "Oclint.C32_exact"
   ],
   "note": ""
  },
  {
   "property": "C33",
   "status": "proved",
   "theorems": [
    "Oclint.C33_complexity",
    "Oclint.C33_counted",
    "Oclint.C33_at_least_one",
    "Oclint.C33_additive",
    "Oclint.C33_nesting"
   ],
   "note": ""
  },
  {
   "property": "C34",
   "status": "proved",
   "theorems": [
    "Oclint.C34_walks",
    "Oclint.C34_no_overflow",
    "Oclint.C34_condition",
    "Oclint.C34_parens"
   ],
   "note": ""
  },
  {
   "property": "C35",
   "status": "partial",
   "theorems": [
    "Oclint.C35_positive_partial",
    "Oclint.C35_monotone_partial",
    "Oclint.C35_hides_witness",
    "Oclint.C35_try_witness",
    "Oclint.C35_overflow_witness",
    "Oclint.C35_hidden_overflow_witness"
   ],
   "note": "Proved when every switch body starts with a label and for the control structures the metric knows; C35_hides_witness, C35_try_witness, C35_overflow_witness and C35_hidden_overflow_witness refute it otherwise."
  },
  {
   "property": "C36",
   "status": "proved",
   "theorems": [
    "Oclint.C36_count",
    "Oclint.C36_counted",
    "Oclint.C36_additive",
    "Oclint.C36_braces",
    "Oclint.C36_empty_statement",
    "Oclint.C36_leaves"
   ],
   "note": ""
  },
  {
   "property": "C37",
   "status": "proved",
   "theorems": [
    "Oclint.C37_depth",
    "Oclint.C37_braces",
    "Oclint.C37_monotone"
   ],
   "note": ""
  },
  {
   "property": "C38",
   "status": "partial",
   "theorems": [
    "Oclint.C38_exact_partial",
    "Oclint.C38_total_partial",
    "Oclint.C38_raise_partial",
    "Oclint.C38_negative_parameters_witness",
    "Oclint.C38_names",
    "Oclint.C38_negative_name_witness"
   ],
   "note": "C38_exact_partial, C38_total_partial and C38_raise_partial hold for all limits of eight rules, and for limits that are not negative for parameter counts and name lengths. For negative limits the statement is false: the parameter rule is then silent (C38_negative_parameters_witness) and the name rule can throw (C38_negative_name_witness); C38_names describes the name rule for every limit."
  },
  {
   "property": "C39",
   "status": "partial",
   "theorems": [
    "Oclint.C39_exits_never_end",
    "Oclint.C39_dead_code_partial",
    "Oclint.C39_label_witness"
   ],
   "note": "Proved when neither the reported statement nor the one before it can be jumped into (leading case/default labels are allowed). C39_label_witness refutes it otherwise: a label inside the reported block makes it reachable."
  },
  {
   "property": "C40",
   "status": "proved",
   "theorems": [
    "Oclint.C40_exit_iff",
    "Oclint.C40_reports_exactly",
    "Oclint.C40_reported_iff"
   ],
   "note": "AlwaysExits is the syntactic notion."
  },
  {
   "property": "C41",
   "status": "partial",
   "theorems": [
    "Oclint.C41_reports_exactly",
    "Oclint.C41_reports_once",
    "Oclint.C41_collapse_same_partial",
    "Oclint.C41_inner_init_witness"
   ],
   "note": "Proved when the inner if has no declaration or init statement in its condition; C41_inner_init_witness refutes it otherwise."
  },
  {
   "property": "C42",
   "status": "proved",
   "theorems": [
    "Oclint.C42_reports_exactly",
    "Oclint.C42_for_while_same"
   ],
   "note": ""
  },
  {
   "property": "C43",
   "status": "partial",
   "theorems": [
    "Oclint.C43_reports_exactly",
    "Oclint.C43_drop_else_same_partial",
    "Oclint.C43_label_witness"
   ],
   "note": "What is reported is characterised exactly (C43_reports_exactly). The advice is proved when the then branches contain no labels; C43_label_witness refutes it otherwise."
  },
  {
   "property": "C44",
   "status": "partial",
   "theorems": [
    "Oclint.C44_if_reports_exactly",
    "Oclint.C44_conditional_reports_exactly",
    "Oclint.C44_if_return_same",
    "Oclint.C44_if_assign_same_partial",
    "Oclint.C44_conditional_opposite",
    "Oclint.C44_conditional_twice_partial",
    "Oclint.C44_operator_witness",
    "Oclint.C44_variable_witness",
    "Oclint.C44_cast_witness"
   ],
   "note": "Reports are characterised exactly. The advice is proved for opposite returned constants, for assignments to one variable, and for conditional operators; casts keep only the truth value. C44_operator_witness, C44_variable_witness and C44_cast_witness refute the general claim."
  },
  {
   "property": "C45",
   "status": "proved",
   "theorems": [
    "Oclint.C45_reports_exactly",
    "Oclint.C45_if_same",
    "Oclint.C45_conditional_same"
   ],
   "note": "No label may be in both branches, which C guarantees."
  },
  {
   "property": "C46",
   "status": "proved",
   "theorems": [
    "Oclint.C46_reports_exactly",
    "Oclint.C46_wrong_exactly_for_negative_odd"
   ],
   "note": "Values are 32 bit two's complement integers with C's remainder; the operand must have a value (no overflow, no division by zero in it)."
  },
  {
   "property": "C47",
   "status": "proved",
   "theorems": [
    "Oclint.C47_double_reports_exactly",
    "Oclint.C47_multiple_reports_exactly",
    "Oclint.C47_double_is_multiple",
    "Oclint.C47_not_not_truth",
    "Oclint.C47_not_not_condition",
    "Oclint.C47_complement_twice",
    "Oclint.C47_signs_twice"
   ],
   "note": ""
  },
  {
   "property": "C48",
   "status": "proved",
   "theorems": [
    "Oclint.C48_reports_exactly",
    "Oclint.C48_constant"
   ],
   "note": "Clang's EvaluateAsBooleanCondition is a parameter; its soundness (Evaluator) is a hypothesis, shown satisfiable by foldLogic_evaluator."
  },
  {
   "property": "C49",
   "status": "partial",
   "theorems": [
    "Oclint.C49_labels",
    "Oclint.C49_covered",
    "Oclint.C49_missing_default",
    "Oclint.C49_default_not_last_partial",
    "Oclint.C49_default_only",
    "Oclint.C49_default_not_last_witness",
    "Oclint.C49_default_once",
    "Oclint.C49_too_few",
    "Oclint.C49_missing_break",
    "Oclint.C49_missing_break_only",
    "Oclint.C49_missing_break_witness"
   ],
   "note": "False as stated for default labels: Clang adds a default label to the list the rule walks only after the statement behind it, so `default: case 1: f();` is not reported (C49_default_not_last_witness). C49_default_not_last_partial: in a switch with one default label, it is reported exactly if there is a label behind its statement; C49_default_only, C49_default_once: nothing else is. The other clauses are proved in full. C49_missing_break_witness shows that the syntactic notion of a break is neither sound nor complete for falling through. A section that runs into the next label is reported twice."
  },
  {
   "property": "C50",
   "status": "proved",
   "theorems": [
    "Oclint.C50_catch",
    "Oclint.C50_do",
    "Oclint.C50_else",
    "Oclint.C50_finally",
    "Oclint.C50_for",
    "Oclint.C50_if",
    "Oclint.C50_switch",
    "Oclint.C50_try",
    "Oclint.C50_while",
    "Oclint.C50_once"
   ],
   "note": ""
  },
  {
   "property": "C51",
   "status": "proved",
   "theorems": [
    "Oclint.C51_reports_exactly",
    "Oclint.C51_misses"
   ],
   "note": "C51_misses shows the cases not covered."
  },
  {
   "property": "C52",
   "status": "partial",
   "theorems": [
    "Oclint.C52_broken",
    "Oclint.C52_broken_nil",
    "Oclint.C52_misplaced",
    "Oclint.C52_misplaced_nil",
    "Oclint.C52_redundant_nil",
    "Oclint.C52_broken_dereferences_partial",
    "Oclint.C52_misplaced_dereferences_partial",
    "Oclint.C52_proper_check",
    "Oclint.C52_guarded_witness",
    "Oclint.C52_name_witness"
   ],
   "note": "Reports are characterised exactly for all five rules. That a broken check dereferences null is proved for uses not guarded by a further condition; C52_guarded_witness refutes it otherwise. Variables are identified by name, as in the code (C52_name_witness)."
  },
  {
   "property": "C53",
   "status": "proved",
   "theorems": [
    "Oclint.C53_reports_exactly",
    "Oclint.C53_once",
    "Oclint.C53_not_self"
   ],
   "note": "For every iteration order of the unordered_map. 'Calls' are messages, instance variable uses and property uses of Objective-C methods. The rule is in the source tree and has unit tests, but is not built (C118)."
  },
  {
   "property": "C54",
   "status": "proved",
   "theorems": [
    "Oclint.C54_decode_escape",
    "Oclint.C54_no_specials",
    "Oclint.C54_injective",
    "Oclint.C54_plain"
   ],
   "note": ""
  },
  {
   "property": "C55",
   "status": "partial",
   "theorems": [
    "Oclint.C55_html_head",
    "Oclint.C55_json_exact",
    "Oclint.C55_xcode_exact",
    "Oclint.C55_text_exact",
    "Oclint.C55_json_reads_back_partial",
    "Oclint.C55_json_ambiguous_witness",
    "Oclint.C55_xcode_ambiguous_witness",
    "Oclint.C55_xcode_ub_iff",
    "Oclint.C55_pmd_priority_ub",
    "Oclint.C55_pmd_reads_back_partial",
    "Oclint.C55_html_reads_back_partial",
    "Oclint.C55_xcode_reads_back_partial",
    "Oclint.C55_text_reads_back_partial",
    "Oclint.C55_xml_reads_back_partial",
    "Oclint.C55_xml_exact",
    "Oclint.C55_pmd_exact",
    "Oclint.C55_html_exact"
   ],
   "note": "Every format reads back for texts without the characters that are special in it, and for every format this is the exact condition: C55_json_exact, C55_xml_exact, C55_pmd_exact, C55_html_exact, C55_text_exact and C55_xcode_exact say that a report reads back as what it is about if and only if its texts are free of those characters (JsonClean, XmlClean, PmdClean, HtmlClean, LineClean, DiagClean). The unrestricted claim is refuted: C55_json_ambiguous_witness and C55_xcode_ambiguous_witness give different results with the same report. C55_html_head reads the style sheet and the script in the head of the HTML page."
  },
  {
   "property": "C56",
   "status": "partial",
   "theorems": [
    "Oclint.C56_json_wellformed_partial",
    "Oclint.C56_xml_wellformed_partial",
    "Oclint.C56_pmd_wellformed_partial",
    "Oclint.C56_json_witness",
    "Oclint.C56_xml_witness",
    "Oclint.C56_pmd_witness"
   ],
   "note": "Well formed for texts without special characters (PMD: whatever the messages are). Refuted otherwise by C56_json_witness, C56_xml_witness and C56_pmd_witness: JSON and XML texts and PMD paths are written unescaped."
  },
  {
   "property": "C57",
   "status": "partial",
   "theorems": [
    "Oclint.C57_datetime_partial",
    "Oclint.C57_any_year_partial",
    "Oclint.C57_never_calendar",
    "Oclint.C57_january_witness",
    "Oclint.C57_datetime_ub",
    "Oclint.C57_json_timestamp_iff"
   ],
   "note": "Refuted for XML: C57_datetime_partial shows the date is right except that the month is one too small for every moment in years 0-9999, C57_never_calendar that it is never right. The JSON time stamp is right exactly for 32-bit times. HTML prints ctime text as given."
  },
  {
   "property": "C58",
   "status": "partial",
   "theorems": [
    "Oclint.C58_no_rule_ub",
    "Oclint.C58_text_totals_partial",
    "Oclint.C58_other_priority_witness",
    "Oclint.C58_json_totals_partial",
    "Oclint.C58_xml_totals_partial",
    "Oclint.C58_html_totals_partial"
   ],
   "note": "Proved for the text, JSON, XML and HTML reports as read back, when all priorities are 1, 2 or 3 and the texts have no characters that are special in the format: C58_text_totals_partial, C58_json_totals_partial, C58_xml_totals_partial, C58_html_totals_partial (for HTML also the totals of errors, warnings and checker findings). C58_other_priority_witness refutes it otherwise. PMD and Xcode reports state no totals. C58_no_rule_ub: violations without rule."
  },
  {
   "property": "C59",
   "status": "proved",
   "theorems": [
    "Oclint.C59_sort_table",
    "Oclint.C59_second_click",
    "Oclint.C59_missing_cell",
    "Oclint.C59_location_witness"
   ],
   "note": "For every strict weak order of texts; C59_location_witness shows that places are sorted as texts, not as numbers."
  },
  {
   "property": "C60",
   "status": "proved",
   "theorems": [
    "Oclint.C60_sound",
    "Oclint.C60_complete",
    "Oclint.C60_exact",
    "Oclint.C60_exempt",
    "Oclint.C60_loop_variable_witness",
    "Oclint.C60_stale_stack_witness"
   ],
   "note": "Witness theorems refute the exemption of every loop variable, as the statement says. C60_exact: which variables are reported, both directions, for every leftover state."
  },
  {
   "property": "C61",
   "status": "proved",
   "theorems": [
    "Oclint.C61_reports_exactly"
   ],
   "note": ""
  },
  {
   "property": "C62",
   "status": "proved",
   "theorems": [
    "Oclint.C62_goto",
    "Oclint.C62_goto_count"
   ],
   "note": ""
  },
  {
   "property": "C63",
   "status": "proved",
   "theorems": [
    "Oclint.C63_return",
    "Oclint.C63_throw",
    "Oclint.C63_counts",
    "Oclint.C63_order"
   ],
   "note": ""
  },
  {
   "property": "C64",
   "status": "proved",
   "theorems": [
    "Oclint.C64_reports_exactly"
   ],
   "note": ""
  },
  {
   "property": "C65",
   "status": "proved",
   "theorems": [
    "Oclint.C65_reports_exactly",
    "Oclint.C65_count",
    "Oclint.C65_order"
   ],
   "note": ""
  },
  {
   "property": "C66",
   "status": "partial",
   "theorems": [
    "Oclint.C66_reports_exactly",
    "Oclint.C66_advice_partial",
    "Oclint.C66_effect_witness"
   ],
   "note": "Reports are characterised exactly, for whatever comparison of expressions. The advice is proved when asking has no effect and there is no init statement; C66_effect_witness refutes it otherwise."
  },
  {
   "property": "C67",
   "status": "partial",
   "theorems": [
    "Oclint.C67_advice_partial",
    "Oclint.C67_reported",
    "Oclint.C67_witness"
   ],
   "note": "Proved when the other operand is the message itself, without arguments; C67_witness refutes it otherwise."
  },
  {
   "property": "C68",
   "status": "proved",
   "theorems": [
    "Oclint.C68_kept_alive",
    "Oclint.C68_freed",
    "Oclint.C68_nothing_alive",
    "Oclint.C68_undefined_iff",
    "Oclint.C68_numbers_only",
    "Oclint.C68_options_defined",
    "Oclint.C68_options_undefined",
    "Oclint.C68_witness"
   ],
   "note": "Exact condition for undefined behaviour. From LLVM it is taken that a StringRef filled by the YAML reader points into the file buffer or the reader's allocator."
  },
  {
   "property": "C69",
   "status": "proved",
   "theorems": [
    "Oclint.C69_node",
    "Oclint.C69_exact",
    "Oclint.C69_once",
    "Oclint.C69_advice"
   ],
   "note": ""
  },
  {
   "property": "C70",
   "status": "proved",
   "theorems": [
    "Oclint.C70_node",
    "Oclint.C70_exact",
    "Oclint.C70_once",
    "Oclint.C70_advice"
   ],
   "note": "The advice is proved for variables whose stored value is what reading returns and for observations that do not depend on the variable."
  },
  {
   "property": "C71",
   "status": "proved",
   "theorems": [
    "Oclint.C71_node",
    "Oclint.C71_exact",
    "Oclint.C71_block",
    "Oclint.C71_leaves",
    "Oclint.C71_loop",
    "Oclint.C71_bare"
   ],
   "note": "Trees have no positions; the lines of a statement are a function of it. The rewriting is proved for the semantics in Model/Semantics; an indirect goto must not end normally."
  },
  {
   "property": "C72",
   "status": "partial",
   "theorems": [
    "Oclint.C72_by_name",
    "Oclint.C72_count",
    "Oclint.C72_no_shadowing_partial",
    "Oclint.C72_only_plain",
    "Oclint.C72_shadowing"
   ],
   "note": "C72_no_shadowing_partial proves the statement if no other variable has the name of a parameter; C72_shadowing refutes it otherwise. What is reported is characterised exactly in C72_by_name."
  },
  {
   "property": "C73",
   "status": "proved",
   "theorems": [
    "Oclint.C73_exact",
    "Oclint.C73_count",
    "Oclint.C73_complete"
   ],
   "note": "Classes are trees of what the rule reads of clang's records."
  },
  {
   "property": "C74",
   "status": "proved",
   "theorems": [
    "Oclint.C74_exact",
    "Oclint.C74_once",
    "Oclint.C74_hierarchy"
   ],
   "note": ""
  },
  {
   "property": "C75",
   "status": "proved",
   "theorems": [
    "Oclint.C75_default_arguments",
    "Oclint.C75_private_static"
   ],
   "note": "Clang's matchers are modelled by predicates."
  },
  {
   "property": "C76",
   "status": "proved",
   "theorems": [
    "Oclint.C76_exact",
    "Oclint.C76_only_cuda"
   ],
   "note": ""
  },
  {
   "property": "C77",
   "status": "proved",
   "theorems": [
    "Oclint.C77_names",
    "Oclint.C77_called",
    "Oclint.C77_exact",
    "Oclint.C77_configured",
    "Oclint.C77_called_witness"
   ],
   "note": "C77_called_witness: a class inside a class template is called by the template, a pointer to a guard like the guard. Whether a variable is used is an input (clang's isUsed, isReferenced)."
  },
  {
   "property": "C78",
   "status": "partial",
   "theorems": [
    "Oclint.C78_exact",
    "Oclint.C78_once",
    "Oclint.C78_proper_partial",
    "Oclint.C78_class",
    "Oclint.C78_witness"
   ],
   "note": "Reports are characterised exactly (C78_exact). The intended statement is proved outside of classes and class methods (C78_proper_partial) and refuted otherwise (C78_witness)."
  },
  {
   "property": "C79",
   "status": "proved",
   "theorems": [
    "Oclint.C79_exact"
   ],
   "note": ""
  },
  {
   "property": "C80",
   "status": "partial",
   "theorems": [
    "Oclint.C80_exact",
    "Oclint.C80_once",
    "Oclint.C80_instance_partial",
    "Oclint.C80_witness"
   ],
   "note": "Reports are characterised exactly (C80_exact). The intended statement is proved for definitions of instance methods and refuted otherwise (C80_witness)."
  },
  {
   "property": "C81",
   "status": "proved",
   "theorems": [
    "Oclint.C81_comment",
    "Oclint.C81_exact",
    "Oclint.C81_once"
   ],
   "note": ""
  },
  {
   "property": "C82",
   "status": "partial",
   "theorems": [
    "Oclint.C82_in_child",
    "Oclint.C82_exact",
    "Oclint.C82_undefined",
    "Oclint.C82_no_interface",
    "Oclint.C82_complete",
    "Oclint.C82_same_class_partial",
    "Oclint.C82_witness"
   ],
   "note": "Proved when the receiver's class is the method's class (C82_same_class_partial) and in one direction always (C82_complete); refuted otherwise (C82_witness, C82_undefined)."
  },
  {
   "property": "C83",
   "status": "proved",
   "theorems": [
    "Oclint.C83_exact",
    "Oclint.C83_root",
    "Oclint.C83_silent",
    "Oclint.C83_superclass",
    "Oclint.C83_chain",
    "Oclint.C83_witness"
   ],
   "note": "The annotation is looked for as in C28. C83_witness shows the limits to the direct superclass and to its @interface; C83_chain what silence about a whole chain of classes means."
  },
  {
   "property": "C84",
   "status": "partial",
   "theorems": [
    "Oclint.C84_exact",
    "Oclint.C84_targets_partial",
    "Oclint.C84_witness"
   ],
   "note": "Reports are characterised exactly (C84_exact). Proved when left hand sides have no other instance variable; refuted otherwise (C84_witness). Which node refers to which instance variable is a parameter."
  },
  {
   "property": "C85",
   "status": "proved",
   "theorems": [
    "Oclint.C85_exact",
    "Oclint.C85_order",
    "Oclint.C85_advice"
   ],
   "note": ""
  },
  {
   "property": "C86",
   "status": "partial",
   "theorems": [
    "Oclint.C86_exact",
    "Oclint.C86_order",
    "Oclint.C86_advice_partial",
    "Oclint.C86_bool_witness"
   ],
   "note": "Reports are characterised exactly (C86_exact). That boxing sends the same message is proved except for numberWithBool:, where C86_bool_witness refutes it."
  },
  {
   "property": "C87",
   "status": "proved",
   "theorems": [
    "Oclint.C87_exact",
    "Oclint.C87_order",
    "Oclint.C87_mutable"
   ],
   "note": ""
  },
  {
   "property": "C88",
   "status": "proved",
   "theorems": [
    "Oclint.C88_exact",
    "Oclint.C88_order",
    "Oclint.C88_mutable_reads"
   ],
   "note": "The visitor does not look at other receivers, e.g. calls."
  },
  {
   "property": "C89",
   "status": "proved",
   "theorems": [
    "Oclint.C89_console",
    "Oclint.C89_rejected",
    "Oclint.C89_exit",
    "Oclint.C89_complaint",
    "Oclint.C89_report",
    "Oclint.C89_quiet"
   ],
   "note": "C89_console: output, errors, log and files exactly as specified, both directions. C89_exit: same exit code as the model of C17. C89_complaint, C89_report and C89_quiet: consequences by exit code. C89_rejected: a command line Clang does not accept. The texts of a reporter, of dlerror(), of LLVM about configuration files and of a command line error are parameters; a reporter that throws is taken to have written its text before. How the log (llvm::outs) mixes with standard output is not modelled, nor what rules and Clang's front end write themselves. Depends on C68 as C17 does: configuration texts are taken to stay readable."
  },
  {
   "property": "C90",
   "status": "proved",
   "theorems": [
    "Oclint.C90_members",
    "Oclint.C90_exactly",
    "Oclint.C90_garbage",
    "Oclint.C90_unknown",
    "Oclint.C90_stops_reading"
   ],
   "note": "C90_exactly: a document is read as a configuration iff it is the one described, for all shapes including broken ones. C90_unknown: unknown keys. C90_stops_reading: a mistake in the first key loses all others. Parsing of YAML text and of numbers (getAsSignedInteger) are parameters; the behaviour of llvm::yaml::Input is an assumption listed at Model/ConfigYaml. What llvm::yaml::Input writes to standard error about a mistake is not modelled."
  },
  {
   "property": "C91",
   "status": "proved",
   "theorems": [
    "Oclint.C91_docs",
    "Oclint.C91_cases",
    "Oclint.C91_complete",
    "Oclint.C91_unparsed"
   ],
   "note": "C91_docs: exit code, messages and all file contents; C91_cases: its cases exclude each other. C91_complete: no rule is lost or doubled. C91_unparsed: a command line that cannot be parsed is undefined behaviour (the code takes the value of a failed Expected). std::sort is any function that keeps its promise; clock and rule texts are parameters. Files are listed as they are opened: a category called index would name the index file a second time."
  },
  {
   "property": "C92",
   "status": "proved",
   "theorems": [
    "Oclint.C92_completes",
    "Oclint.C92_stops",
    "Oclint.C92_result",
    "Oclint.C92_collects",
    "Oclint.C92_error",
    "Oclint.C92_error_of_calm_rules",
    "Oclint.C92_unique"
   ],
   "note": "C92_completes and C92_stops: what a run writes and collects, both directions. C92_collects and C92_error: the same of the model without output, used by C17; C92_error_of_calm_rules: the case that no rule throws. C92_result: the two models agree. C92_unique: one result. C20_same_outcome: without a throwing rule both modes end alike, also when they stop; C20_message_witness: with one the messages may differ. Command lines too short for the code (no argument; with the checker fewer than two) are undefined behaviour in the model and excluded. Release build without the debug lines; the rules and Clang itself write nothing."
  },
  {
   "property": "C93",
   "status": "proved",
   "theorems": [
    "Oclint.C93_trace",
    "Oclint.C93_interrupted",
    "Oclint.C93_exists",
    "Oclint.C93_cut",
    "Oclint.C93_same",
    "Oclint.C93_life",
    "Oclint.C93_order",
    "Oclint.C93_created",
    "Oclint.C93_alive",
    "Oclint.C93_ended",
    "Oclint.C93_deleted",
    "Oclint.C93_leaks",
    "Oclint.C93_interrupted_leaks",
    "Oclint.C93_one_at_a_time",
    "Oclint.C93_all_at_once",
    "Oclint.C93_one_at_a_time_interrupted"
   ],
   "note": "C93_trace (all rules return), C93_interrupted (one does not) and C93_exists: the events of every run, also of one that stops. C93_cut: an interrupted run is the beginning of an uninterrupted one. C93_same: they are the events of the run of C92. C93_life: the events of each compiler. C93_order, C93_created, C93_alive, C93_ended, C93_deleted: their order. C93_leaks, C93_interrupted_leaks: exactly which compilers are deleted. C93_one_at_a_time, C93_one_at_a_time_interrupted, C93_all_at_once: how long compilers live. The whole sequence of events of a compile (which inputs can be begun, whether there is a target) is a parameter of the toolchain; what Clang does inside BeginSourceFile, Execute, EndSourceFile and the destructor is not modelled. An action whose BeginSourceFile fails is leaked by the code; actions are not separate objects of the model."
  },
  {
   "property": "C94",
   "status": "partial",
   "theorems": [
    "Oclint.C94_distinct",
    "Oclint.C94_plain",
    "Oclint.C94_source",
    "Oclint.C94_kinds",
    "Oclint.C94_tested",
    "Oclint.C94_identifiers",
    "Oclint.C94_attributes",
    "Oclint.C94_select",
    "Oclint.C94_one",
    "Oclint.C94_suppress",
    "Oclint.C94_counted_partial",
    "Oclint.C94_unlimited_witness",
    "Oclint.C94_reports",
    "Oclint.C94_languages",
    "Oclint.C94_cuda",
    "Oclint.C94_useful",
    "Oclint.C94_defaults",
    "Oclint.C94_documented"
   ],
   "note": "C94_distinct, C94_plain, C94_source, C94_select, C94_one, C94_suppress, C94_reports, C94_languages, C94_cuda, C94_useful, C94_defaults, C94_documented, C94_tested, C94_kinds: as stated. C94_identifiers, C94_attributes: the rules whose identifier is not the name of their source file, and those whose attribute name is not their name. That every violation counts against a limit is false: branch divergence has priority 10, so no number of its violations exceeds a limit (C94_unlimited_witness); C94_counted_partial is the statement for the other rules. The catalogue was copied from the sources by a script; that it was copied correctly is part of the trusted base. The thresholds MAXIMUM_IF_LENGTH, RAII_DEFAULT_CLASSES and RAII_CUSTOM_CLASSES have no documented default. One of the rules, feature envy, is not built (C118); the theorems are about any of the rules being loaded."
  },
  {
   "property": "C95",
   "status": "proved",
   "theorems": [
    "Oclint.C95_identifier_iff",
    "Oclint.C95_selected",
    "Oclint.C95_link",
    "Oclint.C95_words",
    "Oclint.C95_given",
    "Oclint.C95_witness"
   ],
   "note": "C95_witness: a class name with a small first letter loses it in the name."
  },
  {
   "property": "C96",
   "status": "proved",
   "theorems": [
    "Oclint.C96_rule",
    "Oclint.C96_visits",
    "Oclint.C96_visits_unique",
    "Oclint.C96_captures",
    "Oclint.C96_witness"
   ],
   "note": "C96_witness shows why braces are excluded: a value with a wildcard in it is expanded again."
  },
  {
   "property": "C97",
   "status": "proved",
   "theorems": [
    "Oclint.C97_run",
    "Oclint.C97_sequence",
    "Oclint.C97_kept",
    "Oclint.C97_again"
   ],
   "note": "C97_again: asking twice lists the rule twice and overwrites its source without a warning (scaffoldReporter refuses to, see C98)."
  },
  {
   "property": "C98",
   "status": "proved",
   "theorems": [
    "Oclint.C98_run",
    "Oclint.C98_refused",
    "Oclint.C98_kept"
   ],
   "note": ""
  },
  {
   "property": "C99",
   "status": "partial",
   "theorems": [
    "Oclint.C99_directory_partial",
    "Oclint.C99_not_found",
    "Oclint.C99_absolute",
    "Oclint.C99_parts",
    "Oclint.C99_layout",
    "Oclint.C99_programs",
    "Oclint.C99_where",
    "Oclint.C99_bundle_partial",
    "Oclint.C99_link_witness",
    "Oclint.C99_empty_entry_witness"
   ],
   "note": "C99_directory_partial and C99_bundle_partial exclude empty entries in PATH, which mean the working directory to the system but are skipped by LLVM's search; C99_empty_entry_witness: the program can then take the directory of another one for its own. C99_not_found, C99_absolute, C99_parts, C99_layout, C99_programs, C99_where: as stated, no such exclusion. C99_link_witness: the place is that of the name the program was started by; started through a link from another directory it does not find the rules of the installation that the link leads to. LLVM's path functions are modelled from their documented behaviour; a directory that is itself a link is excluded by the meaning of `place`."
  },
  {
   "property": "C100",
   "status": "proved",
   "theorems": [
    "Oclint.C100_findings",
    "Oclint.C100_exit",
    "Oclint.C100_threshold",
    "Oclint.C100_selected",
    "Oclint.C100_command_line"
   ],
   "note": "C100_command_line is the whole statement. C100_findings (the violations), C100_exit (the exit code), C100_threshold (the last -rc argument decides, for any key and number), C100_selected (enabling one rule runs it alone) are its parts and are more general. The priority of the rule (3) is a hypothesis here and a theorem for the shipped rule in C94. Negative thresholds for priorities 1 and 2 are excluded; see C18 for those."
  },
  {
   "property": "C101",
   "status": "partial",
   "theorems": [
    "Oclint.C101_every_declaration",
    "Oclint.C101_prototype_only",
    "Oclint.C101_cyclomatic",
    "Oclint.C101_once_partial",
    "Oclint.C101_once_witness",
    "Oclint.C101_forward_classes",
    "Oclint.C101_forward_class_length"
   ],
   "note": "At most once, at the definition: proved for cyclomatic complexity and for C++ methods declared in their class (C101_once_partial), refuted in general by C101_once_witness. C101_every_declaration says which declarations are reported."
  },
  {
   "property": "C102",
   "status": "proved",
   "theorems": [
    "Oclint.C102_delivered",
    "Oclint.C102_only",
    "Oclint.C102_json",
    "Oclint.C102_xml",
    "Oclint.C102_pmd",
    "Oclint.C102_xcode",
    "Oclint.C102_text",
    "Oclint.C102_html",
    "Oclint.C102_long_lines",
    "Oclint.C102_long_lines_json",
    "Oclint.C102_long_lines_xml",
    "Oclint.C102_long_lines_pmd",
    "Oclint.C102_long_lines_xcode",
    "Oclint.C102_long_lines_text",
    "Oclint.C102_long_lines_html"
   ],
   "note": "C102_delivered and C102_only are the two directions, C102_json/xml/pmd/xcode/text/html say how each report reads back, under the conditions of C55 on the texts (they cannot be dropped, see the C55 witnesses). C102_long_lines and C102_long_lines_json \u2026 _html are the runs of the long line rule with the shipped catalogue. Writing is taken to succeed here; C103 says what happens if not."
  },
  {
   "property": "C103",
   "status": "partial",
   "theorems": [
    "Oclint.C103_devices",
    "Oclint.C103_exit",
    "Oclint.C103_complete_partial",
    "Oclint.C103_witness"
   ],
   "note": "The property is false of the code: C103_witness has a run with exit code 0 and no message that leaves the first twelve characters of a report. C103_complete_partial proves it when there is room. C103_devices says what arrives in general and C103_exit that the exit code does not depend on it. llvm::outs() (the version and usage texts) is not part of this."
  },
  {
   "property": "C104",
   "status": "proved",
   "theorems": [
    "Oclint.C104_nothing_left_out",
    "Oclint.C104_collected",
    "Oclint.C104_findings",
    "Oclint.C104_exit",
    "Oclint.C104_by_rule",
    "Oclint.C104_independent"
   ],
   "note": "C104_collected gives the collected sets of a whole run; C104_findings the lists handed to the reporter; C104_exit the exit code; C104_by_rule and C104_independent say that the reports of a rule do not depend on the other rules. A rule is any traversal of the shown declarations with its own memory. The hypothesis Steady (a rule finds the same in a file whatever it looked at before) is part of the property; the shipped rules set their members in setUp, except the stack of the short variable name rule, which survives between files (C60_stale_stack_witness). C104_nothing_left_out: whoever ends without an exception has looked at everything."
  },
  {
   "property": "C105",
   "status": "partial",
   "theorems": [
    "Oclint.C105_reports_state_partial",
    "Oclint.C105_unique",
    "Oclint.C105_version_option",
    "Oclint.C105_release_witness",
    "Oclint.C105_links"
   ],
   "note": "C105_reports_state_partial (every report states 24.11), C105_unique, C105_version_option, C105_links: as stated. That the stated version is the one the program is built as is false: C105_release_witness shows it for every report."
  },
  {
   "property": "C106",
   "status": "proved",
   "theorems": [
    "Oclint.C106_classes",
    "Oclint.C106_unit",
    "Oclint.C106_findings_unique",
    "Oclint.C106_settings",
    "Oclint.C106_reports",
    "Oclint.C106_exit",
    "Oclint.C106_fewer",
    "Oclint.C106_raise",
    "Oclint.C106_abbreviated_witness",
    "Oclint.C106_nothing_left_out",
    "Oclint.C106_name_that_ends_the_run"
   ],
   "note": "C106_settings: from the configuration files and -rc to the limit; C106_classes: names and priorities; C106_unit, C106_findings_unique: what a rule finds in a file; C106_reports and C106_exit: what is collected and the exit code; C106_fewer and C106_raise: higher limits. The constructs the traversal of a declaration comes by are a parameter (Clang's traversal). C106_abbreviated_witness shows why duplicates are excluded in C106_raise: messages about two variables can be the same with a limit and differ with a higher one. C106_nothing_left_out and C106_name_that_ends_the_run: what a run that ends in a report has visited."
  },
  {
   "property": "C107",
   "status": "proved",
   "theorems": [
    "Oclint.C107_told",
    "Oclint.C107_json",
    "Oclint.C107_xml",
    "Oclint.C107_pmd",
    "Oclint.C107_xcode",
    "Oclint.C107_text",
    "Oclint.C107_html",
    "Oclint.C107_limit_messages",
    "Oclint.C107_limits_xcode",
    "Oclint.C107_limits_json"
   ],
   "note": "C107_told: what reaches the reporters. C107_json, C107_xml, C107_pmd, C107_xcode, C107_text, C107_html: the report read back, for any shipped rules. C107_limit_messages: messages about limits can stand in every report. C107_limits_xcode, C107_limits_json: runs of rules with limits, nothing assumed of the messages. That every file compiles, that the reporters are the shipped ones and that the destination opens are assumed, as in C102 and C104."
  },
  {
   "property": "C108",
   "status": "partial",
   "theorems": [
    "Oclint.C108_build",
    "Oclint.C108_test",
    "Oclint.C108_dogfooding",
    "Oclint.C108_ci",
    "Oclint.C108_build_steps",
    "Oclint.C108_test_steps",
    "Oclint.C108_dogfooding_steps",
    "Oclint.C108_ci_steps",
    "Oclint.C108_build_green",
    "Oclint.C108_test_green",
    "Oclint.C108_dogfooding_green",
    "Oclint.C108_ci_green",
    "Oclint.C108_good",
    "Oclint.C108_dependencies",
    "Oclint.C108_directories",
    "Oclint.C108_words_partial",
    "Oclint.C108_words_witness",
    "Oclint.C108_release_untested"
   ],
   "note": "Everything but the last clause holds for every machine, every option and every directory (C108_build, C108_test, C108_dogfooding, C108_ci and, step by step, C108_..._steps; C108_..._green and C108_good for the exit status; C108_dependencies and C108_directories for order and directories). The last clause is false of the code: paths are put into commands without quotes, so with a space in the name of the project's directory CMake gets other words (C108_words_witness); C108_words_partial has it for `build` when the names have no spaces. `ci -release` ends with status 0 without having called any test (C108_release_untested). Exit statuses are assumed to be below 256 and signals to be negative, as the system reports them. A script that another one starts is a command like any other."
  },
  {
   "property": "C109",
   "status": "proved",
   "theorems": [
    "Oclint.C109_bundle",
    "Oclint.C109_ready",
    "Oclint.C109_archive",
    "Oclint.C109_again",
    "Oclint.C109_archive_again",
    "Oclint.C109_found"
   ],
   "note": "For disks without links in the directories that are copied, and without permissions; LLVM has to be apart from the release (the default is)."
  },
  {
   "property": "C110",
   "status": "partial",
   "theorems": [
    "Oclint.C110_address",
    "Oclint.C110_address_partial",
    "Oclint.C110_address_witness",
    "Oclint.C110_llc",
    "Oclint.C110_library",
    "Oclint.C110_library_partial",
    "Oclint.C110_library_witness",
    "Oclint.C110_removed",
    "Oclint.C110_removable",
    "Oclint.C110_script",
    "Oclint.C110_release_partial",
    "Oclint.C110_no_headers",
    "Oclint.C110_release_witness"
   ],
   "note": "C110_script, C110_removed, C110_removable and C110_llc hold of every machine and disk. Three clauses are false of the code, each with a witness. A Mac with an Intel processor gets LLVM for ARM (C110_address_witness; C110_address_partial has every other machine). Of two members of a library that have the same name the first one is lost when the second one is converted (C110_library_witness); C110_library says exactly what a library has afterwards, and C110_library_partial that nothing is lost when the names differ and end in `.o`. On a Mac with an Intel processor `bundle` always fails after `clang`, whatever is built in between, because `clang` has removed the headers that `bundle` copies (C110_release_witness); C110_release_partial has that everywhere else, and for `-docgen`, what is removed makes no difference to a release. The download, the unpacking, `ar` and `llc` are parameters; links to directories are left out."
  },
  {
   "property": "C111",
   "status": "partial",
   "theorems": [
    "Oclint.C111_fields",
    "Oclint.C111_googletest",
    "Oclint.C111_docgen",
    "Oclint.C111_make",
    "Oclint.C111_make_total",
    "Oclint.C111_gh_actions",
    "Oclint.C111_gh_actions_total",
    "Oclint.C111_system_llvm_refused",
    "Oclint.C111_system_llvm",
    "Oclint.C111_system_llvm_total",
    "Oclint.C111_system_llvm_partial",
    "Oclint.C111_tests_green",
    "Oclint.C111_workflow",
    "Oclint.C111_workflow_green",
    "Oclint.C111_second_run",
    "Oclint.C111_gtest_found",
    "Oclint.C111_system_llvm_witness"
   ],
   "note": "C111_googletest, C111_docgen, C111_make, C111_gh_actions and C111_system_llvm say exactly what the scripts do on any machine with any arguments, C111_workflow and C111_workflow_green what the jobs do. One clause is false of the code: `makeWithSystemLLVM` uses the path without quotes, so an empty path and a path with a blank pass the check although nothing is there, and the second word is taken for the name of a part (C111_system_llvm_witness); C111_system_llvm_partial has the clause for paths without blanks that are not empty. C111_tests_green assumes codes as systems report them: an exit status, or the negated number of a signal. A second run of a job on the same machine always fails, since `googleTest co` does (C111_second_run). Words that may be options are taken as `argparse` takes them (C120). Names of files are not expanded."
  },
  {
   "property": "C112",
   "status": "proved",
   "theorems": [
    "Oclint.C112_one_outcome",
    "Oclint.C112_dead_code",
    "Oclint.C112_collapsible_if",
    "Oclint.C112_for_while",
    "Oclint.C112_redundant_if",
    "Oclint.C112_redundant_conditional",
    "Oclint.C112_inverted_logic",
    "Oclint.C112_broken_oddness",
    "Oclint.C112_double_negative",
    "Oclint.C112_multiple_unary",
    "Oclint.C112_constant_if",
    "Oclint.C112_constant_conditional",
    "Oclint.C112_covered_switch",
    "Oclint.C112_missing_default",
    "Oclint.C112_empty_catch",
    "Oclint.C112_empty_do",
    "Oclint.C112_empty_else",
    "Oclint.C112_empty_finally",
    "Oclint.C112_empty_for",
    "Oclint.C112_empty_if",
    "Oclint.C112_empty_switch",
    "Oclint.C112_empty_try",
    "Oclint.C112_empty_while",
    "Oclint.C112_jumbled_incrementer",
    "Oclint.C112_broken_null",
    "Oclint.C112_broken_nil",
    "Oclint.C112_misplaced_null",
    "Oclint.C112_misplaced_nil",
    "Oclint.C112_redundant_nil",
    "Oclint.C112_bitwise",
    "Oclint.C112_branching_last",
    "Oclint.C112_null_check_dealloc",
    "Oclint.C112_useless_parens",
    "Oclint.C112_redundant_local",
    "Oclint.C112_early_exit",
    "Oclint.C112_goto",
    "Oclint.C112_too_few",
    "Oclint.C112_early_exit_rule",
    "Oclint.C112_reassignment",
    "Oclint.C112_ivars",
    "Oclint.C112_divergence"
   ],
   "note": "One theorem for each rule over syntax trees; C112_one_outcome shows that the specification leaves no choice. Rules whose reports go through other data (metrics, names, unused declarations) are covered by their own count theorems."
  },
  {
   "property": "C113",
   "status": "proved",
   "theorems": [
    "Oclint.C113_reordered",
    "Oclint.C113_fewer",
    "Oclint.C113_split",
    "Oclint.C113_same_answers",
    "Oclint.C113_exit_order",
    "Oclint.C113_exit_fewer",
    "Oclint.C113_relative_directory"
   ],
   "note": "Over the runs of C104 (rules of the tree and the long line rule, everything compiles). Settled says what absolute directories give: chdir does not depend on where one stands. C113_relative_directory is a run in which a relative directory makes the exit code depend on the order of the sources."
  },
  {
   "property": "C114",
   "status": "proved",
   "theorems": [
    "Oclint.C114_texts_kept",
    "Oclint.C114_exit_code",
    "Oclint.C114_undefined",
    "Oclint.C114_rejected",
    "Oclint.C114_unique",
    "Oclint.C114_ends"
   ],
   "note": "The exit code is stated in terms of the command line and the configuration files only: no function of the model and no option state occurs in Spec/Program.lean. C114_exit_code needs that no consulted file has a text, C114_undefined says what happens otherwise, C114_ends under which conditions on plugins, rules and commands the program ends at all."
  },
  {
   "property": "C115",
   "status": "proved",
   "theorems": [
    "Oclint.C115_script_is_model",
    "Oclint.C115_click_sorts",
    "Oclint.C115_click_missing_cell",
    "Oclint.C115_click_no_table",
    "Oclint.C115_report_click"
   ],
   "note": ""
  },
  {
   "property": "C116",
   "status": "proved",
   "theorems": [
    "Oclint.C116_reading",
    "Oclint.C116_accepted",
    "Oclint.C116_printed",
    "Oclint.C116_rejected",
    "Oclint.C116_exit_status",
    "Oclint.C116_expressible"
   ],
   "note": "The reading of words is a relation (Spec/CommandLine.lean, WordsSay) that shares no function with the model; numbers and switches have specifications of their own. The reader itself is LLVM's, modelled from its documented behaviour; C116_exit_status needs the same conditions on the configuration files as C114."
  },
  {
   "property": "C117",
   "status": "partial",
   "theorems": [
    "Oclint.C117_adjusted",
    "Oclint.C117_passes",
    "Oclint.C117_checker_partial",
    "Oclint.C117_checker_iff",
    "Oclint.C117_source_kept",
    "Oclint.C117_macro_partial",
    "Oclint.C117_witness",
    "Oclint.C117_run_partial"
   ],
   "note": "False of the code (C117_witness). C117_adjusted: the adjusted words of every command, both directions. C117_passes: what each pass hands over, for every command. C117_checker_partial and C117_run_partial: the property for commands without -fsyntax-only and -- of their own. C117_checker_iff: exactly when the checker pass loses no word. C117_source_kept, C117_macro_partial: sources and macro. The two adjusters belong to Clang and are modelled from their documented behaviour; other theorems (C92) hold for arbitrary adjusters."
  },
  {
   "property": "C118",
   "status": "partial",
   "theorems": [
    "Oclint.C118_scaffolded",
    "Oclint.C118_built_partial",
    "Oclint.C118_witness",
    "Oclint.C118_reporters",
    "Oclint.C118_reporters_built"
   ],
   "note": "C118_built_partial: one plug-in for every rule source other than FeatureEnvyRule.cpp; C118_witness: that one is in the tree and is not built. C118_scaffolded: after any requests, the tree can be built exactly if the class names are new and distinct, whatever their categories (and none is OCLintAbstract, whose target is taken); the examples beside it have two requests for one name, and a category that is in the list of categories but has no list of its own: both end in a tree that cannot be built. C118_reporters: scaffoldReporter, without exception. C118_reporters_built: the six reporters. Class names CACHE and PARENT_SCOPE, which mean something to SET, are excluded. Constructs of CMake other than those in the lists count as errors."
  },
  {
   "property": "C119",
   "status": "proved",
   "theorems": [
    "Oclint.C119_scaffolded",
    "Oclint.C119_built",
    "Oclint.C119_every_rule",
    "Oclint.C119_reporters",
    "Oclint.C119_named_built"
   ],
   "note": "C119_built: the sources of all programs are a permutation of the canary and testSources, without cudaTests if there is no CUDA; C119_every_rule: the test of every shipped rule is among them; C119_scaffolded: both directions for all sequences of requests. C119_named_built: the reporters, the core, the metrics and the driver. C119_reporters: scaffoldReporter. The requests are those of C118 (letters, digits and underscores, no class CACHE or PARENT_SCOPE). The lists are taken line by line from the repository; constructs of CMake other than those in them count as errors, and variables that come from elsewhere count as empty, which matters only for linking."
  },
  {
   "property": "C120",
   "status": "partial",
   "theorems": [
    "Oclint.C120_read",
    "Oclint.C120_any_order",
    "Oclint.C120_build",
    "Oclint.C120_test",
    "Oclint.C120_dog",
    "Oclint.C120_ci",
    "Oclint.C120_gtest",
    "Oclint.C120_bundle",
    "Oclint.C120_clang",
    "Oclint.C120_rule",
    "Oclint.C120_reporter",
    "Oclint.C120_defaults",
    "Oclint.C120_flag_first",
    "Oclint.C120_make",
    "Oclint.C120_calls",
    "Oclint.C120_gh",
    "Oclint.C120_system",
    "Oclint.C120_ci_calls",
    "Oclint.C120_unknown_partial",
    "Oclint.C120_glued",
    "Oclint.C120_unknown_fails",
    "Oclint.C120_rule_class",
    "Oclint.C120_reporter_class"
   ],
   "note": "C120_read: every line that says one thing after another, with the values after a blank, after = or, for the argument without a name, after --; C120_any_order: if they do not contradict each other, in any order. C120_build, C120_test, C120_dog, C120_ci, C120_gtest, C120_bundle, C120_clang, C120_rule, C120_reporter: everything can be asked for; C120_defaults: what is asked for without options. C120_make, C120_calls, C120_gh, C120_system, C120_ci_calls: scripts that start others; C120_gh and C120_system are for words that do not begin with a dash (or are numbers); the scripts of C111 start others with their words, so that C111 says the rest. C120_rule_class, C120_reporter_class. C120_unknown_partial: words that are no option, nor the beginning of one, nor begin with an option of one letter are never accepted; C120_unknown_fails: -no-test is accepted by scaffoldRule; C120_glued: what such words do, for all of them. argparse itself is not part of the project; its model is part of the trusted base."
  },
  {
   "property": "C121",
   "status": "partial",
   "theorems": [
    "Oclint.C121_remembered",
    "Oclint.C121_options",
    "Oclint.C121_clean_partial",
    "Oclint.C121_witness",
    "Oclint.C121_apart"
   ],
   "note": "C121_remembered: exactly what CMake works with after a call of build that succeeds, whatever was there before. C121_options: when a part is compiled for the documentation and when it is optimized, both directions; without -clean also because of earlier calls. C121_clean_partial: the first sentence for calls with -clean. C121_witness: docGen, then build as gh-actions calls it. C121_apart: the second sentence, for all sequences of calls. What CMake remembers is modelled from its documentation; generators are not, so the witness uses calls with the same one."
  },
  {
   "property": "C122",
   "status": "proved",
   "theorems": [
    "Oclint.C122_bundled",
    "Oclint.C122_built",
    "Oclint.C122_nothing_left",
    "Oclint.C122_names",
    "Oclint.C122_plugins",
    "Oclint.C122_docgen",
    "Oclint.C122_linked"
   ],
   "note": "C122_built: the targets and the directories that CMake goes on to, for every disk and cache; C122_names: no two targets have one name, whatever the lists; C122_nothing_left: no source is left out; C122_plugins: with the sequences of calls of C121; C122_docgen: after build -clean; C122_linked: after any call of build that succeeds; C122_bundled: with bundle (C109), when no archive is made. The lists are taken line by line from the repository; constructs of CMake other than those in them count as errors. readProject has a bound on how deep lists lead to other lists, and the theorems are for every bound from three on, which is what the repository needs. Libraries of LLVM and of the system that come from variables are left out of what is linked."
  },
  {
   "property": "C123",
   "status": "proved",
   "theorems": [
    "Oclint.C123_pattern",
    "Oclint.C123_uploaded",
    "Oclint.C123_apart",
    "Oclint.C123_commits",
    "Oclint.C123_docs"
   ],
   "note": "C123_pattern: what is uploaded; C123_uploaded and C123_docs: archives are; C123_apart: names of archives on two machines; C123_commits: also of two commits. With dashes in the name of an architecture two sorts of machines could have one name (example beside the theorem). The filters of aws s3 cp are modelled from their documentation, with * as the only special character. C123_docs is about the name that docGen:11 has in its text; that docGen makes the file is left to tar."
  }
 ]
}