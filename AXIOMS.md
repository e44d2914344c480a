# Axioms

Output of `#print axioms` for every theorem in MANIFEST.json.

## none

1 theorems

* `Oclint.C112_one_outcome`

## propext

28 theorems

* `Oclint.C07_getters_are_pure`
* `Oclint.C07_raw_read`
* `Oclint.C08_garbage_is_zero`
* `Oclint.C09_identifier_letters`
* `Oclint.C12_disabling_all_enabled`
* `Oclint.C21_checker_pass`
* `Oclint.C34_parens`
* `Oclint.C35_hides_witness`
* `Oclint.C35_try_witness`
* `Oclint.C44_conditional_twice_partial`
* `Oclint.C45_conditional_same`
* `Oclint.C47_not_not_truth`
* `Oclint.C49_default_not_last_witness`
* `Oclint.C49_missing_break_only`
* `Oclint.C49_missing_break_witness`
* `Oclint.C50_finally`
* `Oclint.C51_reports_exactly`
* `Oclint.C52_proper_check`
* `Oclint.C52_name_witness`
* `Oclint.C67_advice_partial`
* `Oclint.C68_kept_alive`
* `Oclint.C68_nothing_alive`
* `Oclint.C69_node`
* `Oclint.C70_node`
* `Oclint.C71_leaves`
* `Oclint.C72_shadowing`
* `Oclint.C99_absolute`
* `Oclint.C108_good`

## propext, Classical.choice, Quot.sound

537 theorems

* `Oclint.C03_stale_witness`
* `Oclint.C05_files_with_violations_are`
* `Oclint.C05_files_with_violations_le`
* `Oclint.C05_files_with_violations_zero_iff`
* `Oclint.C05_files_with_violations_exact`
* `Oclint.C05_undercount_witness`
* `Oclint.C06_nonnegative_index`
* `Oclint.C06_negative_index`
* `Oclint.C07_undefined`
* `Oclint.C08_every_text`
* `Oclint.C11_last_request_wins`
* `Oclint.C12_multiplicity`
* `Oclint.C12_default_all`
* `Oclint.C12_names`
* `Oclint.C13_precedence_partial`
* `Oclint.C13_processing_succeeds_partial`
* `Oclint.C14_rule_paths_partial`
* `Oclint.C14_rule_configuration_partial`
* `Oclint.C14_rule_selection_partial`
* `Oclint.C15_rc_split_any`
* `Oclint.C15_rc_split`
* `Oclint.C15_far_witness`
* `Oclint.C16_output_path`
* `Oclint.C16_relative_to_cwd_partial`
* `Oclint.C16_long_cwd_witness`
* `Oclint.C17_exit_code_unique`
* `Oclint.C17_exit_code`
* `Oclint.C17_bad_command_line`
* `Oclint.C17_always_exits_partial`
* `Oclint.C17_success_iff`
* `Oclint.C18_gate`
* `Oclint.C18_gate_monotone`
* `Oclint.C18_dedup_never_hurts`
* `Oclint.C18_other_priorities`
* `Oclint.C20_global_equals_per_file`
* `Oclint.C20_no_checker_no_bugs`
* `Oclint.C20_same_outcome`
* `Oclint.C20_message_witness`
* `Oclint.C22_normal_command_line`
* `Oclint.C22_checker_command_line`
* `Oclint.C22_out_of_bounds`
* `Oclint.C22_flags`
* `Oclint.C22_front_end_job`
* `Oclint.C23_replacement`
* `Oclint.C23_termination`
* `Oclint.C23_no_escape_left`
* `Oclint.C24_rules_loaded`
* `Oclint.C24_first_broken_rule`
* `Oclint.C24_reporter_selected`
* `Oclint.C24_reporter_error`
* `Oclint.C26_line_marker`
* `Oclint.C26_consistent`
* `Oclint.C26_recorded`
* `Oclint.C26_header_witness`
* `Oclint.C26_stale_witness`
* `Oclint.C27_suppressed_iff`
* `Oclint.C27_inherited`
* `Oclint.C27_no_rule`
* `Oclint.C27_recorded`
* `Oclint.C27_chain_cut_witness`
* `Oclint.C28_comment_of`
* `Oclint.C28_requested`
* `Oclint.C28_enforce`
* `Oclint.C28_one_rule`
* `Oclint.C28_exact_rule`
* `Oclint.C28_unqualified`
* `Oclint.C28_comment`
* `Oclint.C28_no_comment`
* `Oclint.C29_answer_exact`
* `Oclint.C29_independent_partial`
* `Oclint.C29_leak_witness`
* `Oclint.C29_libraries`
* `Oclint.C29_one_rule_per_library`
* `Oclint.C30_plain_unit`
* `Oclint.C30_cuda_unit`
* `Oclint.C30_no_language`
* `Oclint.C31_each_line`
* `Oclint.C31_lines_unique`
* `Oclint.C31_apply`
* `Oclint.C32_long_line`
* `Oclint.C32_exact`
* `Oclint.C33_complexity`
* `Oclint.C33_counted`
* `Oclint.C33_at_least_one`
* `Oclint.C33_additive`
* `Oclint.C33_nesting`
* `Oclint.C34_walks`
* `Oclint.C34_no_overflow`
* `Oclint.C35_positive_partial`
* `Oclint.C35_monotone_partial`
* `Oclint.C35_overflow_witness`
* `Oclint.C35_hidden_overflow_witness`
* `Oclint.C36_count`
* `Oclint.C36_counted`
* `Oclint.C36_additive`
* `Oclint.C36_braces`
* `Oclint.C36_empty_statement`
* `Oclint.C36_leaves`
* `Oclint.C37_depth`
* `Oclint.C37_braces`
* `Oclint.C37_monotone`
* `Oclint.C38_exact_partial`
* `Oclint.C38_total_partial`
* `Oclint.C38_raise_partial`
* `Oclint.C38_negative_parameters_witness`
* `Oclint.C38_names`
* `Oclint.C38_negative_name_witness`
* `Oclint.C39_dead_code_partial`
* `Oclint.C39_label_witness`
* `Oclint.C40_reports_exactly`
* `Oclint.C40_reported_iff`
* `Oclint.C41_collapse_same_partial`
* `Oclint.C43_reports_exactly`
* `Oclint.C43_drop_else_same_partial`
* `Oclint.C44_conditional_reports_exactly`
* `Oclint.C44_if_return_same`
* `Oclint.C44_if_assign_same_partial`
* `Oclint.C44_cast_witness`
* `Oclint.C45_if_same`
* `Oclint.C46_wrong_exactly_for_negative_odd`
* `Oclint.C47_not_not_condition`
* `Oclint.C47_complement_twice`
* `Oclint.C47_signs_twice`
* `Oclint.C49_labels`
* `Oclint.C49_covered`
* `Oclint.C49_missing_default`
* `Oclint.C49_default_not_last_partial`
* `Oclint.C49_default_only`
* `Oclint.C49_default_once`
* `Oclint.C49_too_few`
* `Oclint.C49_missing_break`
* `Oclint.C51_misses`
* `Oclint.C53_reports_exactly`
* `Oclint.C53_once`
* `Oclint.C53_not_self`
* `Oclint.C54_decode_escape`
* `Oclint.C54_no_specials`
* `Oclint.C54_injective`
* `Oclint.C54_plain`
* `Oclint.C55_html_head`
* `Oclint.C55_json_exact`
* `Oclint.C55_xcode_exact`
* `Oclint.C55_text_exact`
* `Oclint.C55_json_reads_back_partial`
* `Oclint.C55_json_ambiguous_witness`
* `Oclint.C55_xcode_ambiguous_witness`
* `Oclint.C55_xcode_ub_iff`
* `Oclint.C55_pmd_priority_ub`
* `Oclint.C55_pmd_reads_back_partial`
* `Oclint.C55_html_reads_back_partial`
* `Oclint.C55_xcode_reads_back_partial`
* `Oclint.C55_text_reads_back_partial`
* `Oclint.C55_xml_reads_back_partial`
* `Oclint.C55_xml_exact`
* `Oclint.C55_pmd_exact`
* `Oclint.C55_html_exact`
* `Oclint.C56_json_wellformed_partial`
* `Oclint.C56_xml_wellformed_partial`
* `Oclint.C56_pmd_wellformed_partial`
* `Oclint.C56_json_witness`
* `Oclint.C56_xml_witness`
* `Oclint.C56_pmd_witness`
* `Oclint.C57_datetime_partial`
* `Oclint.C57_any_year_partial`
* `Oclint.C57_never_calendar`
* `Oclint.C57_january_witness`
* `Oclint.C57_datetime_ub`
* `Oclint.C57_json_timestamp_iff`
* `Oclint.C58_no_rule_ub`
* `Oclint.C58_text_totals_partial`
* `Oclint.C58_other_priority_witness`
* `Oclint.C58_json_totals_partial`
* `Oclint.C58_xml_totals_partial`
* `Oclint.C58_html_totals_partial`
* `Oclint.C59_sort_table`
* `Oclint.C59_second_click`
* `Oclint.C59_missing_cell`
* `Oclint.C59_location_witness`
* `Oclint.C60_sound`
* `Oclint.C60_complete`
* `Oclint.C60_exact`
* `Oclint.C60_exempt`
* `Oclint.C60_loop_variable_witness`
* `Oclint.C60_stale_stack_witness`
* `Oclint.C62_goto_count`
* `Oclint.C63_throw`
* `Oclint.C63_counts`
* `Oclint.C63_order`
* `Oclint.C65_count`
* `Oclint.C65_order`
* `Oclint.C66_reports_exactly`
* `Oclint.C66_advice_partial`
* `Oclint.C67_witness`
* `Oclint.C68_undefined_iff`
* `Oclint.C68_options_defined`
* `Oclint.C68_options_undefined`
* `Oclint.C68_witness`
* `Oclint.C69_advice`
* `Oclint.C70_advice`
* `Oclint.C71_exact`
* `Oclint.C71_block`
* `Oclint.C71_loop`
* `Oclint.C71_bare`
* `Oclint.C72_by_name`
* `Oclint.C72_count`
* `Oclint.C72_no_shadowing_partial`
* `Oclint.C72_only_plain`
* `Oclint.C73_exact`
* `Oclint.C73_count`
* `Oclint.C73_complete`
* `Oclint.C74_exact`
* `Oclint.C74_once`
* `Oclint.C74_hierarchy`
* `Oclint.C76_only_cuda`
* `Oclint.C77_names`
* `Oclint.C77_exact`
* `Oclint.C77_configured`
* `Oclint.C77_called_witness`
* `Oclint.C78_exact`
* `Oclint.C78_once`
* `Oclint.C78_proper_partial`
* `Oclint.C78_class`
* `Oclint.C78_witness`
* `Oclint.C79_exact`
* `Oclint.C80_exact`
* `Oclint.C80_once`
* `Oclint.C80_instance_partial`
* `Oclint.C80_witness`
* `Oclint.C81_comment`
* `Oclint.C81_exact`
* `Oclint.C81_once`
* `Oclint.C82_exact`
* `Oclint.C82_undefined`
* `Oclint.C82_no_interface`
* `Oclint.C82_complete`
* `Oclint.C82_same_class_partial`
* `Oclint.C82_witness`
* `Oclint.C83_exact`
* `Oclint.C83_root`
* `Oclint.C83_silent`
* `Oclint.C83_superclass`
* `Oclint.C83_chain`
* `Oclint.C83_witness`
* `Oclint.C84_exact`
* `Oclint.C84_targets_partial`
* `Oclint.C84_witness`
* `Oclint.C85_exact`
* `Oclint.C85_order`
* `Oclint.C85_advice`
* `Oclint.C86_exact`
* `Oclint.C86_order`
* `Oclint.C86_advice_partial`
* `Oclint.C86_bool_witness`
* `Oclint.C87_exact`
* `Oclint.C87_order`
* `Oclint.C87_mutable`
* `Oclint.C88_exact`
* `Oclint.C88_order`
* `Oclint.C88_mutable_reads`
* `Oclint.C89_console`
* `Oclint.C89_rejected`
* `Oclint.C89_exit`
* `Oclint.C89_complaint`
* `Oclint.C89_report`
* `Oclint.C89_quiet`
* `Oclint.C90_members`
* `Oclint.C90_exactly`
* `Oclint.C90_garbage`
* `Oclint.C90_unknown`
* `Oclint.C90_stops_reading`
* `Oclint.C91_docs`
* `Oclint.C91_cases`
* `Oclint.C91_complete`
* `Oclint.C91_unparsed`
* `Oclint.C92_completes`
* `Oclint.C92_stops`
* `Oclint.C92_result`
* `Oclint.C92_collects`
* `Oclint.C92_error`
* `Oclint.C92_error_of_calm_rules`
* `Oclint.C92_unique`
* `Oclint.C93_trace`
* `Oclint.C93_interrupted`
* `Oclint.C93_exists`
* `Oclint.C93_cut`
* `Oclint.C93_same`
* `Oclint.C93_life`
* `Oclint.C93_order`
* `Oclint.C93_created`
* `Oclint.C93_alive`
* `Oclint.C93_ended`
* `Oclint.C93_deleted`
* `Oclint.C93_leaks`
* `Oclint.C93_interrupted_leaks`
* `Oclint.C93_one_at_a_time`
* `Oclint.C93_all_at_once`
* `Oclint.C93_one_at_a_time_interrupted`
* `Oclint.C94_source`
* `Oclint.C94_kinds`
* `Oclint.C94_tested`
* `Oclint.C94_select`
* `Oclint.C94_one`
* `Oclint.C94_suppress`
* `Oclint.C94_unlimited_witness`
* `Oclint.C94_languages`
* `Oclint.C94_cuda`
* `Oclint.C94_useful`
* `Oclint.C94_defaults`
* `Oclint.C94_documented`
* `Oclint.C95_identifier_iff`
* `Oclint.C95_selected`
* `Oclint.C95_link`
* `Oclint.C95_words`
* `Oclint.C95_given`
* `Oclint.C95_witness`
* `Oclint.C96_rule`
* `Oclint.C96_visits`
* `Oclint.C96_visits_unique`
* `Oclint.C96_captures`
* `Oclint.C96_witness`
* `Oclint.C97_run`
* `Oclint.C97_sequence`
* `Oclint.C97_kept`
* `Oclint.C97_again`
* `Oclint.C98_run`
* `Oclint.C98_refused`
* `Oclint.C98_kept`
* `Oclint.C99_parts`
* `Oclint.C99_layout`
* `Oclint.C99_programs`
* `Oclint.C99_where`
* `Oclint.C99_bundle_partial`
* `Oclint.C99_link_witness`
* `Oclint.C99_empty_entry_witness`
* `Oclint.C100_findings`
* `Oclint.C100_exit`
* `Oclint.C100_threshold`
* `Oclint.C100_selected`
* `Oclint.C100_command_line`
* `Oclint.C101_every_declaration`
* `Oclint.C101_prototype_only`
* `Oclint.C101_cyclomatic`
* `Oclint.C101_once_partial`
* `Oclint.C101_once_witness`
* `Oclint.C101_forward_classes`
* `Oclint.C101_forward_class_length`
* `Oclint.C102_delivered`
* `Oclint.C102_only`
* `Oclint.C102_json`
* `Oclint.C102_xml`
* `Oclint.C102_pmd`
* `Oclint.C102_xcode`
* `Oclint.C102_text`
* `Oclint.C102_html`
* `Oclint.C102_long_lines`
* `Oclint.C102_long_lines_json`
* `Oclint.C102_long_lines_xml`
* `Oclint.C102_long_lines_pmd`
* `Oclint.C102_long_lines_xcode`
* `Oclint.C102_long_lines_text`
* `Oclint.C102_long_lines_html`
* `Oclint.C103_devices`
* `Oclint.C103_exit`
* `Oclint.C103_complete_partial`
* `Oclint.C103_witness`
* `Oclint.C104_nothing_left_out`
* `Oclint.C104_collected`
* `Oclint.C104_findings`
* `Oclint.C104_exit`
* `Oclint.C104_by_rule`
* `Oclint.C104_independent`
* `Oclint.C105_reports_state_partial`
* `Oclint.C105_unique`
* `Oclint.C105_version_option`
* `Oclint.C105_release_witness`
* `Oclint.C105_links`
* `Oclint.C106_classes`
* `Oclint.C106_unit`
* `Oclint.C106_findings_unique`
* `Oclint.C106_settings`
* `Oclint.C106_reports`
* `Oclint.C106_exit`
* `Oclint.C106_fewer`
* `Oclint.C106_raise`
* `Oclint.C106_abbreviated_witness`
* `Oclint.C106_nothing_left_out`
* `Oclint.C106_name_that_ends_the_run`
* `Oclint.C107_told`
* `Oclint.C107_json`
* `Oclint.C107_xml`
* `Oclint.C107_pmd`
* `Oclint.C107_xcode`
* `Oclint.C107_text`
* `Oclint.C107_html`
* `Oclint.C107_limit_messages`
* `Oclint.C107_limits_xcode`
* `Oclint.C107_limits_json`
* `Oclint.C108_build`
* `Oclint.C108_test`
* `Oclint.C108_dogfooding`
* `Oclint.C108_ci`
* `Oclint.C108_build_steps`
* `Oclint.C108_test_steps`
* `Oclint.C108_dogfooding_steps`
* `Oclint.C108_ci_steps`
* `Oclint.C108_build_green`
* `Oclint.C108_test_green`
* `Oclint.C108_dogfooding_green`
* `Oclint.C108_ci_green`
* `Oclint.C108_directories`
* `Oclint.C108_words_partial`
* `Oclint.C108_words_witness`
* `Oclint.C108_release_untested`
* `Oclint.C109_bundle`
* `Oclint.C109_ready`
* `Oclint.C109_archive`
* `Oclint.C109_again`
* `Oclint.C109_archive_again`
* `Oclint.C109_found`
* `Oclint.C110_address`
* `Oclint.C110_address_partial`
* `Oclint.C110_address_witness`
* `Oclint.C110_llc`
* `Oclint.C110_library`
* `Oclint.C110_library_partial`
* `Oclint.C110_library_witness`
* `Oclint.C110_removed`
* `Oclint.C110_removable`
* `Oclint.C110_script`
* `Oclint.C110_release_partial`
* `Oclint.C110_no_headers`
* `Oclint.C110_release_witness`
* `Oclint.C111_googletest`
* `Oclint.C111_docgen`
* `Oclint.C111_make`
* `Oclint.C111_make_total`
* `Oclint.C111_gh_actions`
* `Oclint.C111_gh_actions_total`
* `Oclint.C111_system_llvm_refused`
* `Oclint.C111_system_llvm`
* `Oclint.C111_system_llvm_total`
* `Oclint.C111_system_llvm_partial`
* `Oclint.C111_tests_green`
* `Oclint.C111_workflow`
* `Oclint.C111_workflow_green`
* `Oclint.C111_second_run`
* `Oclint.C111_gtest_found`
* `Oclint.C111_system_llvm_witness`
* `Oclint.C112_dead_code`
* `Oclint.C112_redundant_conditional`
* `Oclint.C112_covered_switch`
* `Oclint.C112_missing_default`
* `Oclint.C112_null_check_dealloc`
* `Oclint.C112_too_few`
* `Oclint.C112_early_exit_rule`
* `Oclint.C112_reassignment`
* `Oclint.C112_ivars`
* `Oclint.C112_divergence`
* `Oclint.C113_reordered`
* `Oclint.C113_fewer`
* `Oclint.C113_split`
* `Oclint.C113_same_answers`
* `Oclint.C113_exit_order`
* `Oclint.C113_exit_fewer`
* `Oclint.C113_relative_directory`
* `Oclint.C114_texts_kept`
* `Oclint.C114_exit_code`
* `Oclint.C114_undefined`
* `Oclint.C114_rejected`
* `Oclint.C114_unique`
* `Oclint.C114_ends`
* `Oclint.C115_script_is_model`
* `Oclint.C115_click_sorts`
* `Oclint.C115_click_missing_cell`
* `Oclint.C115_click_no_table`
* `Oclint.C115_report_click`
* `Oclint.C116_reading`
* `Oclint.C116_accepted`
* `Oclint.C116_printed`
* `Oclint.C116_rejected`
* `Oclint.C116_exit_status`
* `Oclint.C117_adjusted`
* `Oclint.C117_passes`
* `Oclint.C117_checker_partial`
* `Oclint.C117_checker_iff`
* `Oclint.C117_source_kept`
* `Oclint.C117_macro_partial`
* `Oclint.C117_witness`
* `Oclint.C117_run_partial`
* `Oclint.C118_scaffolded`
* `Oclint.C118_built_partial`
* `Oclint.C118_witness`
* `Oclint.C118_reporters`
* `Oclint.C118_reporters_built`
* `Oclint.C119_scaffolded`
* `Oclint.C119_built`
* `Oclint.C119_every_rule`
* `Oclint.C119_reporters`
* `Oclint.C119_named_built`
* `Oclint.C120_read`
* `Oclint.C120_any_order`
* `Oclint.C120_build`
* `Oclint.C120_test`
* `Oclint.C120_dog`
* `Oclint.C120_ci`
* `Oclint.C120_gtest`
* `Oclint.C120_bundle`
* `Oclint.C120_clang`
* `Oclint.C120_rule`
* `Oclint.C120_reporter`
* `Oclint.C120_defaults`
* `Oclint.C120_make`
* `Oclint.C120_calls`
* `Oclint.C120_gh`
* `Oclint.C120_system`
* `Oclint.C120_ci_calls`
* `Oclint.C120_unknown_partial`
* `Oclint.C120_glued`
* `Oclint.C120_unknown_fails`
* `Oclint.C120_rule_class`
* `Oclint.C120_reporter_class`
* `Oclint.C121_remembered`
* `Oclint.C121_options`
* `Oclint.C121_clean_partial`
* `Oclint.C121_witness`
* `Oclint.C121_apart`
* `Oclint.C122_bundled`
* `Oclint.C122_built`
* `Oclint.C122_nothing_left`
* `Oclint.C122_plugins`
* `Oclint.C122_docgen`
* `Oclint.C122_linked`
* `Oclint.C123_pattern`
* `Oclint.C123_uploaded`
* `Oclint.C123_apart`
* `Oclint.C123_commits`
* `Oclint.C123_docs`

## propext, Quot.sound

126 theorems

* `Oclint.C01_raw_results_complete`
* `Oclint.C01_raw_counts`
* `Oclint.C02_dedup_firsts`
* `Oclint.C02_dedup_properties`
* `Oclint.C02_dedup_idempotent`
* `Oclint.C02_equality_is_all_fields`
* `Oclint.C02_dedup_code_hash`
* `Oclint.C03_questions_are_pure`
* `Oclint.C03_fresh_answer`
* `Oclint.C03_frozen_answer`
* `Oclint.C04_priority_count`
* `Oclint.C04_priority_count_ub_iff`
* `Oclint.C04_priorities_partition`
* `Oclint.C05_number_of_files`
* `Oclint.C07_configuration_is_a_map`
* `Oclint.C07_writes_succeed`
* `Oclint.C08_atoi_reads_decimal`
* `Oclint.C08_int_round_trip`
* `Oclint.C09_identifier_is_camel_case`
* `Oclint.C09_identifier_idempotent`
* `Oclint.C10_carrier_records`
* `Oclint.C19_compile_jobs`
* `Oclint.C21_normal_pass`
* `Oclint.C25_one_set_per_unit`
* `Oclint.C25_set_count`
* `Oclint.C30_language_supported`
* `Oclint.C30_defaults`
* `Oclint.C34_condition`
* `Oclint.C39_exits_never_end`
* `Oclint.C40_exit_iff`
* `Oclint.C41_reports_exactly`
* `Oclint.C41_reports_once`
* `Oclint.C41_inner_init_witness`
* `Oclint.C42_reports_exactly`
* `Oclint.C42_for_while_same`
* `Oclint.C43_label_witness`
* `Oclint.C44_if_reports_exactly`
* `Oclint.C44_conditional_opposite`
* `Oclint.C44_operator_witness`
* `Oclint.C44_variable_witness`
* `Oclint.C45_reports_exactly`
* `Oclint.C46_reports_exactly`
* `Oclint.C47_double_reports_exactly`
* `Oclint.C47_multiple_reports_exactly`
* `Oclint.C47_double_is_multiple`
* `Oclint.C48_reports_exactly`
* `Oclint.C48_constant`
* `Oclint.C50_catch`
* `Oclint.C50_do`
* `Oclint.C50_else`
* `Oclint.C50_for`
* `Oclint.C50_if`
* `Oclint.C50_switch`
* `Oclint.C50_try`
* `Oclint.C50_while`
* `Oclint.C50_once`
* `Oclint.C52_broken`
* `Oclint.C52_broken_nil`
* `Oclint.C52_misplaced`
* `Oclint.C52_misplaced_nil`
* `Oclint.C52_redundant_nil`
* `Oclint.C52_broken_dereferences_partial`
* `Oclint.C52_misplaced_dereferences_partial`
* `Oclint.C52_guarded_witness`
* `Oclint.C61_reports_exactly`
* `Oclint.C62_goto`
* `Oclint.C63_return`
* `Oclint.C64_reports_exactly`
* `Oclint.C65_reports_exactly`
* `Oclint.C66_effect_witness`
* `Oclint.C67_reported`
* `Oclint.C68_freed`
* `Oclint.C68_numbers_only`
* `Oclint.C69_exact`
* `Oclint.C69_once`
* `Oclint.C70_exact`
* `Oclint.C70_once`
* `Oclint.C71_node`
* `Oclint.C75_default_arguments`
* `Oclint.C75_private_static`
* `Oclint.C76_exact`
* `Oclint.C77_called`
* `Oclint.C82_in_child`
* `Oclint.C94_distinct`
* `Oclint.C94_plain`
* `Oclint.C94_identifiers`
* `Oclint.C94_attributes`
* `Oclint.C94_counted_partial`
* `Oclint.C94_reports`
* `Oclint.C99_directory_partial`
* `Oclint.C99_not_found`
* `Oclint.C108_dependencies`
* `Oclint.C111_fields`
* `Oclint.C112_collapsible_if`
* `Oclint.C112_for_while`
* `Oclint.C112_redundant_if`
* `Oclint.C112_inverted_logic`
* `Oclint.C112_broken_oddness`
* `Oclint.C112_double_negative`
* `Oclint.C112_multiple_unary`
* `Oclint.C112_constant_if`
* `Oclint.C112_constant_conditional`
* `Oclint.C112_empty_catch`
* `Oclint.C112_empty_do`
* `Oclint.C112_empty_else`
* `Oclint.C112_empty_finally`
* `Oclint.C112_empty_for`
* `Oclint.C112_empty_if`
* `Oclint.C112_empty_switch`
* `Oclint.C112_empty_try`
* `Oclint.C112_empty_while`
* `Oclint.C112_jumbled_incrementer`
* `Oclint.C112_broken_null`
* `Oclint.C112_broken_nil`
* `Oclint.C112_misplaced_null`
* `Oclint.C112_misplaced_nil`
* `Oclint.C112_redundant_nil`
* `Oclint.C112_bitwise`
* `Oclint.C112_branching_last`
* `Oclint.C112_useless_parens`
* `Oclint.C112_redundant_local`
* `Oclint.C112_early_exit`
* `Oclint.C112_goto`
* `Oclint.C116_expressible`
* `Oclint.C120_flag_first`
* `Oclint.C122_names`

