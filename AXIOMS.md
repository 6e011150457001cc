# Axioms of the claim theorems

| Theorem | Axioms |
|---|---|
| `C01_classify_print` | propext, Quot.sound |
| `C01_classify_print_node` | propext, Quot.sound |
| `C01_injective` | propext, Quot.sound |
| `C01_print_classify` | propext, Quot.sound |
| `C02_selects_iff_spelled` | propext, Classical.choice, Quot.sound |
| `C02_label` | propext, Classical.choice, Quot.sound |
| `C02_bare` | propext, Classical.choice, Quot.sound |
| `C02_long_short` | propext, Classical.choice, Quot.sound |
| `C03_size` | propext |
| `C03_read` | propext, Quot.sound |
| `C03_iterate` | propext, Classical.choice, Quot.sound |
| `C03_find` | propext, Classical.choice, Quot.sound |
| `C03_set` | propext, Quot.sound |
| `C03_insert` | propext, Quot.sound |
| `C03_insert_range` | propext, Quot.sound |
| `C03_insert_end_partial` | propext, Classical.choice, Quot.sound |
| `C03_insert_range_end_partial` | propext, Classical.choice, Quot.sound |
| `C03_insert_end_iterator_false` | propext |
| `C03_erase` | propext, Quot.sound |
| `C03_erase_end` | propext |
| `C04_transfer` | propext, Quot.sound |
| `C04_transfer_end` | propext, Quot.sound |
| `C04_transfer_any` | propext, Quot.sound |
| `C05_no_match_leaves_args` | propext, Quot.sound |
| `C05_same_function` | propext, Quot.sound |
| `C06_match_accounts` | propext, Classical.choice, Quot.sound |
| `C07_named` | propext, Classical.choice, Quot.sound |
| `C07_named_no_label` | propext, Classical.choice, Quot.sound |
| `C07_unnamed` | propext, Classical.choice, Quot.sound |
| `C08_compiled_false` | propext, Quot.sound |
| `C08_split` | propext, Classical.choice, Quot.sound |
| `C08_empty_value` | propext, Quot.sound |
| `C08_no_separator` | propext, Classical.choice, Quot.sound |
| `C08_exact` | propext, Classical.choice, Quot.sound |
| `C08_non_ascii_false` | propext, Quot.sound |
| `C09_any` | propext, Classical.choice, Quot.sound |
| `C09_collapsed` | propext, Classical.choice, Quot.sound |
| `C09_repeated` | propext, Classical.choice, Quot.sound |
| `C09_program` | propext, Classical.choice, Quot.sound |
| `C09_repeated_program` | propext, Classical.choice, Quot.sound |
| `C10_named` | propext, Classical.choice, Quot.sound |
| `C10_unnamed_partial` | propext, Classical.choice, Quot.sound |
| `C10_unnamed_exact` | propext, Classical.choice, Quot.sound |
| `C10_false` | propext, Quot.sound |
| `C10_compiled_false` | propext, Quot.sound |
| `C11_compiled_partial` | propext, Classical.choice, Quot.sound |
| `C11_leaf_partial` | propext, Quot.sound |
| `C11_mode_partial` | propext, Quot.sound |
| `C11_group_partial` | propext, Quot.sound |
| `C11_skipped` | propext, Quot.sound |
| `C11_alias_false` | propext, Quot.sound |
| `C11_compiled_false` | propext, Quot.sound |
| `C11_program_partial` | propext, Classical.choice, Quot.sound |
| `C11_alias_exact` | propext, Classical.choice, Quot.sound |
| `C12_only_after` | propext, Quot.sound |
| `C12_outcome` | propext, Classical.choice, Quot.sound |
| `C12_alias_exact` | propext, Classical.choice, Quot.sound |
| `C12_alias_false` | propext, Quot.sound |
| `C13_targets` | propext, Classical.choice, Quot.sound |
| `C13_same_as_direct` | propext, Classical.choice, Quot.sound |
| `C13_nested_false` | propext, Quot.sound |
| `C13_compiled_false` | propext, Quot.sound |
| `C13_nested_exact` | propext, Classical.choice, Quot.sound |
| `C14_never_nested` | propext, Classical.choice, Quot.sound |
| `C14_accepted` | propext, Classical.choice, Quot.sound |
| `C14_alias_compiled_false` | propext, Quot.sound |
| `C14_step` | propext, Classical.choice, Quot.sound |
| `C14_rejected` | propext, Classical.choice, Quot.sound |
| `C14_one_alternative_partial` | propext, Classical.choice, Quot.sound |
| `C14_alias_false` | propext, Quot.sound |
| `C14_nested_false` | propext, Quot.sound |
| `C15_compiled_false` | propext, Quot.sound |
| `C15_false` | propext, Quot.sound |
| `C15_after_failure_false` | propext, Quot.sound |
| `C15_partial` | propext, Quot.sound |
| `C15_same_choice` | propext, Classical.choice, Quot.sound |
| `C15_other_choice` | propext, Classical.choice, Quot.sound |
| `C15_repeat` | propext, Classical.choice, Quot.sound |
| `C16_first_child` | propext, Quot.sound |
| `C16_no_child` | propext, Quot.sound |
| `C17_policy_order` | propext, Quot.sound |
| `C18_compiled` | propext, Classical.choice, Quot.sound |
| `C18_loop_bound` | propext, Classical.choice, Quot.sound |
| `C18_mode_ends` | propext, Classical.choice, Quot.sound |
| `C18_parse_ends` | propext, Classical.choice, Quot.sound |
| `C19_all_consumed` | propext, Classical.choice, Quot.sound |
| `C20_compiled` | propext, Classical.choice, Quot.sound |
| `C20_router_arguments` | propext, Classical.choice, Quot.sound |
| `C20_order_irrelevant` | propext, Classical.choice, Quot.sound |
| `C20_any_order` | propext, Classical.choice, Quot.sound |
| `C20_program` | propext, Classical.choice, Quot.sound |
| `C21_program` | propext, Classical.choice, Quot.sound |
| `C21_required` | propext, Classical.choice, Quot.sound |
| `C21_error` | propext, Classical.choice, Quot.sound |
| `C22_program` | propext, Classical.choice, Quot.sound |
| `C22_fallback` | propext, Classical.choice, Quot.sound |
| `C22_flag` | propext |
| `C23_label_error` | propext, Classical.choice, Quot.sound |
| `C23_never_twice` | propext, Classical.choice, Quot.sound |
| `C23_error` | propext, Classical.choice, Quot.sound |
| `C24_program` | propext, Classical.choice, Quot.sound |
| `C24_count_modulo` | propext, Classical.choice, Quot.sound |
| `C24_count_partial` | propext, Classical.choice, Quot.sound |
| `C24_false` | propext, Quot.sound |
| `C25_compiled_partial` | propext, Classical.choice, Quot.sound |
| `C25_group_false` | propext, Quot.sound |
| `C25_within_bounds_partial` | propext, Classical.choice, Quot.sound |
| `C25_refused` | propext, Quot.sound |
| `C25_objected` | propext, Quot.sound |
| `C26_at_most_one` | propext, Classical.choice, Quot.sound |
| `C26_exactly_one` | propext, Classical.choice, Quot.sound |
| `C26_compiled` | propext, Classical.choice, Quot.sound |
| `C26_outcome` | propext, Classical.choice, Quot.sound |
| `C27_groups` | propext, Classical.choice, Quot.sound |
| `C27_any_order` | propext, Classical.choice, Quot.sound |
| `C27_order` | propext, Classical.choice, Quot.sound |
| `C27_groups_program` | propext, Classical.choice, Quot.sound |
| `C27_program` | propext, Classical.choice, Quot.sound |
| `C28_first_match` | propext, Quot.sound |
| `C28_leftovers` | propext, Quot.sound |
| `C28_success` | propext, Quot.sound |
| `C29_compiled_false` | propext, Quot.sound |
| `C29_no_arguments` | propext, Quot.sound |
| `C29_unknown_partial` | propext, Quot.sound |
| `C29_empty_first` | propext, Quot.sound |
| `C29_false` | propext, Quot.sound |
| `C29_in_mode` | propext, Classical.choice, Quot.sound |
| `C30_closest` | propext, Quot.sound |
| `C30_first` | propext, Quot.sound |
| `C30_none` | propext, Classical.choice, Quot.sound |
| `C31_edit_distance` | propext, Quot.sound |
| `C31_unique` | none |
| `C32_path` | propext, Classical.choice, Quot.sound |
| `C32_routed` | propext, Classical.choice, Quot.sound |
| `C33_no_trace` | propext, Quot.sound |
| `C33_history` | propext, Quot.sound |
| `C34_misread` | propext, Classical.choice, Quot.sound |
| `C34_false` | propext, Quot.sound |
| `C34_decode_encode_partial` | propext, Classical.choice, Quot.sound |
| `C34_size_exact` | propext, Classical.choice, Quot.sound |
| `C35_read_as` | propext, Classical.choice, Quot.sound |
| `C35_exact` | propext, Classical.choice, Quot.sound |
| `C35_false` | propext, Quot.sound |
| `C35_iterate_partial` | propext, Classical.choice, Quot.sound |
| `C35_terminates` | propext, Quot.sound |
| `C35_pieces` | propext, Classical.choice, Quot.sound |
| `C36_count` | propext, Classical.choice, Quot.sound |
| `C37_pack_roundtrip` | propext, Classical.choice, Quot.sound |
| `C37_pack_truncates` | propext, Classical.choice, Quot.sound |
| `C38_lookup` | propext, Quot.sound |
| `C38_lookup_none` | propext, Quot.sound |
| `C38_shipped_tables` | propext, Quot.sound |
| `C38_shipped_tables_packable` | propext, Quot.sound |
| `C39_exact` | propext, Classical.choice, Quot.sound |
| `C39_is_whitespace` | propext, Classical.choice, Quot.sound |
| `C39_truncated` | propext, Classical.choice, Quot.sound |
| `C39_false` | propext, Quot.sound |
| `C39_contains_whitespace_partial` | propext, Classical.choice, Quot.sound |
| `C40_exact` | propext, Classical.choice, Quot.sound |
| `C40_defined` | propext, Classical.choice, Quot.sound |
| `C40_width_sum_partial` | propext, Classical.choice, Quot.sound |
| `C40_width_additive_partial` | propext, Classical.choice, Quot.sound |
| `C40_false` | propext, Quot.sound |
| `C40_width_bound_partial` | propext, Classical.choice, Quot.sound |
| `C40_width_ascii` | propext, Classical.choice, Quot.sound |
| `C41_whole` | propext, Classical.choice, Quot.sound |
| `C41_partition_partial` | propext, Classical.choice, Quot.sound |
| `C41_false` | propext, Quot.sound |
| `C41_any_bytes` | propext, Quot.sound |
| `C41_exact` | propext, Classical.choice, Quot.sound |
| `C42_ascii` | propext, Classical.choice, Quot.sound |
| `C43_false` | propext, Quot.sound |
| `C43_no_break_before_mark_partial` | propext, Classical.choice, Quot.sound |
| `C43_exact` | propext, Classical.choice, Quot.sound |
| `C44_pairs_partial` | propext, Classical.choice, Quot.sound |
| `C44_exact` | propext, Classical.choice, Quot.sound |
| `C44_false` | propext, Quot.sound |
| `C45_lines_fit_partial` | propext, Classical.choice, Quot.sound |
| `C45_false` | propext, Classical.choice, Quot.sound |
| `C46_only_whitespace_lost_partial` | propext, Classical.choice, Quot.sound |
| `C46_zero_columns_false` | propext, Quot.sound |
| `C46_cut_false` | propext, Quot.sound |
| `C46_same_non_whitespace_partial` | propext, Classical.choice, Quot.sound |
| `C47_false` | propext, Classical.choice, Quot.sound |
| `C47_terminates_partial` | propext, Classical.choice, Quot.sound |
| `C47_exact_partial` | propext, Classical.choice, Quot.sound |
| `C47_terminates_two_columns_partial` | propext, Classical.choice, Quot.sound |
| `C48_break_at_opportunity_partial` | propext, Classical.choice, Quot.sound |
| `C48_words` | propext, Classical.choice, Quot.sound |
| `C48_cluster_split_false` | propext, Quot.sound |
| `C49_exact` | propext, Classical.choice, Quot.sound |
| `C49_decimal_partial` | propext, Classical.choice, Quot.sound |
| `C49_false` | none |
| `C50_digit_count` | propext, Classical.choice, Quot.sound |
| `C51_colour_compiled_false` | propext, Quot.sound |
| `C51_column_right_of_labels` | propext, Classical.choice, Quot.sound |
| `C51_aligned` | propext, Classical.choice, Quot.sound |
| `C51_colour_false` | propext, Quot.sound |
| `C51_colour_partial` | propext, Quot.sound |
| `C52_compiled_false` | propext, Quot.sound |
| `C52_fits_partial` | propext, Classical.choice, Quot.sound |
| `C52_produced_partial` | propext, Classical.choice, Quot.sound |
| `C52_false` | propext, Quot.sound |
| `C53_exact` | propext, Quot.sound |
| `C53_target_partial` | propext, Quot.sound |
| `C53_false` | propext |
| `C54_rows` | propext, Classical.choice, Quot.sound |
| `C55_format` | propext, Classical.choice, Quot.sound |
| `C55_compiles` | propext, Classical.choice, Quot.sound |
| `C55_rejected` | propext, Classical.choice, Quot.sound |
| `C55_stray_brace` | propext |
| `C56_custom` | propext, Classical.choice, Quot.sound |
| `C56_fallback` | propext, Classical.choice, Quot.sound |
| `C56_untranslated` | propext |
| `C56_default` | propext, Classical.choice, Quot.sound |
| `C56_codes` | none |
| `C57_translated` | propext, Classical.choice, Quot.sound |
| `C57_default` | propext, Classical.choice, Quot.sound |
| `C57_false` | propext, Quot.sound |
| `C57_safe_partial` | propext, Classical.choice, Quot.sound |
| `C57_lone_prefix` | propext, Quot.sound |
| `C57_lone_program` | propext, Quot.sound |
| `C58_exact` | propext, Classical.choice, Quot.sound |
| `C58_clean` | propext, Classical.choice, Quot.sound |
| `C58_idempotent` | propext, Classical.choice, Quot.sound |
| `C59_selected` | propext, Classical.choice, Quot.sound |
| `C60_expand` | propext |
| `C60_splice` | propext, Quot.sound |
| `C60_partition` | propext, Quot.sound |
| `C61_labelled` | propext, Classical.choice, Quot.sound |
| `C61_text` | propext, Classical.choice, Quot.sound |
| `C61_forwarding` | propext, Classical.choice, Quot.sound |
| `C62_text` | propext, Classical.choice, Quot.sound |
| `C62_programs` | propext, Classical.choice, Quot.sound |
| `C63_once` | propext, Quot.sound |
| `C63_no_leak` | propext, Quot.sound |
| `C63_value_partial` | propext, Quot.sound |
| `C63_throws` | propext, Quot.sound |
| `C63_exact` | propext, Quot.sound |
| `C63_false` | propext |
| `C64_either` | none |
| `C64_equal` | propext, Quot.sound |
| `C64_access` | none |
| `C65_once` | propext, Quot.sound |
| `C65_first` | propext, Quot.sound |
| `C65_only_invoked` | propext |
| `C66_words` | propext |
| `C67_compiled_false` | propext, Quot.sound |
| `C67_same_types_partial` | propext, Classical.choice, Quot.sound |
| `C67_unambiguous_partial` | propext, Classical.choice, Quot.sound |
| `C67_false` | propext, Quot.sound |
| `C68_compiled_false` | propext, Quot.sound |
| `C68_shadowed` | propext, Classical.choice, Quot.sound |
| `C68_positional` | propext, Classical.choice, Quot.sound |
| `C68_anonymous_partial` | propext, Classical.choice, Quot.sound |
| `C68_false` | propext, Quot.sound |
| `C69_last` | propext, Classical.choice, Quot.sound |
| `C69_single` | propext, Classical.choice, Quot.sound |
| `C70_compiled_false` | propext, Quot.sound |
| `C70_all_children_partial` | propext, Quot.sound |
| `C70_must_have` | propext, Quot.sound |
| `C70_false` | propext |
| `C71_first_match` | propext, Quot.sound |
| `C71_validate` | propext, Quot.sound |
| `C71_insert` | propext, Quot.sound |
| `C71_remove` | propext, Quot.sound |
| `C71_update` | propext, Quot.sound |
| `C71_find` | propext, Classical.choice, Quot.sound |
| `C71_by_key` | propext, Classical.choice, Quot.sound |
| `C71_extend` | propext, Quot.sound |
| `C71_unaffected` | propext, Quot.sound |
| `C71_override` | propext, Quot.sound |
| `C72_nodes` | propext, Quot.sound |
| `C72_types` | propext, Quot.sound |
| `C72_collect` | propext, Quot.sound |
| `C73_targets` | propext, Quot.sound |
| `C73_sound` | propext, Classical.choice, Quot.sound |
| `C73_detected` | propext, Classical.choice, Quot.sound |
| `C73_complete` | propext, Classical.choice, Quot.sound |
| `C73_stable` | propext |
| `C74_unique_policies` | propext, Quot.sound |
| `C74_exclusive` | propext, Quot.sound |
| `C74_places` | propext, Quot.sound |
| `C74_forbidden` | propext, Quot.sound |
| `C75_counts` | propext, Quot.sound |
| `C76_total` | propext, Classical.choice, Quot.sound |
| `C76_program` | propext, Classical.choice, Quot.sound |
| `C76_path` | propext, Classical.choice, Quot.sound |
| `C76_unique` | propext, Classical.choice, Quot.sound |
| `C77_compiled_partial` | propext, Classical.choice, Quot.sound |
| `C77_anonymous_false` | propext, Quot.sound |
| `C77_anonymous_exact` | propext, Classical.choice, Quot.sound |
| `C77_named_partial` | propext, Quot.sound |
| `C77_program_partial` | propext, Classical.choice, Quot.sound |
| `C78_nested_false` | propext, Quot.sound |
| `C78_partial` | propext, Classical.choice, Quot.sound |
| `C78_nested_exact` | propext, Classical.choice, Quot.sound |
| `C79_compiled_false` | propext, Quot.sound |
| `C79_program_partial` | propext, Classical.choice, Quot.sound |
| `C79_partial` | propext, Classical.choice, Quot.sound |
| `C79_collapsed_false` | propext, Quot.sound |
| `C80_help_partial` | propext, Classical.choice, Quot.sound |
| `C80_compiled_partial` | propext, Classical.choice, Quot.sound |
| `C80_false` | propext, Quot.sound |
| `C81_called` | propext, Quot.sound |
| `C81_compiled` | propext, Classical.choice, Quot.sound |
| `C81_mode` | propext, Quot.sound |
| `C81_named` | propext, Quot.sound |
| `C82_compiled_false` | propext, Quot.sound |
| `C82_exact` | propext, Classical.choice, Quot.sound |
| `C82_label_partial` | propext, Classical.choice, Quot.sound |
| `C82_compiled` | propext, Quot.sound |
| `C82_false` | propext |
| `C82_members` | propext, Classical.choice, Quot.sound |
| `C82_description` | propext, Quot.sound |
| `C83_exact` | propext, Classical.choice, Quot.sound |
| `C83_partial` | propext, Classical.choice, Quot.sound |
| `C83_false` | propext, Quot.sound |
| `C84_same` | propext, Classical.choice, Quot.sound |
| `C84_none` | propext, Quot.sound |
| `C85_signed_partial` | propext, Quot.sound |
| `C85_unsigned_partial` | propext, Quot.sound |
| `C85_false` | propext |
| `C85_wraps` | propext, Quot.sound |
| `C85_byte_partial` | propext, Classical.choice, Quot.sound |
| `C85_behaves` | propext |
| `C85_values` | propext, Quot.sound |
| `C86_one_of` | propext, Quot.sound |
| `C86_alias_group` | propext, Quot.sound |
| `C86_alternative` | propext |
| `C86_rejected` | propext, Classical.choice, Quot.sound |
| `C86_missing` | propext, Classical.choice, Quot.sound |
| `C87_compiles` | propext, Quot.sound |
| `C87_safe_partial` | propext, Classical.choice, Quot.sound |
| `C87_false` | propext, Quot.sound |
| `C88_even` | propext, Classical.choice, Quot.sound |
| `C88_unique` | propext, Classical.choice, Quot.sound |
| `C88_total` | propext, Classical.choice, Quot.sound |
| `C88_program` | propext, Classical.choice, Quot.sound |
| `C88_examples` | propext, Quot.sound |
| `C88_copy` | propext, Classical.choice, Quot.sound |
| `C89_name_skipped_partial` | propext, Quot.sound |
| `C89_reads_argc` | propext, Quot.sound |
| `C89_no_name_false` | propext, Quot.sound |
| `C90_header_partial` | propext, Classical.choice, Quot.sound |
| `C90_malformed` | propext, Classical.choice, Quot.sound |
| `C90_false` | none |
| `C91_selected` | propext, Classical.choice, Quot.sound |
| `C91_locale` | propext, Classical.choice, Quot.sound |
| `C91_files` | propext, Classical.choice, Quot.sound |
| `C91_messages` | propext, Classical.choice, Quot.sound |
| `C91_programs` | propext, Quot.sound |
| `C91_copy` | propext, Classical.choice, Quot.sound |
| `C92_ordinary_partial` | propext, Classical.choice, Quot.sound |
| `C92_program_partial` | propext, Classical.choice, Quot.sound |
| `C92_false` | propext, Quot.sound |
| `C92_does_partial` | propext, Classical.choice, Quot.sound |
| `C92_only_partial` | propext, Classical.choice, Quot.sound |
| `C93_reports` | propext, Quot.sound |
| `C93_message` | propext, Classical.choice, Quot.sound |
| `C93_parsers` | propext |
| `C93_formatters` | propext, Quot.sound |
| `C93_program` | propext, Quot.sound |
| `C94_cpp17` | propext, Quot.sound |
| `C94_cpp17_char` | propext, Quot.sound |
| `C94_cpp17_concatenation` | propext, Quot.sound |
| `C94_cpp20` | propext, Classical.choice, Quot.sound |
| `C94_concatenation` | propext, Classical.choice, Quot.sound |
| `C94_part` | propext, Classical.choice, Quot.sound |
| `C94_repeated` | propext |
| `C94_types_partial` | propext, Classical.choice, Quot.sound |
| `C94_types_false` | none |
| `C94_null_false` | propext |
| `C94_program_partial` | propext, Classical.choice, Quot.sound |
| `C94_program_false` | propext, Quot.sound |
| `C95_property` | propext, Classical.choice, Quot.sound |
| `C95_line` | propext, Classical.choice, Quot.sound |
| `C95_line_unknown` | propext, Classical.choice, Quot.sound |
| `C95_grapheme` | propext, Classical.choice, Quot.sound |
| `C95_grapheme_unknown` | propext, Classical.choice, Quot.sound |
| `C95_version` | propext, Classical.choice, Quot.sound |
| `C96_exact` | propext, Classical.choice, Quot.sound |
| `C96_boundaries_partial` | propext, Classical.choice, Quot.sound |
| `C96_exceptional` | propext, Classical.choice, Quot.sound |
| `C96_clusters_partial` | propext, Classical.choice, Quot.sound |
| `C96_count` | propext, Classical.choice, Quot.sound |
| `C96_false` | propext, Quot.sound |
| `C97_wrap_partial` | propext, Classical.choice, Quot.sound |
| `C97_first_line_partial` | propext, Classical.choice, Quot.sound |
| `C97_mark_false` | propext, Classical.choice, Quot.sound |
| `C97_quote_false` | propext, Classical.choice, Quot.sound |
| `C97_hyphen_false` | propext, Classical.choice, Quot.sound |
| `C97_newline_false` | propext, Quot.sound |
| `C97_spaces_false` | propext, Classical.choice, Quot.sound |
| `C97_flag_false` | propext, Classical.choice, Quot.sound |
| `C98_colour_partial` | propext, Classical.choice, Quot.sound |
| `C98_colour_shown_partial` | propext, Classical.choice, Quot.sound |
| `C98_colour_root_partial` | propext, Classical.choice, Quot.sound |
| `C98_compiled_false` | propext, Quot.sound |
| `C98_page_partial` | propext, Classical.choice, Quot.sound |
| `C98_page_decimal_partial` | propext, Classical.choice, Quot.sound |
| `C98_shown_partial` | propext, Classical.choice, Quot.sound |
| `C98_root_partial` | propext, Classical.choice, Quot.sound |
| `C98_false` | propext, Quot.sound |
| `C98_unique` | propext, Classical.choice, Quot.sound |
| `C99_documented_partial` | propext, Classical.choice, Quot.sound |
| `C99_child_partial` | propext, Classical.choice, Quot.sound |
| `C99_unique_partial` | propext, Classical.choice, Quot.sound |
| `C99_not_rejected` | propext, Classical.choice, Quot.sound |
| `C99_compiles` | propext, Classical.choice, Quot.sound |
| `C99_rejected_partial` | propext, Classical.choice, Quot.sound |
| `C99_false` | propext, Quot.sound |
| `C100_one_order` | propext, Classical.choice, Quot.sound |
| `C100_asked_in_turn` | propext, Classical.choice, Quot.sound |
| `C100_fails_in_turn` | propext, Classical.choice, Quot.sound |
| `C100_any_order_partial` | propext, Classical.choice, Quot.sound |
| `C100_false` | propext |
| `C100_validation` | propext, Quot.sound |
| `C100_objection` | propext, Quot.sound |
| `C100_validation_false` | propext |
| `C100_library` | propext, Classical.choice, Quot.sound |
| `C100_library_turns` | propext, Quot.sound |
| `C100_library_validation` | propext, Quot.sound |
| `C100_node` | propext, Quot.sound |
| `C101_compiles` | propext, Classical.choice, Quot.sound |
| `C101_ruled_out` | propext, Classical.choice, Quot.sound |
| `C101_allowed` | propext, Classical.choice, Quot.sound |
| `C101_names_partial` | propext, Classical.choice, Quot.sound |
| `C101_false` | propext, Quot.sound |
| `C102_default` | propext, Classical.choice, Quot.sound |
| `C102_compiles` | propext, Classical.choice, Quot.sound |
| `C103_counts` | propext, Classical.choice, Quot.sound |
| `C103_given_counts` | propext, Classical.choice, Quot.sound |
| `C103_flags` | propext, Classical.choice, Quot.sound |
| `C103_not_given` | propext, Classical.choice, Quot.sound |
| `C103_forwarded` | propext, Quot.sound |
| `C104_page_partial` | propext, Classical.choice, Quot.sound |
| `C104_same` | propext, Classical.choice, Quot.sound |
| `C104_colour_partial` | propext, Classical.choice, Quot.sound |
| `C104_program_partial` | propext, Classical.choice, Quot.sound |
| `C104_colour_false` | propext, Quot.sound |
| `C105_compiled` | propext, Classical.choice, Quot.sound |
| `C105_router_outcome` | propext, Classical.choice, Quot.sound |
| `C105_seen` | propext, Classical.choice, Quot.sound |
| `C106_total` | propext, Classical.choice, Quot.sound |
| `C106_mode` | propext, Classical.choice, Quot.sound |
| `C106_argument` | propext, Classical.choice, Quot.sound |
| `C107_compile_time_partial` | propext, Classical.choice, Quot.sound |
| `C107_compile_time_false` | propext, Classical.choice, Quot.sound |
| `C107_run_time_partial` | propext, Classical.choice, Quot.sound |
| `C107_run_time_false` | propext, Classical.choice, Quot.sound |
| `C107_some_number` | propext |
| `C107_no_number` | propext, Quot.sound |
| `C107_default_partial` | propext, Classical.choice, Quot.sound |
| `C107_default_false` | propext, Classical.choice, Quot.sound |
| `C107_compiled_partial` | propext, Classical.choice, Quot.sound |
| `C107_program_false` | propext, Quot.sound |
| `C108_compiles` | propext, Quot.sound |
| `C108_first_word_partial` | propext, Classical.choice, Quot.sound |
| `C108_program_partial` | propext, Classical.choice, Quot.sound |
| `C108_unknown_width` | propext, Quot.sound |
| `C108_false` | propext, Quot.sound |
| `C109_program` | propext, Classical.choice, Quot.sound |
| `C109_checks` | propext, Quot.sound |
| `C109_compiles` | propext, Classical.choice, Quot.sound |
| `C109_compiled` | propext, Classical.choice, Quot.sound |
| `C109_types` | propext, Quot.sound |
| `C109_help` | propext, Classical.choice, Quot.sound |
| `C110_accepted` | propext, Classical.choice, Quot.sound |
| `C110_refused` | propext, Classical.choice, Quot.sound |
| `C110_unwanted` | propext, Classical.choice, Quot.sound |
| `C110_same_lines` | propext, Classical.choice, Quot.sound |
| `C111_beside` | propext, Classical.choice, Quot.sound |
| `C112_absent` | propext, Classical.choice, Quot.sound |
| `C112_beside` | propext, Classical.choice, Quot.sound |
| `C113_modes` | propext, Classical.choice, Quot.sound |
| `C113_arguments` | propext, Classical.choice, Quot.sound |
| `C113_same_lines` | propext, Classical.choice, Quot.sound |
| `C113_same_names` | propext, Quot.sound |
| `C114_swap` | propext, Classical.choice, Quot.sound |
| `C114_any_order` | propext, Classical.choice, Quot.sound |
| `C114_label` | propext, Quot.sound |
| `C114_separator` | propext, Quot.sound |
| `C115_labels` | propext, Classical.choice, Quot.sound |
| `C116_left_out` | propext, Classical.choice, Quot.sound |
| `C116_given` | propext, Classical.choice, Quot.sound |
| `C117_program` | propext, Classical.choice, Quot.sound |
| `C117_accepted` | propext, Classical.choice, Quot.sound |
| `C117_refuses` | propext, Quot.sound |
| `C117_default` | propext, Quot.sound |
| `C118_same_uses` | propext, Classical.choice, Quot.sound |
| `C118_alias` | propext, Classical.choice, Quot.sound |
| `C118_needs` | propext, Quot.sound |
| `C119_value` | propext, Classical.choice, Quot.sound |
| `C119_bad_value` | propext, Classical.choice, Quot.sound |
| `C120_moved` | propext, Classical.choice, Quot.sound |
| `C121_final` | propext, Classical.choice, Quot.sound |
| `C121_too_long` | propext, Classical.choice, Quot.sound |
| `C122_new_labels` | propext, Classical.choice, Quot.sound |
| `C123_accepted` | propext, Classical.choice, Quot.sound |
| `C123_refused` | propext, Classical.choice, Quot.sound |
| `C124_called` | propext, Classical.choice, Quot.sound |
| `C125_first` | propext, Classical.choice, Quot.sound |
| `C125_following` | propext, Classical.choice, Quot.sound |
| `C126_arrive` | propext, Classical.choice, Quot.sound |
| `C126_numbers` | propext, Classical.choice, Quot.sound |
| `C126_label` | propext, Quot.sound |
| `C127_columns` | propext, Classical.choice, Quot.sound |
| `C127_classes` | propext, Classical.choice, Quot.sound |
| `C127_lines` | propext, Classical.choice, Quot.sound |
| `C127_punctuation` | propext, Classical.choice, Quot.sound |
| `C127_clusters` | propext, Classical.choice, Quot.sound |
| `C127_line_classes` | propext, Classical.choice, Quot.sound |
| `C127_line_class` | propext, Classical.choice, Quot.sound |
