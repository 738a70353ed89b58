# Axioms of each theorem in MANIFEST.json

From `#print axioms`; written by `tools/axioms.py`.

## none

`SqlPuzzle.C38_union`

## `propext`

`SqlPuzzle.C14_bool`, `SqlPuzzle.C14_in_args`, `SqlPuzzle.C14_relation_types`, `SqlPuzzle.C36_api_binary`, `SqlPuzzle.C37_api`, `SqlPuzzle.C44_union_partial`, `SqlPuzzle.C45_mirror`, `SqlPuzzle.C55_hashable`, `SqlPuzzle.C60_distinct`

## `Quot.sound`, `propext`

`SqlPuzzle.C02_faithful_iff`, `SqlPuzzle.C14_in_types`, `SqlPuzzle.C26_exclusive`, `SqlPuzzle.C44_binary_partial`, `SqlPuzzle.C44_relation_partial`, `SqlPuzzle.C44_start`, `SqlPuzzle.C53_total_order`, `SqlPuzzle.C73_settled`, `SqlPuzzle.Props.C51_change`

## `Classical.choice`, `Quot.sound`, `propext`

`SqlPuzzle.C01_literal_backslash`, `SqlPuzzle.C02_literal_standard`, `SqlPuzzle.C03_no_injection_partial`, `SqlPuzzle.C03_refuted`, `SqlPuzzle.C04_plain_name`, `SqlPuzzle.C05_reference_idempotent`, `SqlPuzzle.C05_value_reference`, `SqlPuzzle.C06_names_stay_quoted_partial`, `SqlPuzzle.C06_refuted`, `SqlPuzzle.C07_injective`, `SqlPuzzle.C07_integer`, `SqlPuzzle.C08_decimal`, `SqlPuzzle.C08_exact`, `SqlPuzzle.C08_float`, `SqlPuzzle.C08_nearest`, `SqlPuzzle.C08_nonfinite`, `SqlPuzzle.C09_bool`, `SqlPuzzle.C09_bytes`, `SqlPuzzle.C09_none`, `SqlPuzzle.C10_date`, `SqlPuzzle.C10_date_injective`, `SqlPuzzle.C10_datetime`, `SqlPuzzle.C10_datetime_injective`, `SqlPuzzle.C11_empty`, `SqlPuzzle.C11_list`, `SqlPuzzle.C11_nested`, `SqlPuzzle.C11_nested_list`, `SqlPuzzle.C11_range`, `SqlPuzzle.C12_api`, `SqlPuzzle.C12_empty`, `SqlPuzzle.C12_in`, `SqlPuzzle.C12_not_in`, `SqlPuzzle.C12_wrapped_list`, `SqlPuzzle.C13_accepts`, `SqlPuzzle.C13_default_relation`, `SqlPuzzle.C13_relation_text`, `SqlPuzzle.C13_text`, `SqlPuzzle.C15_column_refused`, `SqlPuzzle.C15_condition_refused`, `SqlPuzzle.C15_delete`, `SqlPuzzle.C15_insert`, `SqlPuzzle.C15_order_refused`, `SqlPuzzle.C15_scalar_refused`, `SqlPuzzle.C15_select`, `SqlPuzzle.C15_table_refused`, `SqlPuzzle.C15_update`, `SqlPuzzle.C15_value_refused`, `SqlPuzzle.C16_maximum`, `SqlPuzzle.C16_minimum_partial`, `SqlPuzzle.C16_names`, `SqlPuzzle.C16_pairs`, `SqlPuzzle.C16_refuted`, `SqlPuzzle.C16_width_partial`, `SqlPuzzle.C17_ascending`, `SqlPuzzle.C17_kw_dict`, `SqlPuzzle.C17_methods`, `SqlPuzzle.C17_mixed_keys`, `SqlPuzzle.C17_order`, `SqlPuzzle.C17_order_objects`, `SqlPuzzle.C17_pairs`, `SqlPuzzle.C18_columns_partial`, `SqlPuzzle.C18_delete_from_partial`, `SqlPuzzle.C18_delete_from_table_partial`, `SqlPuzzle.C18_delete_on_partial`, `SqlPuzzle.C18_delete_tables_partial`, `SqlPuzzle.C18_delete_where_partial`, `SqlPuzzle.C18_from_partial`, `SqlPuzzle.C18_from_table_partial`, `SqlPuzzle.C18_group_partial`, `SqlPuzzle.C18_having_partial`, `SqlPuzzle.C18_into_partial`, `SqlPuzzle.C18_on_conflict_partial`, `SqlPuzzle.C18_on_duplicate_partial`, `SqlPuzzle.C18_on_partial`, `SqlPuzzle.C18_order_partial`, `SqlPuzzle.C18_parse_partial`, `SqlPuzzle.C18_refuted`, `SqlPuzzle.C18_refuted_conditions`, `SqlPuzzle.C18_refuted_dict`, `SqlPuzzle.C18_refuted_on`, `SqlPuzzle.C18_refuted_tables`, `SqlPuzzle.C18_set_partial`, `SqlPuzzle.C18_table_partial`, `SqlPuzzle.C18_update_on_partial`, `SqlPuzzle.C18_update_where_partial`, `SqlPuzzle.C18_values_partial`, `SqlPuzzle.C18_where_partial`, `SqlPuzzle.C19_any_name_partial`, `SqlPuzzle.C19_refuted`, `SqlPuzzle.C19_refuted_self`, `SqlPuzzle.C20_delete_keeps`, `SqlPuzzle.C20_delete_partial`, `SqlPuzzle.C20_delete_represented`, `SqlPuzzle.C20_distinct_partial`, `SqlPuzzle.C20_first_use_partial`, `SqlPuzzle.C20_having_aggregates_partial`, `SqlPuzzle.C20_having_partial`, `SqlPuzzle.C20_having_represented`, `SqlPuzzle.C20_object`, `SqlPuzzle.C20_refuted`, `SqlPuzzle.C20_refuted_repeated`, `SqlPuzzle.C20_refuted_statement`, `SqlPuzzle.C20_represented`, `SqlPuzzle.C20_select_keeps`, `SqlPuzzle.C20_update_keeps`, `SqlPuzzle.C20_update_partial`, `SqlPuzzle.C20_update_represented`, `SqlPuzzle.C21_aggregates_partial`, `SqlPuzzle.C21_columns_keep`, `SqlPuzzle.C21_columns_partial`, `SqlPuzzle.C21_refuted`, `SqlPuzzle.C21_refuted_statement`, `SqlPuzzle.C21_refuted_tables`, `SqlPuzzle.C21_tables_keep`, `SqlPuzzle.C21_tables_partial`, `SqlPuzzle.C21_values_keep`, `SqlPuzzle.C21_values_partial`, `SqlPuzzle.C22_direction`, `SqlPuzzle.C22_group_by`, `SqlPuzzle.C22_order_by`, `SqlPuzzle.C22_order_by_aggregates`, `SqlPuzzle.C23_column_condition`, `SqlPuzzle.C23_confirm`, `SqlPuzzle.C23_no_accident`, `SqlPuzzle.C23_refuted`, `SqlPuzzle.C23_where_partial`, `SqlPuzzle.C24_confirm`, `SqlPuzzle.C24_no_accident`, `SqlPuzzle.C24_refuted`, `SqlPuzzle.C24_where_partial`, `SqlPuzzle.C25_latest`, `SqlPuzzle.C25_raises`, `SqlPuzzle.C25_text`, `SqlPuzzle.C26_commute`, `SqlPuzzle.C26_sorted`, `SqlPuzzle.C26_words`, `SqlPuzzle.C27_commute`, `SqlPuzzle.C27_delete`, `SqlPuzzle.C27_delete_commute`, `SqlPuzzle.C27_delete_order`, `SqlPuzzle.C27_insert_commute`, `SqlPuzzle.C27_insert_order`, `SqlPuzzle.C27_order`, `SqlPuzzle.C27_select`, `SqlPuzzle.C27_update`, `SqlPuzzle.C27_update_commute`, `SqlPuzzle.C27_update_order`, `SqlPuzzle.C28_delete_partial`, `SqlPuzzle.C28_insert_partial`, `SqlPuzzle.C28_nested_partial`, `SqlPuzzle.C28_refuted`, `SqlPuzzle.C28_repeat_partial`, `SqlPuzzle.C28_same_exception`, `SqlPuzzle.C28_select_partial`, `SqlPuzzle.C28_str_touches`, `SqlPuzzle.C28_update_partial`, `SqlPuzzle.C29_delete_distinct_joins_partial`, `SqlPuzzle.C29_delete_other_clauses_partial`, `SqlPuzzle.C29_delete_refuted`, `SqlPuzzle.C29_distinct_joins_partial`, `SqlPuzzle.C29_insert`, `SqlPuzzle.C29_nested_refuted`, `SqlPuzzle.C29_other_clauses_partial`, `SqlPuzzle.C29_refuted`, `SqlPuzzle.C29_update_distinct_joins_partial`, `SqlPuzzle.C29_update_other_clauses_partial`, `SqlPuzzle.C29_update_refuted`, `SqlPuzzle.C30_distinct`, `SqlPuzzle.C30_minimize`, `SqlPuzzle.C30_nothing_new`, `SqlPuzzle.C30_once`, `SqlPuzzle.C30_text`, `SqlPuzzle.C31_full_join`, `SqlPuzzle.C31_join_first`, `SqlPuzzle.C31_join_last`, `SqlPuzzle.C31_join_refused`, `SqlPuzzle.C31_on_adds`, `SqlPuzzle.C31_on_first`, `SqlPuzzle.C31_on_last`, `SqlPuzzle.C31_update_delete_join`, `SqlPuzzle.C32_rectangular`, `SqlPuzzle.C32_renders`, `SqlPuzzle.C32_rows`, `SqlPuzzle.C32_statement`, `SqlPuzzle.C33_call_order`, `SqlPuzzle.C33_one_row`, `SqlPuzzle.C33_order`, `SqlPuzzle.C33_values_row`, `SqlPuzzle.C34_conflict_required`, `SqlPuzzle.C34_mysql`, `SqlPuzzle.C34_postgresql_partial`, `SqlPuzzle.C34_refuted`, `SqlPuzzle.C34_refuted_noop`, `SqlPuzzle.C34_replace`, `SqlPuzzle.C34_sqlite`, `SqlPuzzle.C35_case`, `SqlPuzzle.C35_configure`, `SqlPuzzle.C35_latest`, `SqlPuzzle.C36_api_pair`, `SqlPuzzle.C36_api_q`, `SqlPuzzle.C36_having_select_partial`, `SqlPuzzle.C36_leaf_exists`, `SqlPuzzle.C36_refuted`, `SqlPuzzle.C36_tree_partial`, `SqlPuzzle.C36_where_delete_partial`, `SqlPuzzle.C36_where_select_partial`, `SqlPuzzle.C36_where_update_partial`, `SqlPuzzle.C37_accepted`, `SqlPuzzle.C37_answers_partial`, `SqlPuzzle.C37_exact`, `SqlPuzzle.C37_last_partial`, `SqlPuzzle.C37_leaf_exists`, `SqlPuzzle.C37_refuted`, `SqlPuzzle.C37_refuted_limit`, `SqlPuzzle.C37_regular_partial`, `SqlPuzzle.C38_delete_set`, `SqlPuzzle.C38_delete_statement`, `SqlPuzzle.C38_delete_word`, `SqlPuzzle.C38_ignore`, `SqlPuzzle.C38_insert_set_partial`, `SqlPuzzle.C38_insert_statement`, `SqlPuzzle.C38_insert_word_partial`, `SqlPuzzle.C38_refuted`, `SqlPuzzle.C38_refuted_keyword`, `SqlPuzzle.C38_select_for_update`, `SqlPuzzle.C38_select_option`, `SqlPuzzle.C38_select_options`, `SqlPuzzle.C38_select_other`, `SqlPuzzle.C38_select_set`, `SqlPuzzle.C38_select_statement`, `SqlPuzzle.C38_select_word_partial`, `SqlPuzzle.C38_update_set`, `SqlPuzzle.C38_update_statement`, `SqlPuzzle.C38_update_word`, `SqlPuzzle.C40_all_dates`, `SqlPuzzle.C40_datetimes`, `SqlPuzzle.C40_delete_partial`, `SqlPuzzle.C40_identity_partial`, `SqlPuzzle.C40_infinite`, `SqlPuzzle.C40_itself`, `SqlPuzzle.C40_itself_number`, `SqlPuzzle.C40_lists`, `SqlPuzzle.C40_naive`, `SqlPuzzle.C40_nan`, `SqlPuzzle.C40_numbers`, `SqlPuzzle.C40_reflexive_partial`, `SqlPuzzle.C40_refuted`, `SqlPuzzle.C40_refuted_conflict`, `SqlPuzzle.C40_refuted_on`, `SqlPuzzle.C40_refuted_raise`, `SqlPuzzle.C40_refuted_symmetric`, `SqlPuzzle.C40_refuted_text`, `SqlPuzzle.C40_refuted_zones`, `SqlPuzzle.C40_symmetric_partial`, `SqlPuzzle.C40_text_objects`, `SqlPuzzle.C40_text_partial`, `SqlPuzzle.C40_text_string`, `SqlPuzzle.C40_update_partial`, `SqlPuzzle.C41_complete`, `SqlPuzzle.C41_convert_raw`, `SqlPuzzle.C41_empty_q`, `SqlPuzzle.C41_grammar`, `SqlPuzzle.C41_grammar_parts`, `SqlPuzzle.C41_infinite`, `SqlPuzzle.C41_values`, `SqlPuzzle.C41_vocabulary`, `SqlPuzzle.C42_balanced`, `SqlPuzzle.C42_bare_condition`, `SqlPuzzle.C42_parenthesised`, `SqlPuzzle.C42_select_placed`, `SqlPuzzle.C43_delete_partial`, `SqlPuzzle.C43_delete_stop_partial`, `SqlPuzzle.C43_insert_conflict_partial`, `SqlPuzzle.C43_insert_partial`, `SqlPuzzle.C43_insert_stop_partial`, `SqlPuzzle.C43_refuted`, `SqlPuzzle.C43_refuted_conflict`, `SqlPuzzle.C43_refuted_where`, `SqlPuzzle.C43_select_partial`, `SqlPuzzle.C43_select_stop_partial`, `SqlPuzzle.C43_str`, `SqlPuzzle.C43_update_partial`, `SqlPuzzle.C43_update_stop_partial`, `SqlPuzzle.C44_conditions_partial`, `SqlPuzzle.C44_delete_partial`, `SqlPuzzle.C44_equal`, `SqlPuzzle.C44_functions_partial`, `SqlPuzzle.C44_insert_partial`, `SqlPuzzle.C44_refuted`, `SqlPuzzle.C44_refuted_keys`, `SqlPuzzle.C44_refuted_limit`, `SqlPuzzle.C44_refuted_sqlite`, `SqlPuzzle.C44_refuted_values`, `SqlPuzzle.C44_render`, `SqlPuzzle.C44_select_partial`, `SqlPuzzle.C44_update_partial`, `SqlPuzzle.C45_equal_conditions`, `SqlPuzzle.C45_on_twice`, `SqlPuzzle.C45_same`, `SqlPuzzle.C46_aggregate`, `SqlPuzzle.C46_aggregate_list`, `SqlPuzzle.C46_concat_partial`, `SqlPuzzle.C46_convert`, `SqlPuzzle.C46_count`, `SqlPuzzle.C46_distinct`, `SqlPuzzle.C46_group_concat_partial`, `SqlPuzzle.C46_refuted`, `SqlPuzzle.C46_refuted_convert`, `SqlPuzzle.C46_refuted_empty`, `SqlPuzzle.C47_agree`, `SqlPuzzle.C47_agree_eq`, `SqlPuzzle.C47_eq`, `SqlPuzzle.C47_no_common_depth`, `SqlPuzzle.C47_stable`, `SqlPuzzle.C47_str`, `SqlPuzzle.C49_restrictions`, `SqlPuzzle.C49_same_quote`, `SqlPuzzle.C49_sql_sqlite`, `SqlPuzzle.C50_latest`, `SqlPuzzle.C50_raises`, `SqlPuzzle.C50_text`, `SqlPuzzle.C52_combined`, `SqlPuzzle.C52_delete`, `SqlPuzzle.C52_exists`, `SqlPuzzle.C52_insert`, `SqlPuzzle.C52_keyword`, `SqlPuzzle.C52_not`, `SqlPuzzle.C52_q`, `SqlPuzzle.C52_select`, `SqlPuzzle.C52_trimmed`, `SqlPuzzle.C52_union`, `SqlPuzzle.C52_update`, `SqlPuzzle.C53_less`, `SqlPuzzle.C53_other`, `SqlPuzzle.C53_refuted`, `SqlPuzzle.C53_refuted_both`, `SqlPuzzle.C53_text_order_partial`, `SqlPuzzle.C54_faithful`, `SqlPuzzle.C54_repr`, `SqlPuzzle.C55_join_partial`, `SqlPuzzle.C55_refuted`, `SqlPuzzle.C56_delete_partial`, `SqlPuzzle.C56_having_partial`, `SqlPuzzle.C56_order_partial`, `SqlPuzzle.C56_refuted`, `SqlPuzzle.C56_select_partial`, `SqlPuzzle.C56_update_partial`, `SqlPuzzle.C57_delete`, `SqlPuzzle.C57_delete_history`, `SqlPuzzle.C57_faithful`, `SqlPuzzle.C57_insert`, `SqlPuzzle.C57_insert_history`, `SqlPuzzle.C57_select`, `SqlPuzzle.C57_select_history`, `SqlPuzzle.C57_select_layout`, `SqlPuzzle.C57_text`, `SqlPuzzle.C57_update`, `SqlPuzzle.C57_update_history`, `SqlPuzzle.C57_value_unique`, `SqlPuzzle.C58_alone`, `SqlPuzzle.C58_alone_columns`, `SqlPuzzle.C58_alone_group`, `SqlPuzzle.C58_alone_order`, `SqlPuzzle.C58_alone_set`, `SqlPuzzle.C58_alone_tables`, `SqlPuzzle.C58_columns`, `SqlPuzzle.C58_ends`, `SqlPuzzle.C58_grows`, `SqlPuzzle.C58_order_ends`, `SqlPuzzle.C58_order_kept`, `SqlPuzzle.C58_order_own`, `SqlPuzzle.C58_orders`, `SqlPuzzle.C58_refuted`, `SqlPuzzle.C58_refuted_order`, `SqlPuzzle.C58_represented`, `SqlPuzzle.C58_set`, `SqlPuzzle.C58_tables`, `SqlPuzzle.C58_where_partial`, `SqlPuzzle.C59_delete_partial`, `SqlPuzzle.C59_insert_partial`, `SqlPuzzle.C59_kinds`, `SqlPuzzle.C59_refuted`, `SqlPuzzle.C59_refuted_q`, `SqlPuzzle.C59_refuted_union`, `SqlPuzzle.C59_select_partial`, `SqlPuzzle.C59_union_built`, `SqlPuzzle.C59_union_partial`, `SqlPuzzle.C59_update_partial`, `SqlPuzzle.C60_conditions_partial`, `SqlPuzzle.C60_convert`, `SqlPuzzle.C60_delete_partial`, `SqlPuzzle.C60_insert_partial`, `SqlPuzzle.C60_refuted`, `SqlPuzzle.C60_select_partial`, `SqlPuzzle.C60_start_delete`, `SqlPuzzle.C60_start_delete_from`, `SqlPuzzle.C60_start_insert_into`, `SqlPuzzle.C60_start_select`, `SqlPuzzle.C60_start_select_from`, `SqlPuzzle.C60_start_update`, `SqlPuzzle.C60_update_partial`, `SqlPuzzle.C61_delete_partial`, `SqlPuzzle.C61_insert_partial`, `SqlPuzzle.C61_refuted`, `SqlPuzzle.C61_refuted_insert`, `SqlPuzzle.C61_refuted_text`, `SqlPuzzle.C61_select_partial`, `SqlPuzzle.C61_text_partial`, `SqlPuzzle.C61_update_partial`, `SqlPuzzle.C62_conditions`, `SqlPuzzle.C62_delete`, `SqlPuzzle.C62_select`, `SqlPuzzle.C62_update`, `SqlPuzzle.C63_delete_other_clauses_partial`, `SqlPuzzle.C63_delete_partial`, `SqlPuzzle.C63_insert`, `SqlPuzzle.C63_insert_partial`, `SqlPuzzle.C63_other_clauses_partial`, `SqlPuzzle.C63_refuted`, `SqlPuzzle.C63_select_partial`, `SqlPuzzle.C63_unchanged_partial`, `SqlPuzzle.C63_update_other_clauses_partial`, `SqlPuzzle.C63_update_partial`, `SqlPuzzle.C64_delete_bad`, `SqlPuzzle.C64_delete_escaped`, `SqlPuzzle.C64_delete_partial`, `SqlPuzzle.C64_delete_parts`, `SqlPuzzle.C64_delete_regex`, `SqlPuzzle.C64_escape`, `SqlPuzzle.C64_insert_bad`, `SqlPuzzle.C64_insert_escaped`, `SqlPuzzle.C64_insert_partial`, `SqlPuzzle.C64_insert_parts`, `SqlPuzzle.C64_insert_regex`, `SqlPuzzle.C64_plain`, `SqlPuzzle.C64_refuted`, `SqlPuzzle.C64_refuted_dotted`, `SqlPuzzle.C64_refuted_function`, `SqlPuzzle.C64_refuted_raises`, `SqlPuzzle.C64_search`, `SqlPuzzle.C64_select_bad`, `SqlPuzzle.C64_select_escaped`, `SqlPuzzle.C64_select_partial`, `SqlPuzzle.C64_select_parts`, `SqlPuzzle.C64_select_regex`, `SqlPuzzle.C64_star`, `SqlPuzzle.C64_update_bad`, `SqlPuzzle.C64_update_escaped`, `SqlPuzzle.C64_update_partial`, `SqlPuzzle.C64_update_parts`, `SqlPuzzle.C64_update_regex`, `SqlPuzzle.C65_alone`, `SqlPuzzle.C65_given_exact_partial`, `SqlPuzzle.C65_given_partial`, `SqlPuzzle.C65_no_joins_partial`, `SqlPuzzle.C65_refuted`, `SqlPuzzle.C65_refuted_join`, `SqlPuzzle.C65_refuted_lost`, `SqlPuzzle.C65_refuted_twice`, `SqlPuzzle.C65_start`, `SqlPuzzle.C65_turns_partial`, `SqlPuzzle.C66_effect`, `SqlPuzzle.C66_exact`, `SqlPuzzle.C66_last_wins_partial`, `SqlPuzzle.C66_on_duplicate_partial`, `SqlPuzzle.C66_once`, `SqlPuzzle.C66_refuted`, `SqlPuzzle.C66_refuted_once`, `SqlPuzzle.C66_refuted_text`, `SqlPuzzle.C67_cut_partial`, `SqlPuzzle.C67_no_joins_partial`, `SqlPuzzle.C67_refuted`, `SqlPuzzle.C67_turns_partial`, `SqlPuzzle.C68_delete_partial`, `SqlPuzzle.C68_insert_partial`, `SqlPuzzle.C68_refuted`, `SqlPuzzle.C68_seen_exists`, `SqlPuzzle.C68_update_partial`, `SqlPuzzle.C69_pages_partial`, `SqlPuzzle.C69_refuted`, `SqlPuzzle.C69_rows_partial`, `SqlPuzzle.C70_delete_partial`, `SqlPuzzle.C70_export_partial`, `SqlPuzzle.C70_insert_partial`, `SqlPuzzle.C70_joins`, `SqlPuzzle.C70_lock_partial`, `SqlPuzzle.C70_paging_partial`, `SqlPuzzle.C70_refuted`, `SqlPuzzle.C70_refuted_delete`, `SqlPuzzle.C70_refuted_insert`, `SqlPuzzle.C70_refuted_update`, `SqlPuzzle.C70_update_partial`, `SqlPuzzle.C70_words_partial`, `SqlPuzzle.C71_delete_partial`, `SqlPuzzle.C71_refuted`, `SqlPuzzle.C71_rows_partial`, `SqlPuzzle.C71_select_partial`, `SqlPuzzle.C71_update_partial`, `SqlPuzzle.C72_plain`, `SqlPuzzle.C72_refuted`, `SqlPuzzle.C72_rows_partial`, `SqlPuzzle.C73_delete_partial`, `SqlPuzzle.C73_refuted`, `SqlPuzzle.C73_update_partial`, `SqlPuzzle.C74_assignments`, `SqlPuzzle.C74_columns`, `SqlPuzzle.C74_condition`, `SqlPuzzle.C74_delete_tables`, `SqlPuzzle.C74_delete_targets`, `SqlPuzzle.C74_group_by`, `SqlPuzzle.C74_having`, `SqlPuzzle.C74_on_condition`, `SqlPuzzle.C74_order_by`, `SqlPuzzle.C74_query_as_column`, `SqlPuzzle.C74_query_as_value`, `SqlPuzzle.C74_tables`, `SqlPuzzle.C74_union_as_column`, `SqlPuzzle.C74_union_as_value`, `SqlPuzzle.C74_update_tables`, `SqlPuzzle.C74_where_delete`, `SqlPuzzle.C74_where_select`, `SqlPuzzle.C74_where_update`, `SqlPuzzle.C75_answer`, `SqlPuzzle.C75_answer_without_tables`, `SqlPuzzle.C75_compares`, `SqlPuzzle.C75_delete`, `SqlPuzzle.C75_derived_table`, `SqlPuzzle.C75_exists`, `SqlPuzzle.C75_judge_exists`, `SqlPuzzle.C75_server_exists`, `SqlPuzzle.C75_update`, `SqlPuzzle.C76_delete`, `SqlPuzzle.C76_delete_each`, `SqlPuzzle.C76_delete_failing`, `SqlPuzzle.C76_having`, `SqlPuzzle.C76_having_each`, `SqlPuzzle.C76_having_failing`, `SqlPuzzle.C76_select`, `SqlPuzzle.C76_select_each`, `SqlPuzzle.C76_select_failing`, `SqlPuzzle.C76_update`, `SqlPuzzle.C76_update_each`, `SqlPuzzle.C76_update_failing`, `SqlPuzzle.C77_history`, `SqlPuzzle.C77_insert`, `SqlPuzzle.C78_answer`, `SqlPuzzle.C78_everything`, `SqlPuzzle.C78_inside`, `SqlPuzzle.C78_named`, `SqlPuzzle.C78_one_table`, `SqlPuzzle.C78_sources`, `SqlPuzzle.C79_delete`, `SqlPuzzle.C79_delete_everything`, `SqlPuzzle.C79_delete_named`, `SqlPuzzle.C79_delete_sources`, `SqlPuzzle.C79_update`, `SqlPuzzle.C79_update_everything`, `SqlPuzzle.C79_update_named`, `SqlPuzzle.C79_update_sources`, `SqlPuzzle.C80_quotes_optional`, `SqlPuzzle.C80_refuted`, `SqlPuzzle.C80_segments_partial`, `SqlPuzzle.C81_ends`, `SqlPuzzle.C81_linear`, `SqlPuzzle.C81_outcome`, `SqlPuzzle.C81_rows`, `SqlPuzzle.C82_alone`, `SqlPuzzle.C82_ends`, `SqlPuzzle.C82_one_thread_partial`, `SqlPuzzle.C82_partial`, `SqlPuzzle.C82_refuted`, `SqlPuzzle.C82_rest_partial`, `SqlPuzzle.C82_text_alone`, `SqlPuzzle.C82_text_partial`, `SqlPuzzle.C82_text_refuted`, `SqlPuzzle.C82_values`, `SqlPuzzle.Props.C39_copy`, `SqlPuzzle.Props.C39_independent`, `SqlPuzzle.Props.C39_look_partial`, `SqlPuzzle.Props.C39_original`, `SqlPuzzle.Props.C39_raises`, `SqlPuzzle.Props.C39_refuted`, `SqlPuzzle.Props.C39_text_partial`, `SqlPuzzle.Props.C39_works`, `SqlPuzzle.Props.C48_call_partial`, `SqlPuzzle.Props.C48_containers_partial`, `SqlPuzzle.Props.C48_look_partial`, `SqlPuzzle.Props.C48_refuted`, `SqlPuzzle.Props.C48_refuted_generator`, `SqlPuzzle.Props.C48_text_partial`, `SqlPuzzle.Props.C51_call`, `SqlPuzzle.Props.C51_text`
