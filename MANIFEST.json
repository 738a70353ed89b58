{
 "claims": [
  {
   "property": "C01",
   "status": "proved",
   "theorems": [
    "SqlPuzzle.C01_literal_backslash"
   ],
   "note": "All strings not of reference form, any following text."
  },
  {
   "property": "C02",
   "status": "proved",
   "theorems": [
    "SqlPuzzle.C02_literal_standard",
    "SqlPuzzle.C02_faithful_iff"
   ],
   "note": "Exact value seen under standard quoting, and the iff for faithfulness."
  },
  {
   "property": "C03",
   "status": "partial",
   "theorems": [
    "SqlPuzzle.C03_refuted",
    "SqlPuzzle.C03_no_injection_partial"
   ],
   "note": "The unconditional claim is false (C03_refuted: a value with a doubled quote injects SQL); proved for values without a doubled quote character."
  },
  {
   "property": "C04",
   "status": "proved",
   "theorems": [
    "SqlPuzzle.C04_plain_name"
   ],
   "note": ""
  },
  {
   "property": "C05",
   "status": "proved",
   "theorems": [
    "SqlPuzzle.C05_reference_idempotent",
    "SqlPuzzle.C05_value_reference"
   ],
   "note": ""
  },
  {
   "property": "C06",
   "status": "partial",
   "theorems": [
    "SqlPuzzle.C06_refuted",
    "SqlPuzzle.C06_names_stay_quoted_partial"
   ],
   "note": "The unconditional claim is false (C06_refuted); proved for names in which every quote character belongs to a pair around a non-empty text, in particular names without quotes."
  },
  {
   "property": "C07",
   "status": "proved",
   "theorems": [
    "SqlPuzzle.C07_integer",
    "SqlPuzzle.C07_injective"
   ],
   "note": ""
  },
  {
   "property": "C08",
   "status": "proved",
   "theorems": [
    "SqlPuzzle.C08_float",
    "SqlPuzzle.C08_decimal",
    "SqlPuzzle.C08_exact",
    "SqlPuzzle.C08_nearest",
    "SqlPuzzle.C08_nonfinite"
   ],
   "note": ""
  },
  {
   "property": "C09",
   "status": "proved",
   "theorems": [
    "SqlPuzzle.C09_none",
    "SqlPuzzle.C09_bool",
    "SqlPuzzle.C09_bytes"
   ],
   "note": ""
  },
  {
   "property": "C10",
   "status": "proved",
   "theorems": [
    "SqlPuzzle.C10_date",
    "SqlPuzzle.C10_datetime",
    "SqlPuzzle.C10_date_injective",
    "SqlPuzzle.C10_datetime_injective"
   ],
   "note": ""
  },
  {
   "property": "C11",
   "status": "proved",
   "theorems": [
    "SqlPuzzle.C11_list",
    "SqlPuzzle.C11_empty",
    "SqlPuzzle.C11_range",
    "SqlPuzzle.C11_nested",
    "SqlPuzzle.C11_nested_list"
   ],
   "note": ""
  },
  {
   "property": "C12",
   "status": "proved",
   "theorems": [
    "SqlPuzzle.C12_in",
    "SqlPuzzle.C12_not_in",
    "SqlPuzzle.C12_empty",
    "SqlPuzzle.C12_api",
    "SqlPuzzle.C12_wrapped_list"
   ],
   "note": "In the scope of C41 (NoRaw); the values the server reads are arbitrary, so every column type is covered. For NOT IN the values other than None are assumed not to be NULL."
  },
  {
   "property": "C13",
   "status": "proved",
   "theorems": [
    "SqlPuzzle.C13_default_relation",
    "SqlPuzzle.C13_accepts",
    "SqlPuzzle.C13_text",
    "SqlPuzzle.C13_relation_text"
   ],
   "note": ""
  },
  {
   "property": "C14",
   "status": "proved",
   "theorems": [
    "SqlPuzzle.C14_relation_types",
    "SqlPuzzle.C14_in_types",
    "SqlPuzzle.C14_in_args",
    "SqlPuzzle.C14_bool"
   ],
   "note": ""
  },
  {
   "property": "C15",
   "status": "proved",
   "theorems": [
    "SqlPuzzle.C15_select",
    "SqlPuzzle.C15_insert",
    "SqlPuzzle.C15_update",
    "SqlPuzzle.C15_delete",
    "SqlPuzzle.C15_column_refused",
    "SqlPuzzle.C15_table_refused",
    "SqlPuzzle.C15_condition_refused",
    "SqlPuzzle.C15_value_refused",
    "SqlPuzzle.C15_scalar_refused",
    "SqlPuzzle.C15_order_refused"
   ],
   "note": ""
  },
  {
   "property": "C16",
   "status": "partial",
   "theorems": [
    "SqlPuzzle.C16_refuted",
    "SqlPuzzle.C16_width_partial",
    "SqlPuzzle.C16_minimum_partial",
    "SqlPuzzle.C16_pairs",
    "SqlPuzzle.C16_names",
    "SqlPuzzle.C16_maximum"
   ],
   "note": "The minimum is not enforced on list items (C16_refuted); the width bounds that do hold are proved."
  },
  {
   "property": "C17",
   "status": "proved",
   "theorems": [
    "SqlPuzzle.C17_ascending",
    "SqlPuzzle.C17_mixed_keys",
    "SqlPuzzle.C17_kw_dict",
    "SqlPuzzle.C17_order",
    "SqlPuzzle.C17_pairs",
    "SqlPuzzle.C17_order_objects",
    "SqlPuzzle.C17_methods"
   ],
   "note": "C17_ascending says in which order the items of a dictionary are taken, whatever its keys; C17_mixed_keys that strings and numbers do not go together."
  },
  {
   "property": "C18",
   "status": "partial",
   "theorems": [
    "SqlPuzzle.C18_columns_partial",
    "SqlPuzzle.C18_from_partial",
    "SqlPuzzle.C18_delete_from_partial",
    "SqlPuzzle.C18_delete_tables_partial",
    "SqlPuzzle.C18_into_partial",
    "SqlPuzzle.C18_table_partial",
    "SqlPuzzle.C18_from_table_partial",
    "SqlPuzzle.C18_delete_from_table_partial",
    "SqlPuzzle.C18_order_partial",
    "SqlPuzzle.C18_group_partial",
    "SqlPuzzle.C18_set_partial",
    "SqlPuzzle.C18_values_partial",
    "SqlPuzzle.C18_on_duplicate_partial",
    "SqlPuzzle.C18_on_conflict_partial",
    "SqlPuzzle.C18_having_partial",
    "SqlPuzzle.C18_update_where_partial",
    "SqlPuzzle.C18_delete_where_partial",
    "SqlPuzzle.C18_on_partial",
    "SqlPuzzle.C18_update_on_partial",
    "SqlPuzzle.C18_delete_on_partial",
    "SqlPuzzle.C18_refuted_conditions",
    "SqlPuzzle.C18_refuted_on",
    "SqlPuzzle.C18_parse_partial",
    "SqlPuzzle.C18_refuted",
    "SqlPuzzle.C18_refuted_dict",
    "SqlPuzzle.C18_refuted_tables",
    "SqlPuzzle.C18_where_partial"
   ],
   "note": "False in general (C18_refuted: keyword arguments beside a Q object or a dictionary are dropped, false table names are dropped; keyword arguments beside conditions do not matter, whatever they are: C18_refuted_conditions, C18_refuted_on); proved for what the parser consumes and for the calls without such mixes (C18_where_partial, C18_having_partial, C18_update_where_partial, C18_delete_where_partial, C18_on_partial, C18_update_on_partial, C18_delete_on_partial); after columns and from_ everything named is in the query and nothing else was added (C18_columns_partial, C18_from_partial, C18_delete_from_partial; likewise for from_table, delete, into and table: C18_from_table_partial, C18_delete_from_table_partial, C18_delete_tables_partial, C18_into_partial, C18_table_partial); after order_by and group_by every column named, or an equal one, is among the orders and no other column was added (C18_order_partial, C18_group_partial); after set, values and on_duplicate_key_update every assignment given, or one that == calls equal, is in the query and no other was added (C18_set_partial, C18_values_partial, C18_on_duplicate_partial for MySQL, C18_on_conflict_partial for PostgreSQL)."
  },
  {
   "property": "C19",
   "status": "partial",
   "theorems": [
    "SqlPuzzle.C19_refuted",
    "SqlPuzzle.C19_refuted_self",
    "SqlPuzzle.C19_any_name_partial"
   ],
   "note": "False for the names options and self (C19_refuted, C19_refuted_self); proved for every other keyword name."
  },
  {
   "property": "C20",
   "status": "partial",
   "theorems": [
    "SqlPuzzle.C20_select_keeps",
    "SqlPuzzle.C20_update_keeps",
    "SqlPuzzle.C20_delete_keeps",
    "SqlPuzzle.C20_represented",
    "SqlPuzzle.C20_having_represented",
    "SqlPuzzle.C20_update_represented",
    "SqlPuzzle.C20_delete_represented",
    "SqlPuzzle.C20_object",
    "SqlPuzzle.C20_distinct_partial",
    "SqlPuzzle.C20_first_use_partial",
    "SqlPuzzle.C20_having_partial",
    "SqlPuzzle.C20_update_partial",
    "SqlPuzzle.C20_delete_partial",
    "SqlPuzzle.C20_refuted",
    "SqlPuzzle.C20_refuted_statement",
    "SqlPuzzle.C20_refuted_repeated",
    "SqlPuzzle.C20_having_aggregates_partial"
   ],
   "note": "Nothing given is ever lost or moved, for all histories, also with failing calls; first-use order without repetition is proved for named columns, in HAVING also for aggregates, with plain values. In general false: C20_refuted (custom SQL equals a string), C20_refuted_repeated (the same single object twice)."
  },
  {
   "property": "C21",
   "status": "partial",
   "theorems": [
    "SqlPuzzle.C21_columns_keep",
    "SqlPuzzle.C21_values_keep",
    "SqlPuzzle.C21_tables_keep",
    "SqlPuzzle.C21_columns_partial",
    "SqlPuzzle.C21_values_partial",
    "SqlPuzzle.C21_tables_partial",
    "SqlPuzzle.C21_refuted",
    "SqlPuzzle.C21_refuted_statement",
    "SqlPuzzle.C21_refuted_tables",
    "SqlPuzzle.C21_aggregates_partial"
   ],
   "note": "Nothing given is ever lost or moved, for all histories; first-use order without repetition proved for named columns, tables without joins, plain assignments. In general false: C21_refuted, C21_refuted_tables."
  },
  {
   "property": "C22",
   "status": "proved",
   "theorems": [
    "SqlPuzzle.C22_order_by",
    "SqlPuzzle.C22_group_by",
    "SqlPuzzle.C22_direction",
    "SqlPuzzle.C22_order_by_aggregates"
   ],
   "note": "For columns given by name, over all histories."
  },
  {
   "property": "C23",
   "status": "partial",
   "theorems": [
    "SqlPuzzle.C23_confirm",
    "SqlPuzzle.C23_no_accident",
    "SqlPuzzle.C23_refuted",
    "SqlPuzzle.C23_where_partial",
    "SqlPuzzle.C23_column_condition"
   ],
   "note": "Exact guard proved for all histories (C23_confirm, C23_no_accident). False as stated that a given condition always shows: C23_refuted (empty Q object gives an empty WHERE); proved for histories with a column condition."
  },
  {
   "property": "C24",
   "status": "partial",
   "theorems": [
    "SqlPuzzle.C24_confirm",
    "SqlPuzzle.C24_no_accident",
    "SqlPuzzle.C24_refuted",
    "SqlPuzzle.C24_where_partial"
   ],
   "note": "Same as C23 for UPDATE."
  },
  {
   "property": "C25",
   "status": "proved",
   "theorems": [
    "SqlPuzzle.C25_latest",
    "SqlPuzzle.C25_raises",
    "SqlPuzzle.C25_text"
   ],
   "note": ""
  },
  {
   "property": "C26",
   "status": "proved",
   "theorems": [
    "SqlPuzzle.C26_words",
    "SqlPuzzle.C26_sorted",
    "SqlPuzzle.C26_exclusive",
    "SqlPuzzle.C26_commute"
   ],
   "note": ""
  },
  {
   "property": "C27",
   "status": "proved",
   "theorems": [
    "SqlPuzzle.C27_update_commute",
    "SqlPuzzle.C27_delete_commute",
    "SqlPuzzle.C27_insert_commute",
    "SqlPuzzle.C27_update_order",
    "SqlPuzzle.C27_delete_order",
    "SqlPuzzle.C27_insert_order",
    "SqlPuzzle.C27_select",
    "SqlPuzzle.C27_update",
    "SqlPuzzle.C27_delete",
    "SqlPuzzle.C27_commute",
    "SqlPuzzle.C27_order"
   ],
   "note": "Order and uniqueness on the tokens the server reads, for SELECT, UPDATE and DELETE built without custom SQL; commutation for all calls on different clauses of all four statements, also failing ones."
  },
  {
   "property": "C28",
   "status": "partial",
   "theorems": [
    "SqlPuzzle.C28_refuted",
    "SqlPuzzle.C28_nested_partial",
    "SqlPuzzle.C28_str_touches",
    "SqlPuzzle.C28_select_partial",
    "SqlPuzzle.C28_insert_partial",
    "SqlPuzzle.C28_update_partial",
    "SqlPuzzle.C28_delete_partial",
    "SqlPuzzle.C28_repeat_partial",
    "SqlPuzzle.C28_same_exception"
   ],
   "note": "False when a join involves a query: C28_refuted (rendering a nested query merges its joins, which can make two joins of the outer query equal). C28_nested_partial proves it for every object in whose joins there is no query, whichever of the queries inside were rendered, how often, and whether or not the renderings succeeded; the other theorems are about the joins of the rendered query itself, where the queries inside it stay as they are."
  },
  {
   "property": "C29",
   "status": "partial",
   "theorems": [
    "SqlPuzzle.C29_update_refuted",
    "SqlPuzzle.C29_delete_refuted",
    "SqlPuzzle.C29_update_other_clauses_partial",
    "SqlPuzzle.C29_delete_other_clauses_partial",
    "SqlPuzzle.C29_update_distinct_joins_partial",
    "SqlPuzzle.C29_delete_distinct_joins_partial",
    "SqlPuzzle.C29_insert",
    "SqlPuzzle.C29_nested_refuted",
    "SqlPuzzle.C29_refuted",
    "SqlPuzzle.C29_other_clauses_partial",
    "SqlPuzzle.C29_distinct_joins_partial"
   ],
   "note": "False: C29_refuted and C29_nested_refuted (rendering merges joins, so a later on() reaches another join); proved, for queries whose nested queries stay as they are, that all other clauses are untouched, and that queries whose joins all differ are not influenced at all; both also for UPDATE and DELETE. For INSERT it holds without restriction (C29_insert)."
  },
  {
   "property": "C30",
   "status": "proved",
   "theorems": [
    "SqlPuzzle.C30_minimize",
    "SqlPuzzle.C30_text",
    "SqlPuzzle.C30_nothing_new",
    "SqlPuzzle.C30_distinct",
    "SqlPuzzle.C30_once"
   ],
   "note": "Exact result for joins of named tables with plain conditions; for arbitrary objects nothing new appears and different joins are left alone."
  },
  {
   "property": "C31",
   "status": "proved",
   "theorems": [
    "SqlPuzzle.C31_join_first",
    "SqlPuzzle.C31_full_join",
    "SqlPuzzle.C31_on_first",
    "SqlPuzzle.C31_join_last",
    "SqlPuzzle.C31_join_refused",
    "SqlPuzzle.C31_update_delete_join",
    "SqlPuzzle.C31_on_last",
    "SqlPuzzle.C31_on_adds"
   ],
   "note": ""
  },
  {
   "property": "C32",
   "status": "proved",
   "theorems": [
    "SqlPuzzle.C32_rows",
    "SqlPuzzle.C32_rectangular",
    "SqlPuzzle.C32_statement",
    "SqlPuzzle.C32_renders"
   ],
   "note": ""
  },
  {
   "property": "C33",
   "status": "proved",
   "theorems": [
    "SqlPuzzle.C33_order",
    "SqlPuzzle.C33_call_order",
    "SqlPuzzle.C33_one_row",
    "SqlPuzzle.C33_values_row"
   ],
   "note": ""
  },
  {
   "property": "C34",
   "status": "partial",
   "theorems": [
    "SqlPuzzle.C34_mysql",
    "SqlPuzzle.C34_postgresql_partial",
    "SqlPuzzle.C34_conflict_required",
    "SqlPuzzle.C34_sqlite",
    "SqlPuzzle.C34_replace",
    "SqlPuzzle.C34_refuted",
    "SqlPuzzle.C34_refuted_noop"
   ],
   "note": "Per backend behaviour proved; as stated false: the PostgreSQL text lacks SET after DO UPDATE (C34_refuted) and the default backend renders nothing (C34_refuted_noop)."
  },
  {
   "property": "C35",
   "status": "proved",
   "theorems": [
    "SqlPuzzle.C35_configure",
    "SqlPuzzle.C35_case",
    "SqlPuzzle.C35_latest"
   ],
   "note": ""
  },
  {
   "property": "C36",
   "status": "partial",
   "theorems": [
    "SqlPuzzle.C36_tree_partial",
    "SqlPuzzle.C36_leaf_exists",
    "SqlPuzzle.C36_where_select_partial",
    "SqlPuzzle.C36_having_select_partial",
    "SqlPuzzle.C36_where_update_partial",
    "SqlPuzzle.C36_where_delete_partial",
    "SqlPuzzle.C36_api_pair",
    "SqlPuzzle.C36_api_binary",
    "SqlPuzzle.C36_api_q",
    "SqlPuzzle.C36_refuted"
   ],
   "note": "Every tree object has the truth value of the tree, alone and in WHERE and HAVING clauses. As stated false: C36_refuted (Q(Not(..), Q(..)) takes its two arguments as column and value)."
  },
  {
   "property": "C37",
   "status": "partial",
   "theorems": [
    "SqlPuzzle.C37_answers_partial",
    "SqlPuzzle.C37_last_partial",
    "SqlPuzzle.C37_accepted",
    "SqlPuzzle.C37_regular_partial",
    "SqlPuzzle.C37_leaf_exists",
    "SqlPuzzle.C37_exact",
    "SqlPuzzle.C37_api",
    "SqlPuzzle.C37_refuted",
    "SqlPuzzle.C37_refuted_limit"
   ],
   "note": "Proved for expressions that need no parentheses (Spec UnionTree.Regular) and selects without tail clauses; for such selects with different texts the restriction is exact (C37_exact); C37_answers_partial gives the bag in terms of the parts of each select (C75). C37_last_partial: ORDER BY, LIMIT, ... of the last select apply to the whole union; C37_accepted: the databases accept the text exactly if no other select has them. In general false: C37_refuted (a & (b | c) is written as (a & b) | c), C37_refuted_limit."
  },
  {
   "property": "C38",
   "status": "partial",
   "theorems": [
    "SqlPuzzle.C38_select_word_partial",
    "SqlPuzzle.C38_update_word",
    "SqlPuzzle.C38_delete_word",
    "SqlPuzzle.C38_insert_word_partial",
    "SqlPuzzle.C38_select_set",
    "SqlPuzzle.C38_update_set",
    "SqlPuzzle.C38_delete_set",
    "SqlPuzzle.C38_insert_set_partial",
    "SqlPuzzle.C38_select_option",
    "SqlPuzzle.C38_select_options",
    "SqlPuzzle.C38_select_for_update",
    "SqlPuzzle.C38_select_other",
    "SqlPuzzle.C38_ignore",
    "SqlPuzzle.C38_union",
    "SqlPuzzle.C38_select_statement",
    "SqlPuzzle.C38_update_statement",
    "SqlPuzzle.C38_delete_statement",
    "SqlPuzzle.C38_insert_statement",
    "SqlPuzzle.C38_refuted",
    "SqlPuzzle.C38_refuted_keyword"
   ],
   "note": "Every clause of every kind of query, all plain words, plus the option names. False as stated for two parts: C38_refuted (select_for_update answers hasattr) and C38_refuted_keyword (AttributeError)."
  },
  {
   "property": "C39",
   "status": "partial",
   "theorems": [
    "SqlPuzzle.Props.C39_copy",
    "SqlPuzzle.Props.C39_look_partial",
    "SqlPuzzle.Props.C39_text_partial",
    "SqlPuzzle.Props.C39_original",
    "SqlPuzzle.Props.C39_independent",
    "SqlPuzzle.Props.C39_works",
    "SqlPuzzle.Props.C39_raises",
    "SqlPuzzle.Props.C39_refuted"
   ],
   "note": "All graphs of objects with cycles and sharing, all later histories of reads, writes and allocations by holders of the original and of the copy. The text is the same unless a set is involved (C39_text_partial); C39_refuted: a copied set may iterate in another order. C39_works and C39_raises say when copying succeeds."
  },
  {
   "property": "C40",
   "status": "partial",
   "theorems": [
    "SqlPuzzle.C40_datetimes",
    "SqlPuzzle.C40_all_dates",
    "SqlPuzzle.C40_naive",
    "SqlPuzzle.C40_refuted",
    "SqlPuzzle.C40_refuted_symmetric",
    "SqlPuzzle.C40_refuted_text",
    "SqlPuzzle.C40_refuted_zones",
    "SqlPuzzle.C40_refuted_on",
    "SqlPuzzle.C40_refuted_conflict",
    "SqlPuzzle.C40_refuted_raise",
    "SqlPuzzle.C40_reflexive_partial",
    "SqlPuzzle.C40_symmetric_partial",
    "SqlPuzzle.C40_identity_partial",
    "SqlPuzzle.C40_text_partial",
    "SqlPuzzle.C40_text_objects",
    "SqlPuzzle.C40_text_string",
    "SqlPuzzle.C40_update_partial",
    "SqlPuzzle.C40_delete_partial",
    "SqlPuzzle.C40_numbers",
    "SqlPuzzle.C40_infinite",
    "SqlPuzzle.C40_nan",
    "SqlPuzzle.C40_itself",
    "SqlPuzzle.C40_itself_number",
    "SqlPuzzle.C40_lists"
   ],
   "note": "Reflexive for all objects without NaN, generators, sets and dictionaries; symmetric for all objects in which nothing is compared by text; within one number type, without time zones and with ON conditions written in one direction, equality is identity, so equal queries have equal text. False in general: C40_refuted (NaN), C40_refuted_symmetric (custom SQL), C40_refuted_text (1 and 1.0), C40_refuted_zones, C40_refuted_on, C40_refuted_conflict, C40_refuted_raise. C40_datetimes, C40_naive: datetimes with a time zone are equal iff they are the same instant, counted in days of the calendar (C40_all_dates), others iff they are the same. C40_numbers, C40_infinite, C40_nan, C40_itself, C40_itself_number, C40_lists: when other plain values are equal."
  },
  {
   "property": "C41",
   "status": "proved",
   "theorems": [
    "SqlPuzzle.C41_grammar",
    "SqlPuzzle.C41_grammar_parts",
    "SqlPuzzle.C41_vocabulary",
    "SqlPuzzle.C41_complete",
    "SqlPuzzle.C41_values",
    "SqlPuzzle.C41_convert_raw",
    "SqlPuzzle.C41_infinite",
    "SqlPuzzle.C41_empty_q"
   ],
   "note": "The scope is the predicate NoRaw (Spec/Safe.lean). Outside it: C41_convert_raw, C41_infinite and C41_empty_q show what the exclusions are for."
  },
  {
   "property": "C42",
   "status": "proved",
   "theorems": [
    "SqlPuzzle.C42_balanced",
    "SqlPuzzle.C42_select_placed",
    "SqlPuzzle.C42_parenthesised",
    "SqlPuzzle.C42_bare_condition"
   ],
   "note": "Balance on the tokens, in the scope of C41; own parentheses for every object, also with custom SQL, at every depth. A select given as a whole condition is not parenthesised (C42_bare_condition)."
  },
  {
   "property": "C43",
   "status": "partial",
   "theorems": [
    "SqlPuzzle.C43_select_partial",
    "SqlPuzzle.C43_update_partial",
    "SqlPuzzle.C43_delete_partial",
    "SqlPuzzle.C43_insert_partial",
    "SqlPuzzle.C43_insert_conflict_partial",
    "SqlPuzzle.C43_select_stop_partial",
    "SqlPuzzle.C43_update_stop_partial",
    "SqlPuzzle.C43_delete_stop_partial",
    "SqlPuzzle.C43_str",
    "SqlPuzzle.C43_refuted",
    "SqlPuzzle.C43_refuted_where",
    "SqlPuzzle.C43_refuted_conflict",
    "SqlPuzzle.C43_insert_stop_partial"
   ],
   "note": "A call that gives one entry and fails leaves the query as it was, for all calls of the four kinds of query; a call that gives several entries and raises has done nothing, or what the same call with only the entries before some entry does (C43_*_stop_partial, for on_duplicate_key_update with the column of the conflict on PostgreSQL); str leaves the rendering unchanged. False in general: C43_refuted (limit with a bad offset keeps the limit), C43_refuted_where (where with several pairs keeps the first ones), C43_refuted_conflict (PostgreSQL conflict column stays)."
  },
  {
   "property": "C44",
   "status": "partial",
   "theorems": [
    "SqlPuzzle.C44_refuted",
    "SqlPuzzle.C44_refuted_limit",
    "SqlPuzzle.C44_refuted_keys",
    "SqlPuzzle.C44_refuted_sqlite",
    "SqlPuzzle.C44_refuted_values",
    "SqlPuzzle.C44_select_partial",
    "SqlPuzzle.C44_insert_partial",
    "SqlPuzzle.C44_update_partial",
    "SqlPuzzle.C44_delete_partial",
    "SqlPuzzle.C44_start",
    "SqlPuzzle.C44_render",
    "SqlPuzzle.C44_equal",
    "SqlPuzzle.C44_conditions_partial",
    "SqlPuzzle.C44_binary_partial",
    "SqlPuzzle.C44_relation_partial",
    "SqlPuzzle.C44_union_partial",
    "SqlPuzzle.C44_functions_partial"
   ],
   "note": "For all histories of calls whose arguments are regular objects (Spec/Regular.lean, Spec/Calls.lean), on all four kinds of query, for all constructors, str and ==; the results are regular again, so arguments may be built the same way. False in general: C44_refuted (order_by with a number as direction), C44_refuted_limit, C44_refuted_keys, C44_refuted_sqlite, C44_refuted_values."
  },
  {
   "property": "C45",
   "status": "proved",
   "theorems": [
    "SqlPuzzle.C45_equal_conditions",
    "SqlPuzzle.C45_same",
    "SqlPuzzle.C45_mirror",
    "SqlPuzzle.C45_on_twice"
   ],
   "note": ""
  },
  {
   "property": "C46",
   "status": "partial",
   "theorems": [
    "SqlPuzzle.C46_aggregate",
    "SqlPuzzle.C46_aggregate_list",
    "SqlPuzzle.C46_count",
    "SqlPuzzle.C46_distinct",
    "SqlPuzzle.C46_concat_partial",
    "SqlPuzzle.C46_group_concat_partial",
    "SqlPuzzle.C46_convert",
    "SqlPuzzle.C46_refuted",
    "SqlPuzzle.C46_refuted_empty",
    "SqlPuzzle.C46_refuted_convert"
   ],
   "note": "Aggregates, COUNT(*), DISTINCT and CONVERT for every argument; CONCAT and GROUP_CONCAT for arguments no two of which are equal. In general false: C46_refuted (a repeated argument is dropped), C46_refuted_empty, C46_refuted_convert."
  },
  {
   "property": "C47",
   "status": "proved",
   "theorems": [
    "SqlPuzzle.C47_str",
    "SqlPuzzle.C47_eq",
    "SqlPuzzle.C47_agree",
    "SqlPuzzle.C47_agree_eq",
    "SqlPuzzle.C47_stable",
    "SqlPuzzle.C47_no_common_depth"
   ],
   "note": "For every object there is a number of nested calls from which rendering and comparison no longer depend on the limit; no single number is enough for all objects."
  },
  {
   "property": "C48",
   "status": "partial",
   "theorems": [
    "SqlPuzzle.Props.C48_call_partial",
    "SqlPuzzle.Props.C48_containers_partial",
    "SqlPuzzle.Props.C48_look_partial",
    "SqlPuzzle.Props.C48_text_partial",
    "SqlPuzzle.Props.C48_refuted",
    "SqlPuzzle.Props.C48_refuted_generator"
   ],
   "note": "On the memory model of Model/HeapCalls.lean, for every heap, every method call and every behaviour of comparison and rendering that changes nothing but generators and joins: only the receiver, its own parts and a joined one-entry dictionary change; other objects look and render the same. False in general: C48_refuted (join pops the entry of a dictionary), C48_refuted_generator (where consumes a generator)."
  },
  {
   "property": "C49",
   "status": "proved",
   "theorems": [
    "SqlPuzzle.C49_same_quote",
    "SqlPuzzle.C49_sql_sqlite",
    "SqlPuzzle.C49_restrictions"
   ],
   "note": "All objects without booleans and bytes, at any depth; the restrictions of the back ends are stated in C49_restrictions."
  },
  {
   "property": "C50",
   "status": "proved",
   "theorems": [
    "SqlPuzzle.C50_latest",
    "SqlPuzzle.C50_raises",
    "SqlPuzzle.C50_text"
   ],
   "note": ""
  },
  {
   "property": "C51",
   "status": "proved",
   "theorems": [
    "SqlPuzzle.Props.C51_call",
    "SqlPuzzle.Props.C51_change",
    "SqlPuzzle.Props.C51_text"
   ],
   "note": "On the memory model of Model/HeapCalls.lean, for every heap, call and behaviour of comparison and rendering that changes nothing but generators and joins and creates no references to other objects. Lists nested in the list of values, and the argument of GroupConcat.separator, are kept; an example shows it."
  },
  {
   "property": "C52",
   "status": "proved",
   "theorems": [
    "SqlPuzzle.C52_select",
    "SqlPuzzle.C52_insert",
    "SqlPuzzle.C52_update",
    "SqlPuzzle.C52_delete",
    "SqlPuzzle.C52_trimmed",
    "SqlPuzzle.C52_keyword",
    "SqlPuzzle.C52_q",
    "SqlPuzzle.C52_combined",
    "SqlPuzzle.C52_not",
    "SqlPuzzle.C52_union",
    "SqlPuzzle.C52_exists"
   ],
   "note": "An equivalence for every state of a query, also for errors (the text exists iff the text of every clause exists). Texts of names, values and conditions inside the clauses are the texts of R(name), V(value), Q(condition)."
  },
  {
   "property": "C53",
   "status": "partial",
   "theorems": [
    "SqlPuzzle.C53_total_order",
    "SqlPuzzle.C53_text_order_partial",
    "SqlPuzzle.C53_less",
    "SqlPuzzle.C53_other",
    "SqlPuzzle.C53_refuted",
    "SqlPuzzle.C53_refuted_both"
   ],
   "note": "A strict total order of texts for strings and all objects without an own equality; < and >= of queries too; TypeError for everything else. As stated false: C53_refuted (two different queries with the same text are each > the other; a query is > its own text)."
  },
  {
   "property": "C54",
   "status": "proved",
   "theorems": [
    "SqlPuzzle.C54_repr",
    "SqlPuzzle.C54_faithful"
   ],
   "note": "For all objects and all behaviours of rendering."
  },
  {
   "property": "C55",
   "status": "partial",
   "theorems": [
    "SqlPuzzle.C55_hashable",
    "SqlPuzzle.C55_refuted",
    "SqlPuzzle.C55_join_partial"
   ],
   "note": "Which objects are hashable is characterised exactly; a select can be the key, a select or union can always be given as a pair. As stated false: C55_refuted (a union is unhashable because its class defines == and no hash)."
  },
  {
   "property": "C56",
   "status": "partial",
   "theorems": [
    "SqlPuzzle.C56_select_partial",
    "SqlPuzzle.C56_having_partial",
    "SqlPuzzle.C56_update_partial",
    "SqlPuzzle.C56_delete_partial",
    "SqlPuzzle.C56_order_partial",
    "SqlPuzzle.C56_refuted"
   ],
   "note": "For all histories whose conditions are pairs with exact comparisons (named columns, plain values, also lists), in the scope of C41 (NoRaw); the row and the truth values of the predicates are arbitrary. In general false: C56_refuted (custom SQL equals a string, so the second condition is lost and more rows are chosen)."
  },
  {
   "property": "C57",
   "status": "proved",
   "theorems": [
    "SqlPuzzle.C57_select",
    "SqlPuzzle.C57_insert",
    "SqlPuzzle.C57_update",
    "SqlPuzzle.C57_delete",
    "SqlPuzzle.C57_select_history",
    "SqlPuzzle.C57_insert_history",
    "SqlPuzzle.C57_update_history",
    "SqlPuzzle.C57_delete_history",
    "SqlPuzzle.C57_select_layout",
    "SqlPuzzle.C57_text",
    "SqlPuzzle.C57_value_unique",
    "SqlPuzzle.C57_faithful"
   ],
   "note": "For all memories, calls and histories, and for every behaviour of comparing, rendering and sorting that goes by values (Faithful, which C57_faithful shows can be met); the calls between which str() minimises joins in place are left out here."
  },
  {
   "property": "C58",
   "status": "partial",
   "theorems": [
    "SqlPuzzle.C58_orders",
    "SqlPuzzle.C58_order_own",
    "SqlPuzzle.C58_order_kept",
    "SqlPuzzle.C58_order_ends",
    "SqlPuzzle.C58_alone_order",
    "SqlPuzzle.C58_alone_group",
    "SqlPuzzle.C58_refuted_order",
    "SqlPuzzle.C58_where_partial",
    "SqlPuzzle.C58_represented",
    "SqlPuzzle.C58_grows",
    "SqlPuzzle.C58_ends",
    "SqlPuzzle.C58_alone",
    "SqlPuzzle.C58_columns",
    "SqlPuzzle.C58_set",
    "SqlPuzzle.C58_tables",
    "SqlPuzzle.C58_alone_tables",
    "SqlPuzzle.C58_alone_columns",
    "SqlPuzzle.C58_alone_set",
    "SqlPuzzle.C58_refuted"
   ],
   "note": "All schedules, all calls of where and having, and calls of columns, set and from_ with plain arguments; bounded number of steps; alone a thread does what the functional model says. For order_by and group_by by names and numbers of columns: orders there stay first, added ones in order, every direction is one that was given for the column, and a column given by one call only has its last direction (C58_orders, C58_order_own, C58_order_kept, C58_order_ends). False: two threads may add equal parts (C58_refuted, C58_refuted_order); within one call, and against what was there before, no part is added twice (C58_where_partial). Comparing two parts is one step; from_ is modelled without joins at the same time."
  },
  {
   "property": "C59",
   "status": "partial",
   "theorems": [
    "SqlPuzzle.C59_refuted",
    "SqlPuzzle.C59_refuted_q",
    "SqlPuzzle.C59_select_partial",
    "SqlPuzzle.C59_insert_partial",
    "SqlPuzzle.C59_update_partial",
    "SqlPuzzle.C59_delete_partial",
    "SqlPuzzle.C59_kinds",
    "SqlPuzzle.C59_refuted_union",
    "SqlPuzzle.C59_union_partial",
    "SqlPuzzle.C59_union_built"
   ],
   "note": "Queries of names without quote characters, strings, integers, None, lists of these, R, aggregates, concat, group_concat and convert of named columns, selects nested to any depth as column, table or value, EXISTS, Not and conditions combined by | and &, with joins that are not repeated; INSERT into named tables with rows that all have the same columns. For unions of such selects the text tells the selects and the operators between them (C59_union_partial), and so the union when selects are added one by one (C59_union_built); parentheses are lost (C59_refuted_union). Q objects of several conditions combined by | and & can not be told from conditions combined by & (C59_refuted_q). Missing: custom SQL, nested unions and other value types. False in general (C59_refuted): a string that looks like a quoted name is written like the name."
  },
  {
   "property": "C60",
   "status": "partial",
   "theorems": [
    "SqlPuzzle.C60_select_partial",
    "SqlPuzzle.C60_update_partial",
    "SqlPuzzle.C60_delete_partial",
    "SqlPuzzle.C60_insert_partial",
    "SqlPuzzle.C60_conditions_partial",
    "SqlPuzzle.C60_start_select",
    "SqlPuzzle.C60_start_select_from",
    "SqlPuzzle.C60_start_insert_into",
    "SqlPuzzle.C60_start_update",
    "SqlPuzzle.C60_start_delete",
    "SqlPuzzle.C60_start_delete_from",
    "SqlPuzzle.C60_distinct",
    "SqlPuzzle.C60_convert",
    "SqlPuzzle.C60_refuted"
   ],
   "note": "All calls that give names or pairs, in every notation and all portions, on all four kinds of query, also when a call raises; on_duplicate_key_update for MySQL. Several Q objects in one where: if no two are equal. False in general (C60_refuted): where(q, q) adds q once, where(q).where(q) twice."
  },
  {
   "property": "C61",
   "status": "partial",
   "theorems": [
    "SqlPuzzle.C61_select_partial",
    "SqlPuzzle.C61_insert_partial",
    "SqlPuzzle.C61_update_partial",
    "SqlPuzzle.C61_delete_partial",
    "SqlPuzzle.C61_text_partial",
    "SqlPuzzle.C61_refuted",
    "SqlPuzzle.C61_refuted_insert",
    "SqlPuzzle.C61_refuted_text"
   ],
   "note": "All programs of calls and configure on all four kinds of query, if nothing that is compared by its text (custom SQL, V, R, functions) is involved; without full_join and on_duplicate_key_update. These exceptions are real: full_join and on_duplicate_key_update ask the backend at once (C61_refuted, C61_refuted_insert), and custom SQL compared by text can make a condition disappear under one backend only (C61_refuted_text)."
  },
  {
   "property": "C62",
   "status": "proved",
   "theorems": [
    "SqlPuzzle.C62_select",
    "SqlPuzzle.C62_update",
    "SqlPuzzle.C62_delete",
    "SqlPuzzle.C62_conditions"
   ],
   "note": "All histories on SELECT, UPDATE and DELETE with tables and conditions that are compared exactly (names and plain values)."
  },
  {
   "property": "C63",
   "status": "partial",
   "theorems": [
    "SqlPuzzle.C63_update_other_clauses_partial",
    "SqlPuzzle.C63_delete_other_clauses_partial",
    "SqlPuzzle.C63_insert",
    "SqlPuzzle.C63_refuted",
    "SqlPuzzle.C63_select_partial",
    "SqlPuzzle.C63_update_partial",
    "SqlPuzzle.C63_delete_partial",
    "SqlPuzzle.C63_insert_partial",
    "SqlPuzzle.C63_other_clauses_partial",
    "SqlPuzzle.C63_unchanged_partial"
   ],
   "note": "False for the calls that follow: C63_refuted (has('tables', value) merges joins, so a later on() reaches another join). Proved: text and all answers are unchanged, later calls that do not concern tables do the same, and nothing at all changes unless a table has two equal joins; in full for INSERT (C63_insert)."
  },
  {
   "property": "C64",
   "status": "partial",
   "theorems": [
    "SqlPuzzle.C64_refuted",
    "SqlPuzzle.C64_refuted_function",
    "SqlPuzzle.C64_refuted_raises",
    "SqlPuzzle.C64_refuted_dotted",
    "SqlPuzzle.C64_search",
    "SqlPuzzle.C64_plain",
    "SqlPuzzle.C64_select_partial",
    "SqlPuzzle.C64_update_partial",
    "SqlPuzzle.C64_delete_partial",
    "SqlPuzzle.C64_insert_partial",
    "SqlPuzzle.C64_star",
    "SqlPuzzle.C64_select_regex",
    "SqlPuzzle.C64_update_regex",
    "SqlPuzzle.C64_delete_regex",
    "SqlPuzzle.C64_insert_regex",
    "SqlPuzzle.C64_select_parts",
    "SqlPuzzle.C64_update_parts",
    "SqlPuzzle.C64_delete_parts",
    "SqlPuzzle.C64_insert_parts",
    "SqlPuzzle.C64_select_escaped",
    "SqlPuzzle.C64_update_escaped",
    "SqlPuzzle.C64_delete_escaped",
    "SqlPuzzle.C64_insert_escaped",
    "SqlPuzzle.C64_select_bad",
    "SqlPuzzle.C64_update_bad",
    "SqlPuzzle.C64_delete_bad",
    "SqlPuzzle.C64_insert_bad",
    "SqlPuzzle.C64_escape"
   ],
   "note": "False: the value is put into a regular expression as it is. C64_refuted (a dot matches any character), C64_refuted_function (parentheses are a group, so Count('x') is not found), C64_refuted_raises (COUNT(*) raises re.error), C64_refuted_dotted (a dotted name does not find its own column). Proved: the exact answer for all values of ordinary characters, dots and parentheses (C64_*_partial), for values whose parts each stand for one character (C64_*_parts), and for all values of the grammar of regular expressions, character sets, escapes and counted repetition included (C64_*_regex); re.error for values that make no regular expression (C64_*_bad: multiple repeat, nothing to repeat, a range or a count that goes backwards, a range from a class, an unbalanced parenthesis); the claim itself holds of values whose special characters are behind backslashes, as re.escape writes them (C64_*_escaped, C64_escape)."
  },
  {
   "property": "C65",
   "status": "partial",
   "theorems": [
    "SqlPuzzle.C65_refuted",
    "SqlPuzzle.C65_refuted_lost",
    "SqlPuzzle.C65_refuted_twice",
    "SqlPuzzle.C65_refuted_join",
    "SqlPuzzle.C65_alone",
    "SqlPuzzle.C65_start",
    "SqlPuzzle.C65_turns_partial",
    "SqlPuzzle.C65_no_joins_partial",
    "SqlPuzzle.C65_given_partial",
    "SqlPuzzle.C65_given_exact_partial"
   ],
   "note": "False: rendering assigns an empty list to the joins of a table and fills it again. C65_refuted (another thread writes the query without its joins), C65_refuted_lost (two renderings lose a join for good), C65_refuted_twice (a join is written twice), C65_refuted_join (a join called meanwhile is lost). Proved: a thread that is not disturbed writes the text and leaves the tables of the functional model, wherever the others stand, if the list of joins is complete when it begins (C65_alone); any number of threads in turns; all schedules for queries without joins; and under every schedule, also with calls of join, no join is written that was not given."
  },
  {
   "property": "C66",
   "status": "partial",
   "theorems": [
    "SqlPuzzle.C66_refuted",
    "SqlPuzzle.C66_refuted_text",
    "SqlPuzzle.C66_effect",
    "SqlPuzzle.C66_last_wins_partial",
    "SqlPuzzle.C66_exact",
    "SqlPuzzle.C66_refuted_once",
    "SqlPuzzle.C66_once",
    "SqlPuzzle.C66_on_duplicate_partial"
   ],
   "note": "For assignments with exact comparisons; the server carries out SET from left to right, as MySQL does. False: set(a=1), set(a=2), set(a=1) leaves 2, because the third call is dropped as a repetition of the first (C66_refuted), and set(a=1), set(a=2) assigns a column twice (C66_refuted_once). Proved: what the server leaves in any case (C66_effect), that the last value wins exactly for histories that never set a column back (C66_last_wins_partial, C66_exact), and that a column is assigned once exactly if it is never given two values (C66_once)."
  },
  {
   "property": "C67",
   "status": "partial",
   "theorems": [
    "SqlPuzzle.C67_refuted",
    "SqlPuzzle.C67_cut_partial",
    "SqlPuzzle.C67_turns_partial",
    "SqlPuzzle.C67_no_joins_partial"
   ],
   "note": "False: _minimize_joins empties self._joins and fills it again, so a rendering that is interrupted in between leaves the query without some of its joins, for good (C67_refuted). Proved: after any number of renderings interrupted at any other point the next one gives the text of the query (C67_turns_partial); queries without joins may be interrupted anywhere (C67_no_joins_partial); after one interruption at any point at most one table is damaged, and it keeps its name, its alias and the first of its merged joins (C67_cut_partial). Queries inside the joins are left out, as in C65."
  },
  {
   "property": "C68",
   "status": "partial",
   "theorems": [
    "SqlPuzzle.C68_update_partial",
    "SqlPuzzle.C68_delete_partial",
    "SqlPuzzle.C68_insert_partial",
    "SqlPuzzle.C68_seen_exists",
    "SqlPuzzle.C68_refuted"
   ],
   "note": "One table, no joins and no raw SQL; conditions and assignments with exact comparisons (C20, C21); the server reads the tokens of the text (Spec/Effects.lean) and carries out assignments from left to right. False without a restriction: set(a=1), set(a=2), set(a=1) leaves 2 (C68_refuted). Proved for every database, every server and every history of calls: C68_update_partial (for histories that never set a column back), C68_delete_partial, C68_insert_partial (rows given by keywords). Different names are taken to be different columns."
  },
  {
   "property": "C69",
   "status": "partial",
   "theorems": [
    "SqlPuzzle.C69_rows_partial",
    "SqlPuzzle.C69_pages_partial",
    "SqlPuzzle.C69_refuted"
   ],
   "note": "One table without alias, no joins and no raw SQL, columns and sort keys given by name, conditions with exact comparisons (C20); no grouping, no DISTINCT, no output to a file; limits that are not negative. The server reads the tokens of the text (Spec/Answers.lean); how it sorts and evaluates predicates is arbitrary. False without a restriction: limit(-1) is accepted and writes LIMIT -1, to which there is no answer (C69_refuted). Proved for every database, every server and every history of calls: C69_rows_partial and, for pages, C69_pages_partial."
  },
  {
   "property": "C70",
   "status": "partial",
   "theorems": [
    "SqlPuzzle.C70_paging_partial",
    "SqlPuzzle.C70_lock_partial",
    "SqlPuzzle.C70_export_partial",
    "SqlPuzzle.C70_words_partial",
    "SqlPuzzle.C70_insert_partial",
    "SqlPuzzle.C70_refuted",
    "SqlPuzzle.C70_refuted_insert",
    "SqlPuzzle.C70_joins",
    "SqlPuzzle.C70_update_partial",
    "SqlPuzzle.C70_delete_partial",
    "SqlPuzzle.C70_refuted_update",
    "SqlPuzzle.C70_refuted_delete"
   ],
   "note": "False (C70_refuted: OFFSET without LIMIT on MySQL; C70_refuted_insert: DO UPDATE without SET on PostgreSQL). What is proved is, clause by clause and for every history of calls, exactly when the database accepts the clause: C70_paging_partial (an offset needs a limit on MySQL and SQLite, no negative numbers on MySQL and PostgreSQL), C70_export_partial (MySQL only; a quotation mark needs a field separator and no line end, because it is written last; strings only), C70_lock_partial (FOR UPDATE not on SQLite), C70_words_partial (PostgreSQL and SQLite: only all and distinct), C70_insert_partial (ignore only on MySQL; on PostgreSQL nothing may be assigned on conflict). Statements without raw SQL; the forms the databases allow are in Spec/Accepted.lean, and Spec/AcceptedChanges.lean, after their manuals. C70_update_partial and C70_delete_partial say exactly when UPDATE and DELETE are accepted (PostgreSQL and SQLite: no ignore, no targets, one table and no join; MySQL: without targets one table without alias; names of tables are strings), with C70_refuted_update and C70_refuted_delete. C70_joins holds without exception: no FULL JOIN is ever written for MySQL and SQLite."
  },
  {
   "property": "C71",
   "status": "partial",
   "theorems": [
    "SqlPuzzle.C71_select_partial",
    "SqlPuzzle.C71_update_partial",
    "SqlPuzzle.C71_delete_partial",
    "SqlPuzzle.C71_rows_partial",
    "SqlPuzzle.C71_refuted"
   ],
   "note": "False in full (C71_refuted: a left join and an inner join of one table on one condition are merged into one inner join, C24). Proved for tables listed once and joined once, all by name (no subqueries), conditions in on() with exact comparisons (C20), no raw SQL; the server is arbitrary except that it does not tell a comparison of two columns from its mirror image (MirrorsAgree). C71_select_partial, C71_update_partial and C71_delete_partial give the combined rows, C71_rows_partial the whole answer of a SELECT. C78_sources, C79_update_sources and C79_delete_sources extend this to subqueries as tables and to conditions of every kind. What is missing: tables joined repeatedly under one name."
  },
  {
   "property": "C72",
   "status": "partial",
   "theorems": [
    "SqlPuzzle.C72_rows_partial",
    "SqlPuzzle.C72_plain",
    "SqlPuzzle.C72_refuted"
   ],
   "note": "False in full (C72_refuted: columns(count('id'), 'COUNT(\"id\")') selects the aggregate only, columns and aggregates are compared by text). C72_rows_partial: any calls except into_outfile, with the tables of C71; columns are names without '(' or aggregates (avg, count, max, min, sum, with or without DISTINCT) of * or of a column with one spelling; conditions of where compare a column with a value, those of having a column, an alias or an aggregate (C20_having_aggregates_partial); grouping by columns or aliases, sorting by columns, aliases or aggregates (C22_order_by_aggregates); no raw SQL. The server is arbitrary: grouping, merging and sorting are any functions. C72_plain: where nothing is grouped, computed or merged the answer is that of C69. Missing: concat, group_concat, convert and subqueries as columns, sorting by number."
  },
  {
   "property": "C73",
   "status": "partial",
   "theorems": [
    "SqlPuzzle.C73_update_partial",
    "SqlPuzzle.C73_settled",
    "SqlPuzzle.C73_delete_partial",
    "SqlPuzzle.C73_refuted"
   ],
   "note": "False in full (C73_refuted: set('y', 1), set('y', 2) tells the server both assignments; MySQL promises no order of assignments in an UPDATE of several tables, PostgreSQL rejects the statement). C73_update_partial: the combined rows are exactly those asked for, with the tables of C71, conditions that compare a column with a value (C20), and assignments by name with exact comparisons (C21); each assignment given is read once, in the order of first use. C73_settled: no column is assigned twice if none is given two values. C73_delete_partial: the same rows, and exactly the tables named in delete(), without aliases. How the server carries the changes out is any function. What is missing: subqueries, raw SQL, tables joined repeatedly."
  },
  {
   "property": "C74",
   "status": "proved",
   "theorems": [
    "SqlPuzzle.C74_query_as_column",
    "SqlPuzzle.C74_union_as_column",
    "SqlPuzzle.C74_query_as_value",
    "SqlPuzzle.C74_union_as_value",
    "SqlPuzzle.C74_columns",
    "SqlPuzzle.C74_order_by",
    "SqlPuzzle.C74_group_by",
    "SqlPuzzle.C74_tables",
    "SqlPuzzle.C74_assignments",
    "SqlPuzzle.C74_condition",
    "SqlPuzzle.C74_on_condition",
    "SqlPuzzle.C74_where_select",
    "SqlPuzzle.C74_having",
    "SqlPuzzle.C74_where_update",
    "SqlPuzzle.C74_where_delete",
    "SqlPuzzle.C74_update_tables",
    "SqlPuzzle.C74_delete_tables",
    "SqlPuzzle.C74_delete_targets"
   ],
   "note": "For all statements without custom SQL (NoRaw). ref and lit are any functions that agree with what the library writes for one column, table or value; they exist (refs_exist, literals_exist). Tables are those of the query after str(query), because str merges joins of the same table (C57). Rows of INSERT are in C68_insert, which already allows any values."
  },
  {
   "property": "C75",
   "status": "proved",
   "theorems": [
    "SqlPuzzle.C75_compares",
    "SqlPuzzle.C75_exists",
    "SqlPuzzle.C75_judge_exists",
    "SqlPuzzle.C75_derived_table",
    "SqlPuzzle.C75_update",
    "SqlPuzzle.C75_delete",
    "SqlPuzzle.C75_server_exists",
    "SqlPuzzle.C75_answer",
    "SqlPuzzle.C75_answer_without_tables"
   ],
   "note": "For all SELECT, UPDATE and DELETE objects without custom SQL (NoRaw); a SELECT without INTO OUTFILE and with nonnegative limit and offset; a DELETE whose tables before FROM have no joins (there is no call that gives them any). Tables are those of the query after str(query), because str merges joins of the same table (C24, C57). A server that answers inner queries (AnswersInside) exists for every base server (C75_server_exists). Queries in conditions: C75_compares and C75_exists; a server that judges all of them by their answers, at every depth and also with columns of the row around them, exists for every base server (C75_judge_exists). What the calls put into the query object is C20 to C24, C56 to C58; unions are C37 (C37_answers_partial)."
  },
  {
   "property": "C76",
   "status": "proved",
   "theorems": [
    "SqlPuzzle.C76_select",
    "SqlPuzzle.C76_select_failing",
    "SqlPuzzle.C76_select_each",
    "SqlPuzzle.C76_having",
    "SqlPuzzle.C76_having_failing",
    "SqlPuzzle.C76_having_each",
    "SqlPuzzle.C76_update",
    "SqlPuzzle.C76_update_failing",
    "SqlPuzzle.C76_update_each",
    "SqlPuzzle.C76_delete",
    "SqlPuzzle.C76_delete_failing",
    "SqlPuzzle.C76_delete_each"
   ],
   "note": "GivesConditions leaves out arguments of which the library drops some (C18). The proviso about equal conditions is part of the statement and needed: C56_refuted gives two conditions that are == and true of different rows. C76_*_failing and C76_*_each are the two parts that hold also when calls raise."
  },
  {
   "property": "C77",
   "status": "proved",
   "theorems": [
    "SqlPuzzle.C77_insert",
    "SqlPuzzle.C77_history"
   ],
   "note": "Strengthens C68_insert_partial (keyword rows only, no options, no ON DUPLICATE KEY UPDATE): values may be queries, calls may fail, options and updates are read too. Columns are assumed to be named so that the server tells them apart. PostgreSQL with on_duplicate_key_update is left to C34."
  },
  {
   "property": "C78",
   "status": "proved",
   "theorems": [
    "SqlPuzzle.C78_sources",
    "SqlPuzzle.C78_everything",
    "SqlPuzzle.C78_answer",
    "SqlPuzzle.C78_named",
    "SqlPuzzle.C78_one_table",
    "SqlPuzzle.C78_inside"
   ],
   "note": "Strengthens C72_rows_partial, which asks for names and aggregates of names. C78_answer takes the rows of the sources from the FROM clause; C78_named says what they are for tables listed and joined by name, C78_one_table for a single table that may be a query, C78_inside that the rows of such a query are its answer. C78_sources says what they are for all tables, joins and conditions of joins without custom SQL, if no two tables, and no two joins of one table, have equal names and aliases (C24, C71_refuted); C78_everything puts the parts together. Columns that == takes for equal are written once; that == agrees with the meaning is asked for conditions only (EqualsAgree), as in C76."
  },
  {
   "property": "C79",
   "status": "proved",
   "theorems": [
    "SqlPuzzle.C79_update_sources",
    "SqlPuzzle.C79_delete_sources",
    "SqlPuzzle.C79_update_everything",
    "SqlPuzzle.C79_delete_everything",
    "SqlPuzzle.C79_update",
    "SqlPuzzle.C79_update_named",
    "SqlPuzzle.C79_delete",
    "SqlPuzzle.C79_delete_named"
   ],
   "note": "Strengthens C73, which asks for conditions and assignments that compare or assign plain values. C79_update and C79_delete take the combined rows from the text of the tables; C79_update_named and C79_delete_named say what they are for tables listed and joined by name (C71); C79_update_sources and C79_delete_sources for all tables, joins and conditions of joins, with queries too, if no two tables, and no two joins of one table, have equal names and aliases; C79_update_everything and C79_delete_everything put the parts together. That == agrees with the meaning is asked for conditions only (EqualsAgree), as in C76."
  },
  {
   "property": "C80",
   "status": "partial",
   "theorems": [
    "SqlPuzzle.C80_refuted",
    "SqlPuzzle.C80_segments_partial",
    "SqlPuzzle.C80_quotes_optional"
   ],
   "note": "False for one segment: an asterisk between quotes is written without them (C80_refuted). Proved for all other names; C80_quotes_optional includes it."
  },
  {
   "property": "C81",
   "status": "proved",
   "theorems": [
    "SqlPuzzle.C81_rows",
    "SqlPuzzle.C81_outcome",
    "SqlPuzzle.C81_ends",
    "SqlPuzzle.C81_linear"
   ],
   "note": "Steps as in C58: making a value, comparing it with one part, appending. C81_rows (any moment), C81_outcome, C81_ends, C81_linear (when all have ended)."
  },
  {
   "property": "C82",
   "status": "partial",
   "theorems": [
    "SqlPuzzle.C82_refuted",
    "SqlPuzzle.C82_partial",
    "SqlPuzzle.C82_rest_partial",
    "SqlPuzzle.C82_values",
    "SqlPuzzle.C82_one_thread_partial",
    "SqlPuzzle.C82_alone",
    "SqlPuzzle.C82_ends",
    "SqlPuzzle.C82_text_refuted",
    "SqlPuzzle.C82_text_partial",
    "SqlPuzzle.C82_text_alone"
   ],
   "note": "False of the code: limit() with two things to say makes two assignments, so limit(10, 20) and limit(5, 30) by two threads can leave LIMIT 5 OFFSET 20 (C82_refuted), and a clause written while another thread calls limit(None) can be LIMIT None (C82_text_refuted). Proved: C82_partial for calls that say one thing, C82_rest_partial for everything but limit and offset, C82_one_thread_partial when one thread sets limit and offset, C82_values, C82_alone, C82_ends for all calls, C82_text_partial when nothing is cleared, C82_text_alone."
  }
 ]
}