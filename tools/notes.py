STATUS={'C71':'partial','C72':'partial','C73':'partial','C70':'partial','C69':'partial','C68':'partial','C67':'partial','C64':'partial','C03':'partial','C63':'partial','C28':'partial','C06':'partial','C16':'partial','C18':'partial','C19':'partial','C20':'partial','C21':'partial','C23':'partial','C24':'partial','C29':'partial','C34':'partial','C36':'partial','C37':'partial','C38':'partial','C46':'partial','C43':'partial','C44':'partial','C40':'partial','C39':'partial','C48':'partial','C53':'partial','C55':'partial','C56':'partial','C58':'partial','C59':'partial','C60':'partial','C61':'partial','C65':'partial','C66':'partial','C80':'partial','C82':'partial'}
NOTES={
'C01':'All strings not of reference form, any following text.',
'C02':'Exact value seen under standard quoting, and the iff for faithfulness.',
'C03':'The unconditional claim is false (C03_refuted: a value with a doubled quote injects SQL); proved for values without a doubled quote character.',
'C06':'The unconditional claim is false (C06_refuted); proved for names in which every quote character belongs to a pair around a non-empty text, in particular names without quotes.',
'C16':'The minimum is not enforced on list items (C16_refuted); the width bounds that do hold are proved.',
'C18':'False in general (C18_refuted: keyword arguments beside a Q object or a dictionary are dropped, false table names are dropped; keyword arguments beside conditions do not matter, whatever they are: C18_refuted_conditions, C18_refuted_on); proved for what the parser consumes and for the calls without such mixes (C18_where_partial, C18_having_partial, C18_update_where_partial, C18_delete_where_partial, C18_on_partial, C18_update_on_partial, C18_delete_on_partial); after columns and from_ everything named is in the query and nothing else was added (C18_columns_partial, C18_from_partial, C18_delete_from_partial; likewise for from_table, delete, into and table: C18_from_table_partial, C18_delete_from_table_partial, C18_delete_tables_partial, C18_into_partial, C18_table_partial); after order_by and group_by every column named, or an equal one, is among the orders and no other column was added (C18_order_partial, C18_group_partial); after set, values and on_duplicate_key_update every assignment given, or one that == calls equal, is in the query and no other was added (C18_set_partial, C18_values_partial, C18_on_duplicate_partial for MySQL, C18_on_conflict_partial for PostgreSQL).',
'C19':'False for the names options and self (C19_refuted, C19_refuted_self); proved for every other keyword name.',
'C20':'Nothing given is ever lost or moved, for all histories, also with failing calls; first-use order without repetition is proved for named columns, in HAVING also for aggregates, with plain values. In general false: C20_refuted (custom SQL equals a string), C20_refuted_repeated (the same single object twice).',
'C21':'Nothing given is ever lost or moved, for all histories; first-use order without repetition proved for named columns, tables without joins, plain assignments. In general false: C21_refuted, C21_refuted_tables.',
'C22':'For columns given by name, over all histories.',
'C23':'Exact guard proved for all histories (C23_confirm, C23_no_accident). False as stated that a given condition always shows: C23_refuted (empty Q object gives an empty WHERE); proved for histories with a column condition.',
'C24':'Same as C23 for UPDATE.',
'C28':'False when a join involves a query: C28_refuted (rendering a nested query merges its joins, which can make two joins of the outer query equal). C28_nested_partial proves it for every object in whose joins there is no query, whichever of the queries inside were rendered, how often, and whether or not the renderings succeeded; the other theorems are about the joins of the rendered query itself, where the queries inside it stay as they are.',
'C29':'False: C29_refuted and C29_nested_refuted (rendering merges joins, so a later on() reaches another join); proved, for queries whose nested queries stay as they are, that all other clauses are untouched, and that queries whose joins all differ are not influenced at all; both also for UPDATE and DELETE. For INSERT it holds without restriction (C29_insert).',
'C34':'Per backend behaviour proved; as stated false: the PostgreSQL text lacks SET after DO UPDATE (C34_refuted) and the default backend renders nothing (C34_refuted_noop).',
'C30':'Exact result for joins of named tables with plain conditions; for arbitrary objects nothing new appears and different joins are left alone.',
'C47':'For every object there is a number of nested calls from which rendering and comparison no longer depend on the limit; no single number is enough for all objects.',
'C27':'Order and uniqueness on the tokens the server reads, for SELECT, UPDATE and DELETE built without custom SQL; commutation for all calls on different clauses of all four statements, also failing ones.',
'C41':'The scope is the predicate NoRaw (Spec/Safe.lean). Outside it: C41_convert_raw, C41_infinite and C41_empty_q show what the exclusions are for.',
'C42':'Balance on the tokens, in the scope of C41; own parentheses for every object, also with custom SQL, at every depth. A select given as a whole condition is not parenthesised (C42_bare_condition).',
'C12':'In the scope of C41 (NoRaw); the values the server reads are arbitrary, so every column type is covered. For NOT IN the values other than None are assumed not to be NULL.',
'C36':'Every tree object has the truth value of the tree, alone and in WHERE and HAVING clauses. As stated false: C36_refuted (Q(Not(..), Q(..)) takes its two arguments as column and value).',
'C37':'Proved for expressions that need no parentheses (Spec UnionTree.Regular) and selects without tail clauses; for such selects with different texts the restriction is exact (C37_exact); C37_answers_partial gives the bag in terms of the parts of each select (C75). C37_last_partial: ORDER BY, LIMIT, ... of the last select apply to the whole union; C37_accepted: the databases accept the text exactly if no other select has them. In general false: C37_refuted (a & (b | c) is written as (a & b) | c), C37_refuted_limit.',
'C38':'Every clause of every kind of query, all plain words, plus the option names. False as stated for two parts: C38_refuted (select_for_update answers hasattr) and C38_refuted_keyword (AttributeError).',
'C46':'Aggregates, COUNT(*), DISTINCT and CONVERT for every argument; CONCAT and GROUP_CONCAT for arguments no two of which are equal. In general false: C46_refuted (a repeated argument is dropped), C46_refuted_empty, C46_refuted_convert.',
'C43':'A call that gives one entry and fails leaves the query as it was, for all calls of the four kinds of query; a call that gives several entries and raises has done nothing, or what the same call with only the entries before some entry does (C43_*_stop_partial, for on_duplicate_key_update with the column of the conflict on PostgreSQL); str leaves the rendering unchanged. False in general: C43_refuted (limit with a bad offset keeps the limit), C43_refuted_where (where with several pairs keeps the first ones), C43_refuted_conflict (PostgreSQL conflict column stays).',
'C49':'All objects without booleans and bytes, at any depth; the restrictions of the back ends are stated in C49_restrictions.',
'C40':'Reflexive for all objects without NaN, generators, sets and dictionaries; symmetric for all objects in which nothing is compared by text; within one number type, without time zones and with ON conditions written in one direction, equality is identity, so equal queries have equal text. False in general: C40_refuted (NaN), C40_refuted_symmetric (custom SQL), C40_refuted_text (1 and 1.0), C40_refuted_zones, C40_refuted_on, C40_refuted_conflict, C40_refuted_raise. C40_datetimes, C40_naive: datetimes with a time zone are equal iff they are the same instant, counted in days of the calendar (C40_all_dates), others iff they are the same. C40_numbers, C40_infinite, C40_nan, C40_itself, C40_itself_number, C40_lists: when other plain values are equal.',
'C44':'For all histories of calls whose arguments are regular objects (Spec/Regular.lean, Spec/Calls.lean), on all four kinds of query, for all constructors, str and ==; the results are regular again, so arguments may be built the same way. False in general: C44_refuted (order_by with a number as direction), C44_refuted_limit, C44_refuted_keys, C44_refuted_sqlite, C44_refuted_values.',
'C39':'All graphs of objects with cycles and sharing, all later histories of reads, writes and allocations by holders of the original and of the copy. The text is the same unless a set is involved (C39_text_partial); C39_refuted: a copied set may iterate in another order. C39_works and C39_raises say when copying succeeds.',
'C48':'On the memory model of Model/HeapCalls.lean, for every heap, every method call and every behaviour of comparison and rendering that changes nothing but generators and joins: only the receiver, its own parts and a joined one-entry dictionary change; other objects look and render the same. False in general: C48_refuted (join pops the entry of a dictionary), C48_refuted_generator (where consumes a generator).',
'C52':'An equivalence for every state of a query, also for errors (the text exists iff the text of every clause exists). Texts of names, values and conditions inside the clauses are the texts of R(name), V(value), Q(condition).',
'C51':'On the memory model of Model/HeapCalls.lean, for every heap, call and behaviour of comparison and rendering that changes nothing but generators and joins and creates no references to other objects. Lists nested in the list of values, and the argument of GroupConcat.separator, are kept; an example shows it.',
'C53':'A strict total order of texts for strings and all objects without an own equality; < and >= of queries too; TypeError for everything else. As stated false: C53_refuted (two different queries with the same text are each > the other; a query is > its own text).',
'C54':'For all objects and all behaviours of rendering.',
'C55':'Which objects are hashable is characterised exactly; a select can be the key, a select or union can always be given as a pair. As stated false: C55_refuted (a union is unhashable because its class defines == and no hash).',
'C56':'For all histories whose conditions are pairs with exact comparisons (named columns, plain values, also lists), in the scope of C41 (NoRaw); the row and the truth values of the predicates are arbitrary. In general false: C56_refuted (custom SQL equals a string, so the second condition is lost and more rows are chosen).',
'C57':'For all memories, calls and histories, and for every behaviour of comparing, rendering and sorting that goes by values (Faithful, which C57_faithful shows can be met); the calls between which str() minimises joins in place are left out here.',
'C59':'Queries of names without quote characters, strings, integers, None, lists of these, R, aggregates, concat, group_concat and convert of named columns, selects nested to any depth as column, table or value, EXISTS, Not and conditions combined by | and &, with joins that are not repeated; INSERT into named tables with rows that all have the same columns. For unions of such selects the text tells the selects and the operators between them (C59_union_partial), and so the union when selects are added one by one (C59_union_built); parentheses are lost (C59_refuted_union). Q objects of several conditions combined by | and & can not be told from conditions combined by & (C59_refuted_q). Missing: custom SQL, nested unions and other value types. False in general (C59_refuted): a string that looks like a quoted name is written like the name.',
'C60':'All calls that give names or pairs, in every notation and all portions, on all four kinds of query, also when a call raises; on_duplicate_key_update for MySQL. Several Q objects in one where: if no two are equal. False in general (C60_refuted): where(q, q) adds q once, where(q).where(q) twice.',
'C61':'All programs of calls and configure on all four kinds of query, if nothing that is compared by its text (custom SQL, V, R, functions) is involved; without full_join and on_duplicate_key_update. These exceptions are real: full_join and on_duplicate_key_update ask the backend at once (C61_refuted, C61_refuted_insert), and custom SQL compared by text can make a condition disappear under one backend only (C61_refuted_text).',
'C63':'False for the calls that follow: C63_refuted (has(\'tables\', value) merges joins, so a later on() reaches another join). Proved: text and all answers are unchanged, later calls that do not concern tables do the same, and nothing at all changes unless a table has two equal joins; in full for INSERT (C63_insert).',
'C64':'False: the value is put into a regular expression as it is. C64_refuted (a dot matches any character), C64_refuted_function (parentheses are a group, so Count(\'x\') is not found), C64_refuted_raises (COUNT(*) raises re.error), C64_refuted_dotted (a dotted name does not find its own column). Proved: the exact answer for all values of ordinary characters, dots and parentheses (C64_*_partial), for values whose parts each stand for one character (C64_*_parts), and for all values of the grammar of regular expressions, character sets, escapes and counted repetition included (C64_*_regex); re.error for values that make no regular expression (C64_*_bad: multiple repeat, nothing to repeat, a range or a count that goes backwards, a range from a class, an unbalanced parenthesis); the claim itself holds of values whose special characters are behind backslashes, as re.escape writes them (C64_*_escaped, C64_escape).',
'C62':'All histories on SELECT, UPDATE and DELETE with tables and conditions that are compared exactly (names and plain values).',
'C58':'All schedules, all calls of where and having, and calls of columns, set and from_ with plain arguments; bounded number of steps; alone a thread does what the functional model says. For order_by and group_by by names and numbers of columns: orders there stay first, added ones in order, every direction is one that was given for the column, and a column given by one call only has its last direction (C58_orders, C58_order_own, C58_order_kept, C58_order_ends). False: two threads may add equal parts (C58_refuted, C58_refuted_order); within one call, and against what was there before, no part is added twice (C58_where_partial). Comparing two parts is one step; from_ is modelled without joins at the same time.',
'C65':'False: rendering assigns an empty list to the joins of a table and fills it again. C65_refuted (another thread writes the query without its joins), C65_refuted_lost (two renderings lose a join for good), C65_refuted_twice (a join is written twice), C65_refuted_join (a join called meanwhile is lost). Proved: a thread that is not disturbed writes the text and leaves the tables of the functional model, wherever the others stand, if the list of joins is complete when it begins (C65_alone); any number of threads in turns; all schedules for queries without joins; and under every schedule, also with calls of join, no join is written that was not given.',
'C66':'For assignments with exact comparisons; the server carries out SET from left to right, as MySQL does. False: set(a=1), set(a=2), set(a=1) leaves 2, because the third call is dropped as a repetition of the first (C66_refuted), and set(a=1), set(a=2) assigns a column twice (C66_refuted_once). Proved: what the server leaves in any case (C66_effect), that the last value wins exactly for histories that never set a column back (C66_last_wins_partial, C66_exact), and that a column is assigned once exactly if it is never given two values (C66_once).',
'C67':'False: _minimize_joins empties self._joins and fills it again, so a rendering that is interrupted in between leaves the query without some of its joins, for good (C67_refuted). Proved: after any number of renderings interrupted at any other point the next one gives the text of the query (C67_turns_partial); queries without joins may be interrupted anywhere (C67_no_joins_partial); after one interruption at any point at most one table is damaged, and it keeps its name, its alias and the first of its merged joins (C67_cut_partial). Queries inside the joins are left out, as in C65.',
'C68':'One table, no joins and no raw SQL; conditions and assignments with exact comparisons (C20, C21); the server reads the tokens of the text (Spec/Effects.lean) and carries out assignments from left to right. False without a restriction: set(a=1), set(a=2), set(a=1) leaves 2 (C68_refuted). Proved for every database, every server and every history of calls: C68_update_partial (for histories that never set a column back), C68_delete_partial, C68_insert_partial (rows given by keywords). Different names are taken to be different columns.',
'C69':'One table without alias, no joins and no raw SQL, columns and sort keys given by name, conditions with exact comparisons (C20); no grouping, no DISTINCT, no output to a file; limits that are not negative. The server reads the tokens of the text (Spec/Answers.lean); how it sorts and evaluates predicates is arbitrary. False without a restriction: limit(-1) is accepted and writes LIMIT -1, to which there is no answer (C69_refuted). Proved for every database, every server and every history of calls: C69_rows_partial and, for pages, C69_pages_partial.',
'C70':"False (C70_refuted: OFFSET without LIMIT on MySQL; C70_refuted_insert: DO UPDATE without SET on PostgreSQL). What is proved is, clause by clause and for every history of calls, exactly when the database accepts the clause: C70_paging_partial (an offset needs a limit on MySQL and SQLite, no negative numbers on MySQL and PostgreSQL), C70_export_partial (MySQL only; a quotation mark needs a field separator and no line end, because it is written last; strings only), C70_lock_partial (FOR UPDATE not on SQLite), C70_words_partial (PostgreSQL and SQLite: only all and distinct), C70_insert_partial (ignore only on MySQL; on PostgreSQL nothing may be assigned on conflict). Statements without raw SQL; the forms the databases allow are in Spec/Accepted.lean, and Spec/AcceptedChanges.lean, after their manuals. C70_update_partial and C70_delete_partial say exactly when UPDATE and DELETE are accepted (PostgreSQL and SQLite: no ignore, no targets, one table and no join; MySQL: without targets one table without alias; names of tables are strings), with C70_refuted_update and C70_refuted_delete. C70_joins holds without exception: no FULL JOIN is ever written for MySQL and SQLite.",
'C71':'False in full (C71_refuted: a left join and an inner join of one table on one condition are merged into one inner join, C24). Proved for tables listed once and joined once, all by name (no subqueries), conditions in on() with exact comparisons (C20), no raw SQL; the server is arbitrary except that it does not tell a comparison of two columns from its mirror image (MirrorsAgree). C71_select_partial, C71_update_partial and C71_delete_partial give the combined rows, C71_rows_partial the whole answer of a SELECT. C78_sources, C79_update_sources and C79_delete_sources extend this to subqueries as tables and to conditions of every kind. What is missing: tables joined repeatedly under one name.',
'C72':"False in full (C72_refuted: columns(count('id'), 'COUNT(\"id\")') selects the aggregate only, columns and aggregates are compared by text). C72_rows_partial: any calls except into_outfile, with the tables of C71; columns are names without '(' or aggregates (avg, count, max, min, sum, with or without DISTINCT) of * or of a column with one spelling; conditions of where compare a column with a value, those of having a column, an alias or an aggregate (C20_having_aggregates_partial); grouping by columns or aliases, sorting by columns, aliases or aggregates (C22_order_by_aggregates); no raw SQL. The server is arbitrary: grouping, merging and sorting are any functions. C72_plain: where nothing is grouped, computed or merged the answer is that of C69. Missing: concat, group_concat, convert and subqueries as columns, sorting by number.",
'C73':"False in full (C73_refuted: set('y', 1), set('y', 2) tells the server both assignments; MySQL promises no order of assignments in an UPDATE of several tables, PostgreSQL rejects the statement). C73_update_partial: the combined rows are exactly those asked for, with the tables of C71, conditions that compare a column with a value (C20), and assignments by name with exact comparisons (C21); each assignment given is read once, in the order of first use. C73_settled: no column is assigned twice if none is given two values. C73_delete_partial: the same rows, and exactly the tables named in delete(), without aliases. How the server carries the changes out is any function. What is missing: subqueries, raw SQL, tables joined repeatedly.",
"C74": "For all statements without custom SQL (NoRaw). ref and lit are any functions that agree with what the library writes for one column, table or value; they exist (refs_exist, literals_exist). Tables are those of the query after str(query), because str merges joins of the same table (C57). Rows of INSERT are in C68_insert, which already allows any values.",
"C75": "For all SELECT, UPDATE and DELETE objects without custom SQL (NoRaw); a SELECT without INTO OUTFILE and with nonnegative limit and offset; a DELETE whose tables before FROM have no joins (there is no call that gives them any). Tables are those of the query after str(query), because str merges joins of the same table (C24, C57). A server that answers inner queries (AnswersInside) exists for every base server (C75_server_exists). Queries in conditions: C75_compares and C75_exists; a server that judges all of them by their answers, at every depth and also with columns of the row around them, exists for every base server (C75_judge_exists). What the calls put into the query object is C20 to C24, C56 to C58; unions are C37 (C37_answers_partial).",
"C76": "GivesConditions leaves out arguments of which the library drops some (C18). The proviso about equal conditions is part of the statement and needed: C56_refuted gives two conditions that are == and true of different rows. C76_*_failing and C76_*_each are the two parts that hold also when calls raise.",
"C77": "Strengthens C68_insert_partial (keyword rows only, no options, no ON DUPLICATE KEY UPDATE): values may be queries, calls may fail, options and updates are read too. Columns are assumed to be named so that the server tells them apart. PostgreSQL with on_duplicate_key_update is left to C34.",
"C78": "Strengthens C72_rows_partial, which asks for names and aggregates of names. C78_answer takes the rows of the sources from the FROM clause; C78_named says what they are for tables listed and joined by name, C78_one_table for a single table that may be a query, C78_inside that the rows of such a query are its answer. C78_sources says what they are for all tables, joins and conditions of joins without custom SQL, if no two tables, and no two joins of one table, have equal names and aliases (C24, C71_refuted); C78_everything puts the parts together. Columns that == takes for equal are written once; that == agrees with the meaning is asked for conditions only (EqualsAgree), as in C76.",
"C79": "Strengthens C73, which asks for conditions and assignments that compare or assign plain values. C79_update and C79_delete take the combined rows from the text of the tables; C79_update_named and C79_delete_named say what they are for tables listed and joined by name (C71); C79_update_sources and C79_delete_sources for all tables, joins and conditions of joins, with queries too, if no two tables, and no two joins of one table, have equal names and aliases; C79_update_everything and C79_delete_everything put the parts together. That == agrees with the meaning is asked for conditions only (EqualsAgree), as in C76.",
"C80": "False for one segment: an asterisk between quotes is written without them (C80_refuted). Proved for all other names; C80_quotes_optional includes it.",
"C81": "Steps as in C58: making a value, comparing it with one part, appending. C81_rows (any moment), C81_outcome, C81_ends, C81_linear (when all have ended).",
"C82": "False of the code: limit() with two things to say makes two assignments, so limit(10, 20) and limit(5, 30) by two threads can leave LIMIT 5 OFFSET 20 (C82_refuted), and a clause written while another thread calls limit(None) can be LIMIT None (C82_text_refuted). Proved: C82_partial for calls that say one thing, C82_rest_partial for everything but limit and offset, C82_one_thread_partial when one thread sets limit and offset, C82_values, C82_alone, C82_ends for all calls, C82_text_partial when nothing is cleared, C82_text_alone.",
"C17": "C17_ascending says in which order the items of a dictionary are taken, whatever its keys; C17_mixed_keys that strings and numbers do not go together.",
}
