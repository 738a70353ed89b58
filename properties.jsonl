{"id": "C01", "title": "A string value becomes exactly one SQL string literal that decodes to the value (backslash dialects)", "statement": "For every string value that is not written in the form of a quoted reference, the text produced for it is one complete string literal under the lexical rules of a server that honours backslash escapes (MySQL), whatever text follows it, and the literal denotes exactly the original string.", "quantifier": "all strings of any length and content, all continuations of the statement, all backends", "why_tests_cant": "The set of strings is infinite; combinations of quotes, backslashes and newlines interact, and escaping bugs live in the combinations nobody wrote a test for.", "anchors": ["sqlpuzzle/_common/sqlvalue.py:_escape_value", "sqlpuzzle/_common/sqlvalue.py:SqlValue._string"]}
{"id": "C02", "title": "A string value never escapes its literal under standard quoting, and the stored text is known exactly", "statement": "Under standard SQL lexical rules (backslash is an ordinary character) the text produced for a non-reference string value is also one complete literal, whatever follows. The value the server sees equals the original exactly when the original has no backslash and no newline; otherwise it is the original with backslashes doubled and newlines turned into a backslash and an n.", "quantifier": "all strings, all continuations", "why_tests_cant": "Same as C01; the exact condition for a faithful round trip is a statement about all strings.", "anchors": ["sqlpuzzle/_common/sqlvalue.py:_escape_value", "sqlpuzzle/_common/sqlvalue.py:SqlValue._string"]}
{"id": "C03", "title": "A string value can never inject SQL, even when it looks like a quoted reference", "statement": "Whatever string is passed as a value, the text produced for it consists of one literal, or of a dotted sequence of quoted identifiers, and nothing else.", "quantifier": "all strings, all backends", "why_tests_cant": "Needs all strings; a random tester does not find the quote patterns on which the two regular expressions of the library disagree.", "anchors": ["sqlpuzzle/_backends/sql.py:SqlBackend.is_reference", "sqlpuzzle/_backends/sql.py:SqlBackend.reference", "sqlpuzzle/_common/sqlvalue.py:SqlValue._string"]}
{"id": "C04", "title": "A plain dotted name becomes quoted identifiers, segment by segment", "statement": "A name that does not contain the quote character is rendered as its non-empty dot-separated segments, each in quote characters except a lone asterisk, joined by dots; the server's lexer reads back exactly those segments.", "quantifier": "all names without the quote character, all backends", "why_tests_cant": "Infinitely many names, including empty segments, spaces, quotes of other kinds and non-ASCII text.", "anchors": ["sqlpuzzle/_backends/sql.py:SqlBackend.reference", "sqlpuzzle/_common/sqlvalue.py:SqlReference"]}
{"id": "C05", "title": "Quoting a name is idempotent", "statement": "Rendering a name that is already a rendered plain name (each segment in quotes) gives the same text again, and such a text passed as a value is rendered as that reference.", "quantifier": "all plain dotted names, all backends", "why_tests_cant": "Infinitely many names and segment counts.", "anchors": ["sqlpuzzle/_backends/sql.py:SqlBackend.reference", "sqlpuzzle/_backends/sql.py:SqlBackend.is_reference"]}
{"id": "C06", "title": "A name can never break out of its quotes", "statement": "Whatever string is used as a table or column name, the text produced for it lexes as identifiers, dots and asterisks only.", "quantifier": "all strings, all backends", "why_tests_cant": "Needs all strings.", "anchors": ["sqlpuzzle/_backends/sql.py:SqlBackend.reference"]}
{"id": "C07", "title": "Integers are rendered exactly", "statement": "The text of an integer is its canonical decimal numeral: reading it back gives the same integer, different integers have different texts, and the text consists of digits with an optional leading minus sign.", "quantifier": "all integers", "why_tests_cant": "Unbounded domain.", "anchors": ["sqlpuzzle/_common/sqlvalue.py:SqlValue._integer"]}
{"id": "C08", "title": "Floats and decimals are rendered to five decimals, correctly rounded", "statement": "The text of a finite float or decimal has exactly five digits after the point and denotes a number within 0.000005 of the value, the nearest one, ties to even; values with at most five decimals are exact. Infinities and NaN produce no SQL number.", "quantifier": "all finite doubles and decimals, of any size and exponent", "why_tests_cant": "The domain is huge and rounding bugs sit on ties and at extreme exponents.", "anchors": ["sqlpuzzle/_common/sqlvalue.py:SqlValue._float"]}
{"id": "C09", "title": "Booleans, None and bytes are rendered losslessly for every backend", "statement": "None becomes NULL, booleans become 1/0 (true/false on PostgreSQL) and bytes become a literal from which the server recovers exactly the same bytes, on every backend.", "quantifier": "all byte strings, both booleans, all backends", "why_tests_cant": "All byte strings of all lengths.", "anchors": ["sqlpuzzle/_common/sqlvalue.py:SqlValue._bytes", "sqlpuzzle/_common/sqlvalue.py:SqlValue._boolean", "sqlpuzzle/_common/sqlvalue.py:SqlValue._null", "sqlpuzzle/_backends/sql.py:SqlBackend.bytes", "sqlpuzzle/_backends/postgresql.py:PostgreSqlBackend.bytes"]}
{"id": "C10", "title": "Dates and datetimes become one literal that identifies the moment", "statement": "A date or datetime is rendered as one quoted ISO literal free of quotes and backslashes, and different dates (datetimes) have different literals.", "quantifier": "all valid dates, times, microseconds and UTC offsets", "why_tests_cant": "Too many combinations; optional fields (microseconds, offset) interact.", "anchors": ["sqlpuzzle/_common/sqlvalue.py:SqlValue._date", "sqlpuzzle/_common/sqlvalue.py:SqlValue._datetime"]}
{"id": "C11", "title": "Lists are rendered item by item and an empty list is refused", "statement": "A non-empty list, tuple, set or range value is rendered as its items, each rendered as a value, in order, in parentheses, at any nesting depth; an empty one raises InvalidArgumentException.", "quantifier": "all nested lists", "why_tests_cant": "Unbounded length and nesting.", "anchors": ["sqlpuzzle/_common/sqlvalue.py:SqlValue._list"]}
{"id": "C12", "title": "IN and NOT IN with None mean what the user expects", "statement": "For every list of values (with or without None, repeated or not), the rendered IN condition selects exactly the rows whose column equals one of the values, NULL counting as equal to None; NOT IN with None in the list selects exactly the rows whose column is not NULL and differs from all other values; NOT IN without None selects the rows whose column is not NULL and differs from all values. The empty list raises.", "quantifier": "all lists, all column values, three-valued logic", "why_tests_cant": "All lists with None at any position and any multiplicity; semantics in three-valued logic.", "anchors": ["sqlpuzzle/relations.py:IN", "sqlpuzzle/relations.py:NOT_IN"]}
{"id": "C13", "title": "The default relation is determined by the value's type", "statement": "A condition given a bare value uses = for scalars, IN for lists, tuples, ranges and generators, IS for None, also when the value is wrapped by V() or R(); an explicit relation is kept as it is.", "quantifier": "all values", "why_tests_cant": "All values, including wrapped and nested ones.", "anchors": ["sqlpuzzle/_queryparts/conditions.py:Condition._default_relations", "sqlpuzzle/_queryparts/conditions.py:Condition.value"]}
{"id": "C14", "title": "Relations accept exactly the documented types", "statement": "A relation constructor accepts a value iff it is an SQL object or has one of the relation's types (booleans only for =, != and IS); otherwise it raises InvalidArgumentException. IN accepts every iterable.", "quantifier": "all relations, all values", "why_tests_cant": "All relation/type pairs over all values.", "anchors": ["sqlpuzzle/relations.py:_RelationValue._check_value_type", "sqlpuzzle/relations.py:IN.__init__"]}
{"id": "C15", "title": "Invalid argument types are refused before they reach the query", "statement": "For every position (column, alias, table, order column, condition column and value, set column and value, limit, offset, outfile options) an argument is accepted only if it is an SQL object or of an allowed type; otherwise InvalidArgumentException is raised and that item does not enter the query.", "quantifier": "all values in all positions", "why_tests_cant": "All values in all positions.", "anchors": ["sqlpuzzle/_common/utils.py:check_type_decorator", "sqlpuzzle/_queryparts/columns.py:Column", "sqlpuzzle/_queryparts/tables.py:Table", "sqlpuzzle/_queryparts/order.py:Order", "sqlpuzzle/_queryparts/values.py:Value", "sqlpuzzle/_queryparts/limit.py:Limit"]}
{"id": "C16", "title": "The argument parser produces tuples of the declared width", "statement": "Whenever parsing of arguments succeeds, every produced tuple has exactly the maximal width, missing items are None and come last, and every produced tuple had at least the minimal number of items.", "quantifier": "all options, all positional and keyword arguments", "why_tests_cant": "All argument shapes.", "anchors": ["sqlpuzzle/_common/argsparser.py:parse_args", "sqlpuzzle/_common/argsparser.py:Parser"]}
{"id": "C17", "title": "All calling styles are equivalent", "statement": "Keyword arguments, a dictionary with the same items, and a list or sequence of pairs in sorted order produce the same result, and the order in which dictionary items or keyword arguments were written does not matter. The items are taken in ascending order of their keys: strings and library objects by their texts, integers by their values. (Keyword names options and self are the subject of C19.)", "quantifier": "all sets of named arguments and all their permutations", "why_tests_cant": "All permutations of all argument sets.", "anchors": ["sqlpuzzle/_common/argsparser.py:Parser.parse", "sqlpuzzle/_common/argsparser.py:Parser._parse_dictionary", "sqlpuzzle/__init__.py:select"]}
{"id": "C18", "title": "No argument is silently ignored", "statement": "Every argument of a call that does not raise influences the query: it is not dropped.", "quantifier": "all calls", "why_tests_cant": "All combinations of positional, dictionary and keyword arguments.", "anchors": ["sqlpuzzle/_common/argsparser.py:Parser.parse", "sqlpuzzle/_queryparts/conditions.py:Conditions.where", "sqlpuzzle/_queryparts/tables.py:Tables.set"]}
{"id": "C19", "title": "Every column name can be used as a keyword argument", "statement": "For every identifier, passing it as a keyword argument to where, set, values, columns etc. behaves like passing it in a dictionary.", "quantifier": "all identifiers", "why_tests_cant": "All identifiers; collisions with internal parameter names are invisible in tests that use other names.", "anchors": ["sqlpuzzle/_common/argsparser.py:parse_args", "sqlpuzzle/_queryparts/queryparts.py:append_custom_sql_decorator"]}
{"id": "C20", "title": "Conditions accumulate: conjunction, first-use order, no duplicates, nothing lost", "statement": "After any sequence of where (having) calls the clause is the conjunction of all given conditions; each distinct condition occurs once, in the order of its first use; no earlier condition is changed or removed by a later call.", "quantifier": "all sequences of calls", "why_tests_cant": "All histories.", "anchors": ["sqlpuzzle/_queryparts/conditions.py:Conditions.where", "sqlpuzzle/_queryparts/queryparts.py:QueryParts.append_unique_part"]}
{"id": "C21", "title": "Columns, tables and assignments accumulate without duplicates, in order of first use", "statement": "After any sequence of calls, the column list (table list, set list) contains each distinct item once, in the order of first use, and earlier items are never changed by later calls.", "quantifier": "all sequences of calls", "why_tests_cant": "All histories.", "anchors": ["sqlpuzzle/_queryparts/columns.py:Columns.columns", "sqlpuzzle/_queryparts/tables.py:Tables.set", "sqlpuzzle/_queryparts/values.py:Values.set"]}
{"id": "C22", "title": "order_by and group_by behave as an insertion-ordered map from column to direction", "statement": "After any sequence of calls with columns given by name each column occurs once, at the position of its first use, with the direction of its last use.", "quantifier": "all sequences of calls with any columns and directions", "why_tests_cant": "All histories.", "anchors": ["sqlpuzzle/_queryparts/order.py:Orders.order"]}
{"id": "C23", "title": "DELETE without WHERE is never produced by accident", "statement": "Rendering a delete query that has no condition raises ConfirmDeleteAllException unless the last allow/forbid call was allow_delete_all; if it is rendered without raising and all-deletion was not allowed last, the statement contains a WHERE clause with a condition.", "quantifier": "all histories of calls", "why_tests_cant": "All histories.", "anchors": ["sqlpuzzle/_queries/delete.py:Delete.__str__", "sqlpuzzle/_queries/delete.py:Delete.allow_delete_all"]}
{"id": "C24", "title": "UPDATE without WHERE is never produced by accident", "statement": "Same as C23 for update queries and ConfirmUpdateAllException.", "quantifier": "all histories of calls", "why_tests_cant": "All histories.", "anchors": ["sqlpuzzle/_queries/update.py:Update.__str__", "sqlpuzzle/_queries/update.py:Update.allow_update_all"]}
{"id": "C25", "title": "LIMIT and OFFSET reflect the last successful setting", "statement": "After any sequence of limit/offset calls the rendered clause is determined by the last successful settings: limit(None) clears both, offset(None) and offset(0) clear the offset, limit(n) keeps the offset.", "quantifier": "all sequences of calls with any arguments", "why_tests_cant": "All histories.", "anchors": ["sqlpuzzle/_queryparts/limit.py:Limit"]}
{"id": "C26", "title": "SELECT options are exclusive per group, order-independent and rendered in a fixed order", "statement": "After any sequence of option calls at most one of ALL/DISTINCT/DISTINCTROW and one of SQL_CACHE/SQL_NO_CACHE is present, namely the last one set in its group if not switched off; calls on different groups commute; the words are rendered in ascending order without repetition.", "quantifier": "all sequences of option calls", "why_tests_cant": "All histories.", "anchors": ["sqlpuzzle/_queries/selectoptions.py:SelectOptions", "sqlpuzzle/_queries/options.py:Options.__str__"]}
{"id": "C27", "title": "Clauses come out in SQL order no matter in which order they were specified", "statement": "The rendered statement is keyword, options, columns, FROM, WHERE, GROUP BY, HAVING, ORDER BY, LIMIT/OFFSET, INTO OUTFILE, FOR UPDATE, each at most once; calls that concern different clauses commute.", "quantifier": "all queries, all permutations of calls on different clauses", "why_tests_cant": "All interleavings of calls.", "anchors": ["sqlpuzzle/_queries/query.py:Query.__str__", "sqlpuzzle/_queries/select.py:Select"]}
{"id": "C28", "title": "Rendering is repeatable", "statement": "Rendering a query twice in a row gives the same text (or the same exception).", "quantifier": "all queries", "why_tests_cant": "All queries, including those whose joins are rewritten by rendering.", "anchors": ["sqlpuzzle/_queries/query.py:Query.__str__", "sqlpuzzle/_queryparts/tables.py:Table._minimize_joins"]}
{"id": "C29", "title": "Rendering has no influence on what later calls do", "statement": "Inserting str(query) anywhere into a history of calls does not change the final text.", "quantifier": "all histories, all insertion points", "why_tests_cant": "All histories; tests render once at the end.", "anchors": ["sqlpuzzle/_queryparts/tables.py:Table.__str__", "sqlpuzzle/_queryparts/tables.py:Table._minimize_joins"]}
{"id": "C30", "title": "Join minimisation only merges repeated joins", "statement": "Rendering merges joins of the same table with the same condition: if one of them is inner the result is one inner join, if all have the same type one of that type, otherwise all are kept; joins that occur once are never changed, removed or reordered relative to each other; nothing else is merged.", "quantifier": "all lists of joins", "why_tests_cant": "All lists of joins with arbitrary repetitions.", "anchors": ["sqlpuzzle/_queryparts/tables.py:Table._minimize_joins"]}
{"id": "C31", "title": "join and on have their preconditions enforced", "statement": "join before any table and on before any join raise InvalidQueryException and change nothing; full_join raises on every backend except PostgreSQL; otherwise a join is appended to the last table, and on adds its condition to the last join only.", "quantifier": "all queries, all arguments, all backends", "why_tests_cant": "All states.", "anchors": ["sqlpuzzle/_queryparts/tables.py:Tables.last_table", "sqlpuzzle/_queryparts/tables.py:Table.on", "sqlpuzzle/_queryparts/tables.py:Tables.full_join"]}
{"id": "C32", "title": "INSERT is rectangular and values stay with their columns", "statement": "Every rendered row has exactly as many values as there are columns; the value under a column is the value the user gave for that column in that row, or NULL if none was given.", "quantifier": "all sequences of rows with arbitrary, different column sets", "why_tests_cant": "All row shapes.", "anchors": ["sqlpuzzle/_queryparts/values.py:MultipleValues", "sqlpuzzle/_queryparts/values.py:Values.values"]}
{"id": "C33", "title": "INSERT lists every used column once, sorted, and rows in call order", "statement": "The column list contains exactly the columns used in some row, once each, in ascending order; rows appear in call order; the order in which columns are given within a row does not matter.", "quantifier": "all sequences of rows", "why_tests_cant": "All row shapes and permutations.", "anchors": ["sqlpuzzle/_queryparts/values.py:MultipleValues.all_columns"]}
{"id": "C34", "title": "on_duplicate_key_update does what the configured backend supports", "statement": "On MySQL the assignments are appended as ON DUPLICATE KEY UPDATE; on PostgreSQL as ON CONFLICT (column) DO UPDATE SET, with the conflict column required; on SQLite the statement becomes REPLACE and arguments are refused; the call is never a silent no-op.", "quantifier": "all calls on all backends", "why_tests_cant": "All argument shapes and backends.", "anchors": ["sqlpuzzle/_queries/insert.py:Insert.on_duplicate_key_update", "sqlpuzzle/_queryparts/onconflictdoupdate.py:OnConflictDoUpdate"]}
{"id": "C35", "title": "configure selects a backend by case-insensitive name and is atomic", "statement": "configure with a known name (in any case) selects that backend; with any other name it raises and the backend stays as it was; the backend in effect is the one of the last successful call.", "quantifier": "all strings, all sequences of configure calls", "why_tests_cant": "All strings and histories.", "anchors": ["sqlpuzzle/_backends/__init__.py:set_backend", "sqlpuzzle/__init__.py:configure"]}
{"id": "C36", "title": "Q trees keep their boolean structure", "statement": "For every tree of conditions built with Q, &, | and Not, the rendered text, read with SQL precedence (NOT over AND over OR) and parentheses, has the truth value of the tree in three-valued logic, in every row; also when trees are combined with further conditions of a where clause.", "quantifier": "all trees of any depth, all rows", "why_tests_cant": "All trees; missing parentheses only matter for particular nestings.", "anchors": ["sqlpuzzle/_queryparts/conditions.py:ConditionsOfConditions", "sqlpuzzle/_queryparts/conditions.py:Conditions", "sqlpuzzle/_queryparts/conditions.py:Not"]}
{"id": "C37", "title": "Unions keep their structure", "statement": "For every expression built with | and & from selects, the rendered text, read with SQL's left-associative UNION and UNION ALL, denotes the same bag of rows as the expression.", "quantifier": "all expressions of any depth, all bags of rows", "why_tests_cant": "All trees.", "anchors": ["sqlpuzzle/_queries/union.py:Union.__str__", "sqlpuzzle/_queries/select.py:Select.__or__", "sqlpuzzle/_queries/select.py:Select.__and__"]}
{"id": "C38", "title": "has() finds whole words only", "statement": "has(part, word) for a plain word is true iff the part is set and the word occurs in its text not preceded or followed by a word character; has(part) is true iff the part is set.", "quantifier": "all queries, all words", "why_tests_cant": "All texts and words.", "anchors": ["sqlpuzzle/_queryparts/queryparts.py:has", "sqlpuzzle/_queries/query.py:Query.has", "sqlpuzzle/_queries/select.py:Select.has"]}
{"id": "C39", "title": "copy() gives an independent query", "statement": "A copy renders like the original at the time of copying; later changes of the copy do not affect the original and vice versa, including changes of shared sub-objects reachable from them.", "quantifier": "all object graphs with arbitrary sharing, all later mutations", "why_tests_cant": "All graphs and histories.", "anchors": ["sqlpuzzle/_common/object.py:Object.copy"]}
{"id": "C40", "title": "Equal queries render equally", "statement": "Query equality is reflexive and symmetric, and equal queries have the same text.", "quantifier": "all pairs of queries", "why_tests_cant": "All pairs.", "anchors": ["sqlpuzzle/_queries/query.py:Query.__eq__", "sqlpuzzle/_queryparts/conditions.py:Condition.__eq__", "sqlpuzzle/_common/object.py:Object.__eq__"]}
{"id": "C41", "title": "No statement built without custom SQL contains anything but literals, quoted names and a fixed vocabulary", "statement": "Every token of a rendered statement that was built without custom SQL, from quote-free non-empty names and non-reference values of the supported types (finite numbers, non-empty lists and Q objects, documented CONVERT types), is a literal, a quoted identifier, a number, or a word or symbol of a fixed list; the statement is complete (no open quote), has no semicolon and no comment; and the sequence of tokens other than literal contents does not depend on the values.", "quantifier": "all queries of any depth, all values and names", "why_tests_cant": "All nestings of all features with all values.", "anchors": ["sqlpuzzle/_queries/query.py:Query.__str__", "sqlpuzzle/_common/sqlvalue.py:SqlValue", "sqlpuzzle/_backends/sql.py:SqlBackend.reference"]}
{"id": "C42", "title": "Subqueries are always parenthesised and parentheses are balanced", "statement": "In every rendered statement (same scope as C41) parentheses are balanced, and a select or union used as a column, table, condition operand or value appears in its own pair of parentheses at every nesting depth.", "quantifier": "all queries of any depth", "why_tests_cant": "All nestings.", "anchors": ["sqlpuzzle/_common/sqlvalue.py:SqlValue._subselect", "sqlpuzzle/_queryparts/conditions.py:ConditionsOfConditions.__str__"]}
{"id": "C43", "title": "A call that raises leaves the query as it was", "statement": "If a method call raises, the query afterwards renders as before the call.", "quantifier": "all states, all calls", "why_tests_cant": "All states and failing calls.", "anchors": ["sqlpuzzle/_queryparts/limit.py:Limit.limit", "sqlpuzzle/_queryparts/conditions.py:Conditions.where", "sqlpuzzle/_queryparts/onconflictdoupdate.py:OnConflictDoUpdate.set"]}
{"id": "C44", "title": "Only the documented exceptions are raised", "statement": "Every exception raised by a builder call with well-formed keyword names is a SqlPuzzleException.", "quantifier": "all calls with any arguments", "why_tests_cant": "All arguments.", "anchors": ["sqlpuzzle/exceptions.py:SqlPuzzleException", "sqlpuzzle/_queryparts/order.py:Order.sort", "sqlpuzzle/_queries/insert.py:Insert.on_duplicate_key_update"]}
{"id": "C45", "title": "Join conditions that are equal up to swapping sides are the same condition", "statement": "Two ON conditions between columns that the library treats as equal hold in the same rows (swapping the sides and reversing the relation), and reversing a relation twice gives it back; an ON condition and its mirror image are always recognised as equal.", "quantifier": "all relations and column pairs, all rows", "why_tests_cant": "All pairs of conditions.", "anchors": ["sqlpuzzle/_queryparts/tables.py:OnCondition.__eq__"]}
{"id": "C46", "title": "Aggregate and string functions render their argument as one reference list", "statement": "avg/count/max/min/sum/concat/group_concat/convert render as NAME(args) with each argument rendered as a reference; distinct adds DISTINCT and nothing else; count without argument is COUNT(*); concat without arguments raises.", "quantifier": "all arguments", "why_tests_cant": "All arguments.", "anchors": ["sqlpuzzle/_queryparts/functions.py:Function", "sqlpuzzle/_queryparts/functions.py:Count", "sqlpuzzle/_queryparts/functions.py:Concat", "sqlpuzzle/_queryparts/functions.py:GroupConcat"]}
{"id": "C47", "title": "Rendering always terminates with an answer that does not depend on stack depth", "statement": "For every query there is a recursion depth (bounded by its size) from which on rendering gives the same text or exception, and that is not a recursion error.", "quantifier": "all queries of any depth", "why_tests_cant": "All nesting depths.", "anchors": ["sqlpuzzle/_common/object.py:Object.tosql", "sqlpuzzle/_common/sqlvalue.py:SqlValue.__str__"]}
{"id": "C48", "title": "Calls do not modify their arguments", "statement": "A list, dictionary or query passed as an argument is the same afterwards.", "quantifier": "all calls", "why_tests_cant": "All calls and arguments.", "anchors": ["sqlpuzzle/_queryparts/tables.py:Table.join", "sqlpuzzle/relations.py:IN.__init__"]}
{"id": "C49", "title": "Only the quoting character and the documented features depend on the backend", "statement": "A statement in which no boolean or bytes value occurs has, on any two backends with the same identifier quote, the same text; sql and sqlite never differ in rendering.", "quantifier": "all queries", "why_tests_cant": "All queries and backend pairs.", "anchors": ["sqlpuzzle/_backends/sql.py:SqlBackend", "sqlpuzzle/_backends/mysql.py:MySqlBackend", "sqlpuzzle/_backends/postgresql.py:PostgreSqlBackend", "sqlpuzzle/_backends/sqlite.py:SqliteBackend"]}
{"id": "C50", "title": "INTO OUTFILE options are rendered only with a file and in a fixed order", "statement": "The outfile clause appears iff into_outfile was called; the options set before or after it appear in the fixed order with the last value each, whatever the order of calls.", "quantifier": "all sequences of outfile calls", "why_tests_cant": "All histories.", "anchors": ["sqlpuzzle/_queryparts/intooutfile.py:IntoOutfile"]}
{"id": "C51", "title": "Lists and dictionaries passed to a method can be changed afterwards", "statement": "A list or dictionary passed to a method as a carrier of arguments, or as the list of values of a condition, is not kept: whatever is done to it later, the query renders the same. (Queries, conditions, functions and lists inside the list of values are kept by reference.)", "quantifier": "all calls, all shapes of arguments, all later changes", "why_tests_cant": "The later change is arbitrary, and objects may be shared in any way.", "anchors": ["sqlpuzzle/relations.py:IN.__init__", "sqlpuzzle/_queryparts/conditions.py:Conditions.where", "sqlpuzzle/_common/argsparser.py:parse_args"]}
{"id": "C52", "title": "A statement is exactly its clauses, in a fixed order", "statement": "The text of a SELECT, INSERT, REPLACE, UPDATE or DELETE consists of the texts of its clauses in the fixed order of the statement, with one blank before each; a clause without content leaves nothing, lists are separated by a comma and a blank, conditions by AND, and the statement begins with its keyword and has no white space at its ends.", "quantifier": "all queries in all states", "why_tests_cant": "Every combination of clauses and contents.", "anchors": ["sqlpuzzle/_queries/query.py:Query.__str__", "sqlpuzzle/_queryparts/queryparts.py:QueryParts.__str__"]}
{"id": "C53", "title": "Comparison operators order library objects and strings by their text", "statement": "Any two of: strings, library objects are ordered by <, <=, > and >= exactly as their SQL texts are ordered as strings; exactly one of <, == and > holds. Compared with anything else the operators raise TypeError.", "quantifier": "all pairs of objects and strings", "why_tests_cant": "All pairs of objects; sorting needs the order laws for all of them.", "anchors": ["sqlpuzzle/_common/object.py:Object.__lt__", "sqlpuzzle/_common/object.py:Object.__eq__"]}
{"id": "C54", "title": "repr shows the class and exactly the SQL text", "statement": "repr of a library object is <Class: text> with exactly the text str gives, and raises exactly when str raises; objects with the same repr have the same class name and the same text.", "quantifier": "all library objects", "why_tests_cant": "All objects and texts, including texts with angle brackets and colons.", "anchors": ["sqlpuzzle/_common/object.py:Object.__repr__"]}
{"id": "C55", "title": "Queries can be dictionary keys, so a subquery can be joined under an alias", "statement": "Every select and every union can be written as the key of a dictionary, and join({subquery: alias}) joins it under that alias to the last table.", "quantifier": "all subqueries, aliases, join types and states of the receiving query", "why_tests_cant": "All subqueries and states.", "anchors": ["sqlpuzzle/_common/object.py:Object", "sqlpuzzle/_queries/union.py:Union.__eq__", "sqlpuzzle/_queryparts/tables.py:Tables.join"]}
{"id": "C56", "title": "A WHERE clause built by many calls means the conjunction of all conditions given", "statement": "Whatever calls of where built a statement, with other calls between them, the rows its WHERE clause chooses are those in which every condition given is true on its own; so neither the order of the calls, nor their grouping, nor repeating one changes which rows are chosen. The same holds for HAVING and for UPDATE and DELETE.", "quantifier": "all histories of calls, all rows and truth values (three-valued)", "why_tests_cant": "All histories and all rows.", "anchors": ["sqlpuzzle/_queryparts/conditions.py:Conditions.where", "sqlpuzzle/_queryparts/queryparts.py:append_unique_part", "sqlpuzzle/_queries/select.py:Select.where", "sqlpuzzle/_queries/select.py:Select.having", "sqlpuzzle/_queries/update.py:Update.where", "sqlpuzzle/_queries/delete.py:Delete.where"]}
{"id": "C57", "title": "What a call does depends on values only, not on identity, sharing or memory layout", "statement": "Take a query object and call one of its building methods with any arguments that are neither iterators nor, for joins, a dictionary of one entry. The effect on the query, and the exception raised, are determined by the value of the query and the values of the arguments: it makes no difference whether the arguments share objects with each other, with earlier arguments or with other queries, in which order objects were created, or whether an object is passed twice. Objects other than the parts of the called query are left unchanged. So two queries with equal contents that receive calls with equal arguments end with the same text and the same exceptions.", "quantifier": "all memories in which the query and arguments are laid out in any way, all calls of the building methods of the four query classes, all histories of them, all backends", "why_tests_cant": "All memory layouts, all sharing patterns and all histories.", "anchors": ["sqlpuzzle/_queries/select.py:Select", "sqlpuzzle/_queries/insert.py:Insert", "sqlpuzzle/_queries/update.py:Update", "sqlpuzzle/_queries/delete.py:Delete", "sqlpuzzle/_queryparts/queryparts.py:append_unique_part", "sqlpuzzle/_common/argsparser.py:parse_args_to_list_of_tuples"]}
{"id": "C58", "title": "Calls by several threads lose nothing", "statement": "Several threads call where (or having, columns, set, order_by, group_by) on one query at the same time. At every moment, whatever the schedule and wherever the threads are, the clause consists of what was there before, unmoved, and of parts that the calls give, those of one call in the order it gives them; a part that is there once stays; when a call has ended without error everything it gives is in the clause; every call ends after a bounded number of its own steps; a column that only one call of order_by or group_by gives has in the end the direction which that call gave last; and no two parts of the clause are equal.", "quantifier": "all schedules of any number of threads, also those that stop a thread in the middle of a call, all calls, all states of the query, all backends", "why_tests_cant": "All interleavings.", "anchors": ["sqlpuzzle/_queryparts/conditions.py:Conditions.where", "sqlpuzzle/_queryparts/columns.py:Columns.columns", "sqlpuzzle/_queryparts/values.py:Values.set", "sqlpuzzle/_queryparts/order.py:Orders.order", "sqlpuzzle/_queryparts/queryparts.py:append_unique_part", "sqlpuzzle/_queryparts/queryparts.py:__contains__"]}
{"id": "C59", "title": "Different queries have different texts", "statement": "On one backend, two queries with the same text are the same query: they agree in options, columns, aliases, tables, joins and their conditions, in every relation and value of WHERE and HAVING, in order, limit, outfile settings and rows, and in the order of all of these; for UPDATE and DELETE also, apart from the permission to change all rows. So the text drops nothing the user said, and the text can serve as a key for a query.", "quantifier": "all pairs of queries, all backends", "why_tests_cant": "All pairs of queries.", "anchors": ["sqlpuzzle/_queries/select.py:Select", "sqlpuzzle/_queries/insert.py:Insert", "sqlpuzzle/_queries/update.py:Update", "sqlpuzzle/_queries/delete.py:Delete", "sqlpuzzle/_backends/sql.py:SqlBackend.reference", "sqlpuzzle/_common/sqlvalue.py:SqlValue", "sqlpuzzle/_queryparts/conditions.py:Condition"]}
{"id": "C60", "title": "Several entries in one call are the same as several calls, and shortcuts are the calls they stand for", "statement": "A call of where, having, on, set, columns, from_, order_by, group_by, delete or on_duplicate_key_update that gives several entries leaves the same query and raises the same exception as calls that give these entries in the same order in any other portions and in any other notation, stopping at the first that raises. select(...), select_from(...), insert_into(...), update(...), delete(...), delete_from(...), from_table(...), the ..._distinct functions and convert(x, type) do what the method calls they stand for do.", "quantifier": "all calls, all ways of cutting their entries into portions, all states of the query, all backends", "why_tests_cant": "All ways of writing and cutting a call, and all states of the query.", "anchors": ["sqlpuzzle/_queries/select.py:Select", "sqlpuzzle/_queries/update.py:Update", "sqlpuzzle/_queries/delete.py:Delete", "sqlpuzzle/_queries/insert.py:Insert.on_duplicate_key_update", "sqlpuzzle/_common/argsparser.py:parse_args", "sqlpuzzle/__init__.py:select_from", "sqlpuzzle/__init__.py:delete_from", "sqlpuzzle/__init__.py:count_distinct"]}
{"id": "C61", "title": "Building a query does not depend on the configured backend, only rendering does", "statement": "A program may call configure(...) before, between or after the calls that build a query: the query, the exceptions raised by the calls and the text in the end are the same as if configure had been called first. So a query built at import time can be rendered for the database configured later.", "quantifier": "all programs of method calls on a query and calls of configure in any order, all backends", "why_tests_cant": "All programs and all places where configure may be called.", "anchors": ["sqlpuzzle/_queries/select.py:Select", "sqlpuzzle/_queries/update.py:Update", "sqlpuzzle/_queries/delete.py:Delete", "sqlpuzzle/_queries/insert.py:Insert", "sqlpuzzle/__init__.py:configure", "sqlpuzzle/_backends/__init__.py:set_backend", "sqlpuzzle/_queryparts/tables.py:Tables.full_join"]}
{"id": "C62", "title": "Each join and each ON condition belongs to the table and the join it was given after", "statement": "However the calls that build a query are mixed, the tables of the final query are those listed, in order; each table has exactly the joins made after it was listed and before the next table was, in order and with their types; each join has the conditions given after it and before the next join or table, in order, without repetitions, where a condition with swapped sides is a repetition. So all conditions that were given for a join hold in a row exactly if those written for it hold. This is for histories in which different tables are listed and, if the query is rendered in between, different tables are joined (for the others see C21 and C29).", "quantifier": "all histories of calls on SELECT, UPDATE and DELETE, all notations of their arguments, all backends", "why_tests_cant": "All histories: each later call could go to the wrong table or join.", "anchors": ["sqlpuzzle/_queryparts/tables.py:Tables", "sqlpuzzle/_queryparts/tables.py:Tables.last_table", "sqlpuzzle/_queryparts/tables.py:Table.on", "sqlpuzzle/_queries/select.py:Select", "sqlpuzzle/_queries/update.py:Update", "sqlpuzzle/_queries/delete.py:Delete"]}
{"id": "C63", "title": "Asking has() changes nothing", "statement": "A call of has() only answers: the query renders afterwards as before, every question is answered as before, and the calls that follow do what they would have done without it.", "quantifier": "all queries, all parts and values asked for, all calls that follow", "why_tests_cant": "All queries, including those whose joins are rewritten when has() renders them, and all later calls.", "anchors": ["sqlpuzzle/_queries/query.py:Query.has", "sqlpuzzle/_queries/select.py:Select.has", "sqlpuzzle/_queryparts/queryparts.py:has", "sqlpuzzle/_queryparts/tables.py:Table.__str__"]}
{"id": "C64", "title": "has() takes the value as it is", "statement": "has(part, value) is true iff the value, whatever characters it consists of, occurs in the text of the part not preceded or followed by a word character; it does not raise.", "quantifier": "all queries, all parts, all strings asked for", "why_tests_cant": "All strings, including names with dots and calls of SQL functions, which are regular expressions with another meaning.", "anchors": ["sqlpuzzle/_queryparts/queryparts.py:has", "sqlpuzzle/_queries/query.py:Query.has", "sqlpuzzle/_queries/select.py:Select.has"]}
{"id": "C65", "title": "Several threads can render the same query", "statement": "Several threads render one query at the same time, and nobody else changes it. Whatever the schedule, each of them gets the text that it gets when it is alone, and the query is afterwards as after one rendering; a join that another thread adds meanwhile is kept.", "quantifier": "all schedules of any number of threads that render, also with threads that call join, all queries, all backends", "why_tests_cant": "All interleavings, and all numbers of threads.", "anchors": ["sqlpuzzle/_queryparts/tables.py:Table.__str__", "sqlpuzzle/_queryparts/tables.py:Table._minimize_joins", "sqlpuzzle/_queryparts/tables.py:Table", "sqlpuzzle/_queryparts/queryparts.py:QueryParts", "sqlpuzzle/_queries/select.py:Select"]}
{"id": "C66", "title": "The value set last is the one a column gets", "statement": "After any calls of set on an UPDATE (of on_duplicate_key_update on an INSERT for MySQL) the statement leaves in every column the value that was set last for it, and changes no other column; no column is assigned twice, so every server accepts the statement.", "quantifier": "all histories of calls, all values, all rows of the table", "why_tests_cant": "All histories, including those that set a column back to an earlier value.", "anchors": ["sqlpuzzle/_queryparts/values.py:Values.set", "sqlpuzzle/_queryparts/values.py:Value.__eq__", "sqlpuzzle/_queryparts/queryparts.py:append_unique_part", "sqlpuzzle/_queries/update.py:Update.set", "sqlpuzzle/_queries/insert.py:Insert.on_duplicate_key_update"]}
{"id": "C67", "title": "An interrupted rendering does no harm", "statement": "If str(query) is interrupted at any point (KeyboardInterrupt, a timeout, an exception raised by a signal handler), the query is not damaged: a later str(query) gives the same text as if the interrupted one had not begun. The same after any number of interrupted renderings.", "quantifier": "all queries, all numbers of interrupted renderings, all points of interruption", "why_tests_cant": "All crash points inside the merging of the joins; a test does not interrupt between two statements.", "anchors": ["sqlpuzzle/_queryparts/tables.py:Table.__str__", "sqlpuzzle/_queryparts/tables.py:Table._minimize_joins"]}
{"id": "C68", "title": "A statement changes exactly what was asked for", "statement": "What a server does with the text of a statement is what the calls say. update(t) with any calls of set and where changes the rows of t in which all conditions given are true, in them leaves in each column given the value given last, and changes nothing else in the database. delete_from(t) with any calls of where deletes those rows and no others. insert_into(t) with calls of values adds one row per call, in that order, each value in its own column and NULL where its call gave none.", "quantifier": "all histories of calls, all values and conditions, all databases, all ways in which a server evaluates predicates and literals", "why_tests_cant": "All histories and all contents of the database.", "anchors": ["sqlpuzzle/_queries/update.py:Update", "sqlpuzzle/_queries/update.py:Update.set", "sqlpuzzle/_queries/update.py:Update.where", "sqlpuzzle/_queries/delete.py:Delete", "sqlpuzzle/_queries/delete.py:Delete.where", "sqlpuzzle/_queries/insert.py:Insert", "sqlpuzzle/_queries/insert.py:Insert.values", "sqlpuzzle/_queryparts/values.py:Values", "sqlpuzzle/_queryparts/values.py:MultipleValues", "sqlpuzzle/_queryparts/conditions.py:Conditions"]}
{"id": "C69", "title": "A SELECT answers with exactly the rows and columns asked for", "statement": "What a server answers to the text of a SELECT is what the calls say. select_from(t) with any calls of columns, where, order_by, limit, offset, for_update and options is answered with the rows of t in which all conditions given are true, sorted by the columns given, each in the direction given last, without the rows before the offset in force and with at most as many as the limit in force; each row shows the columns given, each once, in order of first use and under its alias, or all columns. So query.limit(n, i * n) for i = 0, 1, ... are the pages of the query: together they are its answer, each row once.", "quantifier": "all histories of calls, all conditions, all databases, all servers (their predicates, sorting and ties), all page sizes", "why_tests_cant": "All histories and all contents of the database; pages are compared for every size and every number of rows.", "anchors": ["sqlpuzzle/_queries/select.py:Select", "sqlpuzzle/_queries/select.py:Select.columns", "sqlpuzzle/_queries/select.py:Select.where", "sqlpuzzle/_queries/select.py:Select.order_by", "sqlpuzzle/_queries/select.py:Select.limit", "sqlpuzzle/_queries/select.py:Select.offset", "sqlpuzzle/_queryparts/limit.py:Limit", "sqlpuzzle/_queryparts/columns.py:Columns", "sqlpuzzle/_queryparts/orderby.py:OrderBy", "sqlpuzzle/_queries/selectoptions.py:SelectOptions"]}
{"id": "C70", "title": "The configured database accepts the clauses a statement is given", "statement": "Whatever is called on a SELECT, INSERT, UPDATE or DELETE, the statement uses LIMIT and OFFSET, INTO OUTFILE, FOR UPDATE, the options of a SELECT, IGNORE, REPLACE, the clauses for duplicate keys, joins, several tables and lists of tables to delete from only in forms that the configured database (MySQL, PostgreSQL, SQLite) allows; a clause the database does not have is never written.", "quantifier": "all histories of calls on SELECT, INSERT, UPDATE and DELETE, all databases", "why_tests_cant": "It must hold for every combination and order of calls and for every database; a test sees a few.", "anchors": ["sqlpuzzle/_queries/select.py:Select.limit", "sqlpuzzle/_queries/select.py:Select.offset", "sqlpuzzle/_queryparts/limit.py:Limit", "sqlpuzzle/_queryparts/intooutfile.py:IntoOutfile", "sqlpuzzle/_queries/selectoptions.py:SelectOptions", "sqlpuzzle/_queries/insert.py:Insert.on_duplicate_key_update", "sqlpuzzle/_queries/insert.py:Insert.ignore", "sqlpuzzle/_queryparts/onconflictdoupdate.py:OnConflictDoUpdate", "sqlpuzzle/_queryparts/tables.py:Tables.full_join", "sqlpuzzle/_queries/update.py:Update", "sqlpuzzle/_queries/delete.py:Delete"]}
{"id": "C71", "title": "A statement combines exactly the tables asked for, in the way asked for", "statement": "Whatever the order of the calls, the server that runs a SELECT, UPDATE or DELETE combines the tables listed, in the order listed, each with the tables joined after it, in the order and with the kind of join asked for, under the alias asked for, on exactly the conditions given with on() after that join; and the rows a SELECT answers are those combined rows for which the conditions of where() hold, sorted, cut and shown as asked.", "quantifier": "every history of calls, every table name, alias and condition, and every server: any notion of joining, any tables and rows", "why_tests_cant": "Tests compare a few texts with one or two joins; what is combined depends on the interleaving of the calls with joins and conditions, and on the merging of joins and conditions when rendering.", "anchors": ["sqlpuzzle/_queryparts/tables.py:Tables", "sqlpuzzle/_queryparts/tables.py:Table.join", "sqlpuzzle/_queryparts/tables.py:Table.on", "sqlpuzzle/_queryparts/tables.py:Table.__str__", "sqlpuzzle/_queryparts/tables.py:Table._minimize_joins", "sqlpuzzle/_queries/select.py:Select", "sqlpuzzle/_queries/update.py:Update", "sqlpuzzle/_queries/delete.py:Delete"]}
{"id": "C72", "title": "A SELECT that groups, computes and merges answers exactly what was asked for", "statement": "Whatever the order of the calls, the server that runs a SELECT takes the combined rows (C71) for which all conditions of where() are true, groups them by exactly the columns given to group_by(), keeps the groups for which all conditions of having() are true, sorts them by exactly the columns given to order_by(), each in its last direction, shows exactly the columns and aggregates given, each once and under its alias, merges equal rows if and only if distinct() or distinctrow() is in force, and gives the page that limit and offset in force say; it groups only if grouping, having() or an aggregate was asked for.", "quantifier": "every history of calls on a SELECT, every name, alias, aggregate, condition and number, and every server: any notion of grouping, aggregates, merging, sorting and comparison, any rows", "why_tests_cant": "Tests compare a few texts; what is grouped and merged depends on the whole history of calls, on options that exclude each other and on the comparison of columns and aggregates by text.", "anchors": ["sqlpuzzle/_queries/select.py:Select", "sqlpuzzle/_queries/select.py:Select.group_by", "sqlpuzzle/_queries/select.py:Select.having", "sqlpuzzle/_queryparts/groupby.py:GroupBy", "sqlpuzzle/_queryparts/having.py:Having", "sqlpuzzle/_queryparts/functions.py:FunctionWithDistinct", "sqlpuzzle/_queryparts/columns.py:Columns.columns", "sqlpuzzle/_queries/selectoptions.py:SelectOptions"]}
{"id": "C73", "title": "An UPDATE or DELETE of several tables tells the server exactly what to change", "statement": "Whatever the order of the calls, the server that runs an UPDATE changes those combined rows of the tables and joins asked for (C71) in which all conditions of where() are true, and no others, and is told exactly the assignments given, a column only once; the server that runs a DELETE deletes what makes up such combined rows, in exactly the tables named in delete(), each once.", "quantifier": "every history of calls on an UPDATE or a DELETE, every table, alias, join, condition, column and value, and every server: any tables and rows, any way to join them and to carry the changes out", "why_tests_cant": "Tests compare a few texts of one table; what is changed depends on the interleaving of the calls that name tables, join, restrict and assign.", "anchors": ["sqlpuzzle/_queries/update.py:Update", "sqlpuzzle/_queries/delete.py:Delete", "sqlpuzzle/_queries/delete.py:Delete.delete", "sqlpuzzle/_queries/update.py:Update.set", "sqlpuzzle/_queryparts/tables.py:Tables", "sqlpuzzle/_queryparts/values.py:Values.set"]}
{"id": "C74", "title": "Every part of a statement is read as what it is alone", "statement": "Let a SELECT be built of any columns, tables, joins, keys and conditions, in which columns, tables, operands and aliases may be names, numbers, functions, queries or unions to any depth, but no custom SQL. Then a server that reads the text finds as columns exactly the columns of the query, in order, each as the text which the library writes for that column alone, with its alias; as tables exactly its tables and joins, in order, each known by its alias, each join with exactly its conditions; as keys of GROUP BY and ORDER BY exactly its keys with their directions. In an UPDATE it finds exactly the assignments, and in a comparison the column, the relation and the value. A query or union in the place of a column, table or value is read as the text of that query alone, between parentheses.", "quantifier": "all statements without raw SQL of any size and depth, all dialects, all servers", "why_tests_cant": "whether a comma, AS, DESC, JOIN, ON or = of one part is taken for one of another depends on the texts of all parts together, at every depth of nesting", "anchors": ["sqlpuzzle/_common/sqlvalue.py:SqlReference", "sqlpuzzle/_common/sqlvalue.py:SqlValue", "sqlpuzzle/_queryparts/columns.py:Column.__str__", "sqlpuzzle/_queryparts/tables.py:Table.__str__", "sqlpuzzle/_queryparts/order.py:Order.__str__", "sqlpuzzle/_queryparts/values.py:Value.__str__", "sqlpuzzle/_queries/select.py:Select", "sqlpuzzle/_queries/union.py:Union"]}
{"id": "C75", "title": "A statement of any shape means what its parts mean", "statement": "For every SELECT without custom SQL that does not write to a file, whatever stands in it as columns, tables, joins, conditions, keys and aliases, also queries in queries: the answer of a database server to its text is the one that the parts of the query object describe, each taken as what the library writes for that part alone: the combined rows of the tables and joins, those in which every condition of where holds, grouped by the keys of group_by and filtered by having, sorted by the keys of order_by, shown in the columns, merged if DISTINCT was asked for, then skipped and cut. A query used as a table contributes exactly its own answer; a query in a comparison, in IN or in EXISTS counts by its own answer, in which it may use the columns of the row that is judged. An UPDATE tells the server exactly the rows in which all conditions hold and the assignments of the query, a DELETE exactly these rows and the tables to delete from.", "quantifier": "all queries without raw SQL, at any depth of nesting and any number of parts; all servers (any joining, grouping, sorting, merging and any meaning of conditions and values); both dialects", "why_tests_cant": "Nesting depth, combinations of parts and servers are unbounded; a test compares the text of one query.", "anchors": ["sqlpuzzle/_queries/select.py:Select", "sqlpuzzle/_queries/update.py:Update", "sqlpuzzle/_queries/delete.py:Delete", "sqlpuzzle/_queries/query.py:Query.__str__", "sqlpuzzle/_backends/sql.py:SqlBackend", "sqlpuzzle/_common/sqlvalue.py:SqlValue", "sqlpuzzle/_queryparts/tables.py:Table"]}
{"id": "C76", "title": "Every condition given restricts the rows, whatever it is made of", "statement": "Let calls be made on a SELECT, UPDATE or DELETE in any order, where where and having are given pairs in any notation, Q objects, their combinations with & and |, negations, EXISTS or other SQL objects, none of it custom SQL. If no call raises, and conditions that the library takes for equal are true of the same rows, then the server chooses exactly the rows in which every condition given to where is true, and keeps exactly the groups in which every condition given to having is true. If calls raise, a row in which all conditions given are true is still chosen, and every condition of a call that did not raise, or one equal to it, is still asked of every row.", "quantifier": "all histories of calls of any length and order, also failing ones; all conditions of any depth without raw SQL; all servers, all rows, both dialects", "why_tests_cant": "Whether a condition given early survives later calls, repetition, grouping by parentheses and the rest of the text depends on the whole history and on all the conditions; a test fixes one.", "anchors": ["sqlpuzzle/_queryparts/conditions.py:Conditions.where", "sqlpuzzle/_queryparts/conditions.py:ConditionsOfConditions.__str__", "sqlpuzzle/_queryparts/where.py:Where", "sqlpuzzle/_queryparts/having.py:Having", "sqlpuzzle/_queryparts/conditions.py:Condition.__eq__"]}
{"id": "C77", "title": "What an INSERT tells the server", "statement": "After insert_into(table) and any further calls of values, ignore, on_duplicate_key_update and str, in any order and any notation, also failing ones, the server reads in the text exactly this order: REPLACE instead of INSERT if and only if on_duplicate_key_update was called without arguments on SQLite; IGNORE if and only if the last call of ignore asked for it; the named table; one new row per successful call of values, in the order of the calls, with the given values in the given columns, NULL in the columns only other rows use, and defaults elsewhere; and, on MySQL, the assignments of on_duplicate_key_update, each once, in the order they were first given. Values may be anything, also queries.", "quantifier": "all tables, all histories of calls of any length and order without custom SQL, all rows with any columns and values, all backends (on PostgreSQL without on_duplicate_key_update), all servers, both dialects", "why_tests_cant": "The list of columns is computed from all the rows and every row is written against it; which value lands in which column depends on all the calls together. A test fixes a few rows.", "anchors": ["sqlpuzzle/_queries/insert.py:Insert", "sqlpuzzle/_queryparts/values.py:MultipleValues", "sqlpuzzle/_queryparts/values.py:Values.set", "sqlpuzzle/_queries/insert.py:InsertOptions.ignore", "sqlpuzzle/_queries/insert.py:Insert.on_duplicate_key_update"]}
{"id": "C78", "title": "The answer that any calls on a SELECT ask for, whatever columns, keys and conditions are made of", "statement": "After any calls on a SELECT, none of which raises, writes to a file or uses custom SQL, in any order and notation, the server answers with what the calls ask for: of the tables given, each combined with its joins as asked for, those rows in which every condition given to where holds; grouped by everything given to group_by, leaving out the groups in which some condition given to having does not hold; sorted by everything given to order_by, each in the direction given last; in the columns given, in order; equal lines merged if distinct is in force; cut by the limit and offset in force. Columns, keys and operands may be names, numbers, functions, conditions joined by & and |, and queries, nested to any depth. A column, key or condition is left out only when it is == to one that is kept.", "quantifier": "all histories of calls without custom SQL, of any length and order, columns, keys, conditions and tables of any depth of nesting, all backends, all servers, both dialects", "why_tests_cant": "The answer depends on all the calls together and on everything nested in their arguments. A test fixes a few calls with simple names.", "anchors": ["sqlpuzzle/_queries/select.py:Select", "sqlpuzzle/_queryparts/columns.py:Columns.columns", "sqlpuzzle/_queryparts/order.py:Orders.order", "sqlpuzzle/_queryparts/conditions.py:Conditions.where", "sqlpuzzle/_queryparts/limit.py:Limit", "sqlpuzzle/_queries/selectoptions.py:SelectOptions"]}
{"id": "C79", "title": "What any calls on an UPDATE or DELETE tell the server to change, whatever they are made of", "statement": "After any calls on an UPDATE or DELETE, none of which raises or uses custom SQL, in any order and notation, the server is told to change or delete those combined rows of the tables in which every condition given to where holds, and no others. An UPDATE tells it every assignment given to set, in order, leaving out one only when it is == to one that is kept; a DELETE tells it exactly the tables given to delete, each once. Values and the operands of conditions may be names, numbers, functions, conditions joined by & and |, and queries, nested to any depth.", "quantifier": "all histories of calls without custom SQL, of any length and order, values and conditions of any depth of nesting, all backends, all servers, both dialects", "why_tests_cant": "Which rows change depends on all the conditions and everything nested in them; a wrong one destroys data. A test fixes a few calls with plain values.", "anchors": ["sqlpuzzle/_queries/update.py:Update", "sqlpuzzle/_queries/delete.py:Delete", "sqlpuzzle/_queryparts/values.py:Values.set", "sqlpuzzle/_queryparts/conditions.py:Conditions.where", "sqlpuzzle/_queryparts/tables.py:Tables"]}
{"id": "C80", "title": "A name with segments between quotes is read as exactly those segments", "statement": "A table or column name may be written as segments joined by dots, each as it is or between quote characters, as in table.\"col.umn\". Whatever the segments are, the server reads exactly their names with dots between them: what stands between quotes is one name as it is, with its dots and spaces. Quotes around a segment without dots make no difference.", "quantifier": "all names of any number of segments, each with any characters but the quote (and, outside quotes, the dot), all backends, both dialects, any text that follows", "why_tests_cant": "The name is cut by a regular expression with alternatives; which cut is made at a character depends on everything before it. A test fixes a few names.", "anchors": ["sqlpuzzle/_backends/sql.py:SqlBackend.reference", "sqlpuzzle/_common/sqlvalue.py:SqlReference"]}
{"id": "C81", "title": "Several threads can add rows to one INSERT", "statement": "When several threads call values() on the same INSERT, every schedule leaves the statement that the calls which came back give when they are made one after another in some order: each of their rows is there once and whole, rows that were there stay where they are, a call that raises adds nothing, and each call ends as it would alone. If all calls have ended, the result is that of the same calls made one after another.", "quantifier": "all numbers of threads, all arguments, all interleavings of the steps of the calls, also unfinished ones", "why_tests_cant": "The schedules are unbounded in number; a test sees a few of them, and races seldom show.", "anchors": ["sqlpuzzle/_queries/insert.py:Insert.values", "sqlpuzzle/_queryparts/values.py:MultipleValues.add", "sqlpuzzle/_queryparts/values.py:Values.set", "sqlpuzzle/_queryparts/queryparts.py:QueryParts.append_part"]}
{"id": "C82", "title": "Several threads can set the limit, the offset and options of one SELECT", "statement": "When several threads call limit(), offset(), into_outfile() and its companions, option methods and for_update() on the same SELECT, each any number of calls, every schedule leaves the query that the same calls made one after another in some order give, each thread keeping its own order; the limit and the offset are always ones that some call gave or that were there; and a LIMIT clause written meanwhile is that of a limit and an offset of the query.", "quantifier": "all numbers of threads, all programs of such calls with all arguments, all interleavings of their assignments and readings, also unfinished ones", "why_tests_cant": "The schedules are unbounded in number; a test sees a few of them, and races seldom show.", "anchors": ["sqlpuzzle/_queryparts/limit.py:Limit.limit", "sqlpuzzle/_queryparts/limit.py:Limit.offset", "sqlpuzzle/_queryparts/limit.py:Limit.__str__", "sqlpuzzle/_queryparts/intooutfile.py:IntoOutfile", "sqlpuzzle/_queries/selectoptions.py:SelectOptions", "sqlpuzzle/_queries/select.py:Select.limit", "sqlpuzzle/_queries/query.py:Query.__str__"]}
