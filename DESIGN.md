# Formal model of python-sqlpuzzle

## Layout

* `lean/Verif/Model/` – the model of the code, one file per area:
  `Base` (Python vocabulary), `Types` (values and library objects), `Regex` and `Backend`
  (`_backends`), `Number` (number and date text), `Render` (`__str__` and `__eq__` of everything),
  `Args` (`_common/argsparser.py`), `Parts` (`_queryparts`, `relations.py`), `Functions`
  (`_queryparts/functions.py`, `CustomSql`), `Queries` (`_queries`), `Has` (`has()`, `configure`), `HasCalls` (its effect),
  `Pattern` (the regular expressions `has()` builds),
  `Compare` (`<`, `hash`), `Heap` (memory, `copy.deepcopy`), `HeapCalls` (the methods once more, as programs
  on memory), `Threads`, `OrderThreads`, `RowThreads`, `SettingThreads` (calls by several threads), `RenderThreads` (rendering by several threads), `Sessions` (`configure` between the calls),
  `Touch` (what rendering leaves behind in nested queries).
* `lean/Verif/Spec/` – specifications: what the English properties talk about. `Lexer`, `Grammar`,
  `Truth`, `Names`, `Numeral`, `Unions` do not mention the model at all. The others use only the
  model's types and its public API (see *Independence*).
* `lean/Verif/Proofs/` – lemmas.
* `lean/Verif/Props/` – the theorems that settle the properties, each with examples showing that
  concrete non-trivial cases meet the hypotheses.
* `lean/Verif/Conformance/` – the repository's own tests and documentation examples, translated by
  `tools/conformance.py`: over 500 checks that the model gives the text or the exception the test
  expects. They are evidence that the model is faithful; no property rests on them.
* `properties.jsonl`, `MANIFEST.json` – the properties and the theorems that settle them.
* `AXIOMS.md` – the axioms of each theorem (`tools/axioms.py`).
* `seeded/LOG.jsonl` – wrong programs the theorems were tested against.

## How the code is modelled

* A `str` is a list of code points. An exception is a value of `Err`; a function that may raise
  returns `R α = Except Err α`. A method that mutates `self` returns the new state *and* the
  exception, because Python keeps the mutations made before it.
* All values that flow through the API are one inductive type `Obj`.
* `str` and `==` recurse through nested objects. `renderF`/`eqF` are one step of that recursion,
  branch by branch as in the code; `sem cx n` ties the knot with a recursion budget `n` that stands
  for Python's recursion limit. Theorems quantify over every `n`; C47 shows that for every object
  a budget bounded by its size is enough.
* `Ctx` holds the configured backend and an *uninterpreted* `Env`: `str.upper`, `str.lower`, the
  class `\w`, and the text of values the model does not print. Theorems hold for all of them.
* A query is a state; its methods are steps (`selectStep`, `insertStep`, `updateStep`,
  `deleteStep`) over operations with arbitrary arguments; histories are lists of operations.
* Sharing, aliasing and mutation of arguments (C39, C48, C51) need more than states: there the
  library's objects are cells of a heap that refer to each other, possibly in cycles. `copy()` is
  `copy.deepcopy` on that heap; `hCall` runs a method on it. The calls to `==`, `str` and `sorted`
  inside a method are a parameter (`Runtime`). The theorems assume of it that it changes nothing but
  the generators and joins it looks at (`Gentle`) and creates no references to objects it had
  nothing to do with (`Tidy`). `Spec/Runtime.lean` gives the runtime of the functional model, and
  both assumptions are proved of it.

## Independence

A theorem should be readable without the proofs or the helpers of the model. Therefore statements
use only

* the API: the steps above, constructors such as `mkConds` (`Q`), `mkRel` (`GT`, `IN`, …), `mkFunc`,
  `parseArgs`, `selectHas`, and `(sem cx n).str` / `(sem cx n).eq` for `str(x)` and `x == y`;
* the fields of a query state;
* definitions in `Spec/`.

For instance, the text of a clause is described in `Spec/Statement.lean` by the texts of `R(name)`,
`V(value)` and `Q(condition)`, and what a call such as `where(…)` gives to a clause is described in
`Spec/Entries.lean` by the form of its arguments, not by the argument parser. That the model agrees
with these descriptions is proved. A script that lists the constants in all statements, unfolding
`Spec`, was used to find statements that leaned on other functions of the model.

## Trusted base

Lean's kernel and the axioms `propext`, `Classical.choice`, `Quot.sound`; no other axiom, no
`sorry`, no `native_decide`. `AXIOMS.md` lists the axioms of each theorem. Beyond that: that the
definitions in `Model/` describe the cited lines of the Python code, and that the definitions in
`Spec/` say what the English properties say.

### Modelled

`_backends/*.py`, `_common/*.py`, `_queryparts/*.py`, `_queries/*.py`, `relations.py`, class
hierarchy of `exceptions.py`, public functions of `__init__.py`.

Accessors without behaviour of their own are not definitions of the model but written out where they are
used: `Function.expr`, `_RelationValue.value`, `.relation` and `.tosql`, `Values.columns`,
`ListOfQueryParts.__str__`, `SelectForUpdate.__str__`; `Object.__str__` is overridden everywhere, `Tables.is_simple` is not used.

### Not modelled, or simplified

* exception messages; `version.py`; documentation;
* `str()` of values the library only prints in messages or in `<undefined value …>` (`Env`);
* in the functional model arguments are snapshots: generators yield the same items each time, and
  objects are not shared between queries (the heap model covers sharing);
* rendering a query minimises its joins; the operation `str` of the functional model tracks this for
  the query that is rendered, not for the queries nested in it.  What rendering does to nested
  queries is a relation of its own (`Touched`, Model/Touch.lean, used by C28 and C29); the other
  theorems about histories with `str` are about queries whose nested queries stay as they are.
  The same holds for `has()`, which also renders (Model/HasCalls.lean, C63);
* `==` between sets or dictionaries, identity shortcuts of container comparison, `sNaN`, comparison
  of datetimes whose UTC offset depends on `fold`;
* dictionary keys other than strings, SQL objects and integers, and distinct keys with the same
  text; non-string column names in INSERT; in values given to `has()`: possessive repetition, `(?`
  extensions of regular expressions, and backslashes before digits and the letters `b B d D N s S u U x z` (`\b` is modelled in a set, `\A` and `\Z` outside of one);
* a copied set may iterate in another order (a parameter of `deepcopy` in the model);
* lone surrogates in strings; subclasses of the built-in types; threads, except calls of
  `where`, `having`, `columns`, `set`, `from_`, `order_by` and `group_by` on one query (C58), of `values` on one INSERT (C81), of setters on one SELECT (C82), and rendering and `join` on one query (C65).

Inputs outside the model give `Err.unmodelled`, never a normal result.

## Where the code disagrees with the property

Each of these is proved by a concrete witness; the theorem with the suffix `_partial`, or the one
named in the manifest, is the part that holds.

| theorem | what happens |
|---------|--------------|
| `C03_refuted` | a value that starts and ends with a quote and contains a doubled quote is written as it is and injects SQL |
| `C06_refuted` | a name with a quote character breaks out of its quotes |
| `C16_refuted` | the minimum width is not enforced on items of a list |
| `C18_refuted*` | keyword arguments beside a `Q` object or a dictionary, and false table names, are dropped |
| `C19_refuted*` | columns named `options` or `self` cannot be keyword arguments |
| `C20_refuted*`, `C21_refuted*` | custom SQL equals any string with its text, so one of them is dropped; single SQL objects are not deduplicated |
| `C23_refuted`, `C24_refuted` | an empty `Q()` passes the guard and gives an empty WHERE |
| `C28_refuted` | rendering a nested query merges its joins, which can make two joins of the outer query equal |
| `C64_refuted`, `C64_refuted_function`, `C64_refuted_raises`, `C64_refuted_dotted` | `has()` puts the value unescaped into a regular expression |
| `C63_refuted` | `has('tables', value)` renders the tables and so merges joins for good |
| `C29_nested_refuted` | rendering a nested query can make a later condition equal to an earlier one |
| `C29_refuted` | rendering merges joins for good, so a later `on()` reaches another join |
| `C34_refuted*` | `ON CONFLICT … DO UPDATE` lacks `SET`; the default backend writes nothing |
| `C36_refuted` | `Q(Not(…), Q(…))` takes its arguments as column and value |
| `C37_refuted*` | `a & (b | c)` is written like `(a & b) | c`; a LIMIT of the last select is one of the whole union, and one of another select makes the text no query (`C37_last_partial`, `C37_accepted`) |
| `C38_refuted*` | `has('select_for_update', word)` and `has('keyword')` of INSERT |
| `C39_refuted` | a copied set may be written in another order |
| `C40_refuted*` | `==` is not reflexive (NaN), not symmetric (custom SQL), ignores clauses, may raise |
| `C43_refuted*` | `limit(5, 'x')`, `where` with several pairs and the conflict column are not atomic |
| `C58_refuted` | two threads that call `where(a=1)` at the same time can add the condition twice |
| `C58_refuted_order` | two threads that call `order_by` with the same column can list it twice, once in each direction |
| `C65_refuted*` | while one thread renders, the joins of a table are gone for a moment: another thread writes the query without them or with one of them twice, or both lose them for good |
| `C66_refuted`, `C66_refuted_once` | `set(a=1)`, `set(a=2)`, `set(a=1)` writes `a = 1, a = 2` |
| `C67_refuted` | a rendering of `t JOIN u` that is interrupted after `self._joins = []` leaves `t` without the join |
| `C68_refuted` | `update('t').allow_update_all().set(a=1).set(a=2).set(a=1)` leaves 2 in every row |
| `C69_refuted` | `select_from('t').limit(-1)` is accepted and writes `LIMIT -1`, which a server cannot carry out |
| `C80_refuted` | `R('t."*"')` is written `"t".*`: an asterisk between quotes, the name of a column, becomes all columns |
| `C82_refuted` | `limit(10, 20)` and `limit(5, 30)` by two threads can leave the limit of one and the offset of the other |
| `C82_text_refuted` | a query written while another thread calls `limit(None)` can end with `LIMIT None` |
| `C70_refuted` | `select('a').from_('t').offset(5)` on MySQL (or SQLite) writes `OFFSET 5` without `LIMIT`; also `FOR UPDATE` on SQLite, `INTO OUTFILE` outside MySQL, `OPTIONALLY ENCLOSED BY` after `LINES TERMINATED BY`, `LIMIT -1` |
| `C71_refuted` | `from_('a').left_join('b').on('a.x', 'b.x').join('b').on('a.x', 'b.x')` joins `b` once, with an inner join |
| `C72_refuted` | `columns(count('id'), 'COUNT("id")')` selects only the aggregate: a column is compared with it by text |
| `C73_refuted` | `update('a').join('b').set('y', 1).set('y', 2)` assigns `y` twice; MySQL promises no order of assignments when several tables are updated |
| `C70_refuted_insert` | `on_duplicate_key_update('a', b=2)` on PostgreSQL writes `DO UPDATE "b" = 2` without `SET`; `ignore()` writes `INSERT IGNORE` on PostgreSQL and SQLite too |
| `C70_refuted_update`, `C70_refuted_delete` | `update('t').set(a=1)….join('u')` on PostgreSQL writes `UPDATE "t" JOIN "u" … SET`; `delete_from('t')….ignore()` on SQLite writes `DELETE IGNORE`; `delete_from('t').join('u')` on MySQL writes `DELETE FROM t JOIN u` without saying from which table to delete |
| `C44_refuted*` | `AttributeError`, `TypeError`, … escape for some arguments |
| `C46_refuted*` | `concat('a', 'b', 'a')` drops an argument; `concat()` is `CONCAT(*)`; `convert('c')` is `CONVERT("c", None)` |
| `C48_refuted*` | `join({'t': 'a'})` empties the dictionary of the caller; generators are consumed |
| `C53_refuted*` | different queries with the same text are each `>` the other |
| `C55_refuted` | unions, `Q` objects and relations are not hashable, so `join({union: alias})` cannot be written |
| `C56_refuted` | the condition lost by `C20_refuted` makes the statement choose more rows |
| `C59_refuted_q` | `Q(a=1, b=2) \| Q(c=3)` and `(Q(a=1) & Q(b=2)) \| Q(c=3)` have the same text |
| `C59_refuted_union` | `(a & b) \| c` and `a & (b \| c)` have the same text |
| `C59_refuted` | the string `'"b"'` as a value gives the same text as the name `b` |
| `C60_refuted` | `where(q, q)` adds the object `q` once, `where(q).where(q)` adds it twice |
| `C61_refuted*` | `full_join` and `on_duplicate_key_update` ask the backend when they are called; a condition equal to custom SQL in the quoting of the current backend is dropped |

## Plan per property

| id | what is modelled | how it is proved |
|----|------------------|------------------|
| C01 | `_escape_value`, `_string` | lexer for backslash dialects; induction over the string |
| C02 | same | standard lexer; exact characterisation; refutation of the unconditional round trip |
| C03 | `is_reference`, `reference` as regular expressions | false: refuted by a concrete injection; proved for strings without a doubled quote |
| C04 | `reference` | induction over the name; lexer reads back the segments |
| C05 | `reference`, `is_reference` | from the characterisation of `reference` |
| C06 | `reference` | false for names with a quote character: refuted; C04 is the true part |
| C07 | `intText` | independent numeral reader, strong induction |
| C08 | `fmt5` | rational arithmetic bound; half-even; injectivity refuted by collision |
| C09 | `bytes`, `boolean` | independent hex reader and lexer |
| C10 | isoformat | injectivity of padded fields |
| C11 | `_list` | all lengths and depths |
| C12 | `IN`, `NOT_IN` | three-valued evaluator of the rendered condition against list membership |
| C13–C15 | constructors and setters | case analysis over all values |
| C16–C19 | `parse_args` | all options and arguments; refutations for dropped arguments and reserved names; what a call names (Spec/Named.lean) against what the clause holds afterwards (Props/Dropped.lean) |
| C20–C22 | `append_unique_part`, `Orders.order` | induction over histories |
| C23, C24 | guards | invariants over histories |
| C25, C26, C50 | setters, `IntoOutfile` | induction over histories, independent last-write specification |
| C27 | templates; calls grouped by clause (Spec/CallClauses.lean) | commutation of steps for all four statements; clause order in the token sequence |
| C28–C30 | `_minimize_joins`, of the query and of the queries in it | invariant of grouping; induction over rendering; refutation of C28 for joined queries and of C29 |
| C31 | `join`, `on` | case analysis, frame conditions |
| C32, C33 | `MultipleValues` | independent reading of the rendered table |
| C34, C35 | `on_duplicate_key_update`, `set_backend` | case analysis, histories |
| C36 | `Conditions`, `ConditionsOfConditions`, `Not` | parser with SQL precedence, three-valued logic, induction over trees |
| C37 | `Union` | bag semantics; regular expressions proved, all others refuted (`C37_exact`); tail clauses of the last select and of the others (`Spec/UnionEnds.lean`) |
| C38 | `has` | whole-word search specification |
| C39 | heap model of `copy.deepcopy` | fresh isomorphic graph, frame property |
| C40 | `__eq__` | mutual induction with rendering; refutations for the general claim; plain values by type: exact rational values of numbers, days of the calendar (Spec/PlainEq.lean, Spec/Calendar.lean) |
| C41, C42 | all of rendering | token-level specification, induction over nesting |
| C43, C44 | steps | refutations and the parts that hold |
| C45 | `OnCondition.__eq__` | semantics of comparison |
| C46 | functions | case analysis |
| C47 | `sem` | monotonicity in the budget, size measure |
| C48, C51 | every method on a memory of objects (`HeapCalls`) | which cells a call writes, and which cells the receiver refers to afterwards; C48 refuted for `join(dict)` and for generators |
| C49 | backends | relational induction over rendering |
| C52 | all of rendering | equivalence between `str(query) == t` and a specification of the clauses of the statement (`Spec/Statement`) |
| C53–C55 | `Object.__lt__`, `total_ordering`, `__repr__`, Python's rules for reflected operators and for `__hash__` | order of strings; case analysis over the classes; refutations |
| C56 | `where`, `having` histories and rendering | C20 (first uses) and C36 (truth of the clause) together with idempotence and commutativity of AND |
| C57 | the methods on queries in memory (`Model/HeapCalls`) and the functional methods (`Model/Queries`) | refinement: `Spec/Shows` relates memory and values, `Spec/MemCalls` relates calls; a simulation for every method, then induction over histories; `Proofs/Oracle` shows the premises can be met |
| C58 | `where`, `columns`, `set`, `from_` as steps of threads (`Model/Threads`), `order_by` and `group_by` (`Model/OrderThreads`) | invariant of all threads for every schedule: parsed entries done so far, parts compared so far; a decreasing bound for termination; a thread alone agrees with the functional model |
| C59 | the text of the four statements (C52) | texts that can be read in one way only, composed clause by clause: each clause is determined by the text up to a separator that cannot continue it; induction on the depth of nesting, where a nested query is closed by its bracket; for unions a chain of selects, each ended by its operator |
| C60 | argument parsing (C16, C17) and the loops of the mutators | a loop over entries is cut into pieces (`forUpd` over an append); a program of several calls is the inductive relation `OneByOne`, which stops at the first exception |
| C61 | `configure` and method calls as the statements of one program (Model/Sessions.lean) | comparison without texts does not read the backend (induction on the depth); every call ends alike under two backends and keeps the state free of texts; induction over the program |
| C62 | calls as events (tables listed, table joined, conditions given, rendered), result defined from right to left (Spec/JoinHistory.lean) | the model's effect is a fold over the events; the fold is the declarative result by induction; conditions kept are the first uses up to mirror image, as `SameOn` is an equivalence |
| C63 | `has()` as a call with an effect on the tables (Model/HasCalls.lean) | rendering is idempotent on joins; simulation up to merged joins for later calls; refutation by a later `on()` |
| C64 | the pattern of `has()`: reading it, and the positions a match can end at (Model/Pattern.lean) | search equals matching as a relation; the stack of open groups of the reader denotes the text read; reading follows the grammar of regular expressions (`RegexText`), by induction on the grammar; texts that are no expressions (`BadRegex`) stop the reader; refutations |
| C65 | `Table.__str__` and `_minimize_joins` as steps of threads on lists and joins with identity, and calls of `join` (Model/RenderThreads.lean) | a thread alone agrees with the functional model (induction over groups, joins and tables), hence threads in turns; invariants for every schedule; refutations by schedules |
| C66 | the SET clause carried out from left to right on a row (Spec/Assign.lean) | from C21: the clause is the first uses of what was given; last values of a list and of its first uses; refutation |
| C67 | the steps of Model/RenderThreads.lean, stopped after any number of them; the next rendering starts from what is in memory (Spec/Interrupt.lean) | invariants along the path of one thread: before `self._joins = []` nothing is written, in the loop after it the list is a prefix of the merged joins, afterwards it is complete; then C65 for one thread; refutation |
| C68 | a server that reads the tokens of UPDATE, DELETE and INSERT and carries them out on a database (Spec/Effects.lean; nothing of the library in its first part) | the tokens of each clause (C35, C36), then C56 for the rows chosen, C66 for the values left, C32 for the rows added; refutation |
| C69 | a server that reads the tokens of a SELECT and answers it, with arbitrary sorting (Spec/Answers.lean; nothing of the library in its first part) | the contents of every clause of a statement made of clauses (`clauseBody_flat`), then C21, C56, C22 and C25 for what the calls leave; pages: the answers differ in limit and offset only; refutation |
| C70 | which forms of clauses MySQL, PostgreSQL and SQLite accept, read from the tokens of a statement (Spec/Accepted.lean, Spec/AcceptedChanges.lean) | the contents of each clause (`select_part`, `insert_duplicate`, `insert_conflict`) and the settings in force (C25, C26, C50); an `↔` per clause; refutations |
| C71 | a server that reads the tokens after FROM or UPDATE and combines tables, with arbitrary tables and joins (Spec/Sources.lean; the second part says what was asked for) | the tables that a history of calls leaves (C62), their tokens cut at `,`, `JOIN`, `ON` and `AS`, the truth of the conditions (C36, C59); conditions dropped as mirror images by symmetry of the server; refutation |
| C72 | a server that reads every clause of a SELECT, with arbitrary grouping, merging and sorting (Spec/Groups.lean; nothing of the library in its first part; `answerAsked` says what the calls ask for) | aggregates of columns with one spelling are equal iff their texts are (C59), so the lists of columns, of conditions of HAVING and of keys of ORDER BY are exact (`C21_aggregates_partial`, `C20_having_aggregates_partial`, `C22_order_by_aggregates`); the contents of every clause (`select_part`), C20, C22, C25, C26, C56, C71; refutation |
| C73 | what an UPDATE or a DELETE tells the server: the combined rows chosen, the assignments, the tables to delete from; what the server does with them is any function (Spec/Changes.lean) | the tables of C71, the conditions of C20 and C56, the assignments of C21; the tables between DELETE and FROM from the history (`history_uses`) and from the tokens; refutation |
| C74 | what a server reads as columns, tables, joins, keys, assignments and comparisons of a statement, in terms of what it reads for each part alone (Spec/Written.lean) | the tokens of every expression have no separator outside parentheses (`expr_facts`, `expr_word`, from the grammar of C41), so lists are cut where they were joined; the texts of the parts exist when the text of the whole does |
| C75 | the answer, or the change, that the parts of a query object describe (`answerWritten`, `assignmentsWritten` in Spec/Written.lean), against the server of C72 and C73 | every clause read from the tokens is the clause of the object (C74); a server that answers inner queries, as tables and in conditions (Spec/InnerQueries.lean), is built by recursion on the number of tokens; conditions with a query in them can be read in one way only |
| C76 | the conditions that each call gives (`GivesConditions` in Spec/Chosen.lean) and the rows a server chooses | what `where` keeps is what was given, by induction over the history; what it drops is represented by an equal condition (C20); the text is read by C74 |
| C77 | a reader of INSERT statements (`readInsert` in Spec/Inserted.lean) and what each call gives (`RowGiven`, `DuplicatePairs`, `ignoreGiven`, `replaceGiven`) | the clauses are separated by C69's lemmas, each tuple is compared with the row given by the call, and the fields of the query are followed through the history by induction |
| C78 | the items each call gives, of any kind (`KeptBy`, `KeysBy`, `OrderGives`, `GroupGives` in Spec/Composed.lean) and the answer they ask for (`answerComposed`) | the lists are followed through the history by induction, the text is read by C74, conditions by C76; the tables, joins and conditions of joins given (`sourcesGiven` in Spec/AnySources.lean) are related to those the query has by an invariant (`TableFor`) |
| C79 | the assignments and conditions each call gives, of any kind, and what they tell the server (`KeptBy` in Spec/Composed.lean, `Changer` in Spec/Changes.lean) | the list of assignments is followed through the history by induction, the text is read by C74, conditions by C76, the tables by C71 and by the invariant of C78 |
| C80 | a name as a list of segments, each bare or quoted (Spec/QuotedNames.lean) | induction over the segments: `re.split` gives back the name of each; the text is read by C04's lemma |
| C81 | threads in `MultipleValues.add`, each with its own unfinished row (Model/RowThreads.lean) | the state of a thread is a function of the number of its own steps; invariant: the rows are those of the threads that have ended, in the order of their appends |
| C82 | setters as lists of assignments, threads that make them one by one, and the readings of `Limit.is_set` and `Limit.__str__` (Model/SettingThreads.lean) | invariant: the query is as the calls that are through leave it, in the order of their last assignments; for the text, what was read at earlier moments |
