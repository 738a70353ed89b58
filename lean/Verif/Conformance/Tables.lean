import Verif.Conformance.Harness

/-!
Generated by tools/conformance.py from tests/queryparts/test_tables.py.  Each example is one test of the repository, run on the model.
-/

set_option linter.unusedVariables false

namespace SqlPuzzle.Conformance
open SqlPuzzle

-- tests/queryparts/test_tables.py:19 test_is_not_set
example : passes .sql (fun cx S => do
  let mut tables' := ([] : List Table)
  let x1 : Bool ← (! ·) <$> (.ok (!tables'.isEmpty) : R Bool)
  pure (x1)) := by decide +kernel

-- tests/queryparts/test_tables.py:23 test_is_set
example : passes .sql (fun cx S => do
  let mut tables' := ([] : List Table)
  tables' ← call (tablesSet cx S tables' ⟨[.str L!"table"], []⟩)
  let x1 : Bool ← (.ok (!tables'.isEmpty) : R Bool)
  pure (x1)) := by decide +kernel

-- tests/queryparts/test_tables.py:39 test_simple
example : passes .sql (fun cx S => do
  let mut tables' := ([] : List Table)
  tables' ← call (tablesSet cx S tables' ⟨[.str L!"table"], []⟩)
  let x1 : Str ← tablesText cx S [] tables'
  tables' ← call (strTables cx S tables')
  let x2 : Bool ← (.ok (x1 == L!"\"table\"") : R Bool)
  pure (x2)) := by decide +kernel

-- tests/queryparts/test_tables.py:44 test_simple_as
example : passes .sql (fun cx S => do
  let mut tables' := ([] : List Table)
  tables' ← call (tablesSet cx S tables' ⟨[.tuple [.str L!"table", .str L!"t1"]], []⟩)
  let x1 : Str ← tablesText cx S [] tables'
  tables' ← call (strTables cx S tables')
  let x2 : Bool ← (.ok (x1 == L!"\"table\" AS \"t1\"") : R Bool)
  pure (x2)) := by decide +kernel

-- tests/queryparts/test_tables.py:49 test_more_tables
example : passes .sql (fun cx S => do
  let mut tables' := ([] : List Table)
  tables' ← call (tablesSet cx S tables' ⟨[.str L!"user", .str L!"country"], []⟩)
  let x1 : Str ← tablesText cx S [] tables'
  tables' ← call (strTables cx S tables')
  let x2 : Bool ← (.ok (x1 == L!"\"user\", \"country\"") : R Bool)
  pure (x2)) := by decide +kernel

-- tests/queryparts/test_tables.py:54 test_more_tables_with_as
example : passes .sql (fun cx S => do
  let mut tables' := ([] : List Table)
  tables' ← call (tablesSet cx S tables' ⟨[.tuple [.str L!"user", .str L!"u"], .tuple [.str L!"country", .str L!"c"]], []⟩)
  let x1 : Str ← tablesText cx S [] tables'
  tables' ← call (strTables cx S tables')
  let x2 : Bool ← (.ok (x1 == L!"\"user\" AS \"u\", \"country\" AS \"c\"") : R Bool)
  pure (x2)) := by decide +kernel

-- tests/queryparts/test_tables.py:59 test_simple_as_by_dictionary
example : passes .sql (fun cx S => do
  let mut tables' := ([] : List Table)
  tables' ← call (tablesSet cx S tables' ⟨[.dict [(.str L!"table", .str L!"t1")]], []⟩)
  let x1 : Str ← tablesText cx S [] tables'
  tables' ← call (strTables cx S tables')
  let x2 : Bool ← (.ok (x1 == L!"\"table\" AS \"t1\"") : R Bool)
  pure (x2)) := by decide +kernel

-- tests/queryparts/test_tables.py:64 test_more_tables_with_as_by_dictionary
example : passes .sql (fun cx S => do
  let mut tables' := ([] : List Table)
  tables' ← call (tablesSet cx S tables' ⟨[.dict [(.str L!"user", .str L!"u"), (.str L!"country", .str L!"c")]], []⟩)
  let x1 : Str ← tablesText cx S [] tables'
  tables' ← call (strTables cx S tables')
  let x2 : Bool ← (.ok (x1 == L!"\"country\" AS \"c\", \"user\" AS \"u\"") : R Bool)
  pure (x2)) := by decide +kernel

-- tests/queryparts/test_tables.py:69 test_more_tables_with_as_by_kwds
example : passes .sql (fun cx S => do
  let mut tables' := ([] : List Table)
  tables' ← call (tablesSet cx S tables' ⟨[], [(L!"user", .str L!"u"), (L!"country", .str L!"c")]⟩)
  let x1 : Str ← tablesText cx S [] tables'
  tables' ← call (strTables cx S tables')
  let x2 : Bool ← (.ok (x1 == L!"\"country\" AS \"c\", \"user\" AS \"u\"") : R Bool)
  pure (x2)) := by decide +kernel

-- tests/queryparts/test_tables.py:74 test_str
example : passes .sql (fun cx S => do
  let mut tables' := ([] : List Table)
  tables' ← call (tablesSet cx S tables' ⟨[.str L!"ščřž"], []⟩)
  let x1 : Str ← tablesText cx S [] tables'
  tables' ← call (strTables cx S tables')
  let x2 : Bool ← (.ok (x1 == L!"\"ščřž\"") : R Bool)
  pure (x2)) := by decide +kernel

-- tests/queryparts/test_tables.py:79 test_custom_one_table
example : passes .sql (fun cx S => do
  let mut tables' := ([] : List Table)
  let mut x1 ← mkCustom cx S (.str L!"\"custom\" JOIN \"sql\"")
  let mut customsql := x1
  tables' ← call (tablesSet cx S tables' ⟨[customsql], []⟩)
  let x2 : Str ← tablesText cx S [] tables'
  tables' ← call (strTables cx S tables')
  let x3 : Bool ← (.ok (x2 == L!"\"custom\" JOIN \"sql\"") : R Bool)
  pure (x3)) := by decide +kernel

-- tests/queryparts/test_tables.py:85 test_custom_more_tables
example : passes .sql (fun cx S => do
  let mut tables' := ([] : List Table)
  let mut x1 ← mkCustom cx S (.str L!"\"custom\" JOIN \"sql\"")
  let mut customsql := x1
  tables' ← call (tablesSet cx S tables' ⟨[customsql, .str L!"id"], []⟩)
  let x2 : Str ← tablesText cx S [] tables'
  tables' ← call (strTables cx S tables')
  let x3 : Bool ← (.ok (x2 == L!"\"custom\" JOIN \"sql\", \"id\"") : R Bool)
  pure (x3)) := by decide +kernel

-- tests/queryparts/test_tables.py:91 test_custom_in_column_with_as
example : passes .sql (fun cx S => do
  let mut tables' := ([] : List Table)
  let mut x1 ← mkCustom cx S (.str L!"\"custom\"")
  tables' ← call (tablesSet cx S tables' ⟨[.dict [(x1, .str L!"x")]], []⟩)
  let x2 : Str ← tablesText cx S [] tables'
  tables' ← call (strTables cx S tables')
  let x3 : Bool ← (.ok (x2 == L!"\"custom\" AS \"x\"") : R Bool)
  pure (x3)) := by decide +kernel

-- tests/queryparts/test_tables.py:96 test_more_same_tables_print_as_one
example : passes .sql (fun cx S => do
  let mut tables' := ([] : List Table)
  tables' ← call (tablesSet cx S tables' ⟨[.str L!"tab", .str L!"tab"], []⟩)
  let x1 : Str ← tablesText cx S [] tables'
  tables' ← call (strTables cx S tables')
  let x2 : Bool ← (.ok (x1 == L!"\"tab\"") : R Bool)
  pure (x2)) := by decide +kernel

-- tests/queryparts/test_tables.py:101 test_more_same_tables_with_diff_as_print_as_more
example : passes .sql (fun cx S => do
  let mut tables' := ([] : List Table)
  tables' ← call (tablesSet cx S tables' ⟨[.str L!"tab", .tuple [.str L!"tab", .str L!"tab2"]], []⟩)
  let x1 : Str ← tablesText cx S [] tables'
  tables' ← call (strTables cx S tables')
  let x2 : Bool ← (.ok (x1 == L!"\"tab\", \"tab\" AS \"tab2\"") : R Bool)
  pure (x2)) := by decide +kernel

-- tests/queryparts/test_tables.py:106 test_copy
example : passes .sql (fun cx S => do
  let mut tables' := ([] : List Table)
  tables' ← call (tablesSet cx S tables' ⟨[.str L!"tab"], []⟩)
  let mut x1 := tables'
  let mut copy := x1
  tables' ← call (tablesSet cx S tables' ⟨[.str L!"tab2"], []⟩)
  let x2 : Str ← tablesText cx S [] copy
  copy ← call (strTables cx S copy)
  let x3 : Bool ← (.ok (x2 == L!"\"tab\"") : R Bool)
  let x4 : Str ← tablesText cx S [] tables'
  tables' ← call (strTables cx S tables')
  let x5 : Bool ← (.ok (x4 == L!"\"tab\", \"tab2\"") : R Bool)
  pure (x3 && x5)) := by decide +kernel

-- tests/queryparts/test_tables.py:114 test_equals
example : passes .sql (fun cx S => do
  let mut tables' := ([] : List Table)
  tables' ← call (tablesSet cx S tables' ⟨[.str L!"tab"], []⟩)
  let mut x1 := tables'
  let mut copy := x1
  let x2 : Bool ← eqListR (tableEq cx S) tables' copy
  pure (x2)) := by decide +kernel

-- tests/queryparts/test_tables.py:120 test_not_equals
example : passes .sql (fun cx S => do
  let mut tables' := ([] : List Table)
  tables' ← call (tablesSet cx S tables' ⟨[.str L!"tab"], []⟩)
  let mut x1 := tables'
  let mut copy := x1
  tables' ← call (tablesSet cx S tables' ⟨[.str L!"tab2"], []⟩)
  let x2 : Bool ← (! ·) <$> eqListR (tableEq cx S) tables' copy
  pure (x2)) := by decide +kernel

-- tests/queryparts/test_tables.py:127 test_name_as_integer_exception
example : passes .sql (fun cx S => do
  let mut tables' := ([] : List Table)
  let x1 : Bool := raises Err.isInvalidArgument (do
      let mut tables' := tables'
      tables' ← call (tablesSet cx S tables' ⟨[.int 42], []⟩)
      pure ())
  pure (x1)) := by decide +kernel

-- tests/queryparts/test_tables.py:132 test_name_as_float_exception
example : passes .sql (fun cx S => do
  let mut tables' := ([] : List Table)
  let x1 : Bool := raises Err.isInvalidArgument (do
      let mut tables' := tables'
      tables' ← call (tablesSet cx S tables' ⟨[.float (.fin false 5925048259759309 (-47))], []⟩)
      pure ())
  pure (x1)) := by decide +kernel

-- tests/queryparts/test_tables.py:137 test_name_as_boolean_exception
example : passes .sql (fun cx S => do
  let mut tables' := ([] : List Table)
  let x1 : Bool := raises Err.isInvalidArgument (do
      let mut tables' := tables'
      tables' ← call (tablesSet cx S tables' ⟨[.bool true], []⟩)
      pure ())
  pure (x1)) := by decide +kernel

-- tests/queryparts/test_tables.py:142 testIN
example : passes .sql (fun cx S => do
  let mut tables' := ([] : List Table)
  tables' ← call (tablesSet cx S tables' ⟨[.str L!"t1"], []⟩)
  tables' ← call (tablesJoin cx S tables' .inner (.str L!"t2"))
  tables' ← call (tablesOn cx S tables' ⟨[.str L!"t2.id", .list [.int 3, .int 4]], []⟩)
  let x1 : Str ← tablesText cx S [] tables'
  tables' ← call (strTables cx S tables')
  let x2 : Bool ← (.ok (x1 == L!"\"t1\" JOIN \"t2\" ON \"t2\".\"id\" IN (3, 4)") : R Bool)
  pure (x2)) := by decide +kernel

-- tests/queryparts/test_tables.py:148 testGT
example : passes .sql (fun cx S => do
  let mut tables' := ([] : List Table)
  tables' ← call (tablesSet cx S tables' ⟨[.str L!"t1"], []⟩)
  tables' ← call (tablesJoin cx S tables' .inner (.str L!"t2"))
  let mut x1 ← mkRel .ge [.int 42]
  tables' ← call (tablesOn cx S tables' ⟨[.str L!"t2.id", x1], []⟩)
  let x2 : Str ← tablesText cx S [] tables'
  tables' ← call (strTables cx S tables')
  let x3 : Bool ← (.ok (x2 == L!"\"t1\" JOIN \"t2\" ON \"t2\".\"id\" >= 42") : R Bool)
  pure (x3)) := by decide +kernel

-- tests/queryparts/test_tables.py:154 testInJoin
example : passes .sql (fun cx S => do
  let mut tables' := ([] : List Table)
  tables' ← call (tablesSet cx S tables' ⟨[.str L!"t1"], []⟩)
  let mut x1 ← mkSelectFrom cx S ⟨[.str L!"t2"], []⟩
  tables' ← call (tablesJoin cx S tables' .inner (.dict [(.select x1, .str L!"t")]))
  tables' ← call (tablesOn cx S tables' ⟨[.str L!"t1.id", .str L!"t.id"], []⟩)
  let x2 : Str ← tablesText cx S [] tables'
  tables' ← call (strTables cx S tables')
  let x3 : Bool ← (.ok (x2 == L!"\"t1\" JOIN (SELECT * FROM \"t2\") AS \"t\" ON \"t1\".\"id\" = \"t\".\"id\"") : R Bool)
  pure (x3)) := by decide +kernel

-- tests/queryparts/test_tables.py:159 testInCondition
example : passes .sql (fun cx S => do
  let mut tables' := ([] : List Table)
  tables' ← call (tablesSet cx S tables' ⟨[.str L!"t1"], []⟩)
  tables' ← call (tablesJoin cx S tables' .inner (.str L!"t2"))
  let mut x1 ← mkSelect S ⟨[.str L!"id"], []⟩
  x1 ← call (selectStep cx S x1 (.from_ ⟨[.str L!"t3"], []⟩))
  tables' ← call (tablesOn cx S tables' ⟨[.str L!"t2.id", .select x1], []⟩)
  let x2 : Str ← tablesText cx S [] tables'
  tables' ← call (strTables cx S tables')
  let x3 : Bool ← (.ok (x2 == L!"\"t1\" JOIN \"t2\" ON \"t2\".\"id\" = (SELECT \"id\" FROM \"t3\")") : R Bool)
  pure (x3)) := by decide +kernel

-- tests/queryparts/test_tables.py:164 testInConditionWithRelationIN
example : passes .sql (fun cx S => do
  let mut tables' := ([] : List Table)
  tables' ← call (tablesSet cx S tables' ⟨[.str L!"t1"], []⟩)
  tables' ← call (tablesJoin cx S tables' .inner (.str L!"t2"))
  let mut x1 ← mkSelect S ⟨[.str L!"id"], []⟩
  x1 ← call (selectStep cx S x1 (.from_ ⟨[.str L!"t3"], []⟩))
  let mut x2 ← mkRel .in_ [.select x1]
  tables' ← call (tablesOn cx S tables' ⟨[.str L!"t2.id", x2], []⟩)
  let x3 : Str ← tablesText cx S [] tables'
  tables' ← call (strTables cx S tables')
  let x4 : Bool ← (.ok (x3 == L!"\"t1\" JOIN \"t2\" ON \"t2\".\"id\" IN (SELECT \"id\" FROM \"t3\")") : R Bool)
  pure (x4)) := by decide +kernel

-- tests/queryparts/test_tables.py:170 testSimpleJoinNameWithDot1
example : passes .sql (fun cx S => do
  let mut tables' := ([] : List Table)
  tables' ← call (tablesSet cx S tables' ⟨[.str L!"t"], []⟩)
  tables' ← call (tablesJoin cx S tables' .inner (.str L!"a.b"))
  tables' ← call (tablesOn cx S tables' ⟨[.str L!"t.id", .str L!"\"a.b\".id"], []⟩)
  let x1 : Str ← tablesText cx S [] tables'
  tables' ← call (strTables cx S tables')
  let x2 : Bool ← (.ok (x1 == L!"\"t\" JOIN \"a\".\"b\" ON \"t\".\"id\" = \"a.b\".\"id\"") : R Bool)
  pure (x2)) := by decide +kernel

-- tests/queryparts/test_tables.py:176 testSimpleJoinNameWithDot2
example : passes .sql (fun cx S => do
  let mut tables' := ([] : List Table)
  tables' ← call (tablesSet cx S tables' ⟨[.str L!"t"], []⟩)
  tables' ← call (tablesJoin cx S tables' .inner (.str L!"a"))
  tables' ← call (tablesOn cx S tables' ⟨[.str L!"t.id", .str L!"a.\"b.id\""], []⟩)
  let x1 : Str ← tablesText cx S [] tables'
  tables' ← call (strTables cx S tables')
  let x2 : Bool ← (.ok (x1 == L!"\"t\" JOIN \"a\" ON \"t\".\"id\" = \"a\".\"b.id\"") : R Bool)
  pure (x2)) := by decide +kernel

-- tests/queryparts/test_tables.py:182 test_join_without_table_exception
example : passes .sql (fun cx S => do
  let mut tables' := ([] : List Table)
  let x1 : Bool := raises (· == .invalidQuery) (do
      let mut tables' := tables'
      tables' ← call (tablesJoin cx S tables' .inner (.str L!"table"))
      pure ())
  pure (x1)) := by decide +kernel

-- tests/queryparts/test_tables.py:187 test_on_without_join_exception
example : passes .sql (fun cx S => do
  let mut tables' := ([] : List Table)
  tables' ← call (tablesSet cx S tables' ⟨[.str L!"table"], []⟩)
  let x1 : Bool := raises (· == .invalidQuery) (do
      let mut tables' := tables'
      tables' ← call (tablesOn cx S tables' ⟨[.str L!"a", .str L!"b"], []⟩)
      pure ())
  pure (x1)) := by decide +kernel

-- tests/queryparts/test_tables.py:193 test_on_without_table_exception
example : passes .sql (fun cx S => do
  let mut tables' := ([] : List Table)
  let x1 : Bool := raises (· == .invalidQuery) (do
      let mut tables' := tables'
      tables' ← call (tablesOn cx S tables' ⟨[.str L!"a", .str L!"b"], []⟩)
      pure ())
  pure (x1)) := by decide +kernel

-- tests/queryparts/test_tables.py:199 TestSimpleJoins.test_join_without_condition
example : passes .sql (fun cx S => do
  let mut tables' := ([] : List Table)
  tables' ← call (tablesSet cx S tables' ⟨[.str L!"user"], []⟩)
  tables' ← call (tablesJoin cx S tables' .inner (.str L!"user"))
  let x1 : Str ← tablesText cx S [] tables'
  tables' ← call (strTables cx S tables')
  let x2 : Bool ← (.ok (x1 == L!"\"user\" JOIN \"user\"") : R Bool)
  pure (x2)) := by decide +kernel

-- tests/queryparts/test_tables.py:203 TestSimpleJoins.test_inner_join
example : passes .sql (fun cx S => do
  let mut tables' := ([] : List Table)
  tables' ← call (tablesSet cx S tables' ⟨[.str L!"user"], []⟩)
  tables' ← call (tablesJoin cx S tables' .inner (.str L!"country"))
  tables' ← call (tablesOn cx S tables' ⟨[.str L!"user.country_id", .str L!"country.id"], []⟩)
  let x1 : Str ← tablesText cx S [] tables'
  tables' ← call (strTables cx S tables')
  let x2 : Bool ← (.ok (x1 == L!"\"user\" JOIN \"country\" ON \"user\".\"country_id\" = \"country\".\"id\"") : R Bool)
  pure (x2)) := by decide +kernel

-- tests/queryparts/test_tables.py:207 TestSimpleJoins.test_left_join
example : passes .sql (fun cx S => do
  let mut tables' := ([] : List Table)
  tables' ← call (tablesSet cx S tables' ⟨[.str L!"user"], []⟩)
  tables' ← call (tablesJoin cx S tables' .left (.tuple [.str L!"user", .str L!"parent"]))
  tables' ← call (tablesOn cx S tables' ⟨[.str L!"user.parent_id", .str L!"parent.id"], []⟩)
  let x1 : Str ← tablesText cx S [] tables'
  tables' ← call (strTables cx S tables')
  let x2 : Bool ← (.ok (x1 == L!"\"user\" LEFT JOIN \"user\" AS \"parent\" ON \"user\".\"parent_id\" = \"parent\".\"id\"") : R Bool)
  pure (x2)) := by decide +kernel

-- tests/queryparts/test_tables.py:212 TestSimpleJoins.test_right_join
example : passes .sql (fun cx S => do
  let mut tables' := ([] : List Table)
  tables' ← call (tablesSet cx S tables' ⟨[.str L!"t1"], []⟩)
  tables' ← call (tablesJoin cx S tables' .right (.str L!"t2"))
  tables' ← call (tablesOn cx S tables' ⟨[.str L!"t1.id", .str L!"t2.id"], []⟩)
  let x1 : Str ← tablesText cx S [] tables'
  tables' ← call (strTables cx S tables')
  let x2 : Bool ← (.ok (x1 == L!"\"t1\" RIGHT JOIN \"t2\" ON \"t1\".\"id\" = \"t2\".\"id\"") : R Bool)
  pure (x2)) := by decide +kernel

-- tests/queryparts/test_tables.py:217 TestSimpleJoins.test_full_join_not_supported
example : passes .sql (fun cx S => do
  let mut tables' := ([] : List Table)
  let x1 : Bool := raises (· == .invalidQuery) (do
      let mut tables' := tables'
      tables' ← call (tablesSet cx S tables' ⟨[.str L!"user"], []⟩)
      tables' ← call (tablesJoin cx S tables' .full (.str L!"country"))
      tables' ← call (tablesOn cx S tables' ⟨[.str L!"user.country_id", .str L!"country.id"], []⟩)
      pure ())
  pure (x1)) := by decide +kernel

-- tests/queryparts/test_tables.py:221 TestSimpleJoins.test_full_join_supported
example : passes .postgresql (fun cx S => do
  let mut tables' := ([] : List Table)
  tables' ← call (tablesSet cx S tables' ⟨[.str L!"user"], []⟩)
  tables' ← call (tablesJoin cx S tables' .full (.str L!"country"))
  tables' ← call (tablesOn cx S tables' ⟨[.str L!"user.country_id", .str L!"country.id"], []⟩)
  let x1 : Str ← tablesText cx S [] tables'
  tables' ← call (strTables cx S tables')
  let x2 : Bool ← (.ok (x1 == L!"\"user\" FULL JOIN \"country\" ON \"user\".\"country_id\" = \"country\".\"id\"") : R Bool)
  pure (x2)) := by decide +kernel

-- tests/queryparts/test_tables.py:226 TestSimpleJoins.test_simple_as_inner_join
example : passes .sql (fun cx S => do
  let mut tables' := ([] : List Table)
  tables' ← call (tablesSet cx S tables' ⟨[.tuple [.str L!"user", .str L!"u"]], []⟩)
  tables' ← call (tablesJoin cx S tables' .inner (.tuple [.str L!"country", .str L!"c"]))
  tables' ← call (tablesOn cx S tables' ⟨[.str L!"u.country_id", .str L!"c.id"], []⟩)
  let x1 : Str ← tablesText cx S [] tables'
  tables' ← call (strTables cx S tables')
  let x2 : Bool ← (.ok (x1 == L!"\"user\" AS \"u\" JOIN \"country\" AS \"c\" ON \"u\".\"country_id\" = \"c\".\"id\"") : R Bool)
  pure (x2)) := by decide +kernel

-- tests/queryparts/test_tables.py:230 TestSimpleJoins.test_simple_as_inner_join_by_dictionary
example : passes .sql (fun cx S => do
  let mut tables' := ([] : List Table)
  tables' ← call (tablesSet cx S tables' ⟨[.dict [(.str L!"user", .str L!"u")]], []⟩)
  tables' ← call (tablesJoin cx S tables' .inner (.dict [(.str L!"country", .str L!"c")]))
  tables' ← call (tablesOn cx S tables' ⟨[.str L!"u.country_id", .str L!"c.id"], []⟩)
  let x1 : Str ← tablesText cx S [] tables'
  tables' ← call (strTables cx S tables')
  let x2 : Bool ← (.ok (x1 == L!"\"user\" AS \"u\" JOIN \"country\" AS \"c\" ON \"u\".\"country_id\" = \"c\".\"id\"") : R Bool)
  pure (x2)) := by decide +kernel

-- tests/queryparts/test_tables.py:234 TestSimpleJoins.test_more_inner_joins
example : passes .sql (fun cx S => do
  let mut tables' := ([] : List Table)
  tables' ← call (tablesSet cx S tables' ⟨[.str L!"user"], []⟩)
  tables' ← call (tablesJoin cx S tables' .inner (.str L!"country"))
  tables' ← call (tablesOn cx S tables' ⟨[.str L!"user.country_id", .str L!"country.id"], []⟩)
  tables' ← call (tablesJoin cx S tables' .inner (.str L!"role"))
  tables' ← call (tablesOn cx S tables' ⟨[.str L!"user.role_id", .str L!"role.id"], []⟩)
  let x1 : Str ← tablesText cx S [] tables'
  tables' ← call (strTables cx S tables')
  let x2 : Bool ← (.ok (x1 == L!"\"user\" JOIN \"country\" ON \"user\".\"country_id\" = \"country\".\"id\" JOIN \"role\" ON \"user\".\"role_id\" = \"role\".\"id\"") : R Bool)
  pure (x2)) := by decide +kernel

-- tests/queryparts/test_tables.py:243 TestSimpleJoins.test_join_with_more_conditions
example : passes .sql (fun cx S => do
  let mut tables' := ([] : List Table)
  tables' ← call (tablesSet cx S tables' ⟨[.str L!"table"], []⟩)
  tables' ← call (tablesJoin cx S tables' .left (.str L!"table2"))
  tables' ← call (tablesOn cx S tables' ⟨[.str L!"table.id", .str L!"table2.id"], []⟩)
  tables' ← call (tablesOn cx S tables' ⟨[.str L!"table.id2", .str L!"table2.id2"], []⟩)
  let x1 : Str ← tablesText cx S [] tables'
  tables' ← call (strTables cx S tables')
  let x2 : Bool ← (.ok (x1 == L!"\"table\" LEFT JOIN \"table2\" ON \"table\".\"id\" = \"table2\".\"id\" AND \"table\".\"id2\" = \"table2\".\"id2\"") : R Bool)
  pure (x2)) := by decide +kernel

-- tests/queryparts/test_tables.py:250 TestSimpleJoins.test_customsql
example : passes .sql (fun cx S => do
  let mut tables' := ([] : List Table)
  tables' ← call (tablesSet cx S tables' ⟨[.str L!"t"], []⟩)
  tables' ← call (tablesJoin cx S tables' .inner (.str L!"u"))
  let mut x1 ← mkCustom cx S (.str L!"x")
  tables' ← call (tablesOn cx S tables' ⟨[.str L!"col", x1], []⟩)
  let x2 : Str ← tablesText cx S [] tables'
  tables' ← call (strTables cx S tables')
  let x3 : Bool ← (.ok (x2 == L!"\"t\" JOIN \"u\" ON \"col\" = x") : R Bool)
  pure (x3)) := by decide +kernel

-- tests/queryparts/test_tables.py:255 TestSimpleJoins.test_sqlvalue
example : passes .sql (fun cx S => do
  let mut tables' := ([] : List Table)
  tables' ← call (tablesSet cx S tables' ⟨[.str L!"t"], []⟩)
  tables' ← call (tablesJoin cx S tables' .inner (.str L!"u"))
  let mut x1 : Obj := .sqlValue (.str L!"x")
  tables' ← call (tablesOn cx S tables' ⟨[.str L!"col", x1], []⟩)
  let x2 : Str ← tablesText cx S [] tables'
  tables' ← call (strTables cx S tables')
  let x3 : Bool ← (.ok (x2 == L!"\"t\" JOIN \"u\" ON \"col\" = 'x'") : R Bool)
  pure (x3)) := by decide +kernel

-- tests/queryparts/test_tables.py:262 TestGroupingJoins.test_left_and_inner_is_inner
example : passes .sql (fun cx S => do
  let mut tables' := ([] : List Table)
  tables' ← call (tablesSet cx S tables' ⟨[.str L!"t1"], []⟩)
  tables' ← call (tablesJoin cx S tables' .left (.str L!"t2"))
  tables' ← call (tablesOn cx S tables' ⟨[.str L!"t1.id", .str L!"t2.id"], []⟩)
  tables' ← call (tablesJoin cx S tables' .inner (.str L!"t2"))
  tables' ← call (tablesOn cx S tables' ⟨[.str L!"t1.id", .str L!"t2.id"], []⟩)
  let x1 : Str ← tablesText cx S [] tables'
  tables' ← call (strTables cx S tables')
  let x2 : Bool ← (.ok (x1 == L!"\"t1\" JOIN \"t2\" ON \"t1\".\"id\" = \"t2\".\"id\"") : R Bool)
  pure (x2)) := by decide +kernel

-- tests/queryparts/test_tables.py:268 TestGroupingJoins.test_left_and_inner_is_inner_with_reverse_condition
example : passes .sql (fun cx S => do
  let mut tables' := ([] : List Table)
  tables' ← call (tablesSet cx S tables' ⟨[.str L!"t1"], []⟩)
  tables' ← call (tablesJoin cx S tables' .left (.str L!"t2"))
  tables' ← call (tablesOn cx S tables' ⟨[.str L!"t1.id", .str L!"t2.id"], []⟩)
  tables' ← call (tablesJoin cx S tables' .inner (.str L!"t2"))
  tables' ← call (tablesOn cx S tables' ⟨[.str L!"t2.id", .str L!"t1.id"], []⟩)
  let x1 : Str ← tablesText cx S [] tables'
  tables' ← call (strTables cx S tables')
  let x2 : Bool ← (.ok (x1 == L!"\"t1\" JOIN \"t2\" ON \"t1\".\"id\" = \"t2\".\"id\"") : R Bool)
  pure (x2)) := by decide +kernel

-- tests/queryparts/test_tables.py:274 TestGroupingJoins.test_left_and_inner_is_inner_with_reverse_condition_and_relation
example : passes .sql (fun cx S => do
  let mut tables' := ([] : List Table)
  tables' ← call (tablesSet cx S tables' ⟨[.str L!"t1"], []⟩)
  tables' ← call (tablesJoin cx S tables' .left (.str L!"t2"))
  let mut x1 ← mkRel .le [.str L!"t2.id"]
  tables' ← call (tablesOn cx S tables' ⟨[.str L!"t1.id", x1], []⟩)
  tables' ← call (tablesJoin cx S tables' .inner (.str L!"t2"))
  let mut x2 ← mkRel .ge [.str L!"t1.id"]
  tables' ← call (tablesOn cx S tables' ⟨[.str L!"t2.id", x2], []⟩)
  let x3 : Str ← tablesText cx S [] tables'
  tables' ← call (strTables cx S tables')
  let x4 : Bool ← (.ok (x3 == L!"\"t1\" JOIN \"t2\" ON \"t1\".\"id\" <= \"t2\".\"id\"") : R Bool)
  pure (x4)) := by decide +kernel

-- tests/queryparts/test_tables.py:280 TestGroupingJoins.test_left_and_inner_is_inner_with_reverse_condition_but_not_relation
example : passes .sql (fun cx S => do
  let mut tables' := ([] : List Table)
  tables' ← call (tablesSet cx S tables' ⟨[.str L!"t1"], []⟩)
  tables' ← call (tablesJoin cx S tables' .left (.str L!"t2"))
  let mut x1 ← mkRel .le [.str L!"t2.id"]
  tables' ← call (tablesOn cx S tables' ⟨[.str L!"t1.id", x1], []⟩)
  tables' ← call (tablesJoin cx S tables' .inner (.str L!"t2"))
  let mut x2 ← mkRel .le [.str L!"t1.id"]
  tables' ← call (tablesOn cx S tables' ⟨[.str L!"t2.id", x2], []⟩)
  let x3 : Str ← tablesText cx S [] tables'
  tables' ← call (strTables cx S tables')
  let x4 : Bool ← (.ok (x3 == L!"\"t1\" LEFT JOIN \"t2\" ON \"t1\".\"id\" <= \"t2\".\"id\" JOIN \"t2\" ON \"t2\".\"id\" <= \"t1\".\"id\"") : R Bool)
  pure (x4)) := by decide +kernel

-- tests/queryparts/test_tables.py:286 TestGroupingJoins.testGroupSameJoins
example : passes .sql (fun cx S => do
  let mut tables' := ([] : List Table)
  tables' ← call (tablesSet cx S tables' ⟨[.str L!"t1"], []⟩)
  tables' ← call (tablesJoin cx S tables' .inner (.dict [(.str L!"t2", .str L!"t")]))
  tables' ← call (tablesOn cx S tables' ⟨[.str L!"a", .str L!"b"], []⟩)
  tables' ← call (tablesJoin cx S tables' .inner (.dict [(.str L!"t2", .str L!"t")]))
  tables' ← call (tablesOn cx S tables' ⟨[.str L!"a", .str L!"b"], []⟩)
  let x1 : Str ← tablesText cx S [] tables'
  tables' ← call (strTables cx S tables')
  let x2 : Bool ← (.ok (x1 == L!"\"t1\" JOIN \"t2\" AS \"t\" ON \"a\" = \"b\"") : R Bool)
  pure (x2)) := by decide +kernel

-- tests/queryparts/test_tables.py:292 TestGroupingJoins.testGroupSameLeftJoins
example : passes .sql (fun cx S => do
  let mut tables' := ([] : List Table)
  tables' ← call (tablesSet cx S tables' ⟨[.str L!"t1"], []⟩)
  tables' ← call (tablesJoin cx S tables' .left (.dict [(.str L!"t2", .str L!"t")]))
  tables' ← call (tablesOn cx S tables' ⟨[.str L!"a", .str L!"b"], []⟩)
  tables' ← call (tablesJoin cx S tables' .left (.dict [(.str L!"t2", .str L!"t")]))
  tables' ← call (tablesOn cx S tables' ⟨[.str L!"a", .str L!"b"], []⟩)
  let x1 : Str ← tablesText cx S [] tables'
  tables' ← call (strTables cx S tables')
  let x2 : Bool ← (.ok (x1 == L!"\"t1\" LEFT JOIN \"t2\" AS \"t\" ON \"a\" = \"b\"") : R Bool)
  pure (x2)) := by decide +kernel

-- tests/queryparts/test_tables.py:298 TestGroupingJoins.testNotGroupWhenConditionIsDifferent
example : passes .sql (fun cx S => do
  let mut tables' := ([] : List Table)
  tables' ← call (tablesSet cx S tables' ⟨[.str L!"t1"], []⟩)
  tables' ← call (tablesJoin cx S tables' .inner (.dict [(.str L!"t2", .str L!"t")]))
  tables' ← call (tablesOn cx S tables' ⟨[.str L!"a", .str L!"b"], []⟩)
  tables' ← call (tablesJoin cx S tables' .inner (.dict [(.str L!"t2", .str L!"t")]))
  tables' ← call (tablesOn cx S tables' ⟨[.str L!"c", .str L!"d"], []⟩)
  let x1 : Str ← tablesText cx S [] tables'
  tables' ← call (strTables cx S tables')
  let x2 : Bool ← (.ok (x1 == L!"\"t1\" JOIN \"t2\" AS \"t\" ON \"a\" = \"b\" JOIN \"t2\" AS \"t\" ON \"c\" = \"d\"") : R Bool)
  pure (x2)) := by decide +kernel

-- tests/queryparts/test_tables.py:307 TestQObject.test_simple_or
example : passes .sql (fun cx S => do
  let mut tables' := ([] : List Table)
  tables' ← call (tablesSet cx S tables' ⟨[.str L!"t"], []⟩)
  tables' ← call (tablesJoin cx S tables' .inner (.str L!"a"))
  let mut x1 ← mkConds cx S ⟨[], [(L!"x", .str L!"y")]⟩
  let mut x2 ← mkConds cx S ⟨[], [(L!"y", .str L!"x")]⟩
  let mut x3 ← mkBinary .or x1 x2
  tables' ← call (tablesOn cx S tables' ⟨[x3], []⟩)
  let x4 : Str ← tablesText cx S [] tables'
  tables' ← call (strTables cx S tables')
  let x5 : Bool ← (.ok (x4 == L!"\"t\" JOIN \"a\" ON (\"x\" = 'y' OR \"y\" = 'x')") : R Bool)
  pure (x5)) := by decide +kernel

-- tests/queryparts/test_tables.py:312 TestQObject.test_simple_and
example : passes .sql (fun cx S => do
  let mut tables' := ([] : List Table)
  tables' ← call (tablesSet cx S tables' ⟨[.str L!"t"], []⟩)
  tables' ← call (tablesJoin cx S tables' .inner (.str L!"a"))
  let mut x1 ← mkConds cx S ⟨[], [(L!"x", .str L!"y")]⟩
  let mut x2 ← mkConds cx S ⟨[], [(L!"y", .str L!"x")]⟩
  let mut x3 ← mkBinary .and x1 x2
  tables' ← call (tablesOn cx S tables' ⟨[x3], []⟩)
  let x4 : Str ← tablesText cx S [] tables'
  tables' ← call (strTables cx S tables')
  let x5 : Bool ← (.ok (x4 == L!"\"t\" JOIN \"a\" ON (\"x\" = 'y' AND \"y\" = 'x')") : R Bool)
  pure (x5)) := by decide +kernel

-- tests/queryparts/test_tables.py:317 TestQObject.test_more_complicated
example : passes .sql (fun cx S => do
  let mut tables' := ([] : List Table)
  tables' ← call (tablesSet cx S tables' ⟨[.str L!"t"], []⟩)
  tables' ← call (tablesJoin cx S tables' .inner (.str L!"a"))
  let mut x1 ← mkConds cx S ⟨[], [(L!"a", .int 1)]⟩
  let mut x2 ← mkConds cx S ⟨[], [(L!"b", .int 2)]⟩
  let mut x3 ← mkBinary .and x1 x2
  let mut x4 ← mkConds cx S ⟨[], [(L!"c", .int 3)]⟩
  let mut x5 ← mkBinary .or x3 x4
  tables' ← call (tablesOn cx S tables' ⟨[x5], []⟩)
  let x6 : Str ← tablesText cx S [] tables'
  tables' ← call (strTables cx S tables')
  let x7 : Bool ← (.ok (x6 == L!"\"t\" JOIN \"a\" ON ((\"a\" = 1 AND \"b\" = 2) OR \"c\" = 3)") : R Bool)
  pure (x7)) := by decide +kernel

-- tests/queryparts/test_tables.py:322 TestQObject.test_more_conditions_in_q
example : passes .sql (fun cx S => do
  let mut tables' := ([] : List Table)
  tables' ← call (tablesSet cx S tables' ⟨[.str L!"t"], []⟩)
  tables' ← call (tablesJoin cx S tables' .inner (.str L!"a"))
  let mut x1 ← mkConds cx S ⟨[], [(L!"a", .int 42), (L!"b", .int 24)]⟩
  let mut x2 ← mkConds cx S ⟨[], [(L!"x", .str L!"y")]⟩
  let mut x3 ← mkBinary .or x1 x2
  tables' ← call (tablesOn cx S tables' ⟨[x3], []⟩)
  let x4 : Str ← tablesText cx S [] tables'
  tables' ← call (strTables cx S tables')
  let x5 : Bool ← (.ok (x4 == L!"\"t\" JOIN \"a\" ON ((\"a\" = 42 AND \"b\" = 24) OR \"x\" = 'y')") : R Bool)
  pure (x5)) := by decide +kernel

end SqlPuzzle.Conformance
