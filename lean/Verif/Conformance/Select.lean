import Verif.Conformance.Harness

/-!
Generated by tools/conformance.py from tests/queries/test_select.py.  Each example is one test of the repository, run on the model.
-/

set_option linter.unusedVariables false

namespace SqlPuzzle.Conformance
open SqlPuzzle

-- tests/queries/test_select.py:10 test_base
example : passes .sql (fun cx S => do
  let mut select' := ({} : Select)
  select' ← call (selectStep cx S select' (.columns ⟨[.int 1], []⟩))
  let x1 : Str ← S.str (.select select')
  select' ← call (selectStep cx S select' .str)
  let x2 : Bool ← (.ok (x1 == L!"SELECT 1") : R Bool)
  pure (x2)) := by decide +kernel

-- tests/queries/test_select.py:15 test_simply
example : passes .sql (fun cx S => do
  let mut select' := ({} : Select)
  select' ← call (selectStep cx S select' (.columns ⟨[.str L!"id", .str L!"name"], []⟩))
  select' ← call (selectStep cx S select' (.from_ ⟨[.str L!"user"], []⟩))
  let x1 : Str ← S.str (.select select')
  select' ← call (selectStep cx S select' .str)
  let x2 : Bool ← (.ok (x1 == L!"SELECT \"id\", \"name\" FROM \"user\"") : R Bool)
  pure (x2)) := by decide +kernel

-- tests/queries/test_select.py:21 test_all_columns
example : passes .sql (fun cx S => do
  let mut select' := ({} : Select)
  select' ← call (selectStep cx S select' (.from_ ⟨[.str L!"user"], []⟩))
  let x1 : Str ← S.str (.select select')
  select' ← call (selectStep cx S select' .str)
  let x2 : Bool ← (.ok (x1 == L!"SELECT * FROM \"user\"") : R Bool)
  pure (x2)) := by decide +kernel

-- tests/queries/test_select.py:26 test_all_columns_from_specific_table
example : passes .sql (fun cx S => do
  let mut select' := ({} : Select)
  select' ← call (selectStep cx S select' (.columns ⟨[.str L!"user.*"], []⟩))
  select' ← call (selectStep cx S select' (.from_ ⟨[.str L!"user"], []⟩))
  let x1 : Str ← S.str (.select select')
  select' ← call (selectStep cx S select' .str)
  let x2 : Bool ← (.ok (x1 == L!"SELECT \"user\".* FROM \"user\"") : R Bool)
  pure (x2)) := by decide +kernel

-- tests/queries/test_select.py:31 test_order_by
example : passes .sql (fun cx S => do
  let mut select' := ({} : Select)
  select' ← call (selectStep cx S select' (.from_ ⟨[.str L!"user"], []⟩))
  select' ← call (selectStep cx S select' (.orderBy ⟨[.str L!"id"], []⟩))
  let x1 : Str ← S.str (.select select')
  select' ← call (selectStep cx S select' .str)
  let x2 : Bool ← (.ok (x1 == L!"SELECT * FROM \"user\" ORDER BY \"id\"") : R Bool)
  pure (x2)) := by decide +kernel

-- tests/queries/test_select.py:37 test_group_by
example : passes .sql (fun cx S => do
  let mut select' := ({} : Select)
  select' ← call (selectStep cx S select' (.from_ ⟨[.str L!"user"], []⟩))
  select' ← call (selectStep cx S select' (.groupBy ⟨[.str L!"id"], []⟩))
  let x1 : Str ← S.str (.select select')
  select' ← call (selectStep cx S select' .str)
  let x2 : Bool ← (.ok (x1 == L!"SELECT * FROM \"user\" GROUP BY \"id\"") : R Bool)
  pure (x2)) := by decide +kernel

-- tests/queries/test_select.py:43 test_str
example : passes .sql (fun cx S => do
  let mut select' := ({} : Select)
  select' ← call (selectStep cx S select' (.from_ ⟨[.str L!"user"], []⟩))
  select' ← call (selectStep cx S select' (.where_ ⟨[], [(L!"name", .str L!"ščřž")]⟩))
  let x1 : Str ← S.str (.select select')
  select' ← call (selectStep cx S select' .str)
  let x2 : Bool ← (.ok (x1 == L!"SELECT * FROM \"user\" WHERE \"name\" = 'ščřž'") : R Bool)
  pure (x2)) := by decide +kernel

-- tests/queries/test_select.py:49 test_has_not_where
example : passes .sql (fun cx S => do
  let mut select' := ({} : Select)
  let x1 : Bool ← (! ·) <$> selectHas cx S select' L!"where" (.none)
  pure (x1)) := by decide +kernel

-- tests/queries/test_select.py:53 test_has_where
example : passes .sql (fun cx S => do
  let mut select' := ({} : Select)
  select' ← call (selectStep cx S select' (.where_ ⟨[], [(L!"id", .int 1)]⟩))
  let x1 : Bool ← selectHas cx S select' L!"where" (.none)
  let x2 : Bool ← selectHas cx S select' L!"where" (.str L!"id")
  pure (x1 && x2)) := by decide +kernel

-- tests/queries/test_select.py:59 test_has_not_distinct
example : passes .sql (fun cx S => do
  let mut select' := ({} : Select)
  let x1 : Bool ← (! ·) <$> selectHas cx S select' L!"distinct" (.none)
  select' ← call (selectStep cx S select' (.option .distinctrow (.bool true)))
  let x2 : Bool ← (! ·) <$> selectHas cx S select' L!"distinct" (.none)
  pure (x1 && x2)) := by decide +kernel

-- tests/queries/test_select.py:65 test_has_distinct
example : passes .sql (fun cx S => do
  let mut select' := ({} : Select)
  select' ← call (selectStep cx S select' (.option .distinct (.bool true)))
  let x1 : Bool ← selectHas cx S select' L!"distinct" (.none)
  pure (x1)) := by decide +kernel

-- tests/queries/test_select.py:70 test_has_select_for_update
example : passes .sql (fun cx S => do
  let mut select' := ({} : Select)
  select' ← call (selectStep cx S select' (.forUpdate (.bool true)))
  let x1 : Bool ← selectHas cx S select' L!"select_for_update" (.none)
  pure (x1)) := by decide +kernel

-- tests/queries/test_select.py:75 test_from
example : passes .sql (fun cx S => do
  let mut select' := ({} : Select)
  select' ← call (selectStep cx S select' (.from_ ⟨[.str L!"table"], []⟩))
  let x1 : Str ← S.str (.select select')
  select' ← call (selectStep cx S select' .str)
  let x2 : Bool ← (.ok (x1 == L!"SELECT * FROM \"table\"") : R Bool)
  pure (x2)) := by decide +kernel

-- tests/queries/test_select.py:80 test_from_table
example : passes .sql (fun cx S => do
  let mut select' := ({} : Select)
  select' ← call (selectStep cx S select' (.fromTable (.str L!"table") (.none)))
  let x1 : Str ← S.str (.select select')
  select' ← call (selectStep cx S select' .str)
  let x2 : Bool ← (.ok (x1 == L!"SELECT * FROM \"table\"") : R Bool)
  pure (x2)) := by decide +kernel

-- tests/queries/test_select.py:85 test_from_table_with_alias
example : passes .sql (fun cx S => do
  let mut select' := ({} : Select)
  select' ← call (selectStep cx S select' (.fromTable (.str L!"table") (.str L!"asTable")))
  let x1 : Str ← S.str (.select select')
  select' ← call (selectStep cx S select' .str)
  let x2 : Bool ← (.ok (x1 == L!"SELECT * FROM \"table\" AS \"asTable\"") : R Bool)
  pure (x2)) := by decide +kernel

-- tests/queries/test_select.py:90 test_from_tables
example : passes .sql (fun cx S => do
  let mut select' := ({} : Select)
  select' ← call (selectStep cx S select' (.from_ ⟨[.str L!"table", .str L!"table2"], []⟩))
  let x1 : Str ← S.str (.select select')
  select' ← call (selectStep cx S select' .str)
  let x2 : Bool ← (.ok (x1 == L!"SELECT * FROM \"table\", \"table2\"") : R Bool)
  pure (x2)) := by decide +kernel

-- tests/queries/test_select.py:95 test_from_tables_with_alias
example : passes .sql (fun cx S => do
  let mut select' := ({} : Select)
  select' ← call (selectStep cx S select' (.from_ ⟨[.tuple [.str L!"table", .str L!"asTable"], .str L!"table2"], []⟩))
  let x1 : Str ← S.str (.select select')
  select' ← call (selectStep cx S select' .str)
  let x2 : Bool ← (.ok (x1 == L!"SELECT * FROM \"table\" AS \"asTable\", \"table2\"") : R Bool)
  pure (x2)) := by decide +kernel

-- tests/queries/test_select.py:100 test_join
example : passes .sql (fun cx S => do
  let mut select' := ({} : Select)
  select' ← call (selectStep cx S select' (.from_ ⟨[.str L!"user"], []⟩))
  select' ← call (selectStep cx S select' (.join .inner (.str L!"country")))
  select' ← call (selectStep cx S select' (.on ⟨[.str L!"user.country_id", .str L!"country.id"], []⟩))
  let x1 : Str ← S.str (.select select')
  select' ← call (selectStep cx S select' .str)
  let x2 : Bool ← (.ok (x1 == L!"SELECT * FROM \"user\" JOIN \"country\" ON \"user\".\"country_id\" = \"country\".\"id\"") : R Bool)
  pure (x2)) := by decide +kernel

-- tests/queries/test_select.py:105 test_inner_join
example : passes .sql (fun cx S => do
  let mut select' := ({} : Select)
  select' ← call (selectStep cx S select' (.from_ ⟨[.str L!"user"], []⟩))
  select' ← call (selectStep cx S select' (.join .inner (.str L!"country")))
  select' ← call (selectStep cx S select' (.on ⟨[.str L!"user.country_id", .str L!"country.id"], []⟩))
  let x1 : Str ← S.str (.select select')
  select' ← call (selectStep cx S select' .str)
  let x2 : Bool ← (.ok (x1 == L!"SELECT * FROM \"user\" JOIN \"country\" ON \"user\".\"country_id\" = \"country\".\"id\"") : R Bool)
  pure (x2)) := by decide +kernel

-- tests/queries/test_select.py:110 test_left_join
example : passes .sql (fun cx S => do
  let mut select' := ({} : Select)
  select' ← call (selectStep cx S select' (.from_ ⟨[.str L!"user"], []⟩))
  select' ← call (selectStep cx S select' (.join .left (.str L!"country")))
  select' ← call (selectStep cx S select' (.on ⟨[.str L!"user.country_id", .str L!"country.id"], []⟩))
  let x1 : Str ← S.str (.select select')
  select' ← call (selectStep cx S select' .str)
  let x2 : Bool ← (.ok (x1 == L!"SELECT * FROM \"user\" LEFT JOIN \"country\" ON \"user\".\"country_id\" = \"country\".\"id\"") : R Bool)
  pure (x2)) := by decide +kernel

-- tests/queries/test_select.py:115 test_right_join
example : passes .sql (fun cx S => do
  let mut select' := ({} : Select)
  select' ← call (selectStep cx S select' (.from_ ⟨[.str L!"user"], []⟩))
  select' ← call (selectStep cx S select' (.join .right (.str L!"country")))
  select' ← call (selectStep cx S select' (.on ⟨[.str L!"user.country_id", .str L!"country.id"], []⟩))
  let x1 : Str ← S.str (.select select')
  select' ← call (selectStep cx S select' .str)
  let x2 : Bool ← (.ok (x1 == L!"SELECT * FROM \"user\" RIGHT JOIN \"country\" ON \"user\".\"country_id\" = \"country\".\"id\"") : R Bool)
  pure (x2)) := by decide +kernel

-- tests/queries/test_select.py:120 test_full_join
example : passes .postgresql (fun cx S => do
  let mut select' := ({} : Select)
  select' ← call (selectStep cx S select' (.from_ ⟨[.str L!"user"], []⟩))
  select' ← call (selectStep cx S select' (.join .full (.str L!"country")))
  select' ← call (selectStep cx S select' (.on ⟨[.str L!"user.country_id", .str L!"country.id"], []⟩))
  let x1 : Str ← S.str (.select select')
  select' ← call (selectStep cx S select' .str)
  let x2 : Bool ← (.ok (x1 == L!"SELECT * FROM \"user\" FULL JOIN \"country\" ON \"user\".\"country_id\" = \"country\".\"id\"") : R Bool)
  pure (x2)) := by decide +kernel

-- tests/queries/test_select.py:126 test_where
example : passes .sql (fun cx S => do
  let mut select' := ({} : Select)
  select' ← call (selectStep cx S select' (.from_ ⟨[.str L!"user"], []⟩))
  select' ← call (selectStep cx S select' (.where_ ⟨[], [(L!"age", .int 42)]⟩))
  let mut x1 ← mkRel .like [.str L!"Harry"]
  select' ← call (selectStep cx S select' (.where_ ⟨[.str L!"name", x1], []⟩))
  select' ← call (selectStep cx S select' (.where_ ⟨[.dict [(.str L!"sex", .str L!"male")]], []⟩))
  select' ← call (selectStep cx S select' (.where_ ⟨[.tuple [.tuple [.str L!"enabled", .int 1]]], []⟩))
  let x2 : Str ← S.str (.select select')
  select' ← call (selectStep cx S select' .str)
  let x3 : Bool ← (.ok (x2 == L!"SELECT * FROM \"user\" WHERE \"age\" = 42 AND \"name\" LIKE 'Harry' AND \"sex\" = 'male' AND \"enabled\" = 1") : R Bool)
  pure (x3)) := by decide +kernel

-- tests/queries/test_select.py:141 test_having
example : passes .sql (fun cx S => do
  let mut select' := ({} : Select)
  select' ← call (selectStep cx S select' (.from_ ⟨[.str L!"user"], []⟩))
  select' ← call (selectStep cx S select' (.having ⟨[], [(L!"age", .int 42)]⟩))
  let mut x1 ← mkRel .like [.str L!"Harry"]
  select' ← call (selectStep cx S select' (.having ⟨[.str L!"name", x1], []⟩))
  select' ← call (selectStep cx S select' (.having ⟨[.dict [(.str L!"sex", .str L!"male")]], []⟩))
  select' ← call (selectStep cx S select' (.having ⟨[.tuple [.tuple [.str L!"enabled", .int 1]]], []⟩))
  let x2 : Str ← S.str (.select select')
  select' ← call (selectStep cx S select' .str)
  let x3 : Bool ← (.ok (x2 == L!"SELECT * FROM \"user\" HAVING \"age\" = 42 AND \"name\" LIKE 'Harry' AND \"sex\" = 'male' AND \"enabled\" = 1") : R Bool)
  pure (x3)) := by decide +kernel

-- tests/queries/test_select.py:156 test_limit
example : passes .sql (fun cx S => do
  let mut select' := ({} : Select)
  select' ← call (selectStep cx S select' (.from_ ⟨[.str L!"user"], []⟩))
  select' ← call (selectStep cx S select' (.limit (.int 10) (.none)))
  let x1 : Str ← S.str (.select select')
  select' ← call (selectStep cx S select' .str)
  let x2 : Bool ← (.ok (x1 == L!"SELECT * FROM \"user\" LIMIT 10") : R Bool)
  pure (x2)) := by decide +kernel

-- tests/queries/test_select.py:162 test_offset
example : passes .sql (fun cx S => do
  let mut select' := ({} : Select)
  select' ← call (selectStep cx S select' (.from_ ⟨[.str L!"user"], []⟩))
  select' ← call (selectStep cx S select' (.offset (.int 40)))
  let x1 : Str ← S.str (.select select')
  select' ← call (selectStep cx S select' .str)
  let x2 : Bool ← (.ok (x1 == L!"SELECT * FROM \"user\" OFFSET 40") : R Bool)
  pure (x2)) := by decide +kernel

-- tests/queries/test_select.py:168 test_limit_with_offset
example : passes .sql (fun cx S => do
  let mut select' := ({} : Select)
  select' ← call (selectStep cx S select' (.from_ ⟨[.str L!"user"], []⟩))
  select' ← call (selectStep cx S select' (.limit (.int 10) (.int 40)))
  let x1 : Str ← S.str (.select select')
  select' ← call (selectStep cx S select' .str)
  let x2 : Bool ← (.ok (x1 == L!"SELECT * FROM \"user\" LIMIT 10 OFFSET 40") : R Bool)
  pure (x2)) := by decide +kernel

-- tests/queries/test_select.py:174 test_limit_offset
example : passes .sql (fun cx S => do
  let mut select' := ({} : Select)
  select' ← call (selectStep cx S select' (.from_ ⟨[.str L!"user"], []⟩))
  select' ← call (selectStep cx S select' (.limit (.int 20) (.none)))
  select' ← call (selectStep cx S select' (.offset (.int 30)))
  let x1 : Str ← S.str (.select select')
  select' ← call (selectStep cx S select' .str)
  let x2 : Bool ← (.ok (x1 == L!"SELECT * FROM \"user\" LIMIT 20 OFFSET 30") : R Bool)
  pure (x2)) := by decide +kernel

-- tests/queries/test_select.py:181 test_into_outfile
example : passes .sql (fun cx S => do
  let mut select' := ({} : Select)
  select' ← call (selectStep cx S select' (.from_ ⟨[.str L!"table"], []⟩))
  select' ← call (selectStep cx S select' (.outfile .file (.str L!"/tmp/file")))
  let x1 : Str ← S.str (.select select')
  select' ← call (selectStep cx S select' .str)
  let x2 : Bool ← (.ok (x1 == L!"SELECT * FROM \"table\" INTO OUTFILE '/tmp/file'") : R Bool)
  pure (x2)) := by decide +kernel

-- tests/queries/test_select.py:186 test_fields_terminated_by
example : passes .sql (fun cx S => do
  let mut select' := ({} : Select)
  select' ← call (selectStep cx S select' (.from_ ⟨[.str L!"table"], []⟩))
  select' ← call (selectStep cx S select' (.outfile .file (.str L!"/tmp/file")))
  select' ← call (selectStep cx S select' (.outfile .fields (.str L!",")))
  let x1 : Str ← S.str (.select select')
  select' ← call (selectStep cx S select' .str)
  let x2 : Bool ← (.ok (x1 == L!"SELECT * FROM \"table\" INTO OUTFILE '/tmp/file' FIELDS TERMINATED BY ','") : R Bool)
  pure (x2)) := by decide +kernel

-- tests/queries/test_select.py:192 test_lines_terminated_by
example : passes .sql (fun cx S => do
  let mut select' := ({} : Select)
  select' ← call (selectStep cx S select' (.from_ ⟨[.str L!"table"], []⟩))
  select' ← call (selectStep cx S select' (.outfile .file (.str L!"/tmp/file")))
  select' ← call (selectStep cx S select' (.outfile .lines (.str L!"\"")))
  let x1 : Str ← S.str (.select select')
  select' ← call (selectStep cx S select' .str)
  let x2 : Bool ← (.ok (x1 == L!"SELECT * FROM \"table\" INTO OUTFILE '/tmp/file' LINES TERMINATED BY '\"'") : R Bool)
  pure (x2)) := by decide +kernel

-- tests/queries/test_select.py:198 test_optionally_enclosed_by
example : passes .sql (fun cx S => do
  let mut select' := ({} : Select)
  select' ← call (selectStep cx S select' (.from_ ⟨[.str L!"table"], []⟩))
  select' ← call (selectStep cx S select' (.outfile .file (.str L!"/tmp/file")))
  select' ← call (selectStep cx S select' (.outfile .enclosed (.str L!"\n")))
  let x1 : Str ← S.str (.select select')
  select' ← call (selectStep cx S select' .str)
  let x2 : Bool ← (.ok (x1 == L!"SELECT * FROM \"table\" INTO OUTFILE '/tmp/file' OPTIONALLY ENCLOSED BY '\\n'") : R Bool)
  pure (x2)) := by decide +kernel

-- tests/queries/test_select.py:204 test_all_in_one
example : passes .sql (fun cx S => do
  let mut select' := ({} : Select)
  select' ← call (selectStep cx S select' (.from_ ⟨[.str L!"table"], []⟩))
  select' ← call (selectStep cx S select' (.outfile .file (.str L!"/tmp/file")))
  select' ← call (selectStep cx S select' (.outfile .fields (.str L!",")))
  select' ← call (selectStep cx S select' (.outfile .lines (.str L!"\"")))
  select' ← call (selectStep cx S select' (.outfile .enclosed (.str L!"\n")))
  let x1 : Str ← S.str (.select select')
  select' ← call (selectStep cx S select' .str)
  let x2 : Bool ← (.ok (x1 == L!"SELECT * FROM \"table\" INTO OUTFILE '/tmp/file' FIELDS TERMINATED BY ',' LINES TERMINATED BY '\"' OPTIONALLY ENCLOSED BY '\\n'") : R Bool)
  pure (x2)) := by decide +kernel

-- tests/queries/test_select.py:215 test_sql_cache
example : passes .sql (fun cx S => do
  let mut select' := ({} : Select)
  select' ← call (selectStep cx S select' (.from_ ⟨[.str L!"table"], []⟩))
  select' ← call (selectStep cx S select' (.option .sqlCache (.bool true)))
  let x1 : Str ← S.str (.select select')
  select' ← call (selectStep cx S select' .str)
  let x2 : Bool ← (.ok (x1 == L!"SELECT SQL_CACHE * FROM \"table\"") : R Bool)
  pure (x2)) := by decide +kernel

-- tests/queries/test_select.py:220 test_sql_cache_off
example : passes .sql (fun cx S => do
  let mut select' := ({} : Select)
  select' ← call (selectStep cx S select' (.from_ ⟨[.str L!"table"], []⟩))
  select' ← call (selectStep cx S select' (.option .sqlCache (.bool true)))
  select' ← call (selectStep cx S select' (.option .sqlCache (.bool false)))
  let x1 : Str ← S.str (.select select')
  select' ← call (selectStep cx S select' .str)
  let x2 : Bool ← (.ok (x1 == L!"SELECT * FROM \"table\"") : R Bool)
  pure (x2)) := by decide +kernel

-- tests/queries/test_select.py:225 test_sql_no_cache
example : passes .sql (fun cx S => do
  let mut select' := ({} : Select)
  select' ← call (selectStep cx S select' (.from_ ⟨[.str L!"table"], []⟩))
  select' ← call (selectStep cx S select' (.option .sqlNoCache (.bool true)))
  let x1 : Str ← S.str (.select select')
  select' ← call (selectStep cx S select' .str)
  let x2 : Bool ← (.ok (x1 == L!"SELECT SQL_NO_CACHE * FROM \"table\"") : R Bool)
  pure (x2)) := by decide +kernel

-- tests/queries/test_select.py:230 test_sql_no_cache_off
example : passes .sql (fun cx S => do
  let mut select' := ({} : Select)
  select' ← call (selectStep cx S select' (.from_ ⟨[.str L!"table"], []⟩))
  select' ← call (selectStep cx S select' (.option .sqlNoCache (.bool true)))
  select' ← call (selectStep cx S select' (.option .sqlNoCache (.bool false)))
  let x1 : Str ← S.str (.select select')
  select' ← call (selectStep cx S select' .str)
  let x2 : Bool ← (.ok (x1 == L!"SELECT * FROM \"table\"") : R Bool)
  pure (x2)) := by decide +kernel

-- tests/queries/test_select.py:235 test_all
example : passes .sql (fun cx S => do
  let mut select' := ({} : Select)
  select' ← call (selectStep cx S select' (.from_ ⟨[.str L!"table"], []⟩))
  select' ← call (selectStep cx S select' (.option .all (.bool true)))
  let x1 : Str ← S.str (.select select')
  select' ← call (selectStep cx S select' .str)
  let x2 : Bool ← (.ok (x1 == L!"SELECT ALL * FROM \"table\"") : R Bool)
  pure (x2)) := by decide +kernel

-- tests/queries/test_select.py:240 test_all_off
example : passes .sql (fun cx S => do
  let mut select' := ({} : Select)
  select' ← call (selectStep cx S select' (.from_ ⟨[.str L!"table"], []⟩))
  select' ← call (selectStep cx S select' (.option .all (.bool true)))
  select' ← call (selectStep cx S select' (.option .all (.bool false)))
  let x1 : Str ← S.str (.select select')
  select' ← call (selectStep cx S select' .str)
  let x2 : Bool ← (.ok (x1 == L!"SELECT * FROM \"table\"") : R Bool)
  pure (x2)) := by decide +kernel

-- tests/queries/test_select.py:245 test_distinct
example : passes .sql (fun cx S => do
  let mut select' := ({} : Select)
  select' ← call (selectStep cx S select' (.from_ ⟨[.str L!"table"], []⟩))
  select' ← call (selectStep cx S select' (.option .distinct (.bool true)))
  let x1 : Str ← S.str (.select select')
  select' ← call (selectStep cx S select' .str)
  let x2 : Bool ← (.ok (x1 == L!"SELECT DISTINCT * FROM \"table\"") : R Bool)
  pure (x2)) := by decide +kernel

-- tests/queries/test_select.py:250 test_distinct_off
example : passes .sql (fun cx S => do
  let mut select' := ({} : Select)
  select' ← call (selectStep cx S select' (.from_ ⟨[.str L!"table"], []⟩))
  select' ← call (selectStep cx S select' (.option .distinct (.bool true)))
  select' ← call (selectStep cx S select' (.option .distinct (.bool false)))
  let x1 : Str ← S.str (.select select')
  select' ← call (selectStep cx S select' .str)
  let x2 : Bool ← (.ok (x1 == L!"SELECT * FROM \"table\"") : R Bool)
  pure (x2)) := by decide +kernel

-- tests/queries/test_select.py:255 test_distinctrow
example : passes .sql (fun cx S => do
  let mut select' := ({} : Select)
  select' ← call (selectStep cx S select' (.from_ ⟨[.str L!"table"], []⟩))
  select' ← call (selectStep cx S select' (.option .distinctrow (.bool true)))
  let x1 : Str ← S.str (.select select')
  select' ← call (selectStep cx S select' .str)
  let x2 : Bool ← (.ok (x1 == L!"SELECT DISTINCTROW * FROM \"table\"") : R Bool)
  pure (x2)) := by decide +kernel

-- tests/queries/test_select.py:260 test_distinctrow_off
example : passes .sql (fun cx S => do
  let mut select' := ({} : Select)
  select' ← call (selectStep cx S select' (.from_ ⟨[.str L!"table"], []⟩))
  select' ← call (selectStep cx S select' (.option .distinctrow (.bool true)))
  select' ← call (selectStep cx S select' (.option .distinctrow (.bool false)))
  let x1 : Str ← S.str (.select select')
  select' ← call (selectStep cx S select' .str)
  let x2 : Bool ← (.ok (x1 == L!"SELECT * FROM \"table\"") : R Bool)
  pure (x2)) := by decide +kernel

-- tests/queries/test_select.py:265 test_sql_small_result
example : passes .sql (fun cx S => do
  let mut select' := ({} : Select)
  select' ← call (selectStep cx S select' (.from_ ⟨[.str L!"table"], []⟩))
  select' ← call (selectStep cx S select' (.option .sqlSmallResult (.bool true)))
  let x1 : Str ← S.str (.select select')
  select' ← call (selectStep cx S select' .str)
  let x2 : Bool ← (.ok (x1 == L!"SELECT SQL_SMALL_RESULT * FROM \"table\"") : R Bool)
  pure (x2)) := by decide +kernel

-- tests/queries/test_select.py:270 test_sql_small_result_off
example : passes .sql (fun cx S => do
  let mut select' := ({} : Select)
  select' ← call (selectStep cx S select' (.from_ ⟨[.str L!"table"], []⟩))
  select' ← call (selectStep cx S select' (.option .sqlSmallResult (.bool true)))
  select' ← call (selectStep cx S select' (.option .sqlSmallResult (.bool false)))
  let x1 : Str ← S.str (.select select')
  select' ← call (selectStep cx S select' .str)
  let x2 : Bool ← (.ok (x1 == L!"SELECT * FROM \"table\"") : R Bool)
  pure (x2)) := by decide +kernel

-- tests/queries/test_select.py:275 test_sql_big_result
example : passes .sql (fun cx S => do
  let mut select' := ({} : Select)
  select' ← call (selectStep cx S select' (.from_ ⟨[.str L!"table"], []⟩))
  select' ← call (selectStep cx S select' (.option .sqlBigResult (.bool true)))
  let x1 : Str ← S.str (.select select')
  select' ← call (selectStep cx S select' .str)
  let x2 : Bool ← (.ok (x1 == L!"SELECT SQL_BIG_RESULT * FROM \"table\"") : R Bool)
  pure (x2)) := by decide +kernel

-- tests/queries/test_select.py:280 test_sql_big_result_off
example : passes .sql (fun cx S => do
  let mut select' := ({} : Select)
  select' ← call (selectStep cx S select' (.from_ ⟨[.str L!"table"], []⟩))
  select' ← call (selectStep cx S select' (.option .sqlBigResult (.bool true)))
  select' ← call (selectStep cx S select' (.option .sqlBigResult (.bool false)))
  let x1 : Str ← S.str (.select select')
  select' ← call (selectStep cx S select' .str)
  let x2 : Bool ← (.ok (x1 == L!"SELECT * FROM \"table\"") : R Bool)
  pure (x2)) := by decide +kernel

-- tests/queries/test_select.py:285 test_sql_buffer_result
example : passes .sql (fun cx S => do
  let mut select' := ({} : Select)
  select' ← call (selectStep cx S select' (.from_ ⟨[.str L!"table"], []⟩))
  select' ← call (selectStep cx S select' (.option .sqlBufferResult (.bool true)))
  let x1 : Str ← S.str (.select select')
  select' ← call (selectStep cx S select' .str)
  let x2 : Bool ← (.ok (x1 == L!"SELECT SQL_BUFFER_RESULT * FROM \"table\"") : R Bool)
  pure (x2)) := by decide +kernel

-- tests/queries/test_select.py:290 test_sql_buffer_result_off
example : passes .sql (fun cx S => do
  let mut select' := ({} : Select)
  select' ← call (selectStep cx S select' (.from_ ⟨[.str L!"table"], []⟩))
  select' ← call (selectStep cx S select' (.option .sqlBufferResult (.bool true)))
  select' ← call (selectStep cx S select' (.option .sqlBufferResult (.bool false)))
  let x1 : Str ← S.str (.select select')
  select' ← call (selectStep cx S select' .str)
  let x2 : Bool ← (.ok (x1 == L!"SELECT * FROM \"table\"") : R Bool)
  pure (x2)) := by decide +kernel

-- tests/queries/test_select.py:295 test_sql_calc_found_rows
example : passes .sql (fun cx S => do
  let mut select' := ({} : Select)
  select' ← call (selectStep cx S select' (.from_ ⟨[.str L!"table"], []⟩))
  select' ← call (selectStep cx S select' (.option .sqlCalcFoundRows (.bool true)))
  let x1 : Str ← S.str (.select select')
  select' ← call (selectStep cx S select' .str)
  let x2 : Bool ← (.ok (x1 == L!"SELECT SQL_CALC_FOUND_ROWS * FROM \"table\"") : R Bool)
  pure (x2)) := by decide +kernel

-- tests/queries/test_select.py:300 test_sql_calc_found_rows_off
example : passes .sql (fun cx S => do
  let mut select' := ({} : Select)
  select' ← call (selectStep cx S select' (.from_ ⟨[.str L!"table"], []⟩))
  select' ← call (selectStep cx S select' (.option .sqlCalcFoundRows (.bool true)))
  select' ← call (selectStep cx S select' (.option .sqlCalcFoundRows (.bool false)))
  let x1 : Str ← S.str (.select select')
  select' ← call (selectStep cx S select' .str)
  let x2 : Bool ← (.ok (x1 == L!"SELECT * FROM \"table\"") : R Bool)
  pure (x2)) := by decide +kernel

-- tests/queries/test_select.py:305 test_straight_join
example : passes .sql (fun cx S => do
  let mut select' := ({} : Select)
  select' ← call (selectStep cx S select' (.from_ ⟨[.str L!"table"], []⟩))
  select' ← call (selectStep cx S select' (.option .straightJoin (.bool true)))
  let x1 : Str ← S.str (.select select')
  select' ← call (selectStep cx S select' .str)
  let x2 : Bool ← (.ok (x1 == L!"SELECT STRAIGHT_JOIN * FROM \"table\"") : R Bool)
  pure (x2)) := by decide +kernel

-- tests/queries/test_select.py:310 test_straight_join_off
example : passes .sql (fun cx S => do
  let mut select' := ({} : Select)
  select' ← call (selectStep cx S select' (.from_ ⟨[.str L!"table"], []⟩))
  select' ← call (selectStep cx S select' (.option .straightJoin (.bool true)))
  select' ← call (selectStep cx S select' (.option .straightJoin (.bool false)))
  let x1 : Str ← S.str (.select select')
  select' ← call (selectStep cx S select' .str)
  let x2 : Bool ← (.ok (x1 == L!"SELECT * FROM \"table\"") : R Bool)
  pure (x2)) := by decide +kernel

-- tests/queries/test_select.py:315 test_high_priority
example : passes .sql (fun cx S => do
  let mut select' := ({} : Select)
  select' ← call (selectStep cx S select' (.from_ ⟨[.str L!"table"], []⟩))
  select' ← call (selectStep cx S select' (.option .highPriority (.bool true)))
  let x1 : Str ← S.str (.select select')
  select' ← call (selectStep cx S select' .str)
  let x2 : Bool ← (.ok (x1 == L!"SELECT HIGH_PRIORITY * FROM \"table\"") : R Bool)
  pure (x2)) := by decide +kernel

-- tests/queries/test_select.py:320 test_high_priority_off
example : passes .sql (fun cx S => do
  let mut select' := ({} : Select)
  select' ← call (selectStep cx S select' (.from_ ⟨[.str L!"table"], []⟩))
  select' ← call (selectStep cx S select' (.option .highPriority (.bool true)))
  select' ← call (selectStep cx S select' (.option .highPriority (.bool false)))
  let x1 : Str ← S.str (.select select')
  select' ← call (selectStep cx S select' .str)
  let x2 : Bool ← (.ok (x1 == L!"SELECT * FROM \"table\"") : R Bool)
  pure (x2)) := by decide +kernel

-- tests/queries/test_select.py:325 test_more_options
example : passes .sql (fun cx S => do
  let mut select' := ({} : Select)
  select' ← call (selectStep cx S select' (.from_ ⟨[.str L!"table"], []⟩))
  select' ← call (selectStep cx S select' (.option .distinct (.bool true)))
  select' ← call (selectStep cx S select' (.option .sqlCalcFoundRows (.bool true)))
  select' ← call (selectStep cx S select' (.option .sqlNoCache (.bool true)))
  let x1 : Str ← S.str (.select select')
  select' ← call (selectStep cx S select' .str)
  let x2 : Bool ← (.ok (x1 == L!"SELECT DISTINCT SQL_CALC_FOUND_ROWS SQL_NO_CACHE * FROM \"table\"") : R Bool)
  pure (x2)) := by decide +kernel

-- tests/queries/test_select.py:330 test_select_for_update
example : passes .sql (fun cx S => do
  let mut select' := ({} : Select)
  select' ← call (selectStep cx S select' (.from_ ⟨[.str L!"table"], []⟩))
  select' ← call (selectStep cx S select' (.forUpdate (.bool true)))
  let x1 : Str ← S.str (.select select')
  select' ← call (selectStep cx S select' .str)
  let x2 : Bool ← (.ok (x1 == L!"SELECT * FROM \"table\" FOR UPDATE") : R Bool)
  pure (x2)) := by decide +kernel

-- tests/queries/test_select.py:335 test_union
example : passes .sql (fun cx S => do
  let mut select' := ({} : Select)
  select' ← call (selectStep cx S select' (.from_ ⟨[.str L!"table"], []⟩))
  let mut x1 ← mkUnion (.select select') (.select select') false
  let x2 : Str ← S.str x1
  let x3 : Bool ← (.ok (x2 == L!"SELECT * FROM \"table\" UNION SELECT * FROM \"table\"") : R Bool)
  pure (x3)) := by decide +kernel

-- tests/queries/test_select.py:340 test_union_all
example : passes .sql (fun cx S => do
  let mut select' := ({} : Select)
  select' ← call (selectStep cx S select' (.from_ ⟨[.str L!"table"], []⟩))
  let mut x1 ← mkUnion (.select select') (.select select') true
  let x2 : Str ← S.str x1
  let x3 : Bool ← (.ok (x2 == L!"SELECT * FROM \"table\" UNION ALL SELECT * FROM \"table\"") : R Bool)
  pure (x3)) := by decide +kernel

-- tests/queries/test_select.py:345 test_subselect_in_columns
example : passes .sql (fun cx S => do
  let mut select' := ({} : Select)
  let mut x1 ← mkSelect S ⟨[.str L!"col"], []⟩
  x1 ← call (selectStep cx S x1 (.from_ ⟨[.str L!"tab"], []⟩))
  let mut subselect := x1
  select' ← call (selectStep cx S select' (.columns ⟨[.tuple [.select subselect, .str L!"c"]], []⟩))
  select' ← call (selectStep cx S select' (.from_ ⟨[.str L!"tab"], []⟩))
  let x2 : Str ← S.str (.select select')
  select' ← call (selectStep cx S select' .str)
  let x3 : Bool ← (.ok (x2 == L!"SELECT (SELECT \"col\" FROM \"tab\") AS \"c\" FROM \"tab\"") : R Bool)
  pure (x3)) := by decide +kernel

-- tests/queries/test_select.py:352 test_subselect_in_columns_by_dictionary
example : passes .sql (fun cx S => do
  let mut select' := ({} : Select)
  let mut x1 ← mkSelect S ⟨[.str L!"col"], []⟩
  x1 ← call (selectStep cx S x1 (.from_ ⟨[.str L!"tab"], []⟩))
  let mut subselect := x1
  select' ← call (selectStep cx S select' (.columns ⟨[.dict [(.select subselect, .str L!"c")]], []⟩))
  select' ← call (selectStep cx S select' (.from_ ⟨[.str L!"tab"], []⟩))
  let x2 : Str ← S.str (.select select')
  select' ← call (selectStep cx S select' .str)
  let x3 : Bool ← (.ok (x2 == L!"SELECT (SELECT \"col\" FROM \"tab\") AS \"c\" FROM \"tab\"") : R Bool)
  pure (x3)) := by decide +kernel

-- tests/queries/test_select.py:359 test_subselect_in_tables
example : passes .sql (fun cx S => do
  let mut select' := ({} : Select)
  let mut x1 ← mkSelect S ⟨[.str L!"col"], []⟩
  x1 ← call (selectStep cx S x1 (.from_ ⟨[.str L!"tab"], []⟩))
  let mut subselect := x1
  select' ← call (selectStep cx S select' (.from_ ⟨[.tuple [.select subselect, .str L!"t"]], []⟩))
  let x2 : Str ← S.str (.select select')
  select' ← call (selectStep cx S select' .str)
  let x3 : Bool ← (.ok (x2 == L!"SELECT * FROM (SELECT \"col\" FROM \"tab\") AS \"t\"") : R Bool)
  pure (x3)) := by decide +kernel

-- tests/queries/test_select.py:365 test_subselect_in_condition
example : passes .sql (fun cx S => do
  let mut select' := ({} : Select)
  let mut x1 ← mkSelect S ⟨[.str L!"col"], []⟩
  x1 ← call (selectStep cx S x1 (.from_ ⟨[.str L!"tab"], []⟩))
  let mut subselect := x1
  select' ← call (selectStep cx S select' (.from_ ⟨[.str L!"tab"], []⟩))
  let mut x2 ← mkRel .le [.int 42]
  select' ← call (selectStep cx S select' (.where_ ⟨[.select subselect, x2], []⟩))
  let x3 : Str ← S.str (.select select')
  select' ← call (selectStep cx S select' .str)
  let x4 : Bool ← (.ok (x3 == L!"SELECT * FROM \"tab\" WHERE (SELECT \"col\" FROM \"tab\") <= 42") : R Bool)
  pure (x4)) := by decide +kernel

-- tests/queries/test_select.py:372 test_subselect_reference
example : passes .sql (fun cx S => do
  let mut select' := ({} : Select)
  let mut x1 ← mkSelect S ⟨[.str L!"col"], []⟩
  x1 ← call (selectStep cx S x1 (.from_ ⟨[.str L!"t1"], []⟩))
  x1 ← call (selectStep cx S x1 (.where_ ⟨[.str L!"t1.a", .str L!"\"t2\".a"], []⟩))
  let mut subselect := x1
  select' ← call (selectStep cx S select' (.columns ⟨[.select subselect], []⟩))
  select' ← call (selectStep cx S select' (.from_ ⟨[.str L!"t2"], []⟩))
  let x2 : Str ← S.str (.select select')
  select' ← call (selectStep cx S select' .str)
  let x3 : Bool ← (.ok (x2 == L!"SELECT (SELECT \"col\" FROM \"t1\" WHERE \"t1\".\"a\" = \"t2\".\"a\") FROM \"t2\"") : R Bool)
  pure (x3)) := by decide +kernel

-- tests/queries/test_select.py:379 test_copy
example : passes .sql (fun cx S => do
  let mut select' := ({} : Select)
  select' ← call (selectStep cx S select' (.from_ ⟨[.str L!"user"], []⟩))
  select' ← call (selectStep cx S select' (.where_ ⟨[], [(L!"name", .str L!"Alan")]⟩))
  let mut x1 := select'
  let mut copy := x1
  select' ← call (selectStep cx S select' (.limit (.int 10) (.none)))
  let x2 : Str ← S.str (.select copy)
  copy ← call (selectStep cx S copy .str)
  let x3 : Bool ← (.ok (x2 == L!"SELECT * FROM \"user\" WHERE \"name\" = 'Alan'") : R Bool)
  let x4 : Str ← S.str (.select select')
  select' ← call (selectStep cx S select' .str)
  let x5 : Bool ← (.ok (x4 == L!"SELECT * FROM \"user\" WHERE \"name\" = 'Alan' LIMIT 10") : R Bool)
  pure (x3 && x5)) := by decide +kernel

-- tests/queries/test_select.py:387 test_equals
example : passes .sql (fun cx S => do
  let mut select' := ({} : Select)
  select' ← call (selectStep cx S select' (.from_ ⟨[.str L!"user"], []⟩))
  select' ← call (selectStep cx S select' (.where_ ⟨[], [(L!"name", .str L!"Alan")]⟩))
  let mut x1 := select'
  let mut copy := x1
  let x2 : Str ← S.str (.select select')
  select' ← call (selectStep cx S select' .str)
  let x3 : Str ← S.str (.select copy)
  copy ← call (selectStep cx S copy .str)
  let x4 : Bool ← (.ok (x2 == x3) : R Bool)
  pure (x4)) := by decide +kernel

-- tests/queries/test_select.py:393 test_not_equals
example : passes .sql (fun cx S => do
  let mut select' := ({} : Select)
  select' ← call (selectStep cx S select' (.from_ ⟨[.str L!"user"], []⟩))
  select' ← call (selectStep cx S select' (.where_ ⟨[], [(L!"name", .str L!"Alan")]⟩))
  let mut x1 := select'
  let mut copy := x1
  select' ← call (selectStep cx S select' (.limit (.int 10) (.none)))
  let x2 : Bool ← (! ·) <$> S.eq (.select select') (.select copy)
  pure (x2)) := by decide +kernel

end SqlPuzzle.Conformance
