import Verif.Conformance.Harness

/-!
Generated by tools/conformance.py from tests/test_sqlpuzzle.py.  Each example is one test of the repository, run on the model.
-/

set_option linter.unusedVariables false

namespace SqlPuzzle.Conformance
open SqlPuzzle

-- tests/test_sqlpuzzle.py:6 test_select_test
example : passes .sql (fun cx S => do
  let mut x1 ← mkSelect S ⟨[.int 1], []⟩
  let mut sql := x1
  let x2 : Str ← S.str (.select sql)
  sql ← call (selectStep cx S sql .str)
  let x3 : Bool ← (.ok (x2 == L!"SELECT 1") : R Bool)
  pure (x3)) := by decide +kernel

-- tests/test_sqlpuzzle.py:11 test_select_without_columns
example : passes .sql (fun cx S => do
  let mut x1 ← mkSelect S ⟨[], []⟩
  x1 ← call (selectStep cx S x1 (.from_ ⟨[.str L!"user"], []⟩))
  let mut sql := x1
  let x2 : Str ← S.str (.select sql)
  sql ← call (selectStep cx S sql .str)
  let x3 : Bool ← (.ok (x2 == L!"SELECT * FROM \"user\"") : R Bool)
  pure (x3)) := by decide +kernel

-- tests/test_sqlpuzzle.py:16 test_select_with_columns
example : passes .sql (fun cx S => do
  let mut x1 ← mkSelect S ⟨[.str L!"id", .str L!"name"], []⟩
  x1 ← call (selectStep cx S x1 (.from_ ⟨[.str L!"user"], []⟩))
  let mut sql := x1
  let x2 : Str ← S.str (.select sql)
  sql ← call (selectStep cx S sql .str)
  let x3 : Bool ← (.ok (x2 == L!"SELECT \"id\", \"name\" FROM \"user\"") : R Bool)
  pure (x3)) := by decide +kernel

-- tests/test_sqlpuzzle.py:21 test_select_from
example : passes .sql (fun cx S => do
  let mut x1 ← mkSelectFrom cx S ⟨[.str L!"user"], []⟩
  let mut sql := x1
  let x2 : Str ← S.str (.select sql)
  sql ← call (selectStep cx S sql .str)
  let x3 : Bool ← (.ok (x2 == L!"SELECT * FROM \"user\"") : R Bool)
  pure (x3)) := by decide +kernel

-- tests/test_sqlpuzzle.py:26 test_select_from_as_kwds
example : passes .sql (fun cx S => do
  let mut x1 ← mkSelectFrom cx S ⟨[], [(L!"user", .str L!"u")]⟩
  let mut sql := x1
  let x2 : Str ← S.str (.select sql)
  sql ← call (selectStep cx S sql .str)
  let x3 : Bool ← (.ok (x2 == L!"SELECT * FROM \"user\" AS \"u\"") : R Bool)
  pure (x3)) := by decide +kernel

-- tests/test_sqlpuzzle.py:31 test_select_from_with_more
example : passes .sql (fun cx S => do
  let mut x1 ← mkSelectFrom cx S ⟨[.str L!"user", .str L!"country"], []⟩
  let mut sql := x1
  let x2 : Str ← S.str (.select sql)
  sql ← call (selectStep cx S sql .str)
  let x3 : Bool ← (.ok (x2 == L!"SELECT * FROM \"user\", \"country\"") : R Bool)
  pure (x3)) := by decide +kernel

-- tests/test_sqlpuzzle.py:36 test_insert
example : passes .sql (fun cx S => do
  let mut x1 : Insert := {}
  x1 ← call (insertStep cx S x1 (.into (.str L!"user")))
  x1 ← call (insertStep cx S x1 (.values ⟨[], [(L!"name", .str L!"Harry")]⟩))
  let mut sql := x1
  let x2 : Str ← S.str (.insert sql)
  sql ← call (insertStep cx S sql .str)
  let x3 : Bool ← (.ok (x2 == L!"INSERT INTO \"user\" (\"name\") VALUES ('Harry')") : R Bool)
  pure (x3)) := by decide +kernel

-- tests/test_sqlpuzzle.py:41 test_insert_into
example : passes .sql (fun cx S => do
  let mut x1 ← mkInsertInto cx S (.str L!"user")
  x1 ← call (insertStep cx S x1 (.values ⟨[], [(L!"name", .str L!"Harry")]⟩))
  let mut sql := x1
  let x2 : Str ← S.str (.insert sql)
  sql ← call (insertStep cx S sql .str)
  let x3 : Bool ← (.ok (x2 == L!"INSERT INTO \"user\" (\"name\") VALUES ('Harry')") : R Bool)
  pure (x3)) := by decide +kernel

-- tests/test_sqlpuzzle.py:46 test_update
example : passes .sql (fun cx S => do
  let mut x1 ← mkUpdate cx S (.str L!"user")
  x1 ← call (updateStep cx S x1 (.set ⟨[], [(L!"name", .str L!"Alan")]⟩))
  x1 ← call (updateStep cx S x1 (.where_ ⟨[], [(L!"id", .int 42)]⟩))
  let mut sql := x1
  let x2 : Str ← S.str (.update sql)
  sql ← call (updateStep cx S sql .str)
  let x3 : Bool ← (.ok (x2 == L!"UPDATE \"user\" SET \"name\" = 'Alan' WHERE \"id\" = 42") : R Bool)
  pure (x3)) := by decide +kernel

-- tests/test_sqlpuzzle.py:51 test_delete
example : passes .sql (fun cx S => do
  let mut x1 ← mkDelete cx S []
  x1 ← call (deleteStep cx S x1 (.from_ ⟨[.str L!"user"], []⟩))
  x1 ← call (deleteStep cx S x1 (.where_ ⟨[], [(L!"id", .int 42)]⟩))
  let mut sql := x1
  let x2 : Str ← S.str (.delete sql)
  sql ← call (deleteStep cx S sql .str)
  let x3 : Bool ← (.ok (x2 == L!"DELETE FROM \"user\" WHERE \"id\" = 42") : R Bool)
  pure (x3)) := by decide +kernel

-- tests/test_sqlpuzzle.py:56 test_delete_from
example : passes .sql (fun cx S => do
  let mut x1 ← mkDeleteFrom cx S ⟨[.str L!"user"], []⟩
  x1 ← call (deleteStep cx S x1 (.where_ ⟨[], [(L!"id", .int 42)]⟩))
  let mut sql := x1
  let x2 : Str ← S.str (.delete sql)
  sql ← call (deleteStep cx S sql .str)
  let x3 : Bool ← (.ok (x2 == L!"DELETE FROM \"user\" WHERE \"id\" = 42") : R Bool)
  pure (x3)) := by decide +kernel

-- tests/test_sqlpuzzle.py:61 test_copy1
example : passes .sql (fun cx S => do
  let mut x1 ← mkSelectFrom cx S ⟨[.str L!"t"], []⟩
  let mut x2 ← mkRel .gt [.int 1]
  x1 ← call (selectStep cx S x1 (.where_ ⟨[.str L!"c", x2], []⟩))
  let mut query1 := x1
  let mut x3 := query1
  let mut query2 := x3
  let x4 : Str ← S.str (.select query1)
  query1 ← call (selectStep cx S query1 .str)
  let x5 : Str ← S.str (.select query2)
  query2 ← call (selectStep cx S query2 .str)
  let x6 : Bool ← (.ok (x4 == x5) : R Bool)
  pure (x6)) := by decide +kernel

-- tests/test_sqlpuzzle.py:67 test_copy_with_custom
example : passes .sql (fun cx S => do
  let mut x1 ← mkSelectFrom cx S ⟨[.str L!"t"], []⟩
  let mut x2 ← mkCustom cx S (.str L!"x")
  x1 ← call (selectStep cx S x1 (.where_ ⟨[x2], []⟩))
  let mut query1 := x1
  let mut x3 := query1
  let mut query2 := x3
  let x4 : Str ← S.str (.select query1)
  query1 ← call (selectStep cx S query1 .str)
  let x5 : Str ← S.str (.select query2)
  query2 ← call (selectStep cx S query2 .str)
  let x6 : Bool ← (.ok (x4 == x5) : R Bool)
  pure (x6)) := by decide +kernel

-- tests/test_sqlpuzzle.py:79 test_custom_sql
example : passes .sql (fun cx S => do
  let mut x1 ← mkCustom cx S (.str L!"custom")
  let mut x2 ← mkRel .eq [x1]
  let mut x3 ← mkCustom cx S (.str L!"custom")
  let mut x4 ← mkRel .ne [x3]
  let mut x5 ← mkCustom cx S (.str L!"custom")
  let mut x6 ← mkRel .gt [x5]
  let mut x7 ← mkCustom cx S (.str L!"custom")
  let mut x8 ← mkRel .ge [x7]
  let mut x9 ← mkCustom cx S (.str L!"custom")
  let mut x10 ← mkRel .lt [x9]
  let mut x11 ← mkCustom cx S (.str L!"custom")
  let mut x12 ← mkRel .le [x11]
  let mut x13 ← mkCustom cx S (.str L!"custom")
  let mut x14 ← mkRel .like [x13]
  let mut x15 ← mkCustom cx S (.str L!"custom")
  let mut x16 ← mkRel .regexp [x15]
  let mut x17 ← mkCustom cx S (.str L!"custom")
  let mut x18 ← mkRel .in_ [x17]
  let mut x19 ← mkCustom cx S (.str L!"custom")
  let mut x20 ← mkRel .notIn [x19]
  let mut x21 ← mkCustom cx S (.str L!"custom")
  let mut x22 ← mkRel .is [x21]
  let mut x23 ← mkCustom cx S (.str L!"custom")
  let mut x24 ← mkRel .isNot [x23]
  pure true) := by decide +kernel

-- tests/test_sqlpuzzle.py:103 test_injection_it_no_reference
example : passes .sql (fun cx S => do
  let mut x1 ← mkSelect S ⟨[.str L!"id", .str L!"name"], []⟩
  x1 ← call (selectStep cx S x1 (.from_ ⟨[.str L!"user"], []⟩))
  let mut x2 ← mkRel .in_ [.str L!"valid_value", .str L!"\"user\"id\"); something_bad"]
  x1 ← call (selectStep cx S x1 (.where_ ⟨[.dict [(.str L!"something", x2)]], []⟩))
  let mut sql := x1
  let x3 : Str ← S.str (.select sql)
  sql ← call (selectStep cx S sql .str)
  let x4 : Bool ← (.ok (occurs L!"\"something\" IN ('valid_value', '\"user\"id\"); something_bad')" x3) : R Bool)
  pure (x4)) := by decide +kernel

end SqlPuzzle.Conformance
