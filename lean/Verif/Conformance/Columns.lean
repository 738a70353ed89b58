import Verif.Conformance.Harness

/-!
Generated by tools/conformance.py from tests/queryparts/test_columns.py.  Each example is one test of the repository, run on the model.
-/

set_option linter.unusedVariables false

namespace SqlPuzzle.Conformance
open SqlPuzzle

-- tests/queryparts/test_columns.py:14 test_is_not_set
example : passes .sql (fun cx S => do
  let mut columns' := ([] : List Column)
  let x1 : Bool ← (.ok true : R Bool)
  pure (x1)) := by decide +kernel

-- tests/queryparts/test_columns.py:18 test_is_set
example : passes .sql (fun cx S => do
  let mut columns' := ([] : List Column)
  columns' ← call (columnsAdd S columns' ⟨[.str L!"id"], []⟩)
  let x1 : Bool ← (.ok true : R Bool)
  pure (x1)) := by decide +kernel

-- tests/queryparts/test_columns.py:23 test_one_column
example : passes .sql (fun cx S => do
  let mut columns' := ([] : List Column)
  columns' ← call (columnsAdd S columns' ⟨[.str L!"id"], []⟩)
  let x1 : Str ← columnsText cx S columns'
  let x2 : Bool ← (.ok (x1 == L!"\"id\"") : R Bool)
  pure (x2)) := by decide +kernel

-- tests/queryparts/test_columns.py:28 test_more_columns
example : passes .sql (fun cx S => do
  let mut columns' := ([] : List Column)
  columns' ← call (columnsAdd S columns' ⟨[.str L!"id", .str L!"name"], []⟩)
  let x1 : Str ← columnsText cx S columns'
  let x2 : Bool ← (.ok (x1 == L!"\"id\", \"name\"") : R Bool)
  pure (x2)) := by decide +kernel

-- tests/queryparts/test_columns.py:33 test_all_columns
example : passes .sql (fun cx S => do
  let mut columns' := ([] : List Column)
  let x1 : Str ← columnsText cx S columns'
  let x2 : Bool ← (.ok (x1 == L!"*") : R Bool)
  pure (x2)) := by decide +kernel

-- tests/queryparts/test_columns.py:37 test_column_as
example : passes .sql (fun cx S => do
  let mut columns' := ([] : List Column)
  columns' ← call (columnsAdd S columns' ⟨[.tuple [.str L!"id", .str L!"ID"], .str L!"name"], []⟩)
  let x1 : Str ← columnsText cx S columns'
  let x2 : Bool ← (.ok (x1 == L!"\"id\" AS \"ID\", \"name\"") : R Bool)
  pure (x2)) := by decide +kernel

-- tests/queryparts/test_columns.py:42 test_column_as_by_dictionary
example : passes .sql (fun cx S => do
  let mut columns' := ([] : List Column)
  columns' ← call (columnsAdd S columns' ⟨[.dict [(.str L!"id", .str L!"ID"), (.str L!"name", .str L!"Name")]], []⟩)
  let x1 : Str ← columnsText cx S columns'
  let x2 : Bool ← (.ok (x1 == L!"\"id\" AS \"ID\", \"name\" AS \"Name\"") : R Bool)
  pure (x2)) := by decide +kernel

-- tests/queryparts/test_columns.py:47 test_column_as_by_kwds
example : passes .sql (fun cx S => do
  let mut columns' := ([] : List Column)
  columns' ← call (columnsAdd S columns' ⟨[], [(L!"id", .str L!"ID"), (L!"name", .str L!"Name")]⟩)
  let x1 : Str ← columnsText cx S columns'
  let x2 : Bool ← (.ok (x1 == L!"\"id\" AS \"ID\", \"name\" AS \"Name\"") : R Bool)
  pure (x2)) := by decide +kernel

-- tests/queryparts/test_columns.py:52 test_column_by_args_and_kwds
example : passes .sql (fun cx S => do
  let mut columns' := ([] : List Column)
  columns' ← call (columnsAdd S columns' ⟨[.str L!"id"], [(L!"name", .str L!"Name")]⟩)
  let x1 : Str ← columnsText cx S columns'
  let x2 : Bool ← (.ok (x1 == L!"\"id\", \"name\" AS \"Name\"") : R Bool)
  pure (x2)) := by decide +kernel

-- tests/queryparts/test_columns.py:57 test_str
example : passes .sql (fun cx S => do
  let mut columns' := ([] : List Column)
  columns' ← call (columnsAdd S columns' ⟨[.str L!"ščřž"], []⟩)
  let x1 : Str ← columnsText cx S columns'
  let x2 : Bool ← (.ok (x1 == L!"\"ščřž\"") : R Bool)
  pure (x2)) := by decide +kernel

-- tests/queryparts/test_columns.py:62 test_custom_one_column
example : passes .sql (fun cx S => do
  let mut columns' := ([] : List Column)
  let mut x1 ← mkCustom cx S (.str L!"AVG(\"custom\") AS \"x\"")
  let mut customsql := x1
  columns' ← call (columnsAdd S columns' ⟨[customsql], []⟩)
  let x2 : Str ← columnsText cx S columns'
  let x3 : Bool ← (.ok (x2 == L!"AVG(\"custom\") AS \"x\"") : R Bool)
  pure (x3)) := by decide +kernel

-- tests/queryparts/test_columns.py:68 test_custom_more_columns
example : passes .sql (fun cx S => do
  let mut columns' := ([] : List Column)
  let mut x1 ← mkCustom cx S (.str L!"AVG(\"custom\") AS \"x\"")
  let mut customsql := x1
  columns' ← call (columnsAdd S columns' ⟨[customsql, .str L!"id"], []⟩)
  let x2 : Str ← columnsText cx S columns'
  let x3 : Bool ← (.ok (x2 == L!"AVG(\"custom\") AS \"x\", \"id\"") : R Bool)
  pure (x3)) := by decide +kernel

-- tests/queryparts/test_columns.py:74 test_custom_in_column_with_as
example : passes .sql (fun cx S => do
  let mut columns' := ([] : List Column)
  let mut x1 ← mkCustom cx S (.str L!"AVG(\"custom\")")
  columns' ← call (columnsAdd S columns' ⟨[.dict [(x1, .str L!"x")]], []⟩)
  let x2 : Str ← columnsText cx S columns'
  let x3 : Bool ← (.ok (x2 == L!"AVG(\"custom\") AS \"x\"") : R Bool)
  pure (x3)) := by decide +kernel

-- tests/queryparts/test_columns.py:79 test_column_name_as_table_and_column
example : passes .sql (fun cx S => do
  let mut columns' := ([] : List Column)
  columns' ← call (columnsAdd S columns' ⟨[.str L!"table.column"], []⟩)
  let x1 : Str ← columnsText cx S columns'
  let x2 : Bool ← (.ok (x1 == L!"\"table\".\"column\"") : R Bool)
  pure (x2)) := by decide +kernel

-- tests/queryparts/test_columns.py:84 test_column_name_as_table_and_column_with_dot_in_name
example : passes .sql (fun cx S => do
  let mut columns' := ([] : List Column)
  columns' ← call (columnsAdd S columns' ⟨[.str L!"table.\"column.\""], []⟩)
  let x1 : Str ← columnsText cx S columns'
  let x2 : Bool ← (.ok (x1 == L!"\"table\".\"column.\"") : R Bool)
  pure (x2)) := by decide +kernel

-- tests/queryparts/test_columns.py:89 test_more_same_columns_print_as_one
example : passes .sql (fun cx S => do
  let mut columns' := ([] : List Column)
  columns' ← call (columnsAdd S columns' ⟨[.str L!"col", .str L!"col"], []⟩)
  let x1 : Str ← columnsText cx S columns'
  let x2 : Bool ← (.ok (x1 == L!"\"col\"") : R Bool)
  pure (x2)) := by decide +kernel

-- tests/queryparts/test_columns.py:94 test_more_same_columns_with_diff_as_print_as_more
example : passes .sql (fun cx S => do
  let mut columns' := ([] : List Column)
  columns' ← call (columnsAdd S columns' ⟨[.str L!"col", .tuple [.str L!"col", .str L!"col2"]], []⟩)
  let x1 : Str ← columnsText cx S columns'
  let x2 : Bool ← (.ok (x1 == L!"\"col\", \"col\" AS \"col2\"") : R Bool)
  pure (x2)) := by decide +kernel

-- tests/queryparts/test_columns.py:99 test_copy
example : passes .sql (fun cx S => do
  let mut columns' := ([] : List Column)
  columns' ← call (columnsAdd S columns' ⟨[.str L!"id", .str L!"name"], []⟩)
  let mut x1 := columns'
  let mut copy := x1
  columns' ← call (columnsAdd S columns' ⟨[.str L!"address"], []⟩)
  let x2 : Str ← columnsText cx S copy
  let x3 : Bool ← (.ok (x2 == L!"\"id\", \"name\"") : R Bool)
  let x4 : Str ← columnsText cx S columns'
  let x5 : Bool ← (.ok (x4 == L!"\"id\", \"name\", \"address\"") : R Bool)
  pure (x3 && x5)) := by decide +kernel

-- tests/queryparts/test_columns.py:107 test_equals
example : passes .sql (fun cx S => do
  let mut columns' := ([] : List Column)
  columns' ← call (columnsAdd S columns' ⟨[.str L!"id", .str L!"name"], []⟩)
  let mut x1 := columns'
  let mut copy := x1
  let x2 : Bool ← eqListR (columnEq S) columns' copy
  pure (x2)) := by decide +kernel

-- tests/queryparts/test_columns.py:113 test_not_equals
example : passes .sql (fun cx S => do
  let mut columns' := ([] : List Column)
  columns' ← call (columnsAdd S columns' ⟨[.str L!"id", .str L!"name"], []⟩)
  let mut x1 := columns'
  let mut copy := x1
  columns' ← call (columnsAdd S columns' ⟨[.str L!"address"], []⟩)
  let x2 : Bool ← (! ·) <$> eqListR (columnEq S) columns' copy
  pure (x2)) := by decide +kernel

-- tests/queryparts/test_columns.py:120 test_name_as_float_exception
example : passes .sql (fun cx S => do
  let mut columns' := ([] : List Column)
  let x1 : Bool := raises Err.isInvalidArgument (do
      let mut columns' := columns'
      columns' ← call (columnsAdd S columns' ⟨[.float (.fin false 5925048259759309 (-47))], []⟩)
      pure ())
  pure (x1)) := by decide +kernel

-- tests/queryparts/test_columns.py:125 test_name_as_boolean_exception
example : passes .sql (fun cx S => do
  let mut columns' := ([] : List Column)
  let x1 : Bool := raises Err.isInvalidArgument (do
      let mut columns' := columns'
      columns' ← call (columnsAdd S columns' ⟨[.bool true], []⟩)
      pure ())
  pure (x1)) := by decide +kernel

end SqlPuzzle.Conformance
