import Verif.Conformance.Harness

/-!
Generated by tools/conformance.py from tests/queryparts/test_orderby.py.  Each example is one test of the repository, run on the model.
-/

set_option linter.unusedVariables false

namespace SqlPuzzle.Conformance
open SqlPuzzle

-- tests/queryparts/test_orderby.py:14 test_is_not_set
example : passes .sql (fun cx S => do
  let mut order_by := ([] : List Order)
  let x1 : Bool ← (! ·) <$> (.ok (!order_by.isEmpty) : R Bool)
  pure (x1)) := by decide +kernel

-- tests/queryparts/test_orderby.py:18 test_is_set
example : passes .sql (fun cx S => do
  let mut order_by := ([] : List Order)
  order_by ← call (ordersAdd cx S order_by ⟨[.str L!"id"], []⟩)
  let x1 : Bool ← (.ok (!order_by.isEmpty) : R Bool)
  pure (x1)) := by decide +kernel

-- tests/queryparts/test_orderby.py:23 test_simply
example : passes .sql (fun cx S => do
  let mut order_by := ([] : List Order)
  order_by ← call (ordersAdd cx S order_by ⟨[.str L!"id"], []⟩)
  let x1 : Str ← ordersText cx S L!"ORDER BY" order_by
  let x2 : Bool ← (.ok (x1 == L!"ORDER BY \"id\"") : R Bool)
  pure (x2)) := by decide +kernel

-- tests/queryparts/test_orderby.py:28 test_more_columns
example : passes .sql (fun cx S => do
  let mut order_by := ([] : List Order)
  order_by ← call (ordersAdd cx S order_by ⟨[.str L!"id", .list [.str L!"name", .str L!"desc"]], []⟩)
  let x1 : Str ← ordersText cx S L!"ORDER BY" order_by
  let x2 : Bool ← (.ok (x1 == L!"ORDER BY \"id\", \"name\" DESC") : R Bool)
  pure (x2)) := by decide +kernel

-- tests/queryparts/test_orderby.py:33 test_asc
example : passes .sql (fun cx S => do
  let mut order_by := ([] : List Order)
  order_by ← call (ordersAdd cx S order_by ⟨[.list [.str L!"name", .str L!"asc"]], []⟩)
  let x1 : Str ← ordersText cx S L!"ORDER BY" order_by
  let x2 : Bool ← (.ok (x1 == L!"ORDER BY \"name\"") : R Bool)
  pure (x2)) := by decide +kernel

-- tests/queryparts/test_orderby.py:38 test_desc
example : passes .sql (fun cx S => do
  let mut order_by := ([] : List Order)
  order_by ← call (ordersAdd cx S order_by ⟨[.list [.str L!"name", .str L!"desc"]], []⟩)
  let x1 : Str ← ordersText cx S L!"ORDER BY" order_by
  let x2 : Bool ← (.ok (x1 == L!"ORDER BY \"name\" DESC") : R Bool)
  pure (x2)) := by decide +kernel

-- tests/queryparts/test_orderby.py:43 test_order_by_number
example : passes .sql (fun cx S => do
  let mut order_by := ([] : List Order)
  order_by ← call (ordersAdd cx S order_by ⟨[.int 1], []⟩)
  let x1 : Str ← ordersText cx S L!"ORDER BY" order_by
  let x2 : Bool ← (.ok (x1 == L!"ORDER BY 1") : R Bool)
  pure (x2)) := by decide +kernel

-- tests/queryparts/test_orderby.py:48 test_by_dictionary
example : passes .sql (fun cx S => do
  let mut order_by := ([] : List Order)
  order_by ← call (ordersAdd cx S order_by ⟨[.dict [(.str L!"id", .str L!"ASC"), (.str L!"name", .str L!"DESC")]], []⟩)
  let x1 : Str ← ordersText cx S L!"ORDER BY" order_by
  let x2 : Bool ← (.ok (x1 == L!"ORDER BY \"id\", \"name\" DESC") : R Bool)
  pure (x2)) := by decide +kernel

-- tests/queryparts/test_orderby.py:53 test_by_kwds
example : passes .sql (fun cx S => do
  let mut order_by := ([] : List Order)
  order_by ← call (ordersAdd cx S order_by ⟨[], [(L!"id", .str L!"ASC"), (L!"name", .str L!"DESC")]⟩)
  let x1 : Str ← ordersText cx S L!"ORDER BY" order_by
  let x2 : Bool ← (.ok (x1 == L!"ORDER BY \"id\", \"name\" DESC") : R Bool)
  pure (x2)) := by decide +kernel

-- tests/queryparts/test_orderby.py:58 test_str
example : passes .sql (fun cx S => do
  let mut order_by := ([] : List Order)
  order_by ← call (ordersAdd cx S order_by ⟨[.str L!"ščřž"], []⟩)
  let x1 : Str ← ordersText cx S L!"ORDER BY" order_by
  let x2 : Bool ← (.ok (x1 == L!"ORDER BY \"ščřž\"") : R Bool)
  pure (x2)) := by decide +kernel

-- tests/queryparts/test_orderby.py:63 test_column_name_as_table_and_column
example : passes .sql (fun cx S => do
  let mut order_by := ([] : List Order)
  order_by ← call (ordersAdd cx S order_by ⟨[.str L!"table.column"], []⟩)
  let x1 : Str ← ordersText cx S L!"ORDER BY" order_by
  let x2 : Bool ← (.ok (x1 == L!"ORDER BY \"table\".\"column\"") : R Bool)
  pure (x2)) := by decide +kernel

-- tests/queryparts/test_orderby.py:68 test_column_name_as_table_and_column_with_dot_in_name
example : passes .sql (fun cx S => do
  let mut order_by := ([] : List Order)
  order_by ← call (ordersAdd cx S order_by ⟨[.str L!"table.\"column.\""], []⟩)
  let x1 : Str ← ordersText cx S L!"ORDER BY" order_by
  let x2 : Bool ← (.ok (x1 == L!"ORDER BY \"table\".\"column.\"") : R Bool)
  pure (x2)) := by decide +kernel

-- tests/queryparts/test_orderby.py:73 test_more_same_columns_print_as_one
example : passes .sql (fun cx S => do
  let mut order_by := ([] : List Order)
  order_by ← call (ordersAdd cx S order_by ⟨[.str L!"col", .str L!"col"], []⟩)
  let x1 : Str ← ordersText cx S L!"ORDER BY" order_by
  let x2 : Bool ← (.ok (x1 == L!"ORDER BY \"col\"") : R Bool)
  pure (x2)) := by decide +kernel

-- tests/queryparts/test_orderby.py:78 test_more_same_columns_with_diff_asc_print_as_one
example : passes .sql (fun cx S => do
  let mut order_by := ([] : List Order)
  order_by ← call (ordersAdd cx S order_by ⟨[.str L!"col", .tuple [.str L!"col", .str L!"DESC"]], []⟩)
  let x1 : Str ← ordersText cx S L!"ORDER BY" order_by
  let x2 : Bool ← (.ok (x1 == L!"ORDER BY \"col\" DESC") : R Bool)
  pure (x2)) := by decide +kernel

-- tests/queryparts/test_orderby.py:83 test_copy
example : passes .sql (fun cx S => do
  let mut order_by := ([] : List Order)
  order_by ← call (ordersAdd cx S order_by ⟨[.str L!"name"], []⟩)
  let mut x1 := order_by
  let mut copy := x1
  order_by ← call (ordersAdd cx S order_by ⟨[.str L!"surname"], []⟩)
  let x2 : Str ← ordersText cx S L!"ORDER BY" copy
  let x3 : Bool ← (.ok (x2 == L!"ORDER BY \"name\"") : R Bool)
  let x4 : Str ← ordersText cx S L!"ORDER BY" order_by
  let x5 : Bool ← (.ok (x4 == L!"ORDER BY \"name\", \"surname\"") : R Bool)
  pure (x3 && x5)) := by decide +kernel

-- tests/queryparts/test_orderby.py:91 test_equals
example : passes .sql (fun cx S => do
  let mut order_by := ([] : List Order)
  order_by ← call (ordersAdd cx S order_by ⟨[.str L!"name"], []⟩)
  let mut x1 := order_by
  let mut copy := x1
  let x2 : Bool ← eqListR (orderEq S) order_by copy
  pure (x2)) := by decide +kernel

-- tests/queryparts/test_orderby.py:97 test_not_equals
example : passes .sql (fun cx S => do
  let mut order_by := ([] : List Order)
  order_by ← call (ordersAdd cx S order_by ⟨[.str L!"name"], []⟩)
  let mut x1 := order_by
  let mut copy := x1
  order_by ← call (ordersAdd cx S order_by ⟨[.str L!"surname"], []⟩)
  let x2 : Bool ← (! ·) <$> eqListR (orderEq S) order_by copy
  pure (x2)) := by decide +kernel

-- tests/queryparts/test_orderby.py:104 test_name_as_float_exception
example : passes .sql (fun cx S => do
  let mut order_by := ([] : List Order)
  let x1 : Bool := raises Err.isInvalidArgument (do
      let mut order_by := order_by
      order_by ← call (ordersAdd cx S order_by ⟨[.float (.fin false 5925048259759309 (-47))], []⟩)
      pure ())
  pure (x1)) := by decide +kernel

-- tests/queryparts/test_orderby.py:109 test_name_as_boolean_exception
example : passes .sql (fun cx S => do
  let mut order_by := ([] : List Order)
  let x1 : Bool := raises Err.isInvalidArgument (do
      let mut order_by := order_by
      order_by ← call (ordersAdd cx S order_by ⟨[.bool true], []⟩)
      pure ())
  pure (x1)) := by decide +kernel

-- tests/queryparts/test_orderby.py:114 test_not_asc_or_desc_exception
example : passes .sql (fun cx S => do
  let mut order_by := ([] : List Order)
  let x1 : Bool := raises Err.isInvalidArgument (do
      let mut order_by := order_by
      order_by ← call (ordersAdd cx S order_by ⟨[.tuple [.str L!"col", .str L!"AAA"]], []⟩)
      pure ())
  pure (x1)) := by decide +kernel

end SqlPuzzle.Conformance
