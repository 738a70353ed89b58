import Verif.Conformance.Harness

/-!
Generated by tools/conformance.py from tests/queryparts/test_values.py.  Each example is one test of the repository, run on the model.
-/

set_option linter.unusedVariables false

namespace SqlPuzzle.Conformance
open SqlPuzzle

-- tests/queryparts/test_values.py:16 test_is_not_set
example : passes .sql (fun cx S => do
  let mut values' := ([] : List Value)
  let x1 : Bool ← (! ·) <$> (.ok (!values'.isEmpty) : R Bool)
  pure (x1)) := by decide +kernel

-- tests/queryparts/test_values.py:20 test_is_set
example : passes .sql (fun cx S => do
  let mut values' := ([] : List Value)
  values' ← call (valuesSet cx S values' ⟨[], [(L!"id", .int 23)]⟩)
  let x1 : Bool ← (.ok (!values'.isEmpty) : R Bool)
  pure (x1)) := by decide +kernel

-- tests/queryparts/test_values.py:25 test_values_by_tuple
example : passes .sql (fun cx S => do
  let mut values' := ([] : List Value)
  values' ← call (valuesSet cx S values' ⟨[.tuple [.tuple [.str L!"name", .str L!"Harry"], .tuple [.str L!"sex", .str L!"female"], .tuple [.str L!"age", .int 20], .tuple [.str L!"country", .none]]], []⟩)
  let x1 : Str ← valuesText cx S [] values'
  let x2 : Bool ← (.ok (x1 == L!"\"name\" = 'Harry', \"sex\" = 'female', \"age\" = 20, \"country\" = NULL") : R Bool)
  pure (x2)) := by decide +kernel

-- tests/queryparts/test_values.py:35 test_values_by_list
example : passes .sql (fun cx S => do
  let mut values' := ([] : List Value)
  values' ← call (valuesSet cx S values' ⟨[.list [.list [.str L!"name", .str L!"Harry"], .list [.str L!"sex", .str L!"female"], .list [.str L!"age", .int 20], .list [.str L!"country", .none]]], []⟩)
  let x1 : Str ← valuesText cx S [] values'
  let x2 : Bool ← (.ok (x1 == L!"\"name\" = 'Harry', \"sex\" = 'female', \"age\" = 20, \"country\" = NULL") : R Bool)
  pure (x2)) := by decide +kernel

-- tests/queryparts/test_values.py:45 test_values_by_dictionary
example : passes .sql (fun cx S => do
  let mut values' := ([] : List Value)
  values' ← call (valuesSet cx S values' ⟨[.dict [(.str L!"name", .str L!"Alan"), (.str L!"age", .int 20)]], []⟩)
  let x1 : Str ← valuesText cx S [] values'
  let x2 : Bool ← (.ok (x1 == L!"\"age\" = 20, \"name\" = 'Alan'") : R Bool)
  pure (x2)) := by decide +kernel

-- tests/queryparts/test_values.py:53 test_values_by_args
example : passes .sql (fun cx S => do
  let mut values' := ([] : List Value)
  values' ← call (valuesSet cx S values' ⟨[.str L!"age", .int 20], []⟩)
  let x1 : Str ← valuesText cx S [] values'
  let x2 : Bool ← (.ok (x1 == L!"\"age\" = 20") : R Bool)
  pure (x2)) := by decide +kernel

-- tests/queryparts/test_values.py:58 test_values_by_kwargs
example : passes .sql (fun cx S => do
  let mut values' := ([] : List Value)
  values' ← call (valuesSet cx S values' ⟨[], [(L!"name", .str L!"Alan")]⟩)
  let x1 : Str ← valuesText cx S [] values'
  let x2 : Bool ← (.ok (x1 == L!"\"name\" = 'Alan'") : R Bool)
  pure (x2)) := by decide +kernel

-- tests/queryparts/test_values.py:63 test_str
example : passes .sql (fun cx S => do
  let mut values' := ([] : List Value)
  values' ← call (valuesSet cx S values' ⟨[], [(L!"name", .str L!"ščřž")]⟩)
  let x1 : Str ← valuesText cx S [] values'
  let x2 : Bool ← (.ok (x1 == L!"\"name\" = 'ščřž'") : R Bool)
  pure (x2)) := by decide +kernel

-- tests/queryparts/test_values.py:68 test_custom_simple
example : passes .sql (fun cx S => do
  let mut values' := ([] : List Value)
  let mut x1 ← mkCustom cx S (.str L!"\"age\" = \"age\" + 1")
  let mut customsql := x1
  values' ← call (valuesSet cx S values' ⟨[customsql], []⟩)
  let x2 : Str ← valuesText cx S [] values'
  let x3 : Bool ← (.ok (x2 == L!"\"age\" = \"age\" + 1") : R Bool)
  pure (x3)) := by decide +kernel

-- tests/queryparts/test_values.py:74 test_value_as_integer
example : passes .sql (fun cx S => do
  let mut values' := ([] : List Value)
  values' ← call (valuesSet cx S values' ⟨[.str L!"col", .int 42], []⟩)
  let x1 : Str ← valuesText cx S [] values'
  let x2 : Bool ← (.ok (x1 == L!"\"col\" = 42") : R Bool)
  pure (x2)) := by decide +kernel

-- tests/queryparts/test_values.py:79 test_value_as_float
example : passes .sql (fun cx S => do
  let mut values' := ([] : List Value)
  values' ← call (valuesSet cx S values' ⟨[.str L!"col", .float (.fin false 5925048259759309 (-47))], []⟩)
  let x1 : Str ← valuesText cx S [] values'
  let x2 : Bool ← (.ok (x1 == L!"\"col\" = 42.10000") : R Bool)
  pure (x2)) := by decide +kernel

-- tests/queryparts/test_values.py:84 test_value_as_decimal
example : passes .sql (fun cx S => do
  let mut values' := ([] : List Value)
  values' ← call (valuesSet cx S values' ⟨[.str L!"col", (.decimal (.fin false 421 (-1)))], []⟩)
  let x1 : Str ← valuesText cx S [] values'
  let x2 : Bool ← (.ok (x1 == L!"\"col\" = 42.10000") : R Bool)
  pure (x2)) := by decide +kernel

-- tests/queryparts/test_values.py:89 test_value_as_boolean
example : passes .sql (fun cx S => do
  let mut values' := ([] : List Value)
  values' ← call (valuesSet cx S values' ⟨[.str L!"col", .bool true], []⟩)
  let x1 : Str ← valuesText cx S [] values'
  let x2 : Bool ← (.ok (x1 == L!"\"col\" = 1") : R Bool)
  pure (x2)) := by decide +kernel

-- tests/queryparts/test_values.py:94 test_value_as_bytes
example : passes .sql (fun cx S => do
  let mut values' := ([] : List Value)
  values' ← call (valuesSet cx S values' ⟨[.str L!"col", .bytes [100, 97, 116, 97]], []⟩)
  let x1 : Str ← valuesText cx S [] values'
  let x2 : Bool ← (.ok (x1 == L!"\"col\" = x'64617461'") : R Bool)
  pure (x2)) := by decide +kernel

-- tests/queryparts/test_values.py:99 test_value_as_bytes_postgresql
example : passes .postgresql (fun cx S => do
  let mut values' := ([] : List Value)
  values' ← call (valuesSet cx S values' ⟨[.str L!"col", .bytes [100, 97, 116, 97]], []⟩)
  let x1 : Str ← valuesText cx S [] values'
  let x2 : Bool ← (.ok (x1 == L!"\"col\" = E'\\\\x64617461'") : R Bool)
  pure (x2)) := by decide +kernel

-- tests/queryparts/test_values.py:104 test_copy
example : passes .sql (fun cx S => do
  let mut values' := ([] : List Value)
  values' ← call (valuesSet cx S values' ⟨[.dict [(.str L!"id", .int 42)]], []⟩)
  let mut x1 := values'
  let mut copy := x1
  values' ← call (valuesSet cx S values' ⟨[.dict [(.str L!"name", .str L!"Alan")]], []⟩)
  let x2 : Str ← valuesText cx S [] copy
  let x3 : Bool ← (.ok (x2 == L!"\"id\" = 42") : R Bool)
  let x4 : Str ← valuesText cx S [] values'
  let x5 : Bool ← (.ok (x4 == L!"\"id\" = 42, \"name\" = 'Alan'") : R Bool)
  pure (x3 && x5)) := by decide +kernel

-- tests/queryparts/test_values.py:112 test_equals
example : passes .sql (fun cx S => do
  let mut values' := ([] : List Value)
  values' ← call (valuesSet cx S values' ⟨[.dict [(.str L!"id", .int 42)]], []⟩)
  let mut x1 := values'
  let mut copy := x1
  let x2 : Bool ← eqListR (valueEq cx S) values' copy
  pure (x2)) := by decide +kernel

-- tests/queryparts/test_values.py:118 test_not_equals
example : passes .sql (fun cx S => do
  let mut values' := ([] : List Value)
  values' ← call (valuesSet cx S values' ⟨[.dict [(.str L!"id", .int 42)]], []⟩)
  let mut x1 := values'
  let mut copy := x1
  values' ← call (valuesSet cx S values' ⟨[.dict [(.str L!"name", .str L!"Alan")]], []⟩)
  let x2 : Bool ← (! ·) <$> eqListR (valueEq cx S) values' copy
  pure (x2)) := by decide +kernel

-- tests/queryparts/test_values.py:125 test_column_as_integer_exception
example : passes .sql (fun cx S => do
  let mut values' := ([] : List Value)
  let x1 : Bool := raises Err.isInvalidArgument (do
      let mut values' := values'
      values' ← call (valuesSet cx S values' ⟨[.int 42, .str L!"val"], []⟩)
      pure ())
  pure (x1)) := by decide +kernel

-- tests/queryparts/test_values.py:130 test_column_as_float_exception
example : passes .sql (fun cx S => do
  let mut values' := ([] : List Value)
  let x1 : Bool := raises Err.isInvalidArgument (do
      let mut values' := values'
      values' ← call (valuesSet cx S values' ⟨[.float (.fin false 5925048259759309 (-47)), .str L!"val"], []⟩)
      pure ())
  pure (x1)) := by decide +kernel

-- tests/queryparts/test_values.py:135 test_column_as_boolean_exception
example : passes .sql (fun cx S => do
  let mut values' := ([] : List Value)
  let x1 : Bool := raises Err.isInvalidArgument (do
      let mut values' := values'
      values' ← call (valuesSet cx S values' ⟨[.bool true, .str L!"val"], []⟩)
      pure ())
  pure (x1)) := by decide +kernel

end SqlPuzzle.Conformance
