import Verif.Conformance.Harness

/-!
Generated by tools/conformance.py from tests/queryparts/test_having.py.  Each example is one test of the repository, run on the model.
-/

set_option linter.unusedVariables false

namespace SqlPuzzle.Conformance
open SqlPuzzle

-- tests/queryparts/test_having.py:15 test_is_not_set
example : passes .sql (fun cx S => do
  let mut having' := ([] : List Cond)
  let x1 : Bool ← (! ·) <$> (.ok (!having'.isEmpty) : R Bool)
  pure (x1)) := by decide +kernel

-- tests/queryparts/test_having.py:19 test_is_set
example : passes .sql (fun cx S => do
  let mut having' := ([] : List Cond)
  having' ← call (condsWhere cx S false having' ⟨[], [(L!"name", .str L!"Alan")]⟩)
  let x1 : Bool ← (.ok (!having'.isEmpty) : R Bool)
  pure (x1)) := by decide +kernel

-- tests/queryparts/test_having.py:24 test_where_by_tuple
example : passes .sql (fun cx S => do
  let mut having' := ([] : List Cond)
  let mut x1 ← mkRel .ne [.str L!"female"]
  let mut x2 ← mkRel .gt [.int 20]
  having' ← call (condsWhere cx S false having' ⟨[.tuple [.tuple [.str L!"name", .str L!"Harry"], .tuple [.str L!"sex", x1], .tuple [.str L!"age", x2]]], []⟩)
  let x3 : Str ← condsText cx S L!"HAVING" having'
  let x4 : Bool ← (.ok (x3 == L!"HAVING \"name\" = 'Harry' AND \"sex\" != 'female' AND \"age\" > 20") : R Bool)
  pure (x4)) := by decide +kernel

-- tests/queryparts/test_having.py:33 test_where_by_list
example : passes .sql (fun cx S => do
  let mut having' := ([] : List Cond)
  let mut x1 ← mkRel .like [.str L!"Harry"]
  let mut x2 ← mkRel .ne [.str L!"female"]
  let mut x3 ← mkRel .le [.int 20]
  having' ← call (condsWhere cx S false having' ⟨[.list [.list [.str L!"name", x1], .list [.str L!"sex", x2], .list [.str L!"age", x3]]], []⟩)
  let x4 : Str ← condsText cx S L!"HAVING" having'
  let x5 : Bool ← (.ok (x4 == L!"HAVING \"name\" LIKE 'Harry' AND \"sex\" != 'female' AND \"age\" <= 20") : R Bool)
  pure (x5)) := by decide +kernel

-- tests/queryparts/test_having.py:42 test_where_by_dictionary
example : passes .sql (fun cx S => do
  let mut having' := ([] : List Cond)
  having' ← call (condsWhere cx S false having' ⟨[.dict [(.str L!"name", .str L!"Alan"), (.str L!"age", .int 20)]], []⟩)
  let x1 : Str ← condsText cx S L!"HAVING" having'
  let x2 : Bool ← (.ok (x1 == L!"HAVING \"age\" = 20 AND \"name\" = 'Alan'") : R Bool)
  pure (x2)) := by decide +kernel

-- tests/queryparts/test_having.py:50 test_where_by_args
example : passes .sql (fun cx S => do
  let mut having' := ([] : List Cond)
  let mut x1 ← mkRel .lt [.int 20]
  having' ← call (condsWhere cx S false having' ⟨[.str L!"age", x1], []⟩)
  let x2 : Str ← condsText cx S L!"HAVING" having'
  let x3 : Bool ← (.ok (x2 == L!"HAVING \"age\" < 20") : R Bool)
  pure (x3)) := by decide +kernel

-- tests/queryparts/test_having.py:55 test_where_by_kwargs
example : passes .sql (fun cx S => do
  let mut having' := ([] : List Cond)
  having' ← call (condsWhere cx S false having' ⟨[], [(L!"name", .str L!"Alan")]⟩)
  let x1 : Str ← condsText cx S L!"HAVING" having'
  let x2 : Bool ← (.ok (x1 == L!"HAVING \"name\" = 'Alan'") : R Bool)
  pure (x2)) := by decide +kernel

-- tests/queryparts/test_having.py:60 test_serial_where
example : passes .sql (fun cx S => do
  let mut having' := ([] : List Cond)
  having' ← call (condsWhere cx S false having' ⟨[], [(L!"name", .str L!"Alan")]⟩)
  having' ← call (condsWhere cx S false having' ⟨[], [(L!"age", .int 42)]⟩)
  let x1 : Str ← condsText cx S L!"HAVING" having'
  let x2 : Bool ← (.ok (x1 == L!"HAVING \"name\" = 'Alan' AND \"age\" = 42") : R Bool)
  pure (x2)) := by decide +kernel

-- tests/queryparts/test_having.py:66 test_str
example : passes .sql (fun cx S => do
  let mut having' := ([] : List Cond)
  having' ← call (condsWhere cx S false having' ⟨[], [(L!"name", .str L!"ščřž")]⟩)
  let x1 : Str ← condsText cx S L!"HAVING" having'
  let x2 : Bool ← (.ok (x1 == L!"HAVING \"name\" = 'ščřž'") : R Bool)
  pure (x2)) := by decide +kernel

-- tests/queryparts/test_having.py:71 test_more_same_conditions_print_as_one
example : passes .sql (fun cx S => do
  let mut having' := ([] : List Cond)
  having' ← call (condsWhere cx S false having' ⟨[.tuple [.str L!"age", .int 20], .tuple [.str L!"age", .int 20]], []⟩)
  let x1 : Str ← condsText cx S L!"HAVING" having'
  let x2 : Bool ← (.ok (x1 == L!"HAVING \"age\" = 20") : R Bool)
  pure (x2)) := by decide +kernel

-- tests/queryparts/test_having.py:76 test_more_same_conditions_with_diff_relation_print_as_more
example : passes .sql (fun cx S => do
  let mut having' := ([] : List Cond)
  let mut x1 ← mkRel .ne [.int 20]
  having' ← call (condsWhere cx S false having' ⟨[.tuple [.str L!"age", .int 20], .tuple [.str L!"age", x1]], []⟩)
  let x2 : Str ← condsText cx S L!"HAVING" having'
  let x3 : Bool ← (.ok (x2 == L!"HAVING \"age\" = 20 AND \"age\" != 20") : R Bool)
  pure (x3)) := by decide +kernel

-- tests/queryparts/test_having.py:81 test_copy
example : passes .sql (fun cx S => do
  let mut having' := ([] : List Cond)
  having' ← call (condsWhere cx S false having' ⟨[.dict [(.str L!"id", .int 42)]], []⟩)
  let mut x1 := having'
  let mut copy := x1
  having' ← call (condsWhere cx S false having' ⟨[.dict [(.str L!"name", .str L!"Alan")]], []⟩)
  let x2 : Str ← condsText cx S L!"HAVING" copy
  let x3 : Bool ← (.ok (x2 == L!"HAVING \"id\" = 42") : R Bool)
  let x4 : Str ← condsText cx S L!"HAVING" having'
  let x5 : Bool ← (.ok (x4 == L!"HAVING \"id\" = 42 AND \"name\" = 'Alan'") : R Bool)
  pure (x3 && x5)) := by decide +kernel

-- tests/queryparts/test_having.py:89 test_equals
example : passes .sql (fun cx S => do
  let mut having' := ([] : List Cond)
  having' ← call (condsWhere cx S false having' ⟨[.dict [(.str L!"id", .int 42)]], []⟩)
  let mut x1 := having'
  let mut copy := x1
  let x2 : Bool ← condsEq cx S having' copy
  pure (x2)) := by decide +kernel

-- tests/queryparts/test_having.py:95 test_not_equals
example : passes .sql (fun cx S => do
  let mut having' := ([] : List Cond)
  having' ← call (condsWhere cx S false having' ⟨[.dict [(.str L!"id", .int 42)]], []⟩)
  let mut x1 := having'
  let mut copy := x1
  having' ← call (condsWhere cx S false having' ⟨[.dict [(.str L!"name", .str L!"Alan")]], []⟩)
  let x2 : Bool ← (! ·) <$> condsEq cx S having' copy
  pure (x2)) := by decide +kernel

-- tests/queryparts/test_having.py:102 test_value_as_integer
example : passes .sql (fun cx S => do
  let mut having' := ([] : List Cond)
  having' ← call (condsWhere cx S false having' ⟨[.str L!"col", .int 42], []⟩)
  let x1 : Str ← condsText cx S L!"HAVING" having'
  let x2 : Bool ← (.ok (x1 == L!"HAVING \"col\" = 42") : R Bool)
  pure (x2)) := by decide +kernel

-- tests/queryparts/test_having.py:107 test_value_as_float
example : passes .sql (fun cx S => do
  let mut having' := ([] : List Cond)
  having' ← call (condsWhere cx S false having' ⟨[.str L!"col", .float (.fin false 5925048259759309 (-47))], []⟩)
  let x1 : Str ← condsText cx S L!"HAVING" having'
  let x2 : Bool ← (.ok (x1 == L!"HAVING \"col\" = 42.10000") : R Bool)
  pure (x2)) := by decide +kernel

-- tests/queryparts/test_having.py:112 test_value_as_boolean
example : passes .sql (fun cx S => do
  let mut having' := ([] : List Cond)
  having' ← call (condsWhere cx S false having' ⟨[.str L!"col", .bool true], []⟩)
  let x1 : Str ← condsText cx S L!"HAVING" having'
  let x2 : Bool ← (.ok (x1 == L!"HAVING \"col\" = 1") : R Bool)
  pure (x2)) := by decide +kernel

-- tests/queryparts/test_having.py:117 test_value_as_list
example : passes .sql (fun cx S => do
  let mut having' := ([] : List Cond)
  having' ← call (condsWhere cx S false having' ⟨[], [(L!"id", .tuple [.int 23, .int 34, .int 45])]⟩)
  let x1 : Str ← condsText cx S L!"HAVING" having'
  let x2 : Bool ← (.ok (x1 == L!"HAVING \"id\" IN (23, 34, 45)") : R Bool)
  pure (x2)) := by decide +kernel

-- tests/queryparts/test_having.py:122 test_value_as_list_not_in
example : passes .sql (fun cx S => do
  let mut having' := ([] : List Cond)
  let mut x1 ← mkRel .notIn [.int 23, .int 34, .int 45]
  having' ← call (condsWhere cx S false having' ⟨[.str L!"id", x1], []⟩)
  let x2 : Str ← condsText cx S L!"HAVING" having'
  let x3 : Bool ← (.ok (x2 == L!"HAVING \"id\" NOT IN (23, 34, 45)") : R Bool)
  pure (x3)) := by decide +kernel

-- tests/queryparts/test_having.py:127 test_column_as_integer_exception
example : passes .sql (fun cx S => do
  let mut having' := ([] : List Cond)
  let x1 : Bool := raises Err.isInvalidArgument (do
      let mut having' := having'
      having' ← call (condsWhere cx S false having' ⟨[.int 42, .str L!"val"], []⟩)
      pure ())
  pure (x1)) := by decide +kernel

-- tests/queryparts/test_having.py:132 test_column_as_float_exception
example : passes .sql (fun cx S => do
  let mut having' := ([] : List Cond)
  let x1 : Bool := raises Err.isInvalidArgument (do
      let mut having' := having'
      having' ← call (condsWhere cx S false having' ⟨[.float (.fin false 5925048259759309 (-47)), .str L!"val"], []⟩)
      pure ())
  pure (x1)) := by decide +kernel

-- tests/queryparts/test_having.py:137 test_column_as_boolean_exception
example : passes .sql (fun cx S => do
  let mut having' := ([] : List Cond)
  let x1 : Bool := raises Err.isInvalidArgument (do
      let mut having' := having'
      having' ← call (condsWhere cx S false having' ⟨[.bool true, .str L!"val"], []⟩)
      pure ())
  pure (x1)) := by decide +kernel

-- tests/queryparts/test_having.py:142 test_simple_or
example : passes .sql (fun cx S => do
  let mut having' := ([] : List Cond)
  let mut x1 ← mkConds cx S ⟨[], [(L!"x", .str L!"y")]⟩
  let mut x2 ← mkConds cx S ⟨[], [(L!"y", .str L!"x")]⟩
  let mut x3 ← mkBinary .or x1 x2
  having' ← call (condsWhere cx S false having' ⟨[x3], []⟩)
  let x4 : Str ← condsText cx S L!"HAVING" having'
  let x5 : Bool ← (.ok (x4 == L!"HAVING (\"x\" = 'y' OR \"y\" = 'x')") : R Bool)
  pure (x5)) := by decide +kernel

-- tests/queryparts/test_having.py:147 test_simple_and
example : passes .sql (fun cx S => do
  let mut having' := ([] : List Cond)
  let mut x1 ← mkConds cx S ⟨[], [(L!"x", .str L!"y")]⟩
  let mut x2 ← mkConds cx S ⟨[], [(L!"y", .str L!"x")]⟩
  let mut x3 ← mkBinary .and x1 x2
  having' ← call (condsWhere cx S false having' ⟨[x3], []⟩)
  let x4 : Str ← condsText cx S L!"HAVING" having'
  let x5 : Bool ← (.ok (x4 == L!"HAVING (\"x\" = 'y' AND \"y\" = 'x')") : R Bool)
  pure (x5)) := by decide +kernel

-- tests/queryparts/test_having.py:152 test_more_complicated
example : passes .sql (fun cx S => do
  let mut having' := ([] : List Cond)
  let mut x1 ← mkConds cx S ⟨[], [(L!"a", .int 1)]⟩
  let mut x2 ← mkConds cx S ⟨[], [(L!"b", .int 2)]⟩
  let mut x3 ← mkBinary .and x1 x2
  let mut x4 ← mkConds cx S ⟨[], [(L!"c", .int 3)]⟩
  let mut x5 ← mkBinary .or x3 x4
  having' ← call (condsWhere cx S false having' ⟨[x5], []⟩)
  let x6 : Str ← condsText cx S L!"HAVING" having'
  let x7 : Bool ← (.ok (x6 == L!"HAVING ((\"a\" = 1 AND \"b\" = 2) OR \"c\" = 3)") : R Bool)
  pure (x7)) := by decide +kernel

-- tests/queryparts/test_having.py:157 test_more_conditions_in_q
example : passes .sql (fun cx S => do
  let mut having' := ([] : List Cond)
  let mut x1 ← mkConds cx S ⟨[], [(L!"a", .int 42), (L!"b", .int 24)]⟩
  let mut x2 ← mkConds cx S ⟨[], [(L!"x", .str L!"y")]⟩
  let mut x3 ← mkBinary .or x1 x2
  having' ← call (condsWhere cx S false having' ⟨[x3], []⟩)
  let x4 : Str ← condsText cx S L!"HAVING" having'
  let x5 : Bool ← (.ok (x4 == L!"HAVING ((\"a\" = 42 AND \"b\" = 24) OR \"x\" = 'y')") : R Bool)
  pure (x5)) := by decide +kernel

end SqlPuzzle.Conformance
