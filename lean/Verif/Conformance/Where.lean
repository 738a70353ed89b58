import Verif.Conformance.Harness

/-!
Generated by tools/conformance.py from tests/queryparts/test_where.py.  Each example is one test of the repository, run on the model.
-/

set_option linter.unusedVariables false

namespace SqlPuzzle.Conformance
open SqlPuzzle

-- tests/queryparts/test_where.py:17 test_is_not_set
example : passes .sql (fun cx S => do
  let mut where' := ([] : List Cond)
  let x1 : Bool ← (! ·) <$> (.ok (!where'.isEmpty) : R Bool)
  pure (x1)) := by decide +kernel

-- tests/queryparts/test_where.py:21 test_is_set
example : passes .sql (fun cx S => do
  let mut where' := ([] : List Cond)
  where' ← call (condsWhere cx S false where' ⟨[], [(L!"name", .str L!"Alan")]⟩)
  let x1 : Bool ← (.ok (!where'.isEmpty) : R Bool)
  pure (x1)) := by decide +kernel

-- tests/queryparts/test_where.py:26 test_where_by_tuple
example : passes .sql (fun cx S => do
  let mut where' := ([] : List Cond)
  let mut x1 ← mkRel .ne [.str L!"female"]
  let mut x2 ← mkRel .gt [.int 20]
  where' ← call (condsWhere cx S false where' ⟨[.tuple [.tuple [.str L!"name", .str L!"Harry"], .tuple [.str L!"sex", x1], .tuple [.str L!"age", x2]]], []⟩)
  let x3 : Str ← condsText cx S L!"WHERE" where'
  let x4 : Bool ← (.ok (x3 == L!"WHERE \"name\" = 'Harry' AND \"sex\" != 'female' AND \"age\" > 20") : R Bool)
  pure (x4)) := by decide +kernel

-- tests/queryparts/test_where.py:35 test_where_by_list
example : passes .sql (fun cx S => do
  let mut where' := ([] : List Cond)
  let mut x1 ← mkRel .like [.str L!"Harry"]
  let mut x2 ← mkRel .ne [.str L!"female"]
  let mut x3 ← mkRel .le [.int 20]
  where' ← call (condsWhere cx S false where' ⟨[.list [.list [.str L!"name", x1], .list [.str L!"sex", x2], .list [.str L!"age", x3]]], []⟩)
  let x4 : Str ← condsText cx S L!"WHERE" where'
  let x5 : Bool ← (.ok (x4 == L!"WHERE \"name\" LIKE 'Harry' AND \"sex\" != 'female' AND \"age\" <= 20") : R Bool)
  pure (x5)) := by decide +kernel

-- tests/queryparts/test_where.py:44 test_where_by_dictionary
example : passes .sql (fun cx S => do
  let mut where' := ([] : List Cond)
  let mut x1 ← mkRel .like [.str L!"Alan"]
  where' ← call (condsWhere cx S false where' ⟨[.dict [(.str L!"name", x1), (.str L!"age", .int 20)]], []⟩)
  let x2 : Str ← condsText cx S L!"WHERE" where'
  let x3 : Bool ← (.ok (x2 == L!"WHERE \"age\" = 20 AND \"name\" LIKE 'Alan'") : R Bool)
  pure (x3)) := by decide +kernel

-- tests/queryparts/test_where.py:52 test_where_by_args
example : passes .sql (fun cx S => do
  let mut where' := ([] : List Cond)
  let mut x1 ← mkRel .lt [.int 20]
  where' ← call (condsWhere cx S false where' ⟨[.str L!"age", x1], []⟩)
  let x2 : Str ← condsText cx S L!"WHERE" where'
  let x3 : Bool ← (.ok (x2 == L!"WHERE \"age\" < 20") : R Bool)
  pure (x3)) := by decide +kernel

-- tests/queryparts/test_where.py:57 test_where_by_kwargs
example : passes .sql (fun cx S => do
  let mut where' := ([] : List Cond)
  where' ← call (condsWhere cx S false where' ⟨[], [(L!"name", .str L!"Alan")]⟩)
  let x1 : Str ← condsText cx S L!"WHERE" where'
  let x2 : Bool ← (.ok (x1 == L!"WHERE \"name\" = 'Alan'") : R Bool)
  pure (x2)) := by decide +kernel

-- tests/queryparts/test_where.py:62 test_serial_where
example : passes .sql (fun cx S => do
  let mut where' := ([] : List Cond)
  where' ← call (condsWhere cx S false where' ⟨[], [(L!"name", .str L!"Alan")]⟩)
  where' ← call (condsWhere cx S false where' ⟨[], [(L!"age", .int 42)]⟩)
  let x1 : Str ← condsText cx S L!"WHERE" where'
  let x2 : Bool ← (.ok (x1 == L!"WHERE \"name\" = 'Alan' AND \"age\" = 42") : R Bool)
  pure (x2)) := by decide +kernel

-- tests/queryparts/test_where.py:68 test_str
example : passes .sql (fun cx S => do
  let mut where' := ([] : List Cond)
  where' ← call (condsWhere cx S false where' ⟨[], [(L!"name", .str L!"ščřž")]⟩)
  let x1 : Str ← condsText cx S L!"WHERE" where'
  let x2 : Bool ← (.ok (x1 == L!"WHERE \"name\" = 'ščřž'") : R Bool)
  pure (x2)) := by decide +kernel

-- tests/queryparts/test_where.py:73 test_EQ
example : passes .sql (fun cx S => do
  let mut where' := ([] : List Cond)
  let mut x1 ← mkRel .eq [.int 12]
  where' ← call (condsWhere cx S false where' ⟨[.str L!"col", x1], []⟩)
  let x2 : Str ← condsText cx S L!"WHERE" where'
  let x3 : Bool ← (.ok (x2 == L!"WHERE \"col\" = 12") : R Bool)
  pure (x3)) := by decide +kernel

-- tests/queryparts/test_where.py:78 test_NE
example : passes .sql (fun cx S => do
  let mut where' := ([] : List Cond)
  let mut x1 ← mkRel .ne [.int 12]
  where' ← call (condsWhere cx S false where' ⟨[.str L!"col", x1], []⟩)
  let x2 : Str ← condsText cx S L!"WHERE" where'
  let x3 : Bool ← (.ok (x2 == L!"WHERE \"col\" != 12") : R Bool)
  pure (x3)) := by decide +kernel

-- tests/queryparts/test_where.py:83 test_GT
example : passes .sql (fun cx S => do
  let mut where' := ([] : List Cond)
  let mut x1 ← mkRel .gt [.int 12]
  where' ← call (condsWhere cx S false where' ⟨[.str L!"col", x1], []⟩)
  let x2 : Str ← condsText cx S L!"WHERE" where'
  let x3 : Bool ← (.ok (x2 == L!"WHERE \"col\" > 12") : R Bool)
  pure (x3)) := by decide +kernel

-- tests/queryparts/test_where.py:88 test_GE
example : passes .sql (fun cx S => do
  let mut where' := ([] : List Cond)
  let mut x1 ← mkRel .ge [.int 12]
  where' ← call (condsWhere cx S false where' ⟨[.str L!"col", x1], []⟩)
  let x2 : Str ← condsText cx S L!"WHERE" where'
  let x3 : Bool ← (.ok (x2 == L!"WHERE \"col\" >= 12") : R Bool)
  pure (x3)) := by decide +kernel

-- tests/queryparts/test_where.py:93 test_LT
example : passes .sql (fun cx S => do
  let mut where' := ([] : List Cond)
  let mut x1 ← mkRel .lt [.int 12]
  where' ← call (condsWhere cx S false where' ⟨[.str L!"col", x1], []⟩)
  let x2 : Str ← condsText cx S L!"WHERE" where'
  let x3 : Bool ← (.ok (x2 == L!"WHERE \"col\" < 12") : R Bool)
  pure (x3)) := by decide +kernel

-- tests/queryparts/test_where.py:98 test_LE
example : passes .sql (fun cx S => do
  let mut where' := ([] : List Cond)
  let mut x1 ← mkRel .le [.int 12]
  where' ← call (condsWhere cx S false where' ⟨[.str L!"col", x1], []⟩)
  let x2 : Str ← condsText cx S L!"WHERE" where'
  let x3 : Bool ← (.ok (x2 == L!"WHERE \"col\" <= 12") : R Bool)
  pure (x3)) := by decide +kernel

-- tests/queryparts/test_where.py:103 test_LIKE
example : passes .sql (fun cx S => do
  let mut where' := ([] : List Cond)
  let mut x1 ← mkRel .like [.str L!"val"]
  where' ← call (condsWhere cx S false where' ⟨[.str L!"col", x1], []⟩)
  let x2 : Str ← condsText cx S L!"WHERE" where'
  let x3 : Bool ← (.ok (x2 == L!"WHERE \"col\" LIKE 'val'") : R Bool)
  pure (x3)) := by decide +kernel

-- tests/queryparts/test_where.py:108 test_NOT_LIKE
example : passes .sql (fun cx S => do
  let mut where' := ([] : List Cond)
  let mut x1 ← mkRel .notLike [.str L!"val"]
  where' ← call (condsWhere cx S false where' ⟨[.str L!"col", x1], []⟩)
  let x2 : Str ← condsText cx S L!"WHERE" where'
  let x3 : Bool ← (.ok (x2 == L!"WHERE \"col\" NOT LIKE 'val'") : R Bool)
  pure (x3)) := by decide +kernel

-- tests/queryparts/test_where.py:113 test_REGEXP
example : passes .sql (fun cx S => do
  let mut where' := ([] : List Cond)
  let mut x1 ← mkRel .regexp [.str L!"val"]
  where' ← call (condsWhere cx S false where' ⟨[.str L!"col", x1], []⟩)
  let x2 : Str ← condsText cx S L!"WHERE" where'
  let x3 : Bool ← (.ok (x2 == L!"WHERE \"col\" REGEXP 'val'") : R Bool)
  pure (x3)) := by decide +kernel

-- tests/queryparts/test_where.py:118 test_IN
example : passes .sql (fun cx S => do
  let mut where' := ([] : List Cond)
  let mut x1 ← mkRel .in_ [(.range [0, 1, 2])]
  where' ← call (condsWhere cx S false where' ⟨[.str L!"col", x1], []⟩)
  let x2 : Str ← condsText cx S L!"WHERE" where'
  let x3 : Bool ← (.ok (x2 == L!"WHERE \"col\" IN (0, 1, 2)") : R Bool)
  pure (x3)) := by decide +kernel

-- tests/queryparts/test_where.py:123 test_IN_WITH_NONE
example : passes .sql (fun cx S => do
  let mut where' := ([] : List Cond)
  let mut x1 ← mkRel .in_ [.list [.int 0, .int 1, .int 2, .none]]
  where' ← call (condsWhere cx S false where' ⟨[.str L!"col", x1], []⟩)
  let x2 : Str ← condsText cx S L!"WHERE" where'
  let x3 : Bool ← (.ok (x2 == L!"WHERE (\"col\" IN (0, 1, 2) OR \"col\" IS NULL)") : R Bool)
  pure (x3)) := by decide +kernel

-- tests/queryparts/test_where.py:128 test_IN_WITH_NONE_ONLY
example : passes .sql (fun cx S => do
  let mut where' := ([] : List Cond)
  let mut x1 ← mkRel .in_ [.list [.none]]
  where' ← call (condsWhere cx S false where' ⟨[.str L!"col", x1], []⟩)
  let x2 : Str ← condsText cx S L!"WHERE" where'
  let x3 : Bool ← (.ok (x2 == L!"WHERE \"col\" IS NULL") : R Bool)
  pure (x3)) := by decide +kernel

-- tests/queryparts/test_where.py:133 test_NOT_IN
example : passes .sql (fun cx S => do
  let mut where' := ([] : List Cond)
  let mut x1 ← mkRel .notIn [(.range [0, 1, 2])]
  where' ← call (condsWhere cx S false where' ⟨[.str L!"col", x1], []⟩)
  let x2 : Str ← condsText cx S L!"WHERE" where'
  let x3 : Bool ← (.ok (x2 == L!"WHERE \"col\" NOT IN (0, 1, 2)") : R Bool)
  pure (x3)) := by decide +kernel

-- tests/queryparts/test_where.py:138 test_NOT_IN_WITH_NONE
example : passes .sql (fun cx S => do
  let mut where' := ([] : List Cond)
  let mut x1 ← mkRel .notIn [.list [.int 0, .int 1, .int 2, .none]]
  where' ← call (condsWhere cx S false where' ⟨[.str L!"col", x1], []⟩)
  let x2 : Str ← condsText cx S L!"WHERE" where'
  let x3 : Bool ← (.ok (x2 == L!"WHERE (\"col\" NOT IN (0, 1, 2) AND \"col\" IS NOT NULL)") : R Bool)
  pure (x3)) := by decide +kernel

-- tests/queryparts/test_where.py:143 test_NOT_IN_WITH_NONE_ONLY
example : passes .sql (fun cx S => do
  let mut where' := ([] : List Cond)
  let mut x1 ← mkRel .notIn [.list [.none]]
  where' ← call (condsWhere cx S false where' ⟨[.str L!"col", x1], []⟩)
  let x2 : Str ← condsText cx S L!"WHERE" where'
  let x3 : Bool ← (.ok (x2 == L!"WHERE \"col\" IS NOT NULL") : R Bool)
  pure (x3)) := by decide +kernel

-- tests/queryparts/test_where.py:148 test_IS
example : passes .sql (fun cx S => do
  let mut where' := ([] : List Cond)
  let mut x1 ← mkRel .is [.none]
  where' ← call (condsWhere cx S false where' ⟨[.str L!"col", x1], []⟩)
  let x2 : Str ← condsText cx S L!"WHERE" where'
  let x3 : Bool ← (.ok (x2 == L!"WHERE \"col\" IS NULL") : R Bool)
  pure (x3)) := by decide +kernel

-- tests/queryparts/test_where.py:153 test_IS_NOT
example : passes .sql (fun cx S => do
  let mut where' := ([] : List Cond)
  let mut x1 ← mkRel .isNot [.none]
  where' ← call (condsWhere cx S false where' ⟨[.str L!"col", x1], []⟩)
  let x2 : Str ← condsText cx S L!"WHERE" where'
  let x3 : Bool ← (.ok (x2 == L!"WHERE \"col\" IS NOT NULL") : R Bool)
  pure (x3)) := by decide +kernel

-- tests/queryparts/test_where.py:158 test_default_relation_of_sql_value_with_number
example : passes .sql (fun cx S => do
  let mut where' := ([] : List Cond)
  let mut x1 : Obj := .sqlValue (.int 123)
  where' ← call (condsWhere cx S false where' ⟨[.str L!"col", x1], []⟩)
  let x2 : Str ← condsText cx S L!"WHERE" where'
  let x3 : Bool ← (.ok (x2 == L!"WHERE \"col\" = 123") : R Bool)
  pure (x3)) := by decide +kernel

-- tests/queryparts/test_where.py:163 test_default_relation_of_sql_value_with_none
example : passes .sql (fun cx S => do
  let mut where' := ([] : List Cond)
  let mut x1 : Obj := .sqlValue (.none)
  where' ← call (condsWhere cx S false where' ⟨[.str L!"col", x1], []⟩)
  let x2 : Str ← condsText cx S L!"WHERE" where'
  let x3 : Bool ← (.ok (x2 == L!"WHERE \"col\" IS NULL") : R Bool)
  pure (x3)) := by decide +kernel

-- tests/queryparts/test_where.py:168 test_custom_simple
example : passes .sql (fun cx S => do
  let mut where' := ([] : List Cond)
  let mut x1 ← mkCustom cx S (.str L!"\"custom\" = \"sql\" OR \"sql\" = \"custom\"")
  let mut customsql := x1
  where' ← call (condsWhere cx S false where' ⟨[customsql], []⟩)
  let x2 : Str ← condsText cx S L!"WHERE" where'
  let x3 : Bool ← (.ok (x2 == L!"WHERE \"custom\" = \"sql\" OR \"sql\" = \"custom\"") : R Bool)
  pure (x3)) := by decide +kernel

-- tests/queryparts/test_where.py:174 test_more_same_conditions_print_as_one
example : passes .sql (fun cx S => do
  let mut where' := ([] : List Cond)
  where' ← call (condsWhere cx S false where' ⟨[.tuple [.str L!"age", .int 20], .tuple [.str L!"age", .int 20]], []⟩)
  let x1 : Str ← condsText cx S L!"WHERE" where'
  let x2 : Bool ← (.ok (x1 == L!"WHERE \"age\" = 20") : R Bool)
  pure (x2)) := by decide +kernel

-- tests/queryparts/test_where.py:179 test_more_same_conditions_with_diff_relation_print_as_more
example : passes .sql (fun cx S => do
  let mut where' := ([] : List Cond)
  let mut x1 ← mkRel .ne [.int 20]
  where' ← call (condsWhere cx S false where' ⟨[.tuple [.str L!"age", .int 20], .tuple [.str L!"age", x1]], []⟩)
  let x2 : Str ← condsText cx S L!"WHERE" where'
  let x3 : Bool ← (.ok (x2 == L!"WHERE \"age\" = 20 AND \"age\" != 20") : R Bool)
  pure (x3)) := by decide +kernel

-- tests/queryparts/test_where.py:184 test_value_as_integer
example : passes .sql (fun cx S => do
  let mut where' := ([] : List Cond)
  where' ← call (condsWhere cx S false where' ⟨[.str L!"col", .int 42], []⟩)
  let x1 : Str ← condsText cx S L!"WHERE" where'
  let x2 : Bool ← (.ok (x1 == L!"WHERE \"col\" = 42") : R Bool)
  pure (x2)) := by decide +kernel

-- tests/queryparts/test_where.py:189 test_value_as_float
example : passes .sql (fun cx S => do
  let mut where' := ([] : List Cond)
  where' ← call (condsWhere cx S false where' ⟨[.str L!"col", .float (.fin false 5925048259759309 (-47))], []⟩)
  let x1 : Str ← condsText cx S L!"WHERE" where'
  let x2 : Bool ← (.ok (x1 == L!"WHERE \"col\" = 42.10000") : R Bool)
  pure (x2)) := by decide +kernel

-- tests/queryparts/test_where.py:194 test_value_as_decimal
example : passes .sql (fun cx S => do
  let mut where' := ([] : List Cond)
  where' ← call (condsWhere cx S false where' ⟨[.str L!"col", (.decimal (.fin false 421 (-1)))], []⟩)
  let x1 : Str ← condsText cx S L!"WHERE" where'
  let x2 : Bool ← (.ok (x1 == L!"WHERE \"col\" = 42.10000") : R Bool)
  pure (x2)) := by decide +kernel

-- tests/queryparts/test_where.py:199 test_value_as_boolean
example : passes .sql (fun cx S => do
  let mut where' := ([] : List Cond)
  where' ← call (condsWhere cx S false where' ⟨[.str L!"col", .bool true], []⟩)
  let x1 : Str ← condsText cx S L!"WHERE" where'
  let x2 : Bool ← (.ok (x1 == L!"WHERE \"col\" = 1") : R Bool)
  pure (x2)) := by decide +kernel

-- tests/queryparts/test_where.py:204 test_value_as_list
example : passes .sql (fun cx S => do
  let mut where' := ([] : List Cond)
  where' ← call (condsWhere cx S false where' ⟨[], [(L!"id", .tuple [.int 23, .int 34, .int 45])]⟩)
  let x1 : Str ← condsText cx S L!"WHERE" where'
  let x2 : Bool ← (.ok (x1 == L!"WHERE \"id\" IN (23, 34, 45)") : R Bool)
  pure (x2)) := by decide +kernel

-- tests/queryparts/test_where.py:209 test_value_as_list_not_in
example : passes .sql (fun cx S => do
  let mut where' := ([] : List Cond)
  let mut x1 ← mkRel .notIn [.int 23, .int 34, .int 45]
  where' ← call (condsWhere cx S false where' ⟨[.str L!"id", x1], []⟩)
  let x2 : Str ← condsText cx S L!"WHERE" where'
  let x3 : Bool ← (.ok (x2 == L!"WHERE \"id\" NOT IN (23, 34, 45)") : R Bool)
  pure (x3)) := by decide +kernel

-- tests/queryparts/test_where.py:214 test_value_as_generator
example : passes .sql (fun cx S => do
  let mut where' := ([] : List Cond)
  where' ← call (condsWhere cx S false where' ⟨[.str L!"col", .gen [.int 0, .int 1, .int 2, .int 3, .int 4]], []⟩)
  let x1 : Str ← condsText cx S L!"WHERE" where'
  let x2 : Bool ← (.ok (x1 == L!"WHERE \"col\" IN (0, 1, 2, 3, 4)") : R Bool)
  let x3 : Str ← condsText cx S L!"WHERE" where'
  let x4 : Bool ← (.ok (x3 == L!"WHERE \"col\" IN (0, 1, 2, 3, 4)") : R Bool)
  pure (x2 && x4)) := by decide +kernel

-- tests/queryparts/test_where.py:221 test_value_as_xrange
example : passes .sql (fun cx S => do
  let mut where' := ([] : List Cond)
  where' ← call (condsWhere cx S false where' ⟨[.str L!"id", (.range [0, 1, 2])], []⟩)
  let x1 : Str ← condsText cx S L!"WHERE" where'
  let x2 : Bool ← (.ok (x1 == L!"WHERE \"id\" IN (0, 1, 2)") : R Bool)
  pure (x2)) := by decide +kernel

-- tests/queryparts/test_where.py:226 test_value_as_none
example : passes .sql (fun cx S => do
  let mut where' := ([] : List Cond)
  where' ← call (condsWhere cx S false where' ⟨[.str L!"col", .none], []⟩)
  let x1 : Str ← condsText cx S L!"WHERE" where'
  let x2 : Bool ← (.ok (x1 == L!"WHERE \"col\" IS NULL") : R Bool)
  pure (x2)) := by decide +kernel

-- tests/queryparts/test_where.py:231 test_value_as_not_none
example : passes .sql (fun cx S => do
  let mut where' := ([] : List Cond)
  let mut x1 ← mkRel .isNot [.none]
  where' ← call (condsWhere cx S false where' ⟨[.str L!"col", x1], []⟩)
  let x2 : Str ← condsText cx S L!"WHERE" where'
  let x3 : Bool ← (.ok (x2 == L!"WHERE \"col\" IS NOT NULL") : R Bool)
  pure (x3)) := by decide +kernel

-- tests/queryparts/test_where.py:236 test_copy
example : passes .sql (fun cx S => do
  let mut where' := ([] : List Cond)
  where' ← call (condsWhere cx S false where' ⟨[.dict [(.str L!"id", .int 42)]], []⟩)
  let mut x1 := where'
  let mut copy := x1
  where' ← call (condsWhere cx S false where' ⟨[.dict [(.str L!"name", .str L!"Alan")]], []⟩)
  let x2 : Str ← condsText cx S L!"WHERE" copy
  let x3 : Bool ← (.ok (x2 == L!"WHERE \"id\" = 42") : R Bool)
  let x4 : Str ← condsText cx S L!"WHERE" where'
  let x5 : Bool ← (.ok (x4 == L!"WHERE \"id\" = 42 AND \"name\" = 'Alan'") : R Bool)
  pure (x3 && x5)) := by decide +kernel

-- tests/queryparts/test_where.py:244 test_equals
example : passes .sql (fun cx S => do
  let mut where' := ([] : List Cond)
  where' ← call (condsWhere cx S false where' ⟨[.dict [(.str L!"id", .int 42)]], []⟩)
  let mut x1 := where'
  let mut copy := x1
  let x2 : Bool ← condsEq cx S where' copy
  pure (x2)) := by decide +kernel

-- tests/queryparts/test_where.py:250 test_not_equals
example : passes .sql (fun cx S => do
  let mut where' := ([] : List Cond)
  where' ← call (condsWhere cx S false where' ⟨[.dict [(.str L!"id", .int 42)]], []⟩)
  let mut x1 := where'
  let mut copy := x1
  where' ← call (condsWhere cx S false where' ⟨[.dict [(.str L!"name", .str L!"Alan")]], []⟩)
  let x2 : Bool ← (! ·) <$> condsEq cx S where' copy
  pure (x2)) := by decide +kernel

-- tests/queryparts/test_where.py:257 test_column_as_integer_exception
example : passes .sql (fun cx S => do
  let mut where' := ([] : List Cond)
  let x1 : Bool := raises Err.isInvalidArgument (do
      let mut where' := where'
      where' ← call (condsWhere cx S false where' ⟨[.int 42, .str L!"val"], []⟩)
      pure ())
  pure (x1)) := by decide +kernel

-- tests/queryparts/test_where.py:262 test_column_as_float_exception
example : passes .sql (fun cx S => do
  let mut where' := ([] : List Cond)
  let x1 : Bool := raises Err.isInvalidArgument (do
      let mut where' := where'
      where' ← call (condsWhere cx S false where' ⟨[.float (.fin false 5925048259759309 (-47)), .str L!"val"], []⟩)
      pure ())
  pure (x1)) := by decide +kernel

-- tests/queryparts/test_where.py:267 test_column_as_boolean_exception
example : passes .sql (fun cx S => do
  let mut where' := ([] : List Cond)
  let x1 : Bool := raises Err.isInvalidArgument (do
      let mut where' := where'
      where' ← call (condsWhere cx S false where' ⟨[.bool true, .str L!"val"], []⟩)
      pure ())
  pure (x1)) := by decide +kernel

-- tests/queryparts/test_where.py:272 test_value_as_list_wrong_relation_exception
example : passes .sql (fun cx S => do
  let x1 : Bool := raises Err.isInvalidArgument (do
      let mut x101 ← mkRel .le [.tuple [.int 23, .int 34, .int 45]]
      pure ())
  let x2 : Bool := raises Err.isInvalidArgument (do
      let mut x102 ← mkRel .ne [.tuple [.int 23, .int 34, .int 45]]
      pure ())
  let x3 : Bool := raises Err.isInvalidArgument (do
      let mut x103 ← mkRel .like [.tuple [.int 23, .int 34, .int 45]]
      pure ())
  pure (x1 && x2 && x3)) := by decide +kernel

-- tests/queryparts/test_where.py:281 test_value_as_boolean_wrong_relation_exception
example : passes .sql (fun cx S => do
  let x1 : Bool := raises Err.isInvalidArgument (do
      let mut x101 ← mkRel .gt [.bool true]
      pure ())
  let x2 : Bool := raises Err.isInvalidArgument (do
      let mut x102 ← mkRel .notIn [.bool true]
      pure ())
  let x3 : Bool := raises Err.isInvalidArgument (do
      let mut x103 ← mkRel .like [.bool true]
      pure ())
  pure (x1 && x2 && x3)) := by decide +kernel

-- tests/queryparts/test_where.py:290 test_value_as_integer_wrong_relation_exception
example : passes .sql (fun cx S => do
  let x1 : Bool := raises Err.isInvalidArgument (do
      let mut x101 ← mkRel .like [.int 67]
      pure ())
  let x2 : Bool := raises Err.isInvalidArgument (do
      let mut x102 ← mkRel .in_ [.int 67]
      pure ())
  pure (x1 && x2)) := by decide +kernel

-- tests/queryparts/test_where.py:297 test_value_as_string_wrong_relation_exception
example : passes .sql (fun cx S => do
  let x1 : Bool := raises Err.isInvalidArgument (do
      let mut x101 ← mkRel .notIn [.int 67]
      pure ())
  let x2 : Bool := raises Err.isInvalidArgument (do
      let mut x102 ← mkRel .in_ [.int 67]
      pure ())
  pure (x1 && x2)) := by decide +kernel

-- tests/queryparts/test_where.py:304 test_simple_or
example : passes .sql (fun cx S => do
  let mut where' := ([] : List Cond)
  let mut x1 ← mkConds cx S ⟨[], [(L!"x", .str L!"y")]⟩
  let mut x2 ← mkConds cx S ⟨[], [(L!"y", .str L!"x")]⟩
  let mut x3 ← mkBinary .or x1 x2
  where' ← call (condsWhere cx S false where' ⟨[x3], []⟩)
  let x4 : Str ← condsText cx S L!"WHERE" where'
  let x5 : Bool ← (.ok (x4 == L!"WHERE (\"x\" = 'y' OR \"y\" = 'x')") : R Bool)
  pure (x5)) := by decide +kernel

-- tests/queryparts/test_where.py:309 test_simple_and
example : passes .sql (fun cx S => do
  let mut where' := ([] : List Cond)
  let mut x1 ← mkConds cx S ⟨[], [(L!"x", .str L!"y")]⟩
  let mut x2 ← mkConds cx S ⟨[], [(L!"y", .str L!"x")]⟩
  let mut x3 ← mkBinary .and x1 x2
  where' ← call (condsWhere cx S false where' ⟨[x3], []⟩)
  let x4 : Str ← condsText cx S L!"WHERE" where'
  let x5 : Bool ← (.ok (x4 == L!"WHERE (\"x\" = 'y' AND \"y\" = 'x')") : R Bool)
  pure (x5)) := by decide +kernel

-- tests/queryparts/test_where.py:314 test_more_complicated
example : passes .sql (fun cx S => do
  let mut where' := ([] : List Cond)
  let mut x1 ← mkConds cx S ⟨[], [(L!"a", .int 1)]⟩
  let mut x2 ← mkConds cx S ⟨[], [(L!"b", .int 2)]⟩
  let mut x3 ← mkBinary .and x1 x2
  let mut x4 ← mkConds cx S ⟨[], [(L!"c", .int 3)]⟩
  let mut x5 ← mkBinary .or x3 x4
  where' ← call (condsWhere cx S false where' ⟨[x5], []⟩)
  let x6 : Str ← condsText cx S L!"WHERE" where'
  let x7 : Bool ← (.ok (x6 == L!"WHERE ((\"a\" = 1 AND \"b\" = 2) OR \"c\" = 3)") : R Bool)
  pure (x7)) := by decide +kernel

-- tests/queryparts/test_where.py:319 test_more_conditions_in_q
example : passes .sql (fun cx S => do
  let mut where' := ([] : List Cond)
  let mut x1 ← mkConds cx S ⟨[], [(L!"a", .int 42), (L!"b", .int 24)]⟩
  let mut x2 ← mkConds cx S ⟨[], [(L!"x", .str L!"y")]⟩
  let mut x3 ← mkBinary .or x1 x2
  where' ← call (condsWhere cx S false where' ⟨[x3], []⟩)
  let x4 : Str ← condsText cx S L!"WHERE" where'
  let x5 : Bool ← (.ok (x4 == L!"WHERE ((\"a\" = 42 AND \"b\" = 24) OR \"x\" = 'y')") : R Bool)
  pure (x5)) := by decide +kernel

-- tests/queryparts/test_where.py:324 test_two_qobjects
example : passes .sql (fun cx S => do
  let mut where' := ([] : List Cond)
  let mut x1 ← mkConds cx S ⟨[], [(L!"a", .int 1)]⟩
  let mut x2 ← mkConds cx S ⟨[], [(L!"a", .int 2)]⟩
  let mut x3 ← mkBinary .or x1 x2
  let mut x4 ← mkConds cx S ⟨[], [(L!"b", .int 1)]⟩
  let mut x5 ← mkConds cx S ⟨[], [(L!"b", .int 2)]⟩
  let mut x6 ← mkBinary .or x4 x5
  where' ← call (condsWhere cx S false where' ⟨[x3, x6], []⟩)
  let x7 : Str ← condsText cx S L!"WHERE" where'
  let x8 : Bool ← (.ok (x7 == L!"WHERE (\"a\" = 1 OR \"a\" = 2) AND (\"b\" = 1 OR \"b\" = 2)") : R Bool)
  pure (x8)) := by decide +kernel

-- tests/queryparts/test_where.py:329 test_three_qobjects
example : passes .sql (fun cx S => do
  let mut where' := ([] : List Cond)
  let mut x1 ← mkConds cx S ⟨[], [(L!"a", .int 1)]⟩
  let mut x2 ← mkConds cx S ⟨[], [(L!"a", .int 2)]⟩
  let mut x3 ← mkBinary .or x1 x2
  let mut x4 ← mkConds cx S ⟨[], [(L!"b", .int 1)]⟩
  let mut x5 ← mkConds cx S ⟨[], [(L!"b", .int 2)]⟩
  let mut x6 ← mkBinary .or x4 x5
  let mut x7 ← mkConds cx S ⟨[], [(L!"c", .int 1)]⟩
  where' ← call (condsWhere cx S false where' ⟨[x3, x6, x7], []⟩)
  let x8 : Str ← condsText cx S L!"WHERE" where'
  let x9 : Bool ← (.ok (x8 == L!"WHERE (\"a\" = 1 OR \"a\" = 2) AND (\"b\" = 1 OR \"b\" = 2) AND \"c\" = 1") : R Bool)
  pure (x9)) := by decide +kernel

-- tests/queryparts/test_where.py:334 test_qobject_in_qobject
example : passes .sql (fun cx S => do
  let mut where' := ([] : List Cond)
  let mut x1 ← mkConds cx S ⟨[], [(L!"a", .int 1)]⟩
  let mut x2 ← mkConds cx S ⟨[], [(L!"b", .int 2)]⟩
  let mut x3 ← mkBinary .or x1 x2
  let mut x4 ← mkConds cx S ⟨[x3], []⟩
  let mut x5 ← mkConds cx S ⟨[], [(L!"c", .int 3)]⟩
  let mut x6 ← mkBinary .and x4 x5
  where' ← call (condsWhere cx S false where' ⟨[x6], []⟩)
  let x7 : Str ← condsText cx S L!"WHERE" where'
  let x8 : Bool ← (.ok (x7 == L!"WHERE ((\"a\" = 1 OR \"b\" = 2) AND \"c\" = 3)") : R Bool)
  pure (x8)) := by decide +kernel

-- tests/queryparts/test_where.py:339 test_not
example : passes .sql (fun cx S => do
  let mut where' := ([] : List Cond)
  let mut x1 ← mkNot cx S ⟨[], [(L!"a", .int 1)]⟩
  where' ← call (condsWhere cx S false where' ⟨[x1], []⟩)
  let x2 : Str ← condsText cx S L!"WHERE" where'
  let x3 : Bool ← (.ok (x2 == L!"WHERE NOT(\"a\" = 1)") : R Bool)
  pure (x3)) := by decide +kernel

-- tests/queryparts/test_where.py:344 test_not_with_q
example : passes .sql (fun cx S => do
  let mut where' := ([] : List Cond)
  let mut x1 ← mkConds cx S ⟨[], [(L!"a", .int 1)]⟩
  let mut x2 ← mkConds cx S ⟨[], [(L!"b", .int 2)]⟩
  let mut x3 ← mkBinary .or x1 x2
  let mut x4 ← mkNot cx S ⟨[x3], []⟩
  where' ← call (condsWhere cx S false where' ⟨[x4], []⟩)
  let x5 : Str ← condsText cx S L!"WHERE" where'
  let x6 : Bool ← (.ok (x5 == L!"WHERE NOT((\"a\" = 1 OR \"b\" = 2))") : R Bool)
  pure (x6)) := by decide +kernel

-- tests/queryparts/test_where.py:349 test_exists
example : passes .sql (fun cx S => do
  let mut where' := ([] : List Cond)
  let mut x1 ← mkSelectFrom cx S ⟨[.str L!"t2"], []⟩
  let mut x2 : Obj := .sqlRef (.str L!"t1.col")
  x1 ← call (selectStep cx S x1 (.where_ ⟨[], [(L!"col", x2)]⟩))
  let mut subquery := x1
  let mut x3 : Obj := .exists_ (.select subquery)
  where' ← call (condsWhere cx S false where' ⟨[x3], []⟩)
  let x4 : Str ← condsText cx S L!"WHERE" where'
  let x5 : Bool ← (.ok (x4 == L!"WHERE EXISTS(SELECT * FROM \"t2\" WHERE \"col\" = \"t1\".\"col\")") : R Bool)
  pure (x5)) := by decide +kernel

end SqlPuzzle.Conformance
