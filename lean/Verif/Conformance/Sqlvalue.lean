import Verif.Conformance.Harness

/-!
Generated by tools/conformance.py from tests/common/test_sqlvalue.py.  Each example is one test of the repository, run on the model.
-/

set_option linter.unusedVariables false

namespace SqlPuzzle.Conformance
open SqlPuzzle

-- tests/common/test_sqlvalue.py:12 test_string
example : passes .sql (fun cx S => do
  let mut x1 : Obj := .sqlValue (.str L!"Hello World!")
  let x2 : Str ← S.str x1
  let x3 : Bool ← (.ok (x2 == L!"'Hello World!'") : R Bool)
  pure (x3)) := by decide +kernel

-- tests/common/test_sqlvalue.py:16 test_integer
example : passes .sql (fun cx S => do
  let mut x1 : Obj := .sqlValue (.int 42)
  let x2 : Str ← S.str x1
  let x3 : Bool ← (.ok (x2 == L!"42") : R Bool)
  pure (x3)) := by decide +kernel

-- tests/common/test_sqlvalue.py:20 test_long_integer
example : passes .sql (fun cx S => do
  let mut x1 : Obj := .sqlValue (.int 123456789012345)
  let x2 : Str ← S.str x1
  let x3 : Bool ← (.ok (x2 == L!"123456789012345") : R Bool)
  pure (x3)) := by decide +kernel

-- tests/common/test_sqlvalue.py:24 test_float
example : passes .sql (fun cx S => do
  let mut x1 : Obj := .sqlValue (.float (.fin false 6602277053725147 (-48)))
  let x2 : Str ← S.str x1
  let x3 : Bool ← (.ok (x2 == L!"23.45600") : R Bool)
  pure (x3)) := by decide +kernel

-- tests/common/test_sqlvalue.py:28 test_decimal
example : passes .sql (fun cx S => do
  let mut x1 : Obj := .sqlValue ((.decimal (.fin false 23456 (-3))))
  let x2 : Str ← S.str x1
  let x3 : Bool ← (.ok (x2 == L!"23.45600") : R Bool)
  pure (x3)) := by decide +kernel

-- tests/common/test_sqlvalue.py:32 test_boolean
example : passes .sql (fun cx S => do
  let mut x1 : Obj := .sqlValue (.bool true)
  let x2 : Str ← S.str x1
  let x3 : Bool ← (.ok (x2 == L!"1") : R Bool)
  pure (x3)) := by decide +kernel

-- tests/common/test_sqlvalue.py:36 test_date
example : passes .sql (fun cx S => do
  let mut x1 : Obj := .sqlValue ((.date ⟨2011, 5, 25⟩))
  let x2 : Str ← S.str x1
  let x3 : Bool ← (.ok (x2 == L!"'2011-05-25'") : R Bool)
  pure (x3)) := by decide +kernel

-- tests/common/test_sqlvalue.py:40 test_datetime
example : passes .sql (fun cx S => do
  let mut x1 : Obj := .sqlValue ((.datetime ⟨⟨2011, 5, 25⟩, 19, 33, 20, 0, none⟩))
  let x2 : Str ← S.str x1
  let x3 : Bool ← (.ok (x2 == L!"'2011-05-25T19:33:20'") : R Bool)
  pure (x3)) := by decide +kernel

-- tests/common/test_sqlvalue.py:44 test_list_with_string
example : passes .sql (fun cx S => do
  let mut x1 : Obj := .sqlValue (.list [.str L!"a", .str L!"b", .str L!"c"])
  let x2 : Str ← S.str x1
  let x3 : Bool ← (.ok (x2 == L!"('a', 'b', 'c')") : R Bool)
  pure (x3)) := by decide +kernel

-- tests/common/test_sqlvalue.py:48 test_list_with_integer
example : passes .sql (fun cx S => do
  let mut x1 : Obj := .sqlValue (.list [.int 12, .int 23, .int 34])
  let x2 : Str ← S.str x1
  let x3 : Bool ← (.ok (x2 == L!"(12, 23, 34)") : R Bool)
  pure (x3)) := by decide +kernel

-- tests/common/test_sqlvalue.py:52 test_empty_list
example : passes .sql (fun cx S => do
  let x1 : Bool := raises Err.isInvalidArgument (do
      let mut x101 : Obj := .sqlValue (.list [])
      let x102 : Str ← S.str x101
      pure ())
  pure (x1)) := by decide +kernel

-- tests/common/test_sqlvalue.py:57 test_tuple_with_string
example : passes .sql (fun cx S => do
  let mut x1 : Obj := .sqlValue (.tuple [.str L!"a", .str L!"b", .str L!"c"])
  let x2 : Str ← S.str x1
  let x3 : Bool ← (.ok (x2 == L!"('a', 'b', 'c')") : R Bool)
  pure (x3)) := by decide +kernel

-- tests/common/test_sqlvalue.py:61 test_tuple_with_integer
example : passes .sql (fun cx S => do
  let mut x1 : Obj := .sqlValue (.tuple [.int 12, .int 23, .int 34])
  let x2 : Str ← S.str x1
  let x3 : Bool ← (.ok (x2 == L!"(12, 23, 34)") : R Bool)
  pure (x3)) := by decide +kernel

-- tests/common/test_sqlvalue.py:65 test_empty_tuple
example : passes .sql (fun cx S => do
  let x1 : Bool := raises Err.isInvalidArgument (do
      let mut x101 : Obj := .sqlValue (.tuple [])
      let x102 : Str ← S.str x101
      pure ())
  pure (x1)) := by decide +kernel

-- tests/common/test_sqlvalue.py:70 test_set
example : passes .sql (fun cx S => do
  let mut x1 : Obj := .sqlValue ((.set [.int 12, .int 23]))
  let x2 : Str ← S.str x1
  let x3 : Bool ← (.ok (x2 == L!"(12, 23)") : R Bool)
  pure (x3)) := by decide +kernel

-- tests/common/test_sqlvalue.py:74 test_empty_set
example : passes .sql (fun cx S => do
  let x1 : Bool := raises Err.isInvalidArgument (do
      let mut x101 : Obj := .sqlValue ((.set []))
      let x102 : Str ← S.str x101
      pure ())
  pure (x1)) := by decide +kernel

-- tests/common/test_sqlvalue.py:79 test_frozen_set
example : passes .sql (fun cx S => do
  let mut x1 : Obj := .sqlValue ((.frozenset [.int 12, .int 23]))
  let x2 : Str ← S.str x1
  let x3 : Bool ← (.ok (x2 == L!"(12, 23)") : R Bool)
  pure (x3)) := by decide +kernel

-- tests/common/test_sqlvalue.py:83 test_empty_frozen_set
example : passes .sql (fun cx S => do
  let x1 : Bool := raises Err.isInvalidArgument (do
      let mut x101 : Obj := .sqlValue ((.frozenset []))
      let x102 : Str ← S.str x101
      pure ())
  pure (x1)) := by decide +kernel

-- tests/common/test_sqlvalue.py:88 test_generator
example : passes .sql (fun cx S => do
  let mut x1 : Obj := .sqlValue (.gen [.int 12, .int 23, .int 34])
  let x2 : Str ← S.str x1
  let x3 : Bool ← (.ok (x2 == L!"(12, 23, 34)") : R Bool)
  pure (x3)) := by decide +kernel

-- tests/common/test_sqlvalue.py:92 test_xrange
example : passes .sql (fun cx S => do
  let mut x1 : Obj := .sqlValue ((.range [0, 1, 2, 3, 4]))
  let x2 : Str ← S.str x1
  let x3 : Bool ← (.ok (x2 == L!"(0, 1, 2, 3, 4)") : R Bool)
  pure (x3)) := by decide +kernel

-- tests/common/test_sqlvalue.py:96 test_none
example : passes .sql (fun cx S => do
  let mut x1 : Obj := .sqlValue (.none)
  let x2 : Str ← S.str x1
  let x3 : Bool ← (.ok (x2 == L!"NULL") : R Bool)
  pure (x3)) := by decide +kernel

-- tests/common/test_sqlvalue.py:100 test_subselect
example : passes .sql (fun cx S => do
  let mut x1 ← mkSelectFrom cx S ⟨[.str L!"table"], []⟩
  let mut select' := x1
  let mut x2 : Obj := .sqlValue (.select select')
  let x3 : Str ← S.str x2
  let x4 : Bool ← (.ok (x3 == L!"(SELECT * FROM \"table\")") : R Bool)
  pure (x4)) := by decide +kernel

-- tests/common/test_sqlvalue.py:105 test_security_string
example : passes .sql (fun cx S => do
  let mut x1 : Obj := .sqlRef (.str L!"test")
  let x2 : Str ← S.str x1
  let x3 : Bool ← (.ok (x2 == L!"\"test\"") : R Bool)
  pure (x3)) := by decide +kernel

-- tests/common/test_sqlvalue.py:109 test_security_subselect
example : passes .sql (fun cx S => do
  let mut x1 ← mkSelectFrom cx S ⟨[.str L!"table"], []⟩
  let mut select' := x1
  let mut x2 : Obj := .sqlRef (.select select')
  let x3 : Str ← S.str x2
  let x4 : Bool ← (.ok (x3 == L!"(SELECT * FROM \"table\")") : R Bool)
  pure (x4)) := by decide +kernel

-- tests/common/test_sqlvalue.py:114 test_security_table_column
example : passes .sql (fun cx S => do
  let mut x1 : Obj := .sqlRef (.str L!"table.column")
  let x2 : Str ← S.str x1
  let x3 : Bool ← (.ok (x2 == L!"\"table\".\"column\"") : R Bool)
  pure (x3)) := by decide +kernel

-- tests/common/test_sqlvalue.py:118 test_security_database_table_column
example : passes .sql (fun cx S => do
  let mut x1 : Obj := .sqlRef (.str L!"db.table.column")
  let x2 : Str ← S.str x1
  let x3 : Bool ← (.ok (x2 == L!"\"db\".\"table\".\"column\"") : R Bool)
  pure (x3)) := by decide +kernel

-- tests/common/test_sqlvalue.py:122 test_security_single_quotes
example : passes .sql (fun cx S => do
  let mut x1 : Obj := .sqlValue (.str L!"test'test")
  let x2 : Str ← S.str x1
  let x3 : Bool ← (.ok (x2 == L!"'test''test'") : R Bool)
  pure (x3)) := by decide +kernel

-- tests/common/test_sqlvalue.py:126 test_security_quotes
example : passes .sql (fun cx S => do
  let mut x1 : Obj := .sqlValue (.str L!"test\"test")
  let x2 : Str ← S.str x1
  let x3 : Bool ← (.ok (x2 == L!"'test\"test'") : R Bool)
  pure (x3)) := by decide +kernel

-- tests/common/test_sqlvalue.py:130 test_security_slash
example : passes .sql (fun cx S => do
  let mut x1 : Obj := .sqlValue (.str L!"test\\test")
  let x2 : Str ← S.str x1
  let x3 : Bool ← (.ok (x2 == L!"'test\\\\test'") : R Bool)
  pure (x3)) := by decide +kernel

-- tests/common/test_sqlvalue.py:134 test_new_line
example : passes .sql (fun cx S => do
  let value : Obj := .str L!"first line\nsecond line"
  let mut x1 : Obj := .sqlValue (value)
  let x2 : Str ← S.str x1
  let x3 : Bool ← (.ok (x2 == L!"'first line\\nsecond line'") : R Bool)
  pure (x3)) := by decide +kernel

-- tests/common/test_sqlvalue.py:140 test_sqlreference_compare_to_str
example : passes .sql (fun cx S => do
  let mut x1 : Obj := .sqlRef (.str L!"foo")
  let x2 : Bool ← S.eq x1 (.str L!"\"foo\"")
  let mut x3 : Obj := .sqlRef (.str L!"foo")
  let x4 : Bool ← (! ·) <$> S.eq x3 (.str L!"foo")
  pure (x2 && x4)) := by decide +kernel

-- tests/common/test_sqlvalue.py:145 test_sqlvalue_compare_to_str
example : passes .sql (fun cx S => do
  let mut x1 : Obj := .sqlValue (.str L!"foo")
  let x2 : Bool ← S.eq x1 (.str L!"'foo'")
  let mut x3 : Obj := .sqlValue (.str L!"foo")
  let x4 : Bool ← (! ·) <$> S.eq x3 (.str L!"foo")
  pure (x2 && x4)) := by decide +kernel

-- tests/common/test_sqlvalue.py:150 test_sqlvalue_compare_to_sqlvalue
example : passes .sql (fun cx S => do
  let mut x1 : Obj := .sqlValue (.str L!"foo")
  let mut x2 : Obj := .sqlValue (.str L!"foo")
  let x3 : Bool ← S.eq x1 x2
  let mut x4 : Obj := .sqlValue (.str L!"foo")
  let mut x5 : Obj := .sqlValue (.str L!"foo1")
  let x6 : Bool ← (! ·) <$> S.eq x4 x5
  pure (x3 && x6)) := by decide +kernel

end SqlPuzzle.Conformance
