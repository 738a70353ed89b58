import Verif.Conformance.Harness

/-!
Generated by tools/conformance.py from tests/queryparts/test_limit.py.  Each example is one test of the repository, run on the model.
-/

set_option linter.unusedVariables false

namespace SqlPuzzle.Conformance
open SqlPuzzle

-- tests/queryparts/test_limit.py:14 test_is_not_set
example : passes .sql (fun cx S => do
  let mut limit' := ({} : LimitS)
  let x1 : Bool ← (! ·) <$> (.ok limit'.isSet : R Bool)
  pure (x1)) := by decide +kernel

-- tests/queryparts/test_limit.py:18 test_is_set
example : passes .sql (fun cx S => do
  let mut limit' := ({} : LimitS)
  limit' ← call (limitLimit limit' (.int 42) (.none))
  let x1 : Bool ← (.ok limit'.isSet : R Bool)
  pure (x1)) := by decide +kernel

-- tests/queryparts/test_limit.py:23 test_limit
example : passes .sql (fun cx S => do
  let mut limit' := ({} : LimitS)
  limit' ← call (limitLimit limit' (.int 10) (.none))
  let x1 : Str ← .ok (limitText limit')
  let x2 : Bool ← (.ok (x1 == L!"LIMIT 10") : R Bool)
  pure (x2)) := by decide +kernel

-- tests/queryparts/test_limit.py:28 test_offset
example : passes .sql (fun cx S => do
  let mut limit' := ({} : LimitS)
  limit' ← call (limitOffset limit' (.int 50))
  let x1 : Str ← .ok (limitText limit')
  let x2 : Bool ← (.ok (x1 == L!"OFFSET 50") : R Bool)
  pure (x2)) := by decide +kernel

-- tests/queryparts/test_limit.py:33 test_limit_and_offset
example : passes .sql (fun cx S => do
  let mut limit' := ({} : LimitS)
  limit' ← call (limitLimit limit' (.int 10) (.none))
  limit' ← call (limitOffset limit' (.int 50))
  let x1 : Str ← .ok (limitText limit')
  let x2 : Bool ← (.ok (x1 == L!"LIMIT 10 OFFSET 50") : R Bool)
  pure (x2)) := by decide +kernel

-- tests/queryparts/test_limit.py:39 test_limit_and_offset_in_one
example : passes .sql (fun cx S => do
  let mut limit' := ({} : LimitS)
  limit' ← call (limitLimit limit' (.int 5) (.int 15))
  let x1 : Str ← .ok (limitText limit')
  let x2 : Bool ← (.ok (x1 == L!"LIMIT 5 OFFSET 15") : R Bool)
  pure (x2)) := by decide +kernel

-- tests/queryparts/test_limit.py:44 test_inline
example : passes .sql (fun cx S => do
  let mut limit' := ({} : LimitS)
  limit' ← call (limitLimit limit' (.int 3) (.none))
  limit' ← call (limitOffset limit' (.int 12))
  let x1 : Str ← .ok (limitText limit')
  let x2 : Bool ← (.ok (x1 == L!"LIMIT 3 OFFSET 12") : R Bool)
  pure (x2)) := by decide +kernel

-- tests/queryparts/test_limit.py:49 test_inline_invert
example : passes .sql (fun cx S => do
  let mut limit' := ({} : LimitS)
  limit' ← call (limitOffset limit' (.int 16))
  limit' ← call (limitLimit limit' (.int 4) (.none))
  let x1 : Str ← .ok (limitText limit')
  let x2 : Bool ← (.ok (x1 == L!"LIMIT 4 OFFSET 16") : R Bool)
  pure (x2)) := by decide +kernel

-- tests/queryparts/test_limit.py:54 test_copy
example : passes .sql (fun cx S => do
  let mut limit' := ({} : LimitS)
  limit' ← call (limitLimit limit' (.int 3) (.none))
  let mut x1 := limit'
  let mut copy := x1
  limit' ← call (limitOffset limit' (.int 12))
  let x2 : Str ← .ok (limitText copy)
  let x3 : Bool ← (.ok (x2 == L!"LIMIT 3") : R Bool)
  let x4 : Str ← .ok (limitText limit')
  let x5 : Bool ← (.ok (x4 == L!"LIMIT 3 OFFSET 12") : R Bool)
  pure (x3 && x5)) := by decide +kernel

-- tests/queryparts/test_limit.py:62 test_equals
example : passes .sql (fun cx S => do
  let mut limit' := ({} : LimitS)
  limit' ← call (limitLimit limit' (.int 3) (.none))
  let mut x1 := limit'
  let mut copy := x1
  let x2 : Bool ← (.ok (limit' == copy) : R Bool)
  pure (x2)) := by decide +kernel

-- tests/queryparts/test_limit.py:68 test_not_equals
example : passes .sql (fun cx S => do
  let mut limit' := ({} : LimitS)
  limit' ← call (limitLimit limit' (.int 3) (.none))
  let mut x1 := limit'
  let mut copy := x1
  limit' ← call (limitOffset limit' (.int 12))
  let x2 : Bool ← (! ·) <$> (.ok (limit' == copy) : R Bool)
  pure (x2)) := by decide +kernel

-- tests/queryparts/test_limit.py:75 test_limit_string_exception
example : passes .sql (fun cx S => do
  let mut limit' := ({} : LimitS)
  let x1 : Bool := raises Err.isInvalidArgument (do
      let mut limit' := limit'
      limit' ← call (limitLimit limit' (.str L!"limit") (.none))
      pure ())
  pure (x1)) := by decide +kernel

-- tests/queryparts/test_limit.py:80 test_limit_float_exception
example : passes .sql (fun cx S => do
  let mut limit' := ({} : LimitS)
  let x1 : Bool := raises Err.isInvalidArgument (do
      let mut limit' := limit'
      limit' ← call (limitLimit limit' (.float (.fin false 5404319552844595 (-52))) (.none))
      pure ())
  pure (x1)) := by decide +kernel

-- tests/queryparts/test_limit.py:85 test_limit_boolean_exception
example : passes .sql (fun cx S => do
  let mut limit' := ({} : LimitS)
  let x1 : Bool := raises Err.isInvalidArgument (do
      let mut limit' := limit'
      limit' ← call (limitLimit limit' (.bool false) (.none))
      pure ())
  pure (x1)) := by decide +kernel

-- tests/queryparts/test_limit.py:90 test_offset_string_exception
example : passes .sql (fun cx S => do
  let mut limit' := ({} : LimitS)
  let x1 : Bool := raises Err.isInvalidArgument (do
      let mut limit' := limit'
      limit' ← call (limitOffset limit' (.str L!"offset"))
      pure ())
  pure (x1)) := by decide +kernel

-- tests/queryparts/test_limit.py:95 test_offset_float_exception
example : passes .sql (fun cx S => do
  let mut limit' := ({} : LimitS)
  let x1 : Bool := raises Err.isInvalidArgument (do
      let mut limit' := limit'
      limit' ← call (limitOffset limit' (.float (.fin false 5404319552844595 (-52))))
      pure ())
  pure (x1)) := by decide +kernel

-- tests/queryparts/test_limit.py:100 test_offset_boolean_exception
example : passes .sql (fun cx S => do
  let mut limit' := ({} : LimitS)
  let x1 : Bool := raises Err.isInvalidArgument (do
      let mut limit' := limit'
      limit' ← call (limitOffset limit' (.bool false))
      pure ())
  pure (x1)) := by decide +kernel

end SqlPuzzle.Conformance
