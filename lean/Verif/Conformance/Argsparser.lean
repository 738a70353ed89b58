import Verif.Conformance.Harness

/-!
Generated by tools/conformance.py from tests/common/test_argsparser.py.  Each example is one test of the repository, run on the model.
-/

set_option linter.unusedVariables false

namespace SqlPuzzle.Conformance
open SqlPuzzle

-- tests/common/test_argsparser.py:9 test_empty_args1
example : passes .sql (fun cx S => do
  let mut x1 ← parseArgs S {  } ⟨[.int 1], []⟩
  let x2 : Bool ← eqListR (eqListR S.eq) x1 [[.int 1]]
  pure (x2)) := by decide +kernel

-- tests/common/test_argsparser.py:13 test_empty_args2
example : passes .sql (fun cx S => do
  let mut x1 ← parseArgs S {  } ⟨[.int 1, .int 2], []⟩
  let x2 : Bool ← eqListR (eqListR S.eq) x1 [[.int 1], [.int 2]]
  pure (x2)) := by decide +kernel

-- tests/common/test_argsparser.py:17 test_empty_list
example : passes .sql (fun cx S => do
  let mut x1 ← parseArgs S {  } ⟨[.list [.int 1]], []⟩
  let x2 : Bool ← eqListR (eqListR S.eq) x1 [[.int 1]]
  pure (x2)) := by decide +kernel

-- tests/common/test_argsparser.py:21 test_empty_tuple
example : passes .sql (fun cx S => do
  let mut x1 ← parseArgs S {  } ⟨[.tuple [.int 1]], []⟩
  let x2 : Bool ← eqListR (eqListR S.eq) x1 [[.int 1]]
  pure (x2)) := by decide +kernel

-- tests/common/test_argsparser.py:25 test_empty_kwds_exception
example : passes .sql (fun cx S => do
  let x1 : Bool := raises Err.isSqlPuzzle (do
      let mut x101 ← parseArgs S {  } ⟨[], [(L!"arg", .int 1)]⟩
      pure ())
  pure (x1)) := by decide +kernel

-- tests/common/test_argsparser.py:30 test_empty_dictionary_exception
example : passes .sql (fun cx S => do
  let x1 : Bool := raises Err.isSqlPuzzle (do
      let mut x101 ← parseArgs S {  } ⟨[.dict [(.str L!"key", .int 1)]], []⟩
      pure ())
  pure (x1)) := by decide +kernel

-- tests/common/test_argsparser.py:35 test_empty_too_many_exception
example : passes .sql (fun cx S => do
  let x1 : Bool := raises Err.isSqlPuzzle (do
      let mut x101 ← parseArgs S {  } ⟨[.tuple [.int 1, .int 2]], []⟩
      pure ())
  pure (x1)) := by decide +kernel

-- tests/common/test_argsparser.py:40 test_min2_args2
example : passes .sql (fun cx S => do
  let mut x1 ← parseArgs S { minItems := 2, maxItems := 2 } ⟨[.int 1, .int 2], []⟩
  let x2 : Bool ← eqListR (eqListR S.eq) x1 [[.int 1, .int 2]]
  pure (x2)) := by decide +kernel

-- tests/common/test_argsparser.py:44 test_min2_list
example : passes .sql (fun cx S => do
  let mut x1 ← parseArgs S { minItems := 2, maxItems := 2 } ⟨[.list [.int 1, .int 2]], []⟩
  let x2 : Bool ← eqListR (eqListR S.eq) x1 [[.int 1, .int 2]]
  pure (x2)) := by decide +kernel

-- tests/common/test_argsparser.py:48 test_min2_tuple
example : passes .sql (fun cx S => do
  let mut x1 ← parseArgs S { minItems := 2, maxItems := 2 } ⟨[.tuple [.int 1, .int 2]], []⟩
  let x2 : Bool ← eqListR (eqListR S.eq) x1 [[.int 1, .int 2]]
  pure (x2)) := by decide +kernel

-- tests/common/test_argsparser.py:52 test_max2_args1
example : passes .sql (fun cx S => do
  let mut x1 ← parseArgs S { maxItems := 2 } ⟨[.int 1], []⟩
  let x2 : Bool ← eqListR (eqListR S.eq) x1 [[.int 1, .none]]
  pure (x2)) := by decide +kernel

-- tests/common/test_argsparser.py:56 test_max2_args2
example : passes .sql (fun cx S => do
  let mut x1 ← parseArgs S { maxItems := 2 } ⟨[.int 1, .int 2], []⟩
  let x2 : Bool ← eqListR (eqListR S.eq) x1 [[.int 1, .none], [.int 2, .none]]
  pure (x2)) := by decide +kernel

-- tests/common/test_argsparser.py:60 test_max2_args3
example : passes .sql (fun cx S => do
  let mut x1 ← parseArgs S { maxItems := 2 } ⟨[.int 1, .int 2, .int 3], []⟩
  let x2 : Bool ← eqListR (eqListR S.eq) x1 [[.int 1, .none], [.int 2, .none], [.int 3, .none]]
  pure (x2)) := by decide +kernel

-- tests/common/test_argsparser.py:64 test_max2_list
example : passes .sql (fun cx S => do
  let mut x1 ← parseArgs S { maxItems := 2 } ⟨[.list [.int 1, .int 2], .int 3], []⟩
  let x2 : Bool ← eqListR (eqListR S.eq) x1 [[.int 1, .int 2], [.int 3, .none]]
  pure (x2)) := by decide +kernel

-- tests/common/test_argsparser.py:68 test_max2_tuple
example : passes .sql (fun cx S => do
  let mut x1 ← parseArgs S { maxItems := 2 } ⟨[.tuple [.int 1, .int 2], .int 3], []⟩
  let x2 : Bool ← eqListR (eqListR S.eq) x1 [[.int 1, .int 2], [.int 3, .none]]
  pure (x2)) := by decide +kernel

-- tests/common/test_argsparser.py:72 test_min_bigger_than_max_exception
example : passes .sql (fun cx S => do
  let x1 : Bool := raises (· == .assertionError) (do
      let mut x101 ← parseArgs S { minItems := 2, maxItems := 1 } ⟨[], []⟩
      pure ())
  pure (x1)) := by decide +kernel

-- tests/common/test_argsparser.py:77 test_too_few_exception
example : passes .sql (fun cx S => do
  let x1 : Bool := raises Err.isInvalidArgument (do
      let mut x101 ← parseArgs S { minItems := 2, maxItems := 2 } ⟨[.str L!"arg"], []⟩
      pure ())
  pure (x1)) := by decide +kernel

-- tests/common/test_argsparser.py:82 test_too_many_exception
example : passes .sql (fun cx S => do
  let x1 : Bool := raises Err.isInvalidArgument (do
      let mut x101 ← parseArgs S { minItems := 2, maxItems := 2 } ⟨[.str L!"arg1", .str L!"arg2", .str L!"arg3"], []⟩
      pure ())
  pure (x1)) := by decide +kernel

-- tests/common/test_argsparser.py:87 test_dict_args
example : passes .sql (fun cx S => do
  let mut x1 ← parseArgs S { allowDict := true, maxItems := 2 } ⟨[.dict [(.str L!"key", .int 1)]], []⟩
  let x2 : Bool ← eqListR (eqListR S.eq) x1 [[.str L!"key", .int 1]]
  pure (x2)) := by decide +kernel

-- tests/common/test_argsparser.py:91 test_dict_kwds
example : passes .sql (fun cx S => do
  let mut x1 ← parseArgs S { allowDict := true, maxItems := 2 } ⟨[], [(L!"key", .int 1)]⟩
  let x2 : Bool ← eqListR (eqListR S.eq) x1 [[.str L!"key", .int 1]]
  pure (x2)) := by decide +kernel

-- tests/common/test_argsparser.py:95 test_dict_too_few_exception
example : passes .sql (fun cx S => do
  let x1 : Bool := raises (· == .assertionError) (do
      let mut x101 ← parseArgs S { allowDict := true } ⟨[.str L!"arg"], []⟩
      pure ())
  pure (x1)) := by decide +kernel

-- tests/common/test_argsparser.py:100 test_list_args
example : passes .sql (fun cx S => do
  let mut x1 ← parseArgs S { allowList := true } ⟨[.int 1, .int 2, .int 3], []⟩
  let x2 : Bool ← eqListR (eqListR S.eq) x1 [[.int 1], [.int 2], [.int 3]]
  pure (x2)) := by decide +kernel

-- tests/common/test_argsparser.py:104 test_list_list
example : passes .sql (fun cx S => do
  let mut x1 ← parseArgs S { allowList := true } ⟨[.tuple [.int 1, .int 2, .int 3]], []⟩
  let x2 : Bool ← eqListR (eqListR S.eq) x1 [[.int 1], [.int 2], [.int 3]]
  pure (x2)) := by decide +kernel

-- tests/common/test_argsparser.py:108 test_args_and_kwds
example : passes .sql (fun cx S => do
  let mut x1 ← parseArgs S { allowDict := true, maxItems := 2 } ⟨[.str L!"a"], [(L!"b", .int 2)]⟩
  let x2 : Bool ← eqListR (eqListR S.eq) x1 [[.str L!"a", .none], [.str L!"b", .int 2]]
  pure (x2)) := by decide +kernel

end SqlPuzzle.Conformance
