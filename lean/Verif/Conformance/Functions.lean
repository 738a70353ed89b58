import Verif.Conformance.Harness

/-!
Generated by tools/conformance.py from tests/queryparts/test_functions.py.  Each example is one test of the repository, run on the model.
-/

set_option linter.unusedVariables false

namespace SqlPuzzle.Conformance
open SqlPuzzle

-- tests/queryparts/test_functions.py:7 TestAvg.test_normal
example : passes .sql (fun cx S => do
  let mut x1 := mkFunc .avg false (.str L!"col")
  let x2 : Str ← S.str x1
  let x3 : Bool ← (.ok (x2 == L!"AVG(\"col\")") : R Bool)
  pure (x3)) := by decide +kernel

-- tests/queryparts/test_functions.py:10 TestAvg.test_distinct
example : passes .sql (fun cx S => do
  let mut x1 := mkFunc .avg true (.str L!"col")
  let x2 : Str ← S.str x1
  let x3 : Bool ← (.ok (x2 == L!"AVG(DISTINCT \"col\")") : R Bool)
  pure (x3)) := by decide +kernel

-- tests/queryparts/test_functions.py:13 TestAvg.test_distinct_by_method
example : passes .sql (fun cx S => do
  let mut x1 := mkFunc .avg false (.str L!"col")
  x1 := funcDistinct x1 (.bool true)
  let x2 : Str ← S.str x1
  let x3 : Bool ← (.ok (x2 == L!"AVG(DISTINCT \"col\")") : R Bool)
  pure (x3)) := by decide +kernel

-- tests/queryparts/test_functions.py:16 TestAvg.test_distinct_by_method_with_param
example : passes .sql (fun cx S => do
  let mut x1 := mkFunc .avg false (.str L!"col")
  x1 := funcDistinct x1 (.bool false)
  let x2 : Str ← S.str x1
  let x3 : Bool ← (.ok (x2 == L!"AVG(\"col\")") : R Bool)
  pure (x3)) := by decide +kernel

-- tests/queryparts/test_functions.py:21 TestCount.test_normal
example : passes .sql (fun cx S => do
  let mut x1 := mkFunc .count false (.str L!"col")
  let x2 : Str ← S.str x1
  let x3 : Bool ← (.ok (x2 == L!"COUNT(\"col\")") : R Bool)
  pure (x3)) := by decide +kernel

-- tests/queryparts/test_functions.py:24 TestCount.test_count_with_star
example : passes .sql (fun cx S => do
  let mut x1 := mkFunc .count false (.str L!"*")
  let x2 : Str ← S.str x1
  let x3 : Bool ← (.ok (x2 == L!"COUNT(*)") : R Bool)
  pure (x3)) := by decide +kernel

-- tests/queryparts/test_functions.py:27 TestCount.test_count_without_param
example : passes .sql (fun cx S => do
  let mut x1 := mkFunc .count false (.none)
  let x2 : Str ← S.str x1
  let x3 : Bool ← (.ok (x2 == L!"COUNT(*)") : R Bool)
  pure (x3)) := by decide +kernel

-- tests/queryparts/test_functions.py:30 TestCount.test_distinct
example : passes .sql (fun cx S => do
  let mut x1 := mkFunc .count true (.str L!"col")
  let x2 : Str ← S.str x1
  let x3 : Bool ← (.ok (x2 == L!"COUNT(DISTINCT \"col\")") : R Bool)
  pure (x3)) := by decide +kernel

-- tests/queryparts/test_functions.py:33 TestCount.test_distinct_by_method
example : passes .sql (fun cx S => do
  let mut x1 := mkFunc .count false (.str L!"col")
  x1 := funcDistinct x1 (.bool true)
  let x2 : Str ← S.str x1
  let x3 : Bool ← (.ok (x2 == L!"COUNT(DISTINCT \"col\")") : R Bool)
  pure (x3)) := by decide +kernel

-- tests/queryparts/test_functions.py:36 TestCount.test_distinct_by_method_with_param
example : passes .sql (fun cx S => do
  let mut x1 := mkFunc .count false (.str L!"col")
  x1 := funcDistinct x1 (.bool false)
  let x2 : Str ← S.str x1
  let x3 : Bool ← (.ok (x2 == L!"COUNT(\"col\")") : R Bool)
  pure (x3)) := by decide +kernel

-- tests/queryparts/test_functions.py:39 TestCount.test_distinct_more_exprs
example : passes .sql (fun cx S => do
  let mut x1 := mkFunc .count false (.tuple [.str L!"col1", .str L!"col2"])
  x1 := funcDistinct x1 (.bool true)
  let x2 : Str ← S.str x1
  let x3 : Bool ← (.ok (x2 == L!"COUNT(DISTINCT \"col1\", \"col2\")") : R Bool)
  pure (x3)) := by decide +kernel

-- tests/queryparts/test_functions.py:44 TestMax.test_normal
example : passes .sql (fun cx S => do
  let mut x1 := mkFunc .max false (.str L!"col")
  let x2 : Str ← S.str x1
  let x3 : Bool ← (.ok (x2 == L!"MAX(\"col\")") : R Bool)
  pure (x3)) := by decide +kernel

-- tests/queryparts/test_functions.py:47 TestMax.test_distinct
example : passes .sql (fun cx S => do
  let mut x1 := mkFunc .max true (.str L!"col")
  let x2 : Str ← S.str x1
  let x3 : Bool ← (.ok (x2 == L!"MAX(DISTINCT \"col\")") : R Bool)
  pure (x3)) := by decide +kernel

-- tests/queryparts/test_functions.py:50 TestMax.test_distinct_by_method
example : passes .sql (fun cx S => do
  let mut x1 := mkFunc .max false (.str L!"col")
  x1 := funcDistinct x1 (.bool true)
  let x2 : Str ← S.str x1
  let x3 : Bool ← (.ok (x2 == L!"MAX(DISTINCT \"col\")") : R Bool)
  pure (x3)) := by decide +kernel

-- tests/queryparts/test_functions.py:53 TestMax.test_distinct_by_method_with_param
example : passes .sql (fun cx S => do
  let mut x1 := mkFunc .max false (.str L!"col")
  x1 := funcDistinct x1 (.bool false)
  let x2 : Str ← S.str x1
  let x3 : Bool ← (.ok (x2 == L!"MAX(\"col\")") : R Bool)
  pure (x3)) := by decide +kernel

-- tests/queryparts/test_functions.py:58 TestMin.test_normal
example : passes .sql (fun cx S => do
  let mut x1 := mkFunc .min false (.str L!"col")
  let x2 : Str ← S.str x1
  let x3 : Bool ← (.ok (x2 == L!"MIN(\"col\")") : R Bool)
  pure (x3)) := by decide +kernel

-- tests/queryparts/test_functions.py:61 TestMin.test_distinct
example : passes .sql (fun cx S => do
  let mut x1 := mkFunc .min true (.str L!"col")
  let x2 : Str ← S.str x1
  let x3 : Bool ← (.ok (x2 == L!"MIN(DISTINCT \"col\")") : R Bool)
  pure (x3)) := by decide +kernel

-- tests/queryparts/test_functions.py:64 TestMin.test_distinct_by_method
example : passes .sql (fun cx S => do
  let mut x1 := mkFunc .min false (.str L!"col")
  x1 := funcDistinct x1 (.bool true)
  let x2 : Str ← S.str x1
  let x3 : Bool ← (.ok (x2 == L!"MIN(DISTINCT \"col\")") : R Bool)
  pure (x3)) := by decide +kernel

-- tests/queryparts/test_functions.py:67 TestMin.test_distinct_by_method_with_param
example : passes .sql (fun cx S => do
  let mut x1 := mkFunc .min false (.str L!"col")
  x1 := funcDistinct x1 (.bool false)
  let x2 : Str ← S.str x1
  let x3 : Bool ← (.ok (x2 == L!"MIN(\"col\")") : R Bool)
  pure (x3)) := by decide +kernel

-- tests/queryparts/test_functions.py:72 TestSum.test_normal
example : passes .sql (fun cx S => do
  let mut x1 := mkFunc .sum false (.str L!"col")
  let x2 : Str ← S.str x1
  let x3 : Bool ← (.ok (x2 == L!"SUM(\"col\")") : R Bool)
  pure (x3)) := by decide +kernel

-- tests/queryparts/test_functions.py:75 TestSum.test_distinct
example : passes .sql (fun cx S => do
  let mut x1 := mkFunc .sum true (.str L!"col")
  let x2 : Str ← S.str x1
  let x3 : Bool ← (.ok (x2 == L!"SUM(DISTINCT \"col\")") : R Bool)
  pure (x3)) := by decide +kernel

-- tests/queryparts/test_functions.py:78 TestSum.test_distinct_by_method
example : passes .sql (fun cx S => do
  let mut x1 := mkFunc .sum false (.str L!"col")
  x1 := funcDistinct x1 (.bool true)
  let x2 : Str ← S.str x1
  let x3 : Bool ← (.ok (x2 == L!"SUM(DISTINCT \"col\")") : R Bool)
  pure (x3)) := by decide +kernel

-- tests/queryparts/test_functions.py:81 TestSum.test_distinct_by_method_with_param
example : passes .sql (fun cx S => do
  let mut x1 := mkFunc .sum false (.str L!"col")
  x1 := funcDistinct x1 (.bool false)
  let x2 : Str ← S.str x1
  let x3 : Bool ← (.ok (x2 == L!"SUM(\"col\")") : R Bool)
  pure (x3)) := by decide +kernel

-- tests/queryparts/test_functions.py:86 TestConcat.test_normal
example : passes .sql (fun cx S => do
  let mut x1 ← mkConcat S [.str L!"col"]
  let mut concat' := x1
  let x2 : Str ← S.str concat'
  let x3 : Bool ← (.ok (x2 == L!"CONCAT(\"col\")") : R Bool)
  pure (x3)) := by decide +kernel

-- tests/queryparts/test_functions.py:90 TestConcat.test_more_columns
example : passes .sql (fun cx S => do
  let mut x1 ← mkConcat S [.str L!"col", .str L!"col2"]
  let mut concat' := x1
  let x2 : Str ← S.str concat'
  let x3 : Bool ← (.ok (x2 == L!"CONCAT(\"col\", \"col2\")") : R Bool)
  pure (x3)) := by decide +kernel

-- tests/queryparts/test_functions.py:96 TestGroupConcat.test_normal
example : passes .sql (fun cx S => do
  let mut x1 ← mkGroupConcat S [.str L!"col"]
  let mut group_concat := x1
  let x2 : Str ← S.str group_concat
  let x3 : Bool ← (.ok (x2 == L!"GROUP_CONCAT(\"col\")") : R Bool)
  pure (x3)) := by decide +kernel

-- tests/queryparts/test_functions.py:100 TestGroupConcat.test_more_columns
example : passes .sql (fun cx S => do
  let mut x1 ← mkGroupConcat S [.str L!"col", .str L!"col2"]
  let mut group_concat := x1
  let x2 : Str ← S.str group_concat
  let x3 : Bool ← (.ok (x2 == L!"GROUP_CONCAT(\"col\", \"col2\")") : R Bool)
  pure (x3)) := by decide +kernel

-- tests/queryparts/test_functions.py:104 TestGroupConcat.test_with_order_by
example : passes .sql (fun cx S => do
  let mut x1 ← mkGroupConcat S [.str L!"col"]
  let mut group_concat := x1
  group_concat ← call (groupConcatOrderBy cx S group_concat [.dict [(.str L!"name", .str L!"desc")]])
  let x2 : Str ← S.str group_concat
  let x3 : Bool ← (.ok (x2 == L!"GROUP_CONCAT(\"col\" ORDER BY \"name\" DESC)") : R Bool)
  pure (x3)) := by decide +kernel

-- tests/queryparts/test_functions.py:109 TestGroupConcat.test_with_separator
example : passes .sql (fun cx S => do
  let mut x1 ← mkGroupConcat S [.str L!"col"]
  let mut group_concat := x1
  group_concat ← call (groupConcatSeparator group_concat (.str L!"|||"))
  let x2 : Str ← S.str group_concat
  let x3 : Bool ← (.ok (x2 == L!"GROUP_CONCAT(\"col\" SEPARATOR '|||')") : R Bool)
  pure (x3)) := by decide +kernel

-- tests/queryparts/test_functions.py:114 TestGroupConcat.test_with_order_by_and_separator
example : passes .sql (fun cx S => do
  let mut x1 ← mkGroupConcat S [.str L!"col"]
  let mut group_concat := x1
  group_concat ← call (groupConcatOrderBy cx S group_concat [.dict [(.str L!"name", .str L!"desc")]])
  group_concat ← call (groupConcatSeparator group_concat (.str L!"|||"))
  let x2 : Str ← S.str group_concat
  let x3 : Bool ← (.ok (x2 == L!"GROUP_CONCAT(\"col\" ORDER BY \"name\" DESC SEPARATOR '|||')") : R Bool)
  pure (x3)) := by decide +kernel

-- tests/queryparts/test_functions.py:121 TestConvert.test_signed
example : passes .sql (fun cx S => do
  let mut x1 ← mkConvert cx S (.str L!"col") (.none)
  let mut convert' := x1
  convert' ← call (convertTo cx S convert' (.str L!"signed"))
  let x2 : Str ← S.str convert'
  let x3 : Bool ← (.ok (x2 == L!"CONVERT(\"col\", SIGNED)") : R Bool)
  pure (x3)) := by decide +kernel

-- tests/queryparts/test_functions.py:126 TestConvert.test_char_with_length
example : passes .sql (fun cx S => do
  let mut x1 ← mkConvert cx S (.str L!"col") (.none)
  let mut convert' := x1
  convert' ← call (convertTo cx S convert' (.str L!"char(5)"))
  let x2 : Str ← S.str convert'
  let x3 : Bool ← (.ok (x2 == L!"CONVERT(\"col\", CHAR(5))") : R Bool)
  pure (x3)) := by decide +kernel

-- tests/queryparts/test_functions.py:131 TestConvert.test_decimal_with_precision
example : passes .sql (fun cx S => do
  let mut x1 ← mkConvert cx S (.str L!"col") (.none)
  let mut convert' := x1
  convert' ← call (convertTo cx S convert' (.str L!"decimal(2,5)"))
  let x2 : Str ← S.str convert'
  let x3 : Bool ← (.ok (x2 == L!"CONVERT(\"col\", DECIMAL(2,5))") : R Bool)
  pure (x3)) := by decide +kernel

end SqlPuzzle.Conformance
