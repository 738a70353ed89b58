import Verif.Conformance.Harness

/-!
Generated by tools/conformance.py from tests/common/test_custom.py.  Each example is one test of the repository, run on the model.
-/

set_option linter.unusedVariables false

namespace SqlPuzzle.Conformance
open SqlPuzzle

-- tests/common/test_custom.py:4 test_customsql_as_key_in_dict
example : passes .sql (fun cx S => do
  let mut x1 ← mkCustom cx S (.str L!"avg(col)")
  let mut custom := x1
  let mut x2 ← mkSelect S ⟨[.dict [(custom, .str L!"acol")]], []⟩
  x2 ← call (selectStep cx S x2 (.from_ ⟨[.str L!"table"], []⟩))
  let mut sql := x2
  let x3 : Str ← S.str (.select sql)
  sql ← call (selectStep cx S sql .str)
  let x4 : Bool ← (.ok (x3 == L!"SELECT avg(col) AS \"acol\" FROM \"table\"") : R Bool)
  pure (x4)) := by decide +kernel

-- tests/common/test_custom.py:12 test_customsql_compare_to_str
example : passes .sql (fun cx S => do
  let mut x1 ← mkCustom cx S (.str L!"avg(col)")
  let x2 : Bool ← S.eq x1 (.str L!"avg(col)")
  let mut x3 ← mkCustom cx S (.str L!"avg(col)")
  let mut x4 ← mkCustom cx S (.str L!"avg(col)")
  let x5 : Bool ← S.eq x3 x4
  let mut x6 ← mkCustom cx S (.str L!"avg(col)")
  let x7 : Bool ← (! ·) <$> S.eq x6 (.str L!"foo")
  pure (x2 && x5 && x7)) := by decide +kernel

end SqlPuzzle.Conformance
