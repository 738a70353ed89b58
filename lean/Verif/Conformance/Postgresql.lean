import Verif.Conformance.Harness

/-!
Generated by tools/conformance.py from tests/backends/test_postgresql.py.  Each example is one test of the repository, run on the model.
-/

set_option linter.unusedVariables false

namespace SqlPuzzle.Conformance
open SqlPuzzle

-- tests/backends/test_postgresql.py:6 test_reference
example : passes .postgresql (fun cx S => do
  let mut x1 ← mkSelect S ⟨[.str L!"id"], []⟩
  x1 ← call (selectStep cx S x1 (.from_ ⟨[.str L!"table"], []⟩))
  let mut sql := x1
  let x2 : Str ← S.str (.select sql)
  sql ← call (selectStep cx S sql .str)
  let x3 : Bool ← (.ok (x2 == L!"SELECT \"id\" FROM \"table\"") : R Bool)
  pure (x3)) := by decide +kernel

-- tests/backends/test_postgresql.py:10 test_boolean
example : passes .postgresql (fun cx S => do
  let mut x1 ← mkSelectFrom cx S ⟨[.str L!"table"], []⟩
  x1 ← call (selectStep cx S x1 (.where_ ⟨[.dict [(.str L!"flag", .bool true)]], []⟩))
  let mut sql := x1
  let x2 : Str ← S.str (.select sql)
  sql ← call (selectStep cx S sql .str)
  let x3 : Bool ← (.ok (x2 == L!"SELECT * FROM \"table\" WHERE \"flag\" = true") : R Bool)
  pure (x3)) := by decide +kernel

end SqlPuzzle.Conformance
