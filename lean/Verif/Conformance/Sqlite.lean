import Verif.Conformance.Harness

/-!
Generated by tools/conformance.py from tests/backends/test_sqlite.py.  Each example is one test of the repository, run on the model.
-/

set_option linter.unusedVariables false

namespace SqlPuzzle.Conformance
open SqlPuzzle

-- tests/backends/test_sqlite.py:6 test_reference
example : passes .sqlite (fun cx S => do
  let mut x1 ← mkSelect S ⟨[.str L!"id"], []⟩
  x1 ← call (selectStep cx S x1 (.from_ ⟨[.str L!"table"], []⟩))
  let mut sql := x1
  let x2 : Str ← S.str (.select sql)
  sql ← call (selectStep cx S sql .str)
  let x3 : Bool ← (.ok (x2 == L!"SELECT \"id\" FROM \"table\"") : R Bool)
  pure (x3)) := by decide +kernel

-- tests/backends/test_sqlite.py:10 test_boolean
example : passes .sqlite (fun cx S => do
  let mut x1 ← mkSelectFrom cx S ⟨[.str L!"table"], []⟩
  x1 ← call (selectStep cx S x1 (.where_ ⟨[.dict [(.str L!"flag", .bool true)]], []⟩))
  let mut sql := x1
  let x2 : Str ← S.str (.select sql)
  sql ← call (selectStep cx S sql .str)
  let x3 : Bool ← (.ok (x2 == L!"SELECT * FROM \"table\" WHERE \"flag\" = 1") : R Bool)
  pure (x3)) := by decide +kernel

-- tests/backends/test_sqlite.py:14 test_on_duplicate_key_update
example : passes .sqlite (fun cx S => do
  let mut x1 ← mkInsertInto cx S (.str L!"user")
  let mut sql := x1
  sql ← call (insertStep cx S sql (.values ⟨[], [(L!"id", .int 1), (L!"name", .str L!"Alan")]⟩))
  sql ← call (insertStep cx S sql (.onDuplicateKeyUpdate ⟨[], []⟩))
  let x2 : Str ← S.str (.insert sql)
  sql ← call (insertStep cx S sql .str)
  let x3 : Bool ← (.ok (x2 == L!"REPLACE INTO \"user\" (\"id\", \"name\") VALUES (1, 'Alan')") : R Bool)
  pure (x3)) := by decide +kernel

end SqlPuzzle.Conformance
