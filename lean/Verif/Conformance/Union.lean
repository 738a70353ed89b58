import Verif.Conformance.Harness

/-!
Generated by tools/conformance.py from tests/queries/test_union.py.  Each example is one test of the repository, run on the model.
-/

set_option linter.unusedVariables false

namespace SqlPuzzle.Conformance
open SqlPuzzle

-- tests/queries/test_union.py:6 test_has_no_property
example : passes .sql (fun cx S => do
  let mut select1 ← mkSelectFrom cx S ⟨[.str L!"t1"], []⟩
  let mut select2 ← mkSelectFrom cx S ⟨[.str L!"t2"], []⟩
  let mut x1 ← mkUnion (.select select1) (.select select2) false
  let mut union' := x1
  let x2 : Bool ← (! ·) <$> unionHas L!"tables" (.none)
  let x3 : Bool ← (! ·) <$> unionHas L!"values" (.none)
  let x4 : Bool ← (! ·) <$> unionHas L!"where" (.none)
  pure (x2 && x3 && x4)) := by decide +kernel

-- tests/queries/test_union.py:13 test_union
example : passes .sql (fun cx S => do
  let mut select1 ← mkSelectFrom cx S ⟨[.str L!"t1"], []⟩
  let mut select2 ← mkSelectFrom cx S ⟨[.str L!"t2"], []⟩
  let mut x1 ← mkUnion (.select select1) (.select select2) false
  let x2 : Str ← S.str x1
  let x3 : Bool ← (.ok (x2 == L!"SELECT * FROM \"t1\" UNION SELECT * FROM \"t2\"") : R Bool)
  pure (x3)) := by decide +kernel

-- tests/queries/test_union.py:17 test_union_all
example : passes .sql (fun cx S => do
  let mut select1 ← mkSelectFrom cx S ⟨[.str L!"t1"], []⟩
  let mut select2 ← mkSelectFrom cx S ⟨[.str L!"t2"], []⟩
  let mut x1 ← mkUnion (.select select1) (.select select2) true
  let x2 : Str ← S.str x1
  let x3 : Bool ← (.ok (x2 == L!"SELECT * FROM \"t1\" UNION ALL SELECT * FROM \"t2\"") : R Bool)
  pure (x3)) := by decide +kernel

-- tests/queries/test_union.py:21 test_combine
example : passes .sql (fun cx S => do
  let mut select1 ← mkSelectFrom cx S ⟨[.str L!"t1"], []⟩
  let mut select2 ← mkSelectFrom cx S ⟨[.str L!"t2"], []⟩
  let mut x1 ← mkUnion (.select select1) (.select select2) true
  let mut x2 ← mkUnion x1 (.select select1) false
  let mut union' := x2
  let x3 : Str ← S.str union'
  let x4 : Bool ← (.ok (x3 == L!"SELECT * FROM \"t1\" UNION ALL SELECT * FROM \"t2\" UNION SELECT * FROM \"t1\"") : R Bool)
  pure (x4)) := by decide +kernel

-- tests/queries/test_union.py:26 test_subselect_in_column_as_union
example : passes .sql (fun cx S => do
  let mut select1 ← mkSelectFrom cx S ⟨[.str L!"t1"], []⟩
  let mut select2 ← mkSelectFrom cx S ⟨[.str L!"t2"], []⟩
  let mut x1 ← mkUnion (.select select1) (.select select2) true
  let mut x2 ← mkSelect S ⟨[x1], []⟩
  x2 ← call (selectStep cx S x2 (.from_ ⟨[.str L!"t"], []⟩))
  let mut select' := x2
  let x3 : Str ← S.str (.select select')
  select' ← call (selectStep cx S select' .str)
  let x4 : Bool ← (.ok (x3 == L!"SELECT (SELECT * FROM \"t1\" UNION ALL SELECT * FROM \"t2\") FROM \"t\"") : R Bool)
  pure (x4)) := by decide +kernel

-- tests/queries/test_union.py:31 test_subselect_in_table_as_union
example : passes .sql (fun cx S => do
  let mut select1 ← mkSelectFrom cx S ⟨[.str L!"t1"], []⟩
  let mut select2 ← mkSelectFrom cx S ⟨[.str L!"t2"], []⟩
  let mut x1 ← mkUnion (.select select1) (.select select2) false
  let mut x2 ← mkSelectFrom cx S ⟨[x1], []⟩
  let mut select' := x2
  let x3 : Str ← S.str (.select select')
  select' ← call (selectStep cx S select' .str)
  let x4 : Bool ← (.ok (x3 == L!"SELECT * FROM (SELECT * FROM \"t1\" UNION SELECT * FROM \"t2\")") : R Bool)
  pure (x4)) := by decide +kernel

-- tests/queries/test_union.py:36 test_copy
example : passes .sql (fun cx S => do
  let mut select1 ← mkSelectFrom cx S ⟨[.str L!"t1"], []⟩
  let mut select2 ← mkSelectFrom cx S ⟨[.str L!"t2"], []⟩
  let mut x1 ← mkUnion (.select select1) (.select select2) true
  let mut union' := x1
  let mut x2 := union'
  let mut copy := x2
  let mut x3 ← mkUnion union' (.select select1) false
  union' := x3
  let x4 : Str ← S.str copy
  let x5 : Bool ← (.ok (x4 == L!"SELECT * FROM \"t1\" UNION ALL SELECT * FROM \"t2\"") : R Bool)
  let x6 : Str ← S.str union'
  let x7 : Bool ← (.ok (x6 == L!"SELECT * FROM \"t1\" UNION ALL SELECT * FROM \"t2\" UNION SELECT * FROM \"t1\"") : R Bool)
  pure (x5 && x7)) := by decide +kernel

-- tests/queries/test_union.py:44 test_equals
example : passes .sql (fun cx S => do
  let mut select1 ← mkSelectFrom cx S ⟨[.str L!"t1"], []⟩
  let mut select2 ← mkSelectFrom cx S ⟨[.str L!"t2"], []⟩
  let mut x1 ← mkUnion (.select select1) (.select select2) true
  let mut union' := x1
  let mut x2 := union'
  let mut copy := x2
  let x3 : Str ← S.str union'
  let x4 : Str ← S.str copy
  let x5 : Bool ← (.ok (x3 == x4) : R Bool)
  pure (x5)) := by decide +kernel

-- tests/queries/test_union.py:50 test_not_equals
example : passes .sql (fun cx S => do
  let mut select1 ← mkSelectFrom cx S ⟨[.str L!"t1"], []⟩
  let mut select2 ← mkSelectFrom cx S ⟨[.str L!"t2"], []⟩
  let mut x1 ← mkUnion (.select select1) (.select select2) true
  let mut union' := x1
  let mut x2 := union'
  let mut copy := x2
  let mut x3 ← mkUnion union' (.select select1) false
  union' := x3
  let x4 : Bool ← (! ·) <$> S.eq union' copy
  pure (x4)) := by decide +kernel

end SqlPuzzle.Conformance
