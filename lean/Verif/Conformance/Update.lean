import Verif.Conformance.Harness

/-!
Generated by tools/conformance.py from tests/queries/test_update.py.  Each example is one test of the repository, run on the model.
-/

set_option linter.unusedVariables false

namespace SqlPuzzle.Conformance
open SqlPuzzle

-- tests/queries/test_update.py:7 test_simply
example : passes .sql (fun cx S => do
  let mut update' := ({} : Update)
  update' ← call (updateStep cx S update' (.table (.str L!"user")))
  update' ← call (updateStep cx S update' (.set ⟨[], [(L!"name", .str L!"Alan")]⟩))
  update' ← call (updateStep cx S update' (.allowUpdateAll))
  let x1 : Str ← S.str (.update update')
  update' ← call (updateStep cx S update' .str)
  let x2 : Bool ← (.ok (x1 == L!"UPDATE \"user\" SET \"name\" = 'Alan'") : R Bool)
  pure (x2)) := by decide +kernel

-- tests/queries/test_update.py:14 test_str
example : passes .sql (fun cx S => do
  let mut update' := ({} : Update)
  update' ← call (updateStep cx S update' (.table (.str L!"user")))
  update' ← call (updateStep cx S update' (.set ⟨[], [(L!"name", .str L!"ščřž")]⟩))
  update' ← call (updateStep cx S update' (.allowUpdateAll))
  let x1 : Str ← S.str (.update update')
  update' ← call (updateStep cx S update' .str)
  let x2 : Bool ← (.ok (x1 == L!"UPDATE \"user\" SET \"name\" = 'ščřž'") : R Bool)
  pure (x2)) := by decide +kernel

-- tests/queries/test_update.py:21 test_where
example : passes .sql (fun cx S => do
  let mut update' := ({} : Update)
  update' ← call (updateStep cx S update' (.table (.str L!"user")))
  update' ← call (updateStep cx S update' (.set ⟨[], [(L!"name", .str L!"Alan")]⟩))
  update' ← call (updateStep cx S update' (.where_ ⟨[], [(L!"age", .int 42)]⟩))
  let mut x1 ← mkRel .like [.str L!"Harry"]
  update' ← call (updateStep cx S update' (.where_ ⟨[.str L!"name", x1], []⟩))
  update' ← call (updateStep cx S update' (.where_ ⟨[.dict [(.str L!"sex", .str L!"male")]], []⟩))
  update' ← call (updateStep cx S update' (.where_ ⟨[.tuple [.tuple [.str L!"enabled", .int 1]]], []⟩))
  let x2 : Str ← S.str (.update update')
  update' ← call (updateStep cx S update' .str)
  let x3 : Bool ← (.ok (x2 == L!"UPDATE \"user\" SET \"name\" = 'Alan' WHERE \"age\" = 42 AND \"name\" LIKE 'Harry' AND \"sex\" = 'male' AND \"enabled\" = 1") : R Bool)
  pure (x3)) := by decide +kernel

-- tests/queries/test_update.py:38 test_copy
example : passes .sql (fun cx S => do
  let mut update' := ({} : Update)
  update' ← call (updateStep cx S update' (.table (.str L!"user")))
  update' ← call (updateStep cx S update' (.set ⟨[], [(L!"name", .str L!"Alan")]⟩))
  update' ← call (updateStep cx S update' (.where_ ⟨[], [(L!"id", .int 42)]⟩))
  let mut x1 := update'
  let mut copy := x1
  update' ← call (updateStep cx S update' (.set ⟨[], [(L!"age", .int 24)]⟩))
  let x2 : Str ← S.str (.update copy)
  copy ← call (updateStep cx S copy .str)
  let x3 : Bool ← (.ok (x2 == L!"UPDATE \"user\" SET \"name\" = 'Alan' WHERE \"id\" = 42") : R Bool)
  let x4 : Str ← S.str (.update update')
  update' ← call (updateStep cx S update' .str)
  let x5 : Bool ← (.ok (x4 == L!"UPDATE \"user\" SET \"name\" = 'Alan', \"age\" = 24 WHERE \"id\" = 42") : R Bool)
  pure (x3 && x5)) := by decide +kernel

-- tests/queries/test_update.py:46 test_equals
example : passes .sql (fun cx S => do
  let mut update' := ({} : Update)
  update' ← call (updateStep cx S update' (.table (.str L!"user")))
  update' ← call (updateStep cx S update' (.set ⟨[], [(L!"name", .str L!"Alan")]⟩))
  update' ← call (updateStep cx S update' (.where_ ⟨[], [(L!"id", .int 42)]⟩))
  let mut x1 := update'
  let mut copy := x1
  let x2 : Bool ← S.eq (.update update') (.update copy)
  pure (x2)) := by decide +kernel

-- tests/queries/test_update.py:52 test_not_equals
example : passes .sql (fun cx S => do
  let mut update' := ({} : Update)
  update' ← call (updateStep cx S update' (.table (.str L!"user")))
  update' ← call (updateStep cx S update' (.set ⟨[], [(L!"name", .str L!"Alan")]⟩))
  update' ← call (updateStep cx S update' (.where_ ⟨[], [(L!"id", .int 42)]⟩))
  let mut x1 := update'
  let mut copy := x1
  update' ← call (updateStep cx S update' (.set ⟨[], [(L!"age", .int 24)]⟩))
  let x2 : Bool ← (! ·) <$> S.eq (.update update') (.update copy)
  pure (x2)) := by decide +kernel

-- tests/queries/test_update.py:59 test_join
example : passes .sql (fun cx S => do
  let mut update' := ({} : Update)
  update' ← call (updateStep cx S update' (.table (.str L!"user")))
  update' ← call (updateStep cx S update' (.join (.str L!"test_user")))
  update' ← call (updateStep cx S update' (.on ⟨[.str L!"user.id", .str L!"test_user.id"], []⟩))
  update' ← call (updateStep cx S update' (.set ⟨[], [(L!"name", .str L!"Alan")]⟩))
  update' ← call (updateStep cx S update' (.where_ ⟨[], [(L!"age", .int 42)]⟩))
  update' ← call (updateStep cx S update' (.allowUpdateAll))
  let x1 : Str ← S.str (.update update')
  update' ← call (updateStep cx S update' .str)
  let x2 : Bool ← (.ok (x1 == L!"UPDATE \"user\" JOIN \"test_user\" ON \"user\".\"id\" = \"test_user\".\"id\" SET \"name\" = 'Alan' WHERE \"age\" = 42") : R Bool)
  pure (x2)) := by decide +kernel

-- tests/queries/test_update.py:71 test_inner_join
example : passes .sql (fun cx S => do
  let mut update' := ({} : Update)
  update' ← call (updateStep cx S update' (.table (.str L!"user")))
  update' ← call (updateStep cx S update' (.join (.str L!"test_user")))
  update' ← call (updateStep cx S update' (.on ⟨[.str L!"user.id", .str L!"test_user.id"], []⟩))
  update' ← call (updateStep cx S update' (.set ⟨[], [(L!"name", .str L!"Alan")]⟩))
  update' ← call (updateStep cx S update' (.where_ ⟨[], [(L!"age", .int 42)]⟩))
  update' ← call (updateStep cx S update' (.allowUpdateAll))
  let x1 : Str ← S.str (.update update')
  update' ← call (updateStep cx S update' .str)
  let x2 : Bool ← (.ok (x1 == L!"UPDATE \"user\" JOIN \"test_user\" ON \"user\".\"id\" = \"test_user\".\"id\" SET \"name\" = 'Alan' WHERE \"age\" = 42") : R Bool)
  pure (x2)) := by decide +kernel

-- tests/queries/test_update.py:83 test_left_join
example : passes .sql (fun cx S => do
  let mut update' := ({} : Update)
  update' ← call (updateStep cx S update' (.table (.str L!"user")))
  update' ← call (updateStep cx S update' (.leftJoin (.str L!"test_user")))
  update' ← call (updateStep cx S update' (.on ⟨[.str L!"user.id", .str L!"test_user.id"], []⟩))
  update' ← call (updateStep cx S update' (.set ⟨[], [(L!"name", .str L!"Alan")]⟩))
  update' ← call (updateStep cx S update' (.where_ ⟨[], [(L!"age", .int 42)]⟩))
  update' ← call (updateStep cx S update' (.allowUpdateAll))
  let x1 : Str ← S.str (.update update')
  update' ← call (updateStep cx S update' .str)
  let x2 : Bool ← (.ok (x1 == L!"UPDATE \"user\" LEFT JOIN \"test_user\" ON \"user\".\"id\" = \"test_user\".\"id\" SET \"name\" = 'Alan' WHERE \"age\" = 42") : R Bool)
  pure (x2)) := by decide +kernel

-- tests/queries/test_update.py:95 test_right_join
example : passes .sql (fun cx S => do
  let mut update' := ({} : Update)
  update' ← call (updateStep cx S update' (.table (.str L!"user")))
  update' ← call (updateStep cx S update' (.rightJoin (.str L!"test_user")))
  update' ← call (updateStep cx S update' (.on ⟨[.str L!"user.id", .str L!"test_user.id"], []⟩))
  update' ← call (updateStep cx S update' (.set ⟨[], [(L!"name", .str L!"Alan")]⟩))
  update' ← call (updateStep cx S update' (.where_ ⟨[], [(L!"age", .int 42)]⟩))
  update' ← call (updateStep cx S update' (.allowUpdateAll))
  let x1 : Str ← S.str (.update update')
  update' ← call (updateStep cx S update' .str)
  let x2 : Bool ← (.ok (x1 == L!"UPDATE \"user\" RIGHT JOIN \"test_user\" ON \"user\".\"id\" = \"test_user\".\"id\" SET \"name\" = 'Alan' WHERE \"age\" = 42") : R Bool)
  pure (x2)) := by decide +kernel

-- tests/queries/test_update.py:107 test_sql_cache
example : passes .sql (fun cx S => do
  let mut update' := ({} : Update)
  update' ← call (updateStep cx S update' (.table (.str L!"table")))
  update' ← call (updateStep cx S update' (.set ⟨[], [(L!"col", .str L!"val")]⟩))
  update' ← call (updateStep cx S update' (.where_ ⟨[], [(L!"id", .int 1)]⟩))
  update' ← call (updateStep cx S update' (.ignore (.bool true)))
  let x1 : Str ← S.str (.update update')
  update' ← call (updateStep cx S update' .str)
  let x2 : Bool ← (.ok (x1 == L!"UPDATE IGNORE \"table\" SET \"col\" = 'val' WHERE \"id\" = 1") : R Bool)
  pure (x2)) := by decide +kernel

end SqlPuzzle.Conformance
