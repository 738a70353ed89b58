import Verif.Conformance.Harness

/-!
Generated by tools/conformance.py from tests/queries/test_delete.py.  Each example is one test of the repository, run on the model.
-/

set_option linter.unusedVariables false

namespace SqlPuzzle.Conformance
open SqlPuzzle

-- tests/queries/test_delete.py:6 test_simply
example : passes .sql (fun cx S => do
  let mut delete' := ({} : Delete)
  delete' ← call (deleteStep cx S delete' (.from_ ⟨[.str L!"user"], []⟩))
  delete' ← call (deleteStep cx S delete' (.allowDeleteAll))
  let x1 : Str ← S.str (.delete delete')
  delete' ← call (deleteStep cx S delete' .str)
  let x2 : Bool ← (.ok (x1 == L!"DELETE FROM \"user\"") : R Bool)
  pure (x2)) := by decide +kernel

-- tests/queries/test_delete.py:12 test_str
example : passes .sql (fun cx S => do
  let mut delete' := ({} : Delete)
  delete' ← call (deleteStep cx S delete' (.from_ ⟨[.str L!"user"], []⟩))
  delete' ← call (deleteStep cx S delete' (.where_ ⟨[], [(L!"name", .str L!"ščřž")]⟩))
  let x1 : Str ← S.str (.delete delete')
  delete' ← call (deleteStep cx S delete' .str)
  let x2 : Bool ← (.ok (x1 == L!"DELETE FROM \"user\" WHERE \"name\" = 'ščřž'") : R Bool)
  pure (x2)) := by decide +kernel

-- tests/queries/test_delete.py:18 test_has_not_references
example : passes .sql (fun cx S => do
  let mut delete' := ({} : Delete)
  let x1 : Bool ← (! ·) <$> deleteHas cx S delete' L!"references" (.none)
  pure (x1)) := by decide +kernel

-- tests/queries/test_delete.py:22 test_has_references
example : passes .sql (fun cx S => do
  let mut delete' := ({} : Delete)
  delete' ← call (deleteStep cx S delete' (.from_ ⟨[.str L!"user"], []⟩))
  let x1 : Bool ← deleteHas cx S delete' L!"references" (.none)
  let x2 : Bool ← deleteHas cx S delete' L!"references" (.str L!"user")
  pure (x1 && x2)) := by decide +kernel

-- tests/queries/test_delete.py:28 test_has_not_where
example : passes .sql (fun cx S => do
  let mut delete' := ({} : Delete)
  let x1 : Bool ← (! ·) <$> deleteHas cx S delete' L!"where" (.none)
  pure (x1)) := by decide +kernel

-- tests/queries/test_delete.py:32 test_has_where
example : passes .sql (fun cx S => do
  let mut delete' := ({} : Delete)
  delete' ← call (deleteStep cx S delete' (.where_ ⟨[], [(L!"id", .int 1)]⟩))
  let x1 : Bool ← deleteHas cx S delete' L!"where" (.none)
  let x2 : Bool ← deleteHas cx S delete' L!"where" (.str L!"id")
  pure (x1 && x2)) := by decide +kernel

-- tests/queries/test_delete.py:38 test_more_tables
example : passes .sql (fun cx S => do
  let mut delete' := ({} : Delete)
  delete' ← call (deleteStep cx S delete' (.allowDeleteAll))
  delete' ← call (deleteStep cx S delete' (.delete [.str L!"user"]))
  delete' ← call (deleteStep cx S delete' (.from_ ⟨[.str L!"user", .str L!"user2"], []⟩))
  let x1 : Str ← S.str (.delete delete')
  delete' ← call (deleteStep cx S delete' .str)
  let x2 : Bool ← (.ok (x1 == L!"DELETE \"user\" FROM \"user\", \"user2\"") : R Bool)
  pure (x2)) := by decide +kernel

-- tests/queries/test_delete.py:44 test_more_tables_with_alias
example : passes .sql (fun cx S => do
  let mut delete' := ({} : Delete)
  delete' ← call (deleteStep cx S delete' (.allowDeleteAll))
  delete' ← call (deleteStep cx S delete' (.delete [.str L!"u"]))
  delete' ← call (deleteStep cx S delete' (.from_ ⟨[.dict [(.str L!"user", .str L!"u"), (.str L!"user2", .str L!"u2")]], []⟩))
  let x1 : Str ← S.str (.delete delete')
  delete' ← call (deleteStep cx S delete' .str)
  let x2 : Bool ← (.ok (x1 == L!"DELETE \"u\" FROM \"user\" AS \"u\", \"user2\" AS \"u2\"") : R Bool)
  pure (x2)) := by decide +kernel

-- tests/queries/test_delete.py:50 test_join
example : passes .sql (fun cx S => do
  let mut delete' := ({} : Delete)
  delete' ← call (deleteStep cx S delete' (.allowDeleteAll))
  delete' ← call (deleteStep cx S delete' (.delete [.str L!"user"]))
  delete' ← call (deleteStep cx S delete' (.from_ ⟨[.str L!"user"], []⟩))
  delete' ← call (deleteStep cx S delete' (.leftJoin (.str L!"role")))
  delete' ← call (deleteStep cx S delete' (.on ⟨[.str L!"role.id", .str L!"user.role_id"], []⟩))
  delete' ← call (deleteStep cx S delete' (.where_ ⟨[.str L!"role.name", .tuple [.str L!"a", .str L!"b"]], []⟩))
  let x1 : Str ← S.str (.delete delete')
  delete' ← call (deleteStep cx S delete' .str)
  let x2 : Bool ← (.ok (x1 == L!"DELETE \"user\" FROM \"user\" LEFT JOIN \"role\" ON \"role\".\"id\" = \"user\".\"role_id\" WHERE \"role\".\"name\" IN ('a', 'b')") : R Bool)
  pure (x2)) := by decide +kernel

-- tests/queries/test_delete.py:59 test_where
example : passes .sql (fun cx S => do
  let mut delete' := ({} : Delete)
  delete' ← call (deleteStep cx S delete' (.from_ ⟨[.str L!"user"], []⟩))
  delete' ← call (deleteStep cx S delete' (.where_ ⟨[], [(L!"age", .int 42)]⟩))
  let mut x1 ← mkRel .like [.str L!"Harry"]
  delete' ← call (deleteStep cx S delete' (.where_ ⟨[.str L!"name", x1], []⟩))
  delete' ← call (deleteStep cx S delete' (.where_ ⟨[.dict [(.str L!"sex", .str L!"male")]], []⟩))
  delete' ← call (deleteStep cx S delete' (.where_ ⟨[.tuple [.tuple [.str L!"enabled", .int 1]]], []⟩))
  let x2 : Str ← S.str (.delete delete')
  delete' ← call (deleteStep cx S delete' .str)
  let x3 : Bool ← (.ok (x2 == L!"DELETE FROM \"user\" WHERE \"age\" = 42 AND \"name\" LIKE 'Harry' AND \"sex\" = 'male' AND \"enabled\" = 1") : R Bool)
  pure (x3)) := by decide +kernel

-- tests/queries/test_delete.py:74 test_copy
example : passes .sql (fun cx S => do
  let mut delete' := ({} : Delete)
  delete' ← call (deleteStep cx S delete' (.from_ ⟨[.str L!"user"], []⟩))
  delete' ← call (deleteStep cx S delete' (.where_ ⟨[], [(L!"id", .int 42)]⟩))
  let mut x1 := delete'
  let mut copy := x1
  delete' ← call (deleteStep cx S delete' (.where_ ⟨[], [(L!"name", .str L!"Harry")]⟩))
  let x2 : Str ← S.str (.delete copy)
  copy ← call (deleteStep cx S copy .str)
  let x3 : Bool ← (.ok (x2 == L!"DELETE FROM \"user\" WHERE \"id\" = 42") : R Bool)
  let x4 : Str ← S.str (.delete delete')
  delete' ← call (deleteStep cx S delete' .str)
  let x5 : Bool ← (.ok (x4 == L!"DELETE FROM \"user\" WHERE \"id\" = 42 AND \"name\" = 'Harry'") : R Bool)
  pure (x3 && x5)) := by decide +kernel

-- tests/queries/test_delete.py:82 test_equals
example : passes .sql (fun cx S => do
  let mut delete' := ({} : Delete)
  delete' ← call (deleteStep cx S delete' (.from_ ⟨[.str L!"user"], []⟩))
  delete' ← call (deleteStep cx S delete' (.where_ ⟨[], [(L!"id", .int 42)]⟩))
  let mut x1 := delete'
  let mut copy := x1
  let x2 : Bool ← S.eq (.delete delete') (.delete copy)
  pure (x2)) := by decide +kernel

-- tests/queries/test_delete.py:88 test_not_equals
example : passes .sql (fun cx S => do
  let mut delete' := ({} : Delete)
  delete' ← call (deleteStep cx S delete' (.from_ ⟨[.str L!"user"], []⟩))
  delete' ← call (deleteStep cx S delete' (.where_ ⟨[], [(L!"id", .int 42)]⟩))
  let mut x1 := delete'
  let mut copy := x1
  delete' ← call (deleteStep cx S delete' (.where_ ⟨[], [(L!"name", .str L!"Harry")]⟩))
  let x2 : Bool ← (! ·) <$> S.eq (.delete delete') (.delete copy)
  pure (x2)) := by decide +kernel

-- tests/queries/test_delete.py:95 test_sql_cache
example : passes .sql (fun cx S => do
  let mut delete' := ({} : Delete)
  delete' ← call (deleteStep cx S delete' (.from_ ⟨[.str L!"table"], []⟩))
  delete' ← call (deleteStep cx S delete' (.where_ ⟨[], [(L!"id", .int 1)]⟩))
  delete' ← call (deleteStep cx S delete' (.ignore (.bool true)))
  let x1 : Str ← S.str (.delete delete')
  delete' ← call (deleteStep cx S delete' .str)
  let x2 : Bool ← (.ok (x1 == L!"DELETE IGNORE FROM \"table\" WHERE \"id\" = 1") : R Bool)
  pure (x2)) := by decide +kernel

end SqlPuzzle.Conformance
