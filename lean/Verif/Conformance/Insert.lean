import Verif.Conformance.Harness

/-!
Generated by tools/conformance.py from tests/queries/test_insert.py.  Each example is one test of the repository, run on the model.
-/

set_option linter.unusedVariables false

namespace SqlPuzzle.Conformance
open SqlPuzzle

-- tests/queries/test_insert.py:4 test_simply
example : passes .sql (fun cx S => do
  let mut insert' := ({} : Insert)
  insert' ← call (insertStep cx S insert' (.into (.str L!"user")))
  insert' ← call (insertStep cx S insert' (.values ⟨[], [(L!"name", .str L!"Alan")]⟩))
  let x1 : Str ← S.str (.insert insert')
  insert' ← call (insertStep cx S insert' .str)
  let x2 : Bool ← (.ok (x1 == L!"INSERT INTO \"user\" (\"name\") VALUES ('Alan')") : R Bool)
  pure (x2)) := by decide +kernel

-- tests/queries/test_insert.py:10 test_str
example : passes .sql (fun cx S => do
  let mut insert' := ({} : Insert)
  insert' ← call (insertStep cx S insert' (.into (.str L!"user")))
  insert' ← call (insertStep cx S insert' (.values ⟨[], [(L!"name", .str L!"ščřž")]⟩))
  let x1 : Str ← S.str (.insert insert')
  insert' ← call (insertStep cx S insert' .str)
  let x2 : Bool ← (.ok (x1 == L!"INSERT INTO \"user\" (\"name\") VALUES ('ščřž')") : R Bool)
  pure (x2)) := by decide +kernel

-- tests/queries/test_insert.py:16 test_has_not_tables
example : passes .sql (fun cx S => do
  let mut insert' := ({} : Insert)
  let x1 : Bool ← (! ·) <$> insertHas cx S insert' L!"tables" (.none)
  pure (x1)) := by decide +kernel

-- tests/queries/test_insert.py:20 test_has_tables
example : passes .sql (fun cx S => do
  let mut insert' := ({} : Insert)
  insert' ← call (insertStep cx S insert' (.into (.str L!"user")))
  let x1 : Bool ← insertHas cx S insert' L!"tables" (.none)
  let x2 : Bool ← insertHas cx S insert' L!"tables" (.str L!"user")
  pure (x1 && x2)) := by decide +kernel

-- tests/queries/test_insert.py:26 test_has_not_values
example : passes .sql (fun cx S => do
  let mut insert' := ({} : Insert)
  let x1 : Bool ← (! ·) <$> insertHas cx S insert' L!"values" (.none)
  pure (x1)) := by decide +kernel

-- tests/queries/test_insert.py:30 test_has_values
example : passes .sql (fun cx S => do
  let mut insert' := ({} : Insert)
  insert' ← call (insertStep cx S insert' (.values ⟨[], [(L!"id", .int 1)]⟩))
  let x1 : Bool ← insertHas cx S insert' L!"values" (.none)
  let x2 : Bool ← insertHas cx S insert' L!"values" (.str L!"1")
  pure (x1 && x2)) := by decide +kernel

-- tests/queries/test_insert.py:36 test_on_duplicate_key_update
example : passes .postgresql (fun cx S => do
  let mut insert' := ({} : Insert)
  insert' ← call (insertStep cx S insert' (.into (.str L!"user")))
  let values' : Obj := .dict [(.str L!"name", .str L!"Alan")]
  insert' ← call (insertStep cx S insert' (.values ⟨[], [(L!"id", .int 1), (L!"name", .str L!"Alan")]⟩))
  insert' ← call (insertStep cx S insert' (.onDuplicateKeyUpdate ⟨[.str L!"id", values'], []⟩))
  let x1 : Str ← S.str (.insert insert')
  insert' ← call (insertStep cx S insert' .str)
  let x2 : Bool ← (.ok (x1 == L!"INSERT INTO \"user\" (\"id\", \"name\") VALUES (1, 'Alan') ON CONFLICT (\"id\") DO UPDATE \"name\" = 'Alan'") : R Bool)
  pure (x2)) := by decide +kernel

-- tests/queries/test_insert.py:48 test_on_conflict_do_update
example : passes .mysql (fun cx S => do
  let mut insert' := ({} : Insert)
  insert' ← call (insertStep cx S insert' (.into (.str L!"user")))
  let values' : Obj := .dict [(.str L!"name", .str L!"Alan")]
  insert' ← call (insertStep cx S insert' (.values ⟨[], [(L!"id", .int 1), (L!"name", .str L!"Alan")]⟩))
  insert' ← call (insertStep cx S insert' (.onDuplicateKeyUpdate ⟨[values'], []⟩))
  let x1 : Str ← S.str (.insert insert')
  insert' ← call (insertStep cx S insert' .str)
  let x2 : Bool ← (.ok (x1 == L!"INSERT INTO `user` (`id`, `name`) VALUES (1, 'Alan') ON DUPLICATE KEY UPDATE `name` = 'Alan'") : R Bool)
  pure (x2)) := by decide +kernel

-- tests/queries/test_insert.py:60 test_copy
example : passes .sql (fun cx S => do
  let mut insert' := ({} : Insert)
  insert' ← call (insertStep cx S insert' (.into (.str L!"user")))
  insert' ← call (insertStep cx S insert' (.values ⟨[], [(L!"id", .int 1)]⟩))
  let mut x1 := insert'
  let mut copy := x1
  insert' ← call (insertStep cx S insert' (.values ⟨[], [(L!"id", .int 2)]⟩))
  let x2 : Str ← S.str (.insert copy)
  copy ← call (insertStep cx S copy .str)
  let x3 : Bool ← (.ok (x2 == L!"INSERT INTO \"user\" (\"id\") VALUES (1)") : R Bool)
  let x4 : Str ← S.str (.insert insert')
  insert' ← call (insertStep cx S insert' .str)
  let x5 : Bool ← (.ok (x4 == L!"INSERT INTO \"user\" (\"id\") VALUES (1), (2)") : R Bool)
  pure (x3 && x5)) := by decide +kernel

-- tests/queries/test_insert.py:68 test_equals
example : passes .sql (fun cx S => do
  let mut insert' := ({} : Insert)
  insert' ← call (insertStep cx S insert' (.into (.str L!"user")))
  insert' ← call (insertStep cx S insert' (.values ⟨[], [(L!"id", .int 1)]⟩))
  let mut x1 := insert'
  let mut copy := x1
  let x2 : Bool ← S.eq (.insert insert') (.insert copy)
  pure (x2)) := by decide +kernel

-- tests/queries/test_insert.py:74 test_not_equals
example : passes .sql (fun cx S => do
  let mut insert' := ({} : Insert)
  insert' ← call (insertStep cx S insert' (.into (.str L!"user")))
  insert' ← call (insertStep cx S insert' (.values ⟨[], [(L!"id", .int 1)]⟩))
  let mut x1 := insert'
  let mut copy := x1
  insert' ← call (insertStep cx S insert' (.values ⟨[], [(L!"name", .str L!"Alan")]⟩))
  let x2 : Bool ← (! ·) <$> S.eq (.insert insert') (.insert copy)
  pure (x2)) := by decide +kernel

-- tests/queries/test_insert.py:81 test_multiple_inserts
example : passes .sql (fun cx S => do
  let mut insert' := ({} : Insert)
  insert' ← call (insertStep cx S insert' (.into (.str L!"table")))
  insert' ← call (insertStep cx S insert' (.values ⟨[], [(L!"id", .int 1)]⟩))
  insert' ← call (insertStep cx S insert' (.values ⟨[], [(L!"id", .int 2)]⟩))
  insert' ← call (insertStep cx S insert' (.values ⟨[], [(L!"id", .int 3)]⟩))
  let x1 : Str ← S.str (.insert insert')
  insert' ← call (insertStep cx S insert' .str)
  let x2 : Bool ← (.ok (x1 == L!"INSERT INTO \"table\" (\"id\") VALUES (1), (2), (3)") : R Bool)
  pure (x2)) := by decide +kernel

-- tests/queries/test_insert.py:86 test_sql_cache
example : passes .sql (fun cx S => do
  let mut insert' := ({} : Insert)
  insert' ← call (insertStep cx S insert' (.into (.str L!"table")))
  insert' ← call (insertStep cx S insert' (.values ⟨[], [(L!"id", .int 1)]⟩))
  insert' ← call (insertStep cx S insert' (.ignore (.bool true)))
  let x1 : Str ← S.str (.insert insert')
  insert' ← call (insertStep cx S insert' .str)
  let x2 : Bool ← (.ok (x1 == L!"INSERT IGNORE INTO \"table\" (\"id\") VALUES (1)") : R Bool)
  pure (x2)) := by decide +kernel

end SqlPuzzle.Conformance
