import Verif.Conformance.Harness

/-!
Generated by tools/conformance.py from the examples in the documentation of the library.
-/

set_option linter.unusedVariables false

namespace SqlPuzzle.Conformance
open SqlPuzzle

-- docs/index.rst:30
example : passes .sql (fun cx S => do
  let mut x1 ← mkSelect S ⟨[.str L!"column"], []⟩
  x1 ← call (selectStep cx S x1 (.from_ ⟨[.str L!"table"], []⟩))
  let x2 : Str ← S.str (.select x1)
  x1 ← call (selectStep cx S x1 .str)
  let x3 : Bool ← (.ok (x2 == L!"SELECT \"column\" FROM \"table\"") : R Bool)
  pure (x3)) := by decide +kernel

-- docs/index.rst:38
example : passes .sql (fun cx S => do
  let mut x1 ← mkSelect S ⟨[.str L!"c1", .str L!"c2"], []⟩
  x1 ← call (selectStep cx S x1 (.from_ ⟨[.str L!"t1", .str L!"t2"], []⟩))
  let x2 : Str ← S.str (.select x1)
  x1 ← call (selectStep cx S x1 .str)
  let x3 : Bool ← (.ok (x2 == L!"SELECT \"c1\", \"c2\" FROM \"t1\", \"t2\"") : R Bool)
  pure (x3)) := by decide +kernel

-- docs/index.rst:46
example : passes .sql (fun cx S => do
  let mut x1 ← mkSelect S ⟨[.str L!"c1", .str L!"c2"], []⟩
  x1 ← call (selectStep cx S x1 (.from_ ⟨[.str L!"t", .tuple [.str L!"t", .str L!"t2"]], []⟩))
  let x2 : Str ← S.str (.select x1)
  x1 ← call (selectStep cx S x1 .str)
  let x3 : Bool ← (.ok (x2 == L!"SELECT \"c1\", \"c2\" FROM \"t\", \"t\" AS \"t2\"") : R Bool)
  pure (x3)) := by decide +kernel

-- docs/index.rst:56
example : passes .sql (fun cx S => do
  let mut x1 ← mkSelect S ⟨[.str L!"c"], []⟩
  x1 ← call (selectStep cx S x1 (.from_ ⟨[.str L!"t"], []⟩))
  x1 ← call (selectStep cx S x1 (.where_ ⟨[.dict [(.str L!"x", .int 1), (.str L!"y", .int 2)]], []⟩))
  let x2 : Str ← S.str (.select x1)
  x1 ← call (selectStep cx S x1 .str)
  let x3 : Bool ← (.ok (x2 == L!"SELECT \"c\" FROM \"t\" WHERE \"x\" = 1 AND \"y\" = 2") : R Bool)
  pure (x3)) := by decide +kernel

-- docs/index.rst:63
example : passes .sql (fun cx S => do
  let mut x1 ← mkSelect S ⟨[.str L!"c"], []⟩
  x1 ← call (selectStep cx S x1 (.from_ ⟨[.str L!"t"], []⟩))
  x1 ← call (selectStep cx S x1 (.where_ ⟨[], [(L!"x", .int 1), (L!"y", .int 2)]⟩))
  let x2 : Str ← S.str (.select x1)
  x1 ← call (selectStep cx S x1 .str)
  let x3 : Bool ← (.ok (x2 == L!"SELECT \"c\" FROM \"t\" WHERE \"x\" = 1 AND \"y\" = 2") : R Bool)
  pure (x3)) := by decide +kernel

-- sqlpuzzle/exceptions.py:53
example : passes .sql (fun cx S => do
  let x0 : Bool := raises Err.isInvalidArgument (do
      let mut x1 ← mkSelect S ⟨[.bool true], []⟩
      let x2 : Str ← S.str (.select x1)
      x1 ← call (selectStep cx S x1 .str)
      pure ())
  pure (x0)) := by decide +kernel

-- sqlpuzzle/exceptions.py:75
example : passes .sql (fun cx S => do
  let x0 : Bool := raises (· == .invalidQuery) (do
      let mut x1 ← mkSelectFrom cx S ⟨[.str L!"t"], []⟩
      x1 ← call (selectStep cx S x1 (.on ⟨[.str L!"t2"], []⟩))
      let x2 : Str ← S.str (.select x1)
      x1 ← call (selectStep cx S x1 .str)
      pure ())
  pure (x0)) := by decide +kernel

-- sqlpuzzle/relations.py:6
example : passes .sql (fun cx S => do
  let mut x1 ← mkSelectFrom cx S ⟨[.str L!"t"], []⟩
  let mut x2 ← mkRel .like [.str L!"M%"]
  x1 ← call (selectStep cx S x1 (.where_ ⟨[], [(L!"name", x2)]⟩))
  let x3 : Str ← S.str (.select x1)
  x1 ← call (selectStep cx S x1 .str)
  let x4 : Bool ← (.ok (x3 == L!"SELECT * FROM \"t\" WHERE \"name\" LIKE 'M%'") : R Bool)
  pure (x4)) := by decide +kernel

-- sqlpuzzle/relations.py:168
example : passes .sql (fun cx S => do
  let mut x1 ← mkSelectFrom cx S ⟨[.str L!"t"], []⟩
  let mut x2 ← mkRel .in_ [.list [.int 1, .int 2, .none]]
  x1 ← call (selectStep cx S x1 (.where_ ⟨[], [(L!"col", x2)]⟩))
  let x3 : Str ← S.str (.select x1)
  x1 ← call (selectStep cx S x1 .str)
  let x4 : Bool ← (.ok (x3 == L!"SELECT * FROM \"t\" WHERE (\"col\" IN (1, 2) OR \"col\" IS NULL)") : R Bool)
  pure (x4)) := by decide +kernel

-- sqlpuzzle/relations.py:219
example : passes .sql (fun cx S => do
  let mut x1 ← mkSelectFrom cx S ⟨[.str L!"t"], []⟩
  let mut x2 ← mkRel .notIn [.list [.int 1, .int 2, .none]]
  x1 ← call (selectStep cx S x1 (.where_ ⟨[], [(L!"col", x2)]⟩))
  let x3 : Str ← S.str (.select x1)
  x1 ← call (selectStep cx S x1 .str)
  let x4 : Bool ← (.ok (x3 == L!"SELECT * FROM \"t\" WHERE (\"col\" NOT IN (1, 2) AND \"col\" IS NOT NULL)") : R Bool)
  pure (x4)) := by decide +kernel

-- sqlpuzzle/_common/customsql.py:15
example : passes .sql (fun cx S => do
  let mut x1 ← mkCustom cx S (.str L!"IFNULL(col, 42) AS col")
  let mut x2 ← mkSelect S ⟨[x1], []⟩
  let x3 : Str ← S.str (.select x2)
  x2 ← call (selectStep cx S x2 .str)
  let x4 : Bool ← (.ok (x3 == L!"SELECT IFNULL(col, 42) AS col") : R Bool)
  pure (x4)) := by decide +kernel

-- sqlpuzzle/_common/customsql.py:17
example : passes .sql (fun cx S => do
  let mut x1 ← mkUpdate cx S (.str L!"t")
  let mut x2 ← mkCustom cx S (.str L!"`age` = `age` + 1")
  x1 ← call (updateStep cx S x1 (.set ⟨[x2], []⟩))
  x1 ← call (updateStep cx S x1 (.where_ ⟨[], [(L!"id", .int 42)]⟩))
  let x3 : Str ← S.str (.update x1)
  x1 ← call (updateStep cx S x1 .str)
  let x4 : Bool ← (.ok (x3 == L!"UPDATE \"t\" SET `age` = `age` + 1 WHERE \"id\" = 42") : R Bool)
  pure (x4)) := by decide +kernel

-- sqlpuzzle/_common/sqlvalue.py:34
example : passes .mysql (fun cx S => do
  let mut x1 ← mkSelect S ⟨[.str L!"a"], []⟩
  let x2 : Str ← S.str (.select x1)
  x1 ← call (selectStep cx S x1 .str)
  let x3 : Bool ← (.ok (x2 == L!"SELECT `a`") : R Bool)
  pure (x3)) := by decide +kernel

-- sqlpuzzle/_common/sqlvalue.py:36
example : passes .mysql (fun cx S => do
  let mut x1 : Obj := .sqlValue (.str L!"a")
  let mut x2 ← mkSelect S ⟨[x1], []⟩
  let x3 : Str ← S.str (.select x2)
  x2 ← call (selectStep cx S x2 .str)
  let x4 : Bool ← (.ok (x3 == L!"SELECT 'a'") : R Bool)
  pure (x4)) := by decide +kernel

-- sqlpuzzle/_common/sqlvalue.py:140
example : passes .mysql (fun cx S => do
  let mut x1 ← mkSelectFrom cx S ⟨[.str L!"t"], []⟩
  x1 ← call (selectStep cx S x1 (.where_ ⟨[], [(L!"name", .str L!"surname")]⟩))
  let x2 : Str ← S.str (.select x1)
  x1 ← call (selectStep cx S x1 .str)
  let x3 : Bool ← (.ok (x2 == L!"SELECT * FROM `t` WHERE `name` = 'surname'") : R Bool)
  pure (x3)) := by decide +kernel

-- sqlpuzzle/_common/sqlvalue.py:142
example : passes .mysql (fun cx S => do
  let mut x1 ← mkSelectFrom cx S ⟨[.str L!"t"], []⟩
  let mut x2 : Obj := .sqlRef (.str L!"surname")
  x1 ← call (selectStep cx S x1 (.where_ ⟨[], [(L!"name", x2)]⟩))
  let x3 : Str ← S.str (.select x1)
  x1 ← call (selectStep cx S x1 .str)
  let x4 : Bool ← (.ok (x3 == L!"SELECT * FROM `t` WHERE `name` = `surname`") : R Bool)
  pure (x4)) := by decide +kernel

-- sqlpuzzle/_queries/delete.py:27
example : passes .sql (fun cx S => do
  let mut x1 ← mkDeleteFrom cx S ⟨[.str L!"t"], []⟩
  x1 ← call (deleteStep cx S x1 (.where_ ⟨[], [(L!"id", .int 1)]⟩))
  let x2 : Str ← S.str (.delete x1)
  x1 ← call (deleteStep cx S x1 .str)
  let x3 : Bool ← (.ok (x2 == L!"DELETE FROM \"t\" WHERE \"id\" = 1") : R Bool)
  pure (x3)) := by decide +kernel

-- sqlpuzzle/_queries/delete.py:60
example : passes .sql (fun cx S => do
  let x0 : Bool := raises (· == .confirmDeleteAll) (do
      let mut x1 ← mkDeleteFrom cx S ⟨[.str L!"t"], []⟩
      let x2 : Str ← S.str (.delete x1)
      x1 ← call (deleteStep cx S x1 .str)
      pure ())
  pure (x0)) := by decide +kernel

-- sqlpuzzle/_queries/delete.py:64
example : passes .sql (fun cx S => do
  let mut x1 ← mkDeleteFrom cx S ⟨[.str L!"t"], []⟩
  x1 ← call (deleteStep cx S x1 (.allowDeleteAll))
  let x2 : Str ← S.str (.delete x1)
  x1 ← call (deleteStep cx S x1 .str)
  let x3 : Bool ← (.ok (x2 == L!"DELETE FROM \"t\"") : R Bool)
  pure (x3)) := by decide +kernel

-- sqlpuzzle/_queries/insert.py:43
example : passes .sql (fun cx S => do
  let mut x1 ← mkInsertInto cx S (.str L!"table")
  let mut sql := x1
  sql ← call (insertStep cx S sql (.values ⟨[], [(L!"name", .str L!"Alan"), (L!"salary", .float (.fin false 6787103858842665 (-39)))]⟩))
  sql ← call (insertStep cx S sql (.values ⟨[], [(L!"name", .str L!"Bob"), (L!"age", .int 42)]⟩))
  let x2 : Str ← S.str (.insert sql)
  sql ← call (insertStep cx S sql .str)
  let x3 : Bool ← (.ok (x2 == L!"INSERT INTO \"table\" (\"age\", \"name\", \"salary\") VALUES (NULL, 'Alan', 12345.67000), (42, 'Bob', NULL)") : R Bool)
  pure (x3)) := by decide +kernel

-- sqlpuzzle/_queries/select.py:16
example : passes .sql (fun cx S => do
  let mut x1 ← mkSelect S ⟨[.str L!"id", .str L!"name"], []⟩
  let mut sql := x1
  sql ← call (selectStep cx S sql (.from_ ⟨[.str L!"user"], []⟩))
  sql ← call (selectStep cx S sql (.join .inner (.str L!"address")))
  sql ← call (selectStep cx S sql (.on ⟨[.str L!"address.user_id", .str L!"user.id"], []⟩))
  let mut x2 ← mkRel .like [.str L!"%Al%"]
  sql ← call (selectStep cx S sql (.where_ ⟨[.dict [(.str L!"user.name", x2), (.str L!"address.city", .str L!"Prague")]], []⟩))
  sql ← call (selectStep cx S sql (.groupBy ⟨[.str L!"user.id"], []⟩))
  sql ← call (selectStep cx S sql (.orderBy ⟨[.str L!"user.name", .tuple [.str L!"user.sallary", .str L!"desc"]], []⟩))
  sql ← call (selectStep cx S sql (.limit (.int 20) (.none)))
  let x3 : Str ← S.str (.select sql)
  sql ← call (selectStep cx S sql .str)
  let x4 : Bool ← (.ok (x3 == L!"SELECT \"id\", \"name\" FROM \"user\" JOIN \"address\" ON \"address\".\"user_id\" = \"user\".\"id\" WHERE \"address\".\"city\" = 'Prague' AND \"user\".\"name\" LIKE '%Al%' GROUP BY \"user\".\"id\" ORDER BY \"user\".\"name\", \"user\".\"sallary\" DESC LIMIT 20") : R Bool)
  pure (x4)) := by decide +kernel

-- sqlpuzzle/_queries/select.py:81
example : passes .sql (fun cx S => do
  let mut x1 ← mkSelect S ⟨[.str L!"t"], []⟩
  let mut x2 ← mkSelect S ⟨[.str L!"u"], []⟩
  let mut x3 ← mkUnion (.select x1) (.select x2) true
  let x4 : Str ← S.str x3
  let x5 : Bool ← (.ok (x4 == L!"SELECT \"t\" UNION ALL SELECT \"u\"") : R Bool)
  pure (x5)) := by decide +kernel

-- sqlpuzzle/_queries/select.py:92
example : passes .sql (fun cx S => do
  let mut x1 ← mkSelect S ⟨[.str L!"t"], []⟩
  let mut x2 ← mkSelect S ⟨[.str L!"u"], []⟩
  let mut x3 ← mkUnion (.select x1) (.select x2) false
  let x4 : Str ← S.str x3
  let x5 : Bool ← (.ok (x4 == L!"SELECT \"t\" UNION SELECT \"u\"") : R Bool)
  pure (x5)) := by decide +kernel

-- sqlpuzzle/_queries/select.py:155
example : passes .sql (fun cx S => do
  let mut x1 ← mkSelect S ⟨[.str L!"c"], []⟩
  x1 ← call (selectStep cx S x1 (.from_ ⟨[.str L!"t"], []⟩))
  x1 ← call (selectStep cx S x1 (.groupBy ⟨[.str L!"a", .tuple [.str L!"b", .str L!"desc"]], []⟩))
  let x2 : Str ← S.str (.select x1)
  x1 ← call (selectStep cx S x1 .str)
  let x3 : Bool ← (.ok (x2 == L!"SELECT \"c\" FROM \"t\" GROUP BY \"a\", \"b\" DESC") : R Bool)
  pure (x3)) := by decide +kernel

-- sqlpuzzle/_queries/select.py:170
example : passes .sql (fun cx S => do
  let mut x1 ← mkSelect S ⟨[.str L!"c"], []⟩
  x1 ← call (selectStep cx S x1 (.from_ ⟨[.str L!"t"], []⟩))
  x1 ← call (selectStep cx S x1 (.orderBy ⟨[.str L!"a", .tuple [.str L!"b", .str L!"desc"]], []⟩))
  let x2 : Str ← S.str (.select x1)
  x1 ← call (selectStep cx S x1 .str)
  let x3 : Bool ← (.ok (x2 == L!"SELECT \"c\" FROM \"t\" ORDER BY \"a\", \"b\" DESC") : R Bool)
  pure (x3)) := by decide +kernel

-- sqlpuzzle/_queries/union.py:21
example : passes .sql (fun cx S => do
  let mut x1 ← mkSelect S ⟨[.str L!"t"], []⟩
  let mut x2 ← mkSelect S ⟨[.str L!"u"], []⟩
  let mut x3 ← mkUnion (.select x1) (.select x2) true
  let x4 : Str ← S.str x3
  let x5 : Bool ← (.ok (x4 == L!"SELECT \"t\" UNION ALL SELECT \"u\"") : R Bool)
  pure (x5)) := by decide +kernel

-- sqlpuzzle/_queries/union.py:23
example : passes .sql (fun cx S => do
  let mut x1 ← mkSelect S ⟨[.str L!"t"], []⟩
  let mut x2 ← mkSelect S ⟨[.str L!"u"], []⟩
  let mut x3 ← mkUnion (.select x1) (.select x2) false
  let x4 : Str ← S.str x3
  let x5 : Bool ← (.ok (x4 == L!"SELECT \"t\" UNION SELECT \"u\"") : R Bool)
  pure (x5)) := by decide +kernel

-- sqlpuzzle/_queries/union.py:54
example : passes .sql (fun cx S => do
  let mut x1 ← mkSelect S ⟨[.str L!"t"], []⟩
  let mut x2 ← mkSelect S ⟨[.str L!"u"], []⟩
  let mut x3 ← mkUnion (.select x1) (.select x2) true
  let mut x4 ← mkSelect S ⟨[.str L!"v"], []⟩
  let mut x5 ← mkUnion x3 (.select x4) true
  let x6 : Str ← S.str x5
  let x7 : Bool ← (.ok (x6 == L!"SELECT \"t\" UNION ALL SELECT \"u\" UNION ALL SELECT \"v\"") : R Bool)
  pure (x7)) := by decide +kernel

-- sqlpuzzle/_queries/union.py:65
example : passes .sql (fun cx S => do
  let mut x1 ← mkSelect S ⟨[.str L!"t"], []⟩
  let mut x2 ← mkSelect S ⟨[.str L!"u"], []⟩
  let mut x3 ← mkUnion (.select x1) (.select x2) false
  let mut x4 ← mkSelect S ⟨[.str L!"v"], []⟩
  let mut x5 ← mkUnion x3 (.select x4) false
  let x6 : Str ← S.str x5
  let x7 : Bool ← (.ok (x6 == L!"SELECT \"t\" UNION SELECT \"u\" UNION SELECT \"v\"") : R Bool)
  pure (x7)) := by decide +kernel

-- sqlpuzzle/_queries/update.py:27
example : passes .sql (fun cx S => do
  let mut x1 ← mkUpdate cx S (.str L!"t")
  x1 ← call (updateStep cx S x1 (.set ⟨[], [(L!"name", .str L!"Alan"), (L!"sallary", .float (.fin false 6787103858842665 (-39)))]⟩))
  x1 ← call (updateStep cx S x1 (.where_ ⟨[], [(L!"id", .int 1)]⟩))
  let x2 : Str ← S.str (.update x1)
  x1 ← call (updateStep cx S x1 .str)
  let x3 : Bool ← (.ok (x2 == L!"UPDATE \"t\" SET \"name\" = 'Alan', \"sallary\" = 12345.67000 WHERE \"id\" = 1") : R Bool)
  pure (x3)) := by decide +kernel

-- sqlpuzzle/_queries/update.py:60
example : passes .sql (fun cx S => do
  let x0 : Bool := raises (· == .confirmUpdateAll) (do
      let mut x1 ← mkUpdate cx S (.str L!"t")
      let x2 : Str ← S.str (.update x1)
      x1 ← call (updateStep cx S x1 .str)
      pure ())
  pure (x0)) := by decide +kernel

-- sqlpuzzle/_queries/update.py:64
example : passes .sql (fun cx S => do
  let mut x1 ← mkUpdate cx S (.str L!"t")
  x1 ← call (updateStep cx S x1 (.set ⟨[], [(L!"a", .int 1)]⟩))
  x1 ← call (updateStep cx S x1 (.allowUpdateAll))
  let x2 : Str ← S.str (.update x1)
  x1 ← call (updateStep cx S x1 .str)
  let x3 : Bool ← (.ok (x2 == L!"UPDATE \"t\" SET \"a\" = 1") : R Bool)
  pure (x3)) := by decide +kernel

-- sqlpuzzle/_queryparts/functions.py:144
example : passes .sql (fun cx S => do
  let mut x1 ← mkGroupConcat S [.str L!"col"]
  x1 ← call (groupConcatOrderBy cx S x1 [.str L!"col"])
  let x2 : Str ← S.str x1
  let x3 : Bool ← (.ok (x2 == L!"GROUP_CONCAT(\"col\" ORDER BY \"col\")") : R Bool)
  pure (x3)) := by decide +kernel

-- sqlpuzzle/_queryparts/functions.py:156
example : passes .sql (fun cx S => do
  let mut x1 ← mkGroupConcat S [.str L!"col"]
  x1 ← call (groupConcatSeparator x1 (.str L!"-"))
  let x2 : Str ← S.str x1
  let x3 : Bool ← (.ok (x2 == L!"GROUP_CONCAT(\"col\" SEPARATOR '-')") : R Bool)
  pure (x3)) := by decide +kernel

-- sqlpuzzle/_queryparts/functions.py:185
example : passes .sql (fun cx S => do
  let mut x1 ← mkConvert cx S (.str L!"col") (.none)
  x1 ← call (convertTo cx S x1 (.str L!"unsigned"))
  let x2 : Str ← S.str x1
  let x3 : Bool ← (.ok (x2 == L!"CONVERT(\"col\", UNSIGNED)") : R Bool)
  pure (x3)) := by decide +kernel

-- sqlpuzzle/_queryparts/functions.py:188
example : passes .sql (fun cx S => do
  let mut x1 ← mkConvert cx S (.str L!"col") (.str L!"unsigned")
  let x2 : Str ← S.str x1
  let x3 : Bool ← (.ok (x2 == L!"CONVERT(\"col\", UNSIGNED)") : R Bool)
  pure (x3)) := by decide +kernel

end SqlPuzzle.Conformance
