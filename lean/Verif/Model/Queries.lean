import Verif.Model.Parts

/-!
`sqlpuzzle/_queries/*.py`: the methods of `Select`, `Insert`, `Update` and `Delete`, as operations
on the state of one query.  Each operation returns the new state and the exception it raised.
-/

namespace SqlPuzzle

/-- Put an updated part back into the query. -/
def Upd.map {σ τ : Type} (f : σ → τ) (u : Upd σ) : Upd τ := (f u.1, u.2)

/-- The error of a computation, if any. -/
def errOf {α : Type} : R α → Option Err
  | .error e => some e
  | .ok _ => none

/-! ### Select -/

/-- Methods of `Select` (select.py:97-248) and `str(query)`. -/
inductive SelectOp where
  | columns (a : Args)
  | from_ (a : Args)
  | fromTable (table alias : Obj)
  | join (type : JoinType) (arg : Obj)
  | on (a : Args)
  | where_ (a : Args)
  | having (a : Args)
  | groupBy (a : Args)
  | orderBy (a : Args)
  | limit (limit offset : Obj)
  | offset (offset : Obj)
  | outfile (f : OutfileField) (v : Obj)
  | option (k : SelOpt) (allow : Obj)
  | forUpdate (allow : Obj)
  | str

section
variable (cx : Ctx) (S : Sem)

/-- `str(query)` seen as an operation: the joins are minimised in place (tables.py:81), unless a
clause rendered before the tables raises (query.py:22). -/
def selectStr (q : Select) : Upd Select :=
  match errOf (clause true (columnsText cx S q.columns)) <|>
        errOf (clause (!q.groupBy.isEmpty) (ordersText cx S L!"GROUP BY" q.groupBy)) <|>
        errOf (clause (!q.having.isEmpty) (condsText cx S L!"HAVING" q.having)) <|>
        errOf (clause q.outfile.file.isSome (outfileText cx S q.outfile)) <|>
        errOf (clause (!q.orderBy.isEmpty) (ordersText cx S L!"ORDER BY" q.orderBy)) with
  | some e => (q, some e)
  | none =>
    let r := strTables cx S q.tables
    ({ q with tables := r.1 },
      r.2 <|> errOf (clause (!q.where_.isEmpty) (condsText cx S L!"WHERE" q.where_)))

/-- One method call on a `Select` (select.py:97-248). -/
def selectStep (q : Select) : SelectOp → Upd Select
  | .columns a => (columnsAdd S q.columns a).map fun r => { q with columns := r }
  | .from_ a => (tablesSet cx S q.tables a).map fun r => { q with tables := r }
  | .fromTable t al =>
    (tablesSet cx S q.tables { pos := [.tuple [t, al]] }).map fun r => { q with tables := r }
  | .join ty arg => (tablesJoin cx S q.tables ty arg).map fun r => { q with tables := r }
  | .on a => (tablesOn cx S q.tables a).map fun r => { q with tables := r }
  | .where_ a => (condsWhere cx S false q.where_ a).map fun r => { q with where_ := r }
  | .having a => (condsWhere cx S false q.having a).map fun r => { q with having := r }
  | .groupBy a => (ordersAdd cx S q.groupBy a).map fun r => { q with groupBy := r }
  | .orderBy a => (ordersAdd cx S q.orderBy a).map fun r => { q with orderBy := r }
  | .limit l o => (limitLimit q.limit l o).map fun r => { q with limit := r }
  | .offset o => (limitOffset q.limit o).map fun r => { q with limit := r }
  | .outfile f v => (outfileSet q.outfile f v).map fun r => { q with outfile := r }
  | .option k allow => ({ q with opts := q.opts.set k allow.truthy }, none)
  | .forUpdate allow => ({ q with forUpdate := allow.truthy }, none)
  | .str => selectStr cx S q

/-- `select(*args, **kwds)` (`__init__.py:71-76`, select.py:54-56). -/
def mkSelect (a : Args) : R Select :=
  match columnsAdd S [] a with
  | (cs, none) => .ok { columns := cs }
  | (_, some e) => .error e

/-- `select_from(*args, **kwds)` (`__init__.py:79-84`). -/
def mkSelectFrom (a : Args) : R Select :=
  match tablesSet cx S [] a with
  | (ts, none) => .ok { tables := ts }
  | (_, some e) => .error e

/-! ### Insert -/

/-- Methods of `Insert` (insert.py:62-90, `InsertOptions.ignore` 33-34) and `str(query)`; `insert()`
(`__init__.py:87-92`) is the default query. -/
inductive InsertOp where
  | into (table : Obj)
  | values (a : Args)
  | onDuplicateKeyUpdate (a : Args)
  | ignore (allow : Obj)
  | str

/-- `OnConflictDoUpdate.set` (onconflictdoupdate.py:17-25). -/
def onConflictSet (q : Insert) (a : Args) : Upd Insert :=
  if kwSelf a then (q, some .typeError)
  else match a.pos with
  | .str c :: rest =>
    (valuesSet cx S q.onConflict { a with pos := rest }).map fun r =>
      { q with conflict := some c, onConflict := r }
  | _ => (q, some .invalidQuery)

/-- `Insert.on_duplicate_key_update` (insert.py:70-84). -/
def onDuplicateKeyUpdate (q : Insert) (a : Args) : Upd Insert :=
  if kwSelf a then (q, some .typeError)
  else
    let u1 : Upd Insert :=
      if cx.backend.supportsOnDuplicateKeyUpdate then
        (valuesSet cx S q.onDup a).map fun r => { q with onDup := r }
      else (q, none)
    match u1 with
    | (q1, some e) => (q1, some e)
    | (q1, none) =>
      let u2 : Upd Insert :=
        if cx.backend.supportsOnConflictDoUpdate then onConflictSet cx S q1 a else (q1, none)
      match u2 with
      | (q2, some e) => (q2, some e)
      | (q2, none) =>
        if cx.backend.supportsReplaceInto then
          if !a.pos.isEmpty || !a.kw.isEmpty then (q2, some .exception)
          else ({ q2 with isReplace := true }, none)
        else (q2, none)

/-- `str(query)` as an operation on an `Insert`. -/
def insertStr (q : Insert) : Upd Insert :=
  match errOf (clause (!q.onConflict.isEmpty)
            (valuesText cx S (conflictKeyword cx q.conflict) q.onConflict)) <|>
        errOf (clause (!q.onDup.isEmpty)
            (valuesText cx S L!"ON DUPLICATE KEY UPDATE" q.onDup)) with
  | some e => (q, some e)
  | none =>
    let r := strTables cx S q.tables
    ({ q with tables := r.1 },
      r.2 <|> errOf (clause (!q.rows.isEmpty) (rowsText cx S q.rows)))

/-- One method call on an `Insert` (insert.py:62-90). -/
def insertStep (q : Insert) : InsertOp → Upd Insert
  | .into t => (tablesSet cx S q.tables { pos := [t] }).map fun r => { q with tables := r }
  | .values a =>
    if kwSelf a then (q, some .typeError)
    else (rowsAdd cx S q.rows a).map fun r => { q with rows := r }
  | .onDuplicateKeyUpdate a => onDuplicateKeyUpdate cx S q a
  | .ignore allow => ({ q with ignore := allow.truthy }, none)
  | .str => insertStr cx S q

/-- `insert_into(table)` (`__init__.py:95-99`). -/
def mkInsertInto (t : Obj) : R Insert :=
  match tablesSet cx S [] { pos := [t] } with
  | (ts, none) => .ok { tables := ts }
  | (_, some e) => .error e

/-! ### Update -/

/-- Methods of `Update` (update.py:49-118, `UpdateOptions.ignore` update.py:17-18) and `str(query)`; `Update` has no `full_join`. -/
inductive UpdateOp where
  | allowUpdateAll
  | forbidUpdateAll
  | table (t : Obj)
  | set (a : Args)
  | where_ (a : Args)
  | join (arg : Obj)
  | leftJoin (arg : Obj)
  | rightJoin (arg : Obj)
  | on (a : Args)
  | ignore (allow : Obj)
  | str

/-- `str(query)` as an operation on an `Update`. -/
def updateStr (q : Update) : Upd Update :=
  if q.where_.isEmpty && !q.allowAll then (q, some .confirmUpdateAll)
  else
    let r := strTables cx S q.tables
    ({ q with tables := r.1 },
      r.2 <|> errOf (clause (!q.values.isEmpty) (valuesText cx S [] q.values)) <|>
        errOf (clause (!q.where_.isEmpty) (condsText cx S L!"WHERE" q.where_)))

/-- One method call on an `Update` (update.py:49-118). -/
def updateStep (q : Update) : UpdateOp → Upd Update
  | .allowUpdateAll => ({ q with allowAll := true }, none)
  | .forbidUpdateAll => ({ q with allowAll := false }, none)
  | .table t => (tablesSet cx S q.tables { pos := [t] }).map fun r => { q with tables := r }
  | .set a => (valuesSet cx S q.values a).map fun r => { q with values := r }
  | .where_ a => (condsWhere cx S false q.where_ a).map fun r => { q with where_ := r }
  | .join arg => (tablesJoin cx S q.tables .inner arg).map fun r => { q with tables := r }
  | .leftJoin arg => (tablesJoin cx S q.tables .left arg).map fun r => { q with tables := r }
  | .rightJoin arg => (tablesJoin cx S q.tables .right arg).map fun r => { q with tables := r }
  | .on a => (tablesOn cx S q.tables a).map fun r => { q with tables := r }
  | .ignore allow => ({ q with ignore := allow.truthy }, none)
  | .str => updateStr cx S q

/-- `update(table)` (`__init__.py:102-106`, update.py:39-42). -/
def mkUpdate (t : Obj) : R Update :=
  match tablesSet cx S [] { pos := [t] } with
  | (ts, none) => .ok { tables := ts }
  | (_, some e) => .error e

/-! ### Delete -/

/-- Methods of `Delete` (delete.py:49-126, `DeleteOptions.ignore` delete.py:17-18) and `str(query)`; `Delete` has no `full_join`. -/
inductive DeleteOp where
  | allowDeleteAll
  | forbidDeleteAll
  | delete (tables : List Obj)
  | from_ (a : Args)
  | fromTable (table alias : Obj)
  | join (arg : Obj)
  | leftJoin (arg : Obj)
  | rightJoin (arg : Obj)
  | on (a : Args)
  | where_ (a : Args)
  | ignore (allow : Obj)
  | str

/-- `str(query)` as an operation on a `Delete`. -/
def deleteStr (q : Delete) : Upd Delete :=
  if q.where_.isEmpty && !q.allowAll then (q, some .confirmDeleteAll)
  else
    let r1 := strTables cx S q.references
    let q1 := { q with references := r1.1 }
    match r1.2 with
    | some e => (q1, some e)
    | none =>
      let r2 := strTables cx S q.tables
      ({ q1 with tables := r2.1 },
        r2.2 <|> errOf (clause (!q.where_.isEmpty) (condsText cx S L!"WHERE" q.where_)))

/-- One method call on a `Delete` (delete.py:49-126). -/
def deleteStep (q : Delete) : DeleteOp → Upd Delete
  | .allowDeleteAll => ({ q with allowAll := true }, none)
  | .forbidDeleteAll => ({ q with allowAll := false }, none)
  | .delete ts => (tablesSet cx S q.tables { pos := ts }).map fun r => { q with tables := r }
  | .from_ a => (tablesSet cx S q.references a).map fun r => { q with references := r }
  | .fromTable t al =>
    (tablesSet cx S q.references { pos := [.tuple [t, al]] }).map fun r =>
      { q with references := r }
  | .join arg => (tablesJoin cx S q.references .inner arg).map fun r => { q with references := r }
  | .leftJoin arg =>
    (tablesJoin cx S q.references .left arg).map fun r => { q with references := r }
  | .rightJoin arg =>
    (tablesJoin cx S q.references .right arg).map fun r => { q with references := r }
  | .on a => (tablesOn cx S q.references a).map fun r => { q with references := r }
  | .where_ a => (condsWhere cx S false q.where_ a).map fun r => { q with where_ := r }
  | .ignore allow => ({ q with ignore := allow.truthy }, none)
  | .str => deleteStr cx S q

/-- `delete(*tables)` (`__init__.py:109-115`, delete.py:39-42). -/
def mkDelete (ts : List Obj) : R Delete :=
  match tablesSet cx S [] { pos := ts } with
  | (r, none) => .ok { tables := r }
  | (_, some e) => .error e

/-- `delete_from(*args, **kwds)` (`__init__.py:118-123`). -/
def mkDeleteFrom (a : Args) : R Delete :=
  match tablesSet cx S [] a with
  | (r, none) => .ok { references := r }
  | (_, some e) => .error e

end

/-! ### Histories -/

/-- A history of calls on one query; a call that raises leaves the state it produced and the
caller goes on. -/
def runOps {σ ω : Type} (step : σ → ω → Upd σ) (s : σ) (ops : List ω) : σ :=
  ops.foldl (fun s o => (step s o).1) s

end SqlPuzzle
