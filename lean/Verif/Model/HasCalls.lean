import Verif.Model.Has

/-!
`has()` as a call: its answer and what it does to the query.

`has(clause, value)` searches the text of the clause (queryparts.py:20-25), so it renders the
clause, and rendering tables assigns the merged joins to `self._joins` (tables.py:80-81).  As for
the operation `str`, only the joins of the query itself are tracked.
-/

namespace SqlPuzzle

section
variable (cx : Ctx) (S : Sem)

/-- The tables after `Tables.has(value)` was reached (query.py:56-60, queryparts.py:20-25): `value` is
turned into text first. -/
def tablesAfterHas (ts : List Table) (v : Obj) : List Table :=
  if ts.isEmpty then ts
  else if v.truthy then
    match forceText cx S v with
    | .error _ => ts
    | .ok _ => (strTables cx S ts).1
  else ts

/-- `Select.has` (select.py:61-73, query.py:46-61).  The second lookup (select.py:71-72) searches the
options, which renders no table. -/
def selectHasStep (q : Select) (name : Str) (v : Obj) : Select × R Bool :=
  (if name = L!"tables" then { q with tables := tablesAfterHas cx S q.tables v } else q,
    selectHas cx S q name v)

/-- `Query.has` on an `Update` (query.py:46-61). -/
def updateHasStep (q : Update) (name : Str) (v : Obj) : Update × R Bool :=
  (if name = L!"tables" then { q with tables := tablesAfterHas cx S q.tables v } else q,
    updateHas cx S q name v)

/-- `Query.has` on a `Delete` (query.py:46-61). -/
def deleteHasStep (q : Delete) (name : Str) (v : Obj) : Delete × R Bool :=
  (if name = L!"tables" then { q with tables := tablesAfterHas cx S q.tables v }
   else if name = L!"references" then { q with references := tablesAfterHas cx S q.references v }
   else q,
    deleteHas cx S q name v)

/-- `Query.has` on an `Insert` (query.py:46-61). -/
def insertHasStep (q : Insert) (name : Str) (v : Obj) : Insert × R Bool :=
  (if name = L!"tables" then { q with tables := tablesAfterHas cx S q.tables v } else q,
    insertHas cx S q name v)

end

end SqlPuzzle
