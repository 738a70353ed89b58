import Verif.Model.Queries

/-!
Rendering of the tables of one query by several threads, step by step.

`Table.__str__` calls `_minimize_joins`, which reads `self._joins`, assigns an empty list to `self._joins` and
then appends the merged joins to it one by one (tables.py:143-167), and writes the type of a merged join into
the join itself.  So another thread can see the list while it is empty or half full.

Lists and joins have identity here: a table in memory has numbered lists and numbered joins, and `cur` is the
list that `self._joins` refers to.

Simplified: a step is one iteration of a loop or one statement; comparing the joined tables and conditions of two
joins, and reading the types of a group, are part of one step, because only `self._joins` and the types change while
queries are rendered.  Queries inside the joins, whose own joins are merged too, are left out.
-/

namespace SqlPuzzle

/-- A table (tables.py:64-69): its name and alias, the joins that were ever made for it, the lists that
`self._joins` ever was, and the list it is now. -/
structure TableMem where
  name : Obj
  alias : Obj
  joins : List Join
  lists : List (List Nat)
  cur : Nat

/-- The joins with these numbers. -/
def TableMem.joinsOf (m : TableMem) (xs : List Nat) : List Join := xs.filterMap fun i => m.joins[i]?

/-- The list with this number. -/
def TableMem.list (m : TableMem) (l : Nat) : List Nat := m.lists.getD l []

/-- The table as a value. -/
def TableMem.table (m : TableMem) : Table := ⟨m.name, m.alias, m.joinsOf (m.list m.cur)⟩

/-- A table in memory that nobody is rendering. -/
def TableMem.ofTable (t : Table) : TableMem := ⟨t.name, t.alias, t.joins, [List.range t.joins.length], 0⟩

/-- `self._joins.append(…)`, `self._joins.extend(…)`. -/
def TableMem.append (m : TableMem) (xs : List Nat) : TableMem :=
  { m with lists := m.lists.modify m.cur (· ++ xs) }

/-- Where a thread is in `Table.__str__` (tables.py:71-90, 143-167). -/
inductive Paint where
  /-- before `if self._joins` (tables.py:72-80) -/
  | test
  /-- before the loop of `_minimize_joins` (tables.py:148-149) -/
  | load
  /-- in that loop, over the list number `l`, about to take its entry number `i`; `groups` as in `groupInsert` -/
  | group (l i : Nat) (groups : List (Nat × List Nat))
  /-- before `self._joins = []` (tables.py:159) -/
  | clear (groups : List (Nat × List Nat))
  /-- about to take the next group (tables.py:160) -/
  | fill (groups : List (Nat × List Nat))
  /-- about to append joins (tables.py:163, 165, 167) -/
  | push (xs : List Nat) (groups : List (Nat × List Nat))
  /-- in the loop that writes the joins (tables.py:82-88), over the list number `l`, about to take its entry number
  `i`; `shown` are the joins written so far -/
  | show (l i : Nat) (shown : List Join)
  /-- the text is complete; `none` if `self._joins` was empty -/
  | done (shown : Option (List Join))
  | raised (e : Err)

section
variable (cx : Ctx) (S : Sem)

/-- The text of a table with the joins that were written (tables.py:71-90). -/
def shownText (name alias : Obj) : Option (List Join) → R Str
  | none => aliasedText cx S name alias
  | some js => do
    let n ← aliasedText cx S name alias
    let ts ← mapR (joinText cx S) js
    .ok (n ++ ' ' :: joinS [' '] ts)

/-- Inner loop of `_minimize_joins` (tables.py:150-157), see `groupInsert`. -/
def groupNumber (m : TableMem) : List (Nat × List Nat) → Nat → R (List (Nat × List Nat))
  | [], j => .ok [(j, [])]
  | (h, t) :: gs, j =>
    match m.joins[h]?, m.joins[j]? with
    | some a, some b => do
      if ← sameJoin cx S a b then .ok ((h, t ++ [j]) :: gs)
      else do
        let r ← groupNumber m gs j
        .ok ((h, t) :: r)
    | _, _ => .error .unmodelled

/-- One group of the second loop of `_minimize_joins` (tables.py:160-167): the joins to append, and whether the type of
the first one is set to `INNER_JOIN` before. -/
def groupResult (m : TableMem) (g : Nat × List Nat) : List Nat × Bool :=
  let js := m.joinsOf (g.1 :: g.2)
  if !g.2.isEmpty && js.any (fun j => j.type == .inner) then ([g.1], true)
  else if !g.2.isEmpty && js.all (fun j => some j.type == (m.joins[g.1]?).map (·.type)) then ([g.1], false)
  else (g.1 :: g.2, false)

/-- One step of `Table.__str__`. -/
def paintStep (m : TableMem) : Paint → TableMem × Paint
  | .test =>
    match aliasedText cx S m.name m.alias with
    | .error e => (m, .raised e)
    | .ok _ => (m, if (m.list m.cur).isEmpty then .done none else .load)
  | .load => (m, .group m.cur 0 [])
  | .group l i gs =>
    match (m.list l)[i]? with
    | none => (m, .clear gs)
    | some j =>
      match groupNumber cx S m gs j with
      | .error e => (m, .raised e)
      | .ok gs => (m, .group l (i + 1) gs)
  | .clear gs => ({ m with lists := m.lists ++ [[]], cur := m.lists.length }, .fill gs)
  | .fill [] => (m, .show m.cur 0 [])
  | .fill (g :: gs) =>
    let r := groupResult m g
    (if r.2 then { m with joins := m.joins.modify g.1 fun j => { j with type := .inner } } else m, .push r.1 gs)
  | .push xs gs => (m.append xs, .fill gs)
  | .show l i shown =>
    match (m.list l)[i]? with
    | none =>
      match mapR (joinText cx S) shown with
      | .error e => (m, .raised e)
      | .ok _ => (m, .done (some shown))
    | some j =>
      match m.joins[j]? with
      | none => (m, .raised .unmodelled)
      | some d => (m, .show l (i + 1) (shown ++ [d]))
  | .done o => (m, .done o)
  | .raised e => (m, .raised e)

/-- What a thread does with the query. -/
inductive Worker where
  /-- renders its tables one after the other (queryparts.py:46-51, 93-94): what it wrote for the tables before, and
  where it is in the current one -/
  | render (shown : List (Option (List Join))) (now : Paint)
  /-- calls `join` or one of its variants: the join it adds to the last table (tables.py:132-136, 187-216) -/
  | join (j : Join)
  | joined
  /-- `join` without a table (tables.py:216) -/
  | raised (e : Err)

/-- After a table the thread goes on to the next one. -/
def afterPaint (shown : List (Option (List Join))) : Paint → Worker
  | .done o => .render (shown ++ [o]) .test
  | p => .render shown p

/-- One step of a thread. -/
def workerStep (ms : List TableMem) : Worker → List TableMem × Worker
  | .render shown now =>
    match ms[shown.length]? with
    | none => (ms, .render shown now)
    | some m =>
      let r := paintStep cx S m now
      (ms.set shown.length r.1, afterPaint shown r.2)
  | .join j =>
    match ms.getLast? with
    | none => (ms, .raised .invalidQuery)
    | some m => (ms.set (ms.length - 1) ({ m with joins := m.joins ++ [j] }.append [m.joins.length]), .joined)
  | .joined => (ms, .joined)
  | .raised e => (ms, .raised e)

/-- Thread number `i` makes a step. -/
def workerTick (w : List TableMem × List Worker) (i : Nat) : List TableMem × List Worker :=
  match w.2[i]? with
  | none => w
  | some k =>
    let r := workerStep cx S w.1 k
    (r.1, w.2.set i r.2)

/-- The threads make steps in the order of the schedule. -/
def runWorkers (w : List TableMem × List Worker) (schedule : List Nat) : List TableMem × List Worker :=
  schedule.foldl (workerTick cx S) w

/-- `Tables.__str__` (queryparts.py:46-51) with the joins that a thread wrote. -/
def shownTables (keyword : Str) (ts : List Table) (shown : List (Option (List Join))) : R Str :=
  partsText keyword L!", " [] (fun p : Table × Option (List Join) => shownText cx S p.1.name p.1.alias p.2)
    (ts.zip shown)

/-- `Select.__str__` (query.py:20-28, select.py:36-52) with the text of FROM from elsewhere, see `selectText`. -/
def selectTextFrom (q : Select) (from_ : R Str) : R Str := do
  let columns ← clause true (columnsText cx S q.columns)
  let groupBy ← clause (!q.groupBy.isEmpty) (ordersText cx S L!"GROUP BY" q.groupBy)
  let having ← clause (!q.having.isEmpty) (condsText cx S L!"HAVING" q.having)
  let outfile ← clause q.outfile.file.isSome (outfileText cx S q.outfile)
  let limit ← clause q.limit.isSet (.ok (limitText q.limit))
  let orderBy ← clause (!q.orderBy.isEmpty) (ordersText cx S L!"ORDER BY" q.orderBy)
  let forUpdate ← clause q.forUpdate (.ok L!"FOR UPDATE")
  let opts ← clause (!q.opts.words.isEmpty) (.ok (optionsText q.opts.words))
  let tables ← clause (!q.tables.isEmpty) from_
  let where_ ← clause (!q.where_.isEmpty) (condsText cx S L!"WHERE" q.where_)
  .ok (strip (L!"SELECT" ++ opts ++ columns ++ tables ++ where_ ++ groupBy ++ having ++ orderBy ++
    limit ++ outfile ++ forUpdate))

end

end SqlPuzzle
