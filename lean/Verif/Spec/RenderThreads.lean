import Verif.Model.RenderThreads

/-!
Words for what threads that render one query do.
-/

namespace SqlPuzzle.Spec

/-- A query that nobody is rendering, with threads that are about to use it. -/
def startTogether (ts : List Table) (ws : List Worker) : List TableMem × List Worker :=
  (ts.map TableMem.ofTable, ws)

/-- A thread that is about to render the query. -/
def aboutToRender : Worker := .render [] .test

/-- Thread `i` has written the text `t` of the query. -/
def Wrote (cx : Ctx) (n : Nat) (q : Select) (w : List TableMem × List Worker) (i : Nat) (t : Str) : Prop :=
  ∃ shown, w.2[i]? = some (.render shown .test) ∧ shown.length = q.tables.length ∧
    selectTextFrom cx (sem cx n) q (shownTables cx (sem cx n) L!"FROM" q.tables shown) = .ok t

/-- Thread `i` has written the text `t` of the tables. -/
def WroteTables (cx : Ctx) (n : Nat) (keyword : Str) (ts : List Table) (w : List TableMem × List Worker) (i : Nat)
    (t : Str) : Prop :=
  ∃ shown, w.2[i]? = some (.render shown .test) ∧ shown.length = ts.length ∧
    shownTables cx (sem cx n) keyword ts shown = .ok t

/-- Thread `i` has stopped with an exception. -/
def Stopped (w : List TableMem × List Worker) (i : Nat) (e : Err) : Prop :=
  ∃ shown, w.2[i]? = some (.render shown (.raised e))

/-- Thread `i` has come to its end. -/
def Ended (ts : List Table) (w : List TableMem × List Worker) (i : Nat) : Prop :=
  (∃ shown, w.2[i]? = some (.render shown .test) ∧ shown.length = ts.length) ∨ (∃ e, Stopped w i e) ∨
    w.2[i]? = some .joined ∨ ∃ e, w.2[i]? = some (.raised e)

/-- The tables in memory are these. -/
def Holding (ms : List TableMem) (ts : List Table) : Prop := ms.map TableMem.table = ts

/-- The list of joins is complete: every entry is a join of the table, none is there twice. -/
def AtRest (m : TableMem) : Prop :=
  m.cur < m.lists.length ∧ (m.list m.cur).Nodup ∧ ∀ i ∈ m.list m.cur, i < m.joins.length

/-- `d` is one of the joins that were given, or one of them that became an inner join because an inner join was
given too. -/
def AmongJoins (given : List Join) (d : Join) : Prop :=
  ∃ g ∈ given, d = g ∨ (d = { g with type := .inner } ∧ ∃ g' ∈ given, g'.type = .inner)

end SqlPuzzle.Spec
