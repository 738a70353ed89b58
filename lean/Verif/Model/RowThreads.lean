import Verif.Model.Threads
import Verif.Model.Queries

/-!
Calls of `values` on one INSERT by several threads, step by step.

A call first makes a new `Values` object, which no other thread knows, and sets its values, with the steps of
`Model/Threads.lean`; then it appends the object to the rows of the query.  Between any two steps another thread may run.
Simplified as there.
-/

namespace SqlPuzzle

/-- Where a thread is in `MultipleValues.add` (values.py:94-97). -/
inductive RowPhase where
  /-- in `Values().set(…)` (values.py:95); `row` are the parts of the new object -/
  | making (row : List Value) (ph : Phase Value)
  /-- about to append the new object (values.py:96) -/
  | append (row : List Value)
  | done
  | raised (e : Err)

/-- One step of a thread; `rows` are the rows of the query (values.py:94-97). -/
def rowStep (cx : Ctx) (S : Sem) (rows : List (List Value)) : RowPhase → List (List Value) × RowPhase
  | .making row .done => (rows, .append row)
  | .making _ (.raised e) => (rows, .raised e)
  | .making row ph =>
    let r := threadStep (valueEq cx S) row ph
    (rows, .making r.1 r.2)
  | .append row => (rows ++ [row], .done)
  | .done => (rows, .done)
  | .raised e => (rows, .raised e)

/-- The rows of the query and the threads. -/
abbrev RowWorld := List (List Value) × List RowPhase

/-- Thread number `i` makes a step. -/
def rowTick (cx : Ctx) (S : Sem) (w : RowWorld) (i : Nat) : RowWorld :=
  match w.2[i]? with
  | none => w
  | some ph =>
    let r := rowStep cx S w.1 ph
    (r.1, w.2.set i r.2)

/-- The threads make steps in the order of the schedule. -/
def runRowThreads (cx : Ctx) (S : Sem) (w : RowWorld) (schedule : List Nat) : RowWorld :=
  schedule.foldl (rowTick cx S) w

/-- A thread that calls `Insert.values` (insert.py:64-66), at `Values().set(…)`. -/
def startValues (S : Sem) (a : Args) : RowPhase := .making [] (startSet S a)

end SqlPuzzle
