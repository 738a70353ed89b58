import Verif.Model.RowThreads

/-!
Calls of `values` by several threads.
-/

namespace SqlPuzzle.Spec

/-- The rows of an INSERT on which several threads call `values`, and the threads, after the steps of the schedule. -/
def valuesThreads (cx : Ctx) (n : Nat) (q : Insert) (calls : List Args) (schedule : List Nat) : RowWorld :=
  runRowThreads cx (sem cx n) (q.rows, calls.map (startValues (sem cx n))) schedule

/-- The call of the thread number `i` has come back. -/
def CameBack (w : RowWorld) (i : Nat) : Prop := w.2[i]? = some .done

/-- The call of the thread number `i` has raised `e`. -/
def Raised (w : RowWorld) (i : Nat) (e : Err) : Prop := w.2[i]? = some (.raised e)

/-- The calls with these numbers, one after another. -/
def callsInOrder (calls : List Args) (order : List Nat) : List InsertOp :=
  order.filterMap fun i => (calls[i]?).map .values

end SqlPuzzle.Spec
