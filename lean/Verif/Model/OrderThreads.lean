import Verif.Model.Parts

/-!
Calls of `order_by` or `group_by` on one query by several threads, step by step.

For one entry after the other, a call looks for an order with the same column
(`Orders._find_order_by_column_name`), and changes its direction, or makes a new order and appends it.  Between any two
steps another thread may run.  A step is: taking the next entry; taking the next order of the list and comparing its
column; appending; changing a direction.

Simplified: comparing two columns and making an order are one step, and `list.append`, the step of a list iterator and
the assignment of an attribute are one step each, as CPython's interpreter lock guarantees.  The order that was found
is known by its place, which never changes, because orders are only ever appended.
-/

namespace SqlPuzzle

/-- Where a thread is in a call of `Orders.order` (order.py:58-71). -/
inductive OrderPhase where
  /-- about to take the next pair of a column and a direction (order.py:63) -/
  | next (todo : List (Obj × Obj))
  /-- in `_find_order_by_column_name` (order.py:73-77), about to take the order number `i` -/
  | look (col sort : Obj) (i : Nat) (todo : List (Obj × Obj))
  /-- about to append `o` (order.py:67) -/
  | add (o : Order) (todo : List (Obj × Obj))
  /-- about to change the direction of the order number `i` (order.py:69) -/
  | change (i : Nat) (sort : Obj) (todo : List (Obj × Obj))
  | done
  | raised (e : Err)

section
variable (cx : Ctx) (S : Sem)

/-- One step of a thread (order.py:63-69, 73-77). -/
def orderThreadStep (os : List Order) : OrderPhase → List Order × OrderPhase
  | .next [] => (os, .done)
  | .next ((col, sort) :: todo) => (os, .look col sort 0 todo)
  | .look col sort i todo =>
    match os[i]? with
    | none =>
      match mkOrder cx col sort with
      | .error e => (os, .raised e)
      | .ok o => (os, .add o todo)
    | some o =>
      match S.eq o.col col with
      | .error e => (os, .raised e)
      | .ok true => (os, .change i sort todo)
      | .ok false => (os, .look col sort (i + 1) todo)
  | .add o todo => (os ++ [o], .next todo)
  | .change i sort todo =>
    match orderSort cx sort with
    | .error e => (os, .raised e)
    | .ok d => (os.modify i fun o => { o with desc := d }, .next todo)
  | .done => (os, .done)
  | .raised e => (os, .raised e)

/-- The orders and the threads. -/
abbrev OrderWorld := List Order × List OrderPhase

/-- Thread number `i` makes a step. -/
def orderTick (w : OrderWorld) (i : Nat) : OrderWorld :=
  match w.2[i]? with
  | none => w
  | some ph =>
    let r := orderThreadStep cx S w.1 ph
    (r.1, w.2.set i r.2)

/-- The threads make steps in the order of the schedule. -/
def runOrderThreads (w : OrderWorld) (schedule : List Nat) : OrderWorld :=
  schedule.foldl (orderTick cx S) w

end

/-- A thread that calls `Orders.order` (order.py:58-63), after parsing the arguments. -/
def startOrder (S : Sem) (a : Args) : OrderPhase :=
  if kwSelf a then .raised .typeError
  else match parseArgs S nameOpts a with
  | .error e => .raised e
  | .ok bs => .next (bs.map pairOf)

end SqlPuzzle
