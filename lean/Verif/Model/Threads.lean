import Verif.Model.Parts

/-!
Calls on one query by several threads, step by step.

The methods that add parts (`where`, `having`, `columns`, `set`, `from_`) first parse their arguments and
then, for one entry after the other, make the part, look for an equal one in the list
(`QueryParts.__contains__`) and append it if there is none.  Between any two of these steps another thread
may run.  A step is: making a part; taking the next part of the list and comparing; appending.

Simplified: comparing two parts is one step, because parts are not changed after they are made, and
`list.append` and the step of a list iterator are one step each, as CPython's interpreter lock guarantees.
For tables that is so as long as no thread calls `join`, `on` or `str` on a query with joins meanwhile.
-/

namespace SqlPuzzle

/-- Where a thread is in a call that adds parts (conditions.py:101-116, columns.py:50-60,
values.py:47-58). -/
inductive Phase (α : Type) where
  /-- about to make the next part -/
  | next (todo : List (R α))
  /-- in `QueryParts.__contains__` (queryparts.py:53-57) for `p`, about to take the part number `i` -/
  | scan (p : α) (i : Nat) (todo : List (R α))
  /-- about to append `p` (queryparts.py:75-80) -/
  | add (p : α) (todo : List (R α))
  | done
  | raised (e : Err)

/-- One step of a thread; `eq` is the comparison of parts.  An iterator over a list looks at the list as it
is at each step (queryparts.py:53-57). -/
def threadStep {α : Type} (eq : α → α → R Bool) (ps : List α) : Phase α → List α × Phase α
  | .next [] => (ps, .done)
  | .next (.ok p :: todo) => (ps, .scan p 0 todo)
  | .next (.error e :: _) => (ps, .raised e)
  | .scan p i todo =>
    match ps[i]? with
    | none => (ps, .add p todo)
    | some q =>
      match eq q p with
      | .error e => (ps, .raised e)
      | .ok true => (ps, .next todo)
      | .ok false => (ps, .scan p (i + 1) todo)
  | .add p todo => (ps ++ [p], .next todo)
  | .done => (ps, .done)
  | .raised e => (ps, .raised e)

/-- The list of parts and the threads. -/
abbrev World (α : Type) := List α × List (Phase α)

/-- Thread number `i` makes a step. -/
def tick {α : Type} (eq : α → α → R Bool) (w : World α) (i : Nat) : World α :=
  match w.2[i]? with
  | none => w
  | some ph =>
    let r := threadStep eq w.1 ph
    (r.1, w.2.set i r.2)

/-- The threads make steps in the order of the schedule. -/
def runThreads {α : Type} (eq : α → α → R Bool) (w : World α) (schedule : List Nat) : World α :=
  schedule.foldl (tick eq) w

/-- The loop over the entries a call gives. -/
def startLoop {α β : Type} (parsed : R (List β)) (make : β → R α) : Phase α :=
  match parsed with
  | .error e => .raised e
  | .ok bs => .next (bs.map make)

/-- A thread that calls `Conditions.where` (conditions.py:101-116), after parsing the arguments. -/
def startWhere (S : Sem) (on : Bool) (a : Args) : Phase Cond :=
  if kwSelf a then .raised .typeError
  else match customArg a with
  | some o => .add (.item o) []
  | none =>
    if !a.pos.isEmpty && a.pos.all Obj.isConds then .next (a.pos.map fun o => .ok (.item o))
    else startLoop (parseArgs S pairOpts a) fun b => mkCond on (pairOf b).1 (pairOf b).2

/-- A thread that calls `Columns.columns` (columns.py:50-60). -/
def startColumns (S : Sem) (a : Args) : Phase Column :=
  if kwSelf a then .raised .typeError
  else startLoop (parseArgs S nameOpts a) fun b => mkColumn (pairOf b).1 (pairOf b).2

/-- A thread that calls `Values.set` (values.py:47-58). -/
def startSet (S : Sem) (a : Args) : Phase Value :=
  if kwSelf a then .raised .typeError
  else match customArg a with
  | some o => .add (.item o) []
  | none => startLoop (parseArgs S pairOpts a) fun b => mkValue (pairOf b).1 (pairOf b).2

/-- A thread that calls `Tables.set` (tables.py:171-181), which is `from_` of a SELECT or DELETE. -/
def startFrom (S : Sem) (a : Args) : Phase Table :=
  if kwSelf a then .raised .typeError
  else startLoop (parseArgs S nameOpts { a with pos := a.pos.filter Obj.truthy }) fun b =>
    mkTable (pairOf b).1 (pairOf b).2

end SqlPuzzle
