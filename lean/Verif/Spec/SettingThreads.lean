import Verif.Model.SettingThreads
import Verif.Spec.Settings

/-!
Settings of one SELECT made by several threads.
-/

namespace SqlPuzzle.Spec

/-- The calls that set the limit, the offset, the file, an option or the lock. -/
def IsSetting : SelectOp → Prop
  | .limit _ _ | .offset _ | .outfile _ _ | .option _ _ | .forUpdate _ => True
  | _ => False

/-- Each thread makes its calls on the query, one after another; one more thread, the last, writes the LIMIT clause.
The query and the threads after the steps of the schedule. -/
def settingThreads (q : Select) (programs : List (List SelectOp)) (schedule : List Nat) : SettingWorld :=
  runSettings (q, programs.map (Setter.calls []) ++ [.reads .isSet]) schedule

/-- The thread number `i` has made all its calls. -/
def AllMade (w : SettingWorld) (i : Nat) : Prop := w.2[i]? = some (.calls [] [])

/-- The last thread has written the LIMIT clause. -/
def ClauseWritten (w : SettingWorld) (text : Str) : Prop := w.2.getLast? = some (.reads (.wrote text))

/-- The calls that thread number `i` made, in a list of calls with the numbers of their threads. -/
def callsBy (i : Nat) (order : List (Nat × SelectOp)) : List SelectOp :=
  order.filterMap fun c => if c.1 = i then some c.2 else none

/-- A list of calls that keeps the order of each thread, ends for each thread somewhere in its program, and has the
whole program of a thread that has made all its calls. -/
def OrderOfCalls (programs : List (List SelectOp)) (w : SettingWorld) (order : List (Nat × SelectOp)) : Prop :=
  (∀ c ∈ order, c.1 < programs.length) ∧
  ∀ i program, programs[i]? = some program →
    callsBy i order <+: program ∧ (AllMade w i → callsBy i order = program)

/-- A call that says something of the limit and of the offset at once: `limit(None)` and `limit(i, j)`. -/
def BothAtOnce (op : SelectOp) : Prop := (saysLimit op).isSome ∧ (saysOffset op).isSome

/-- A call that clears the limit or the offset. -/
def Clears (op : SelectOp) : Prop := saysLimit op = some none ∨ saysOffset op = some none

end SqlPuzzle.Spec
