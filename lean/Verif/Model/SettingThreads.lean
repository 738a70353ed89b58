import Verif.Model.Queries

/-!
Calls that set the limit, the offset, options, the lock and the file of one SELECT by several threads, and writing its
LIMIT clause meanwhile, step by step.

Such a call checks its arguments, which no other thread can change, and then assigns to one attribute after the other.
Between any two assignments another thread may run.  `Limit.is_set` and `Limit.__str__` read the attributes one after the
other, some of them twice.  Simplified: checking the arguments is one step, and so is one assignment or one reading, as
CPython's interpreter lock guarantees.
-/

namespace SqlPuzzle

/-- An assignment to one attribute of a part of the query. -/
inductive Write where
  /-- `self._limit = …` (limit.py:37, 40) -/
  | limit (v : Option Int)
  /-- `self._offset = …` (limit.py:38, 47) -/
  | offset (v : Option Int)
  /-- the assignments of intooutfile.py:43-61 -/
  | outfile (f : OutfileField) (v : Obj)
  /-- `self._options[…] = …` (selectoptions.py:46-77) -/
  | option (k : SelOpt) (allow : Bool)
  /-- `self._for_update = …` (selectoptions.py:103-104) -/
  | forUpdate (allow : Bool)

/-- The assignment is made (limit.py:37-47, intooutfile.py:43-61, selectoptions.py:46-104). -/
def Write.apply (q : Select) : Write → Select
  | .limit v => { q with limit := { q.limit with limit := v } }
  | .offset v => { q with limit := { q.limit with offset := v } }
  | .outfile .file v => { q with outfile := { q.outfile with file := some v } }
  | .outfile .fields v => { q with outfile := { q.outfile with fields := some v } }
  | .outfile .lines v => { q with outfile := { q.outfile with lines := some v } }
  | .outfile .enclosed v => { q with outfile := { q.outfile with enclosed := some v } }
  | .option k allow => { q with opts := q.opts.set k allow }
  | .forUpdate allow => { q with forUpdate := allow }

/-- The assignments of `Limit.offset` (limit.py:45-48); an error is raised before them. -/
def offsetWrites (v : Obj) : List Write :=
  match checkType [.none, .int] v with
  | .error _ => []
  | .ok _ =>
    if v.truthy then
      match toInt v with
      | .error _ => []
      | .ok i => [.offset (some i)]
    else [.offset none]

/-- The assignments of `Limit.limit` (limit.py:34-43); an error is raised before them, or after the first one, by
`self.offset`. -/
def limitWrites (v off : Obj) : List Write :=
  match checkType [.none, .int] v with
  | .error _ => []
  | .ok _ =>
    if v.isNone then [.limit none, .offset none]
    else
      match toInt v with
      | .error _ => []
      | .ok i => .limit (some i) :: if off.isNone then [] else offsetWrites off

/-- The assignment of a setter of `IntoOutfile` (intooutfile.py:43-61). -/
def outfileWrites (f : OutfileField) (v : Obj) : List Write :=
  match checkType [.str] v with
  | .error _ => []
  | .ok _ => [.outfile f v]

/-- The assignments of a call (select.py:176-248); calls that do more than that are not modelled here. -/
def callWrites : SelectOp → List Write
  | .limit l o => limitWrites l o
  | .offset o => offsetWrites o
  | .outfile f v => outfileWrites f v
  | .option k allow => [.option k allow.truthy]
  | .forUpdate allow => [.forUpdate allow.truthy]
  | _ => []

/-- Where a thread is in `Limit.is_set` or `Limit.__str__` (limit.py:13-21, 30-32), as `Query.__str__` calls them
(query.py:23-27). -/
inductive Reading where
  /-- about to read `self._limit` in `is_set` -/
  | isSet
  /-- about to read `self._offset` in `is_set` -/
  | isSetOffset
  /-- about to read `self._limit` to see if it is `None` -/
  | limit
  /-- about to read `self._limit` to write it -/
  | limitText
  /-- about to read `self._offset` to see if it is `None`; `res` is written so far -/
  | offset (res : Str)
  /-- about to read `self._offset` to write it -/
  | offsetText (res : Str)
  /-- the clause is written -/
  | wrote (res : Str)

/-- `'{}'.format(…)` of an attribute (limit.py:16, 20). -/
def attributeText : Option Int → Str
  | some i => intText i
  | none => L!"None"

/-- One reading (limit.py:13-21, 30-32). -/
def Reading.step (l : LimitS) : Reading → Reading
  | .isSet => if l.limit.isSome then .limit else .isSetOffset
  | .isSetOffset => if l.offset.isSome then .limit else .wrote []
  | .limit => if l.limit.isSome then .limitText else .offset []
  | .limitText => .offset (L!"LIMIT " ++ attributeText l.limit)
  | .offset res => if l.offset.isSome then .offsetText (if res.isEmpty then res else res ++ [' ']) else .wrote res
  | .offsetText res => .wrote (res ++ L!"OFFSET " ++ attributeText l.offset)
  | .wrote res => .wrote res

/-- A thread: it makes calls, one after another, going on if one raises; or it writes the LIMIT clause. -/
inductive Setter where
  /-- `writes` are the assignments that the call at hand has still to make, `todo` the calls after it -/
  | calls (writes : List Write) (todo : List SelectOp)
  | reads (r : Reading)

/-- One step of a thread (limit.py:13-48, select.py:176-248). -/
def settingStep (q : Select) : Setter → Select × Setter
  | .calls [] [] => (q, .calls [] [])
  | .calls [] (op :: todo) => (q, .calls (callWrites op) todo)
  | .calls (w :: ws) todo => (w.apply q, .calls ws todo)
  | .reads r => (q, .reads (r.step q.limit))

/-- The query and the threads. -/
abbrev SettingWorld := Select × List Setter

/-- Thread number `i` makes a step. -/
def settingTick (w : SettingWorld) (i : Nat) : SettingWorld :=
  match w.2[i]? with
  | none => w
  | some s =>
    let r := settingStep w.1 s
    (r.1, w.2.set i r.2)

/-- The threads make steps in the order of the schedule. -/
def runSettings (w : SettingWorld) (schedule : List Nat) : SettingWorld := schedule.foldl settingTick w

end SqlPuzzle
