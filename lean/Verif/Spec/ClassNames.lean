import Verif.Model.Types

/-!
The names of the classes of library objects, as the API gives them (`/repo/sqlpuzzle/__init__.py`,
`relations.py`).  This does not mention how the library finds them.
-/

namespace SqlPuzzle.Spec

/-- `InClass o c`: the library object `o` is an instance of the class called `c`. -/
inductive InClass : Obj → Str → Prop
  /-- `sqlpuzzle.C(…)` -/
  | custom {t} : InClass (.custom t) L!"CustomSql"
  /-- `sqlpuzzle.V(…)` -/
  | value {v} : InClass (.sqlValue v) L!"SqlValue"
  /-- `sqlpuzzle.R(…)` -/
  | reference {v} : InClass (.sqlRef v) L!"SqlReference"
  /-- The relations are classes of the API themselves. -/
  | eq {v} : InClass (.rel .eq v) L!"EQ"
  | ne {v} : InClass (.rel .ne v) L!"NE"
  | gt {v} : InClass (.rel .gt v) L!"GT"
  | ge {v} : InClass (.rel .ge v) L!"GE"
  | lt {v} : InClass (.rel .lt v) L!"LT"
  | le {v} : InClass (.rel .le v) L!"LE"
  | like {v} : InClass (.rel .like v) L!"LIKE"
  | notLike {v} : InClass (.rel .notLike v) L!"NOT_LIKE"
  | regexp {v} : InClass (.rel .regexp v) L!"REGEXP"
  | isIn {v} : InClass (.rel .in_ v) L!"IN"
  | notIn {v} : InClass (.rel .notIn v) L!"NOT_IN"
  | is {v} : InClass (.rel .is v) L!"IS"
  | isNot {v} : InClass (.rel .isNot v) L!"IS_NOT"
  /-- `sqlpuzzle.Q(…)` -/
  | conditions {ps} : InClass (.conds ps) L!"Conditions"
  /-- `a & b` and `a | b` of conditions -/
  | combined {a b op} : InClass (.cofc a b op) L!"ConditionsOfConditions"
  | not {x} : InClass (.not_ x) L!"Not"
  | avg {d x} : InClass (.func .avg d x) L!"Avg"
  | count {d x} : InClass (.func .count d x) L!"Count"
  | max {d x} : InClass (.func .max d x) L!"Max"
  | min {d x} : InClass (.func .min d x) L!"Min"
  | sum {d x} : InClass (.func .sum d x) L!"Sum"
  | concat {x} : InClass (.concat x) L!"Concat"
  | groupConcat {x o s} : InClass (.groupConcat x o s) L!"GroupConcat"
  | convert {x t} : InClass (.convert x t) L!"Convert"
  | isThere {x} : InClass (.exists_ x) L!"Exists"
  | select {q} : InClass (.select q) L!"Select"
  | union {a b k} : InClass (.union a b k) L!"Union"
  | insert {q} : InClass (.insert q) L!"Insert"
  | update {q} : InClass (.update q) L!"Update"
  | delete {q} : InClass (.delete q) L!"Delete"

end SqlPuzzle.Spec
