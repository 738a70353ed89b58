import Verif.Model.Types

/-!
Which argument types the API documents for each position, written as tables over the constructors
of `Obj`.
-/

namespace SqlPuzzle.Spec

/-- Numbers that are not booleans. -/
def isNumber : Obj → Bool
  | .int _ | .float _ | .decimal _ => true
  | _ => false

/-- Calendar values. -/
def isMoment : Obj → Bool
  | .date _ | .datetime _ => true
  | _ => false

/-- Python values a `for` loop accepts. -/
def isIterable : Obj → Bool
  | .list _ | .tuple _ | .set _ | .frozenset _ | .range _ | .gen _ | .str _ | .bytes _
  | .dict _ => true
  | _ => false

/-- Iterables whose default relation is `IN`. -/
def isSequence : Obj → Bool
  | .list _ | .tuple _ | .range _ | .gen _ => true
  | _ => false

/-- The types each relation accepts besides SQL objects. -/
def relationAccepts : Rel → Obj → Bool
  | .eq, v | .ne, v => v.isStr || isNumber v || v.isBool || isMoment v
  | .gt, v | .ge, v | .lt, v | .le, v => v.isStr || isNumber v || isMoment v
  | .like, v | .notLike, v | .regexp, v => v.isStr
  | .in_, v | .notIn, v => isIterable v
  | .is, v | .isNot, v => v.isBool || v.isNone

/-- The relation a bare value gets. -/
def relationFor (v : Obj) : Rel :=
  if isSequence v then .in_ else if v.isNone then .is else .eq

/-- The operator each relation is written with. -/
def wordOfRelation : Rel → Str
  | .eq => L!"="
  | .ne => L!"!="
  | .gt => L!">"
  | .ge => L!">="
  | .lt => L!"<"
  | .le => L!"<="
  | .like => L!"LIKE"
  | .notLike => L!"NOT LIKE"
  | .regexp => L!"REGEXP"
  | .in_ => L!"IN"
  | .notIn => L!"NOT IN"
  | .is => L!"IS"
  | .isNot => L!"IS NOT"

/-- The value the user wrapped with `V()` or `R()`, or the value itself. -/
def unwrap : Obj → Obj
  | .sqlValue v | .sqlRef v => v
  | v => v

/-- The items of a sequence as a list; other values as they are. -/
def listed : Obj → Obj
  | .list xs | .tuple xs | .gen xs => .list xs
  | .range is => .list (is.map .int)
  | v => v

/-- The condition that a column and a value stand for: an explicit relation is kept, otherwise the
type of the value decides. -/
def condOf (col : Obj) : Obj → Cond
  | .rel k w => .cond false col k w
  | v => .cond false col (relationFor (unwrap v)) (listed v)

/-- The join condition that a column and a value stand for. -/
def joinCondOf (col v : Obj) : Cond :=
  match condOf col v with
  | .cond _ c k w => .cond true c k w
  | c => c

/-- `Q(…)` and combinations of them with `&` and `|`. -/
def IsCondition (x : Obj) : Prop := (∃ ps, x = .conds ps) ∨ ∃ l r op, x = .cofc l r op

/-- Positions of arguments in the API. -/
inductive Position where
  | column | alias | table | orderColumn | condColumn | condValue | setColumn
  | setValue | limit | offset | outfile
deriving DecidableEq, Repr

/-- The types accepted at a position besides SQL objects. -/
def positionAccepts : Position → Obj → Bool
  | .column, .str _ | .column, .int _ => true
  | .alias, .str _ | .alias, .none => true
  | .table, .str _ => true
  | .orderColumn, .str _ | .orderColumn, .int _ => true
  | .condColumn, .str _ => true
  | .condValue, v => v.isNone || v.isStr || isNumber v || v.isBool || isSequence v || isMoment v
  | .setColumn, .str _ => true
  | .setValue, .bytes _ => true
  | .setValue, v => v.isNone || v.isStr || isNumber v || v.isBool || isMoment v
  | .limit, .int _ | .limit, .none => true
  | .offset, .int _ | .offset, .none => true
  | .outfile, .str _ => true
  | _, _ => false

/-- An SQL object or a value of an accepted type. -/
def Fit (p : Position) (v : Obj) : Prop := v.isSql = true ∨ positionAccepts p v = true

instance (p : Position) (v : Obj) : Decidable (Fit p v) := by unfold Fit; infer_instance

end SqlPuzzle.Spec
