import Mathlib.Order.Defs.LinearOrder
import Verif.Spec.Joins
import Verif.Spec.Plain

/-!
What a join condition says about a row, and the forms of the arguments of the join calls.
-/

namespace SqlPuzzle.Spec

/-- A join condition on a named column with another column or a plain value. -/
def PlainOn : Cond → Prop
  | .cond true (.str _) _ v => v.plain = true
  | _ => False

/-- Truth of a comparison of two values in three-valued logic; `none` is NULL, and also the unknown
result. -/
def compare3 {V : Type} [LinearOrder V] (k : Rel) (a b : Option V) : Option Bool :=
  match a, b with
  | some a, some b =>
    match k with
    | .eq => some (decide (a = b))
    | .ne => some (decide (a ≠ b))
    | .lt => some (decide (a < b))
    | .le => some (decide (a ≤ b))
    | .gt => some (decide (b < a))
    | .ge => some (decide (b ≤ a))
    | _ => none
  | _, _ => none

/-- Truth of a join condition between two columns in a row. -/
def holdsIn {V : Type} [LinearOrder V] (row : Str → Option V) : Cond → Option Bool
  | .cond _ (.str a) k (.str b) => compare3 k (row a) (row b)
  | _ => none

/-- A join of a named table with plain conditions. -/
def PlainJoin (j : Join) : Prop :=
  j.name.scalar = true ∧ j.alias.scalar = true ∧ ∀ c ∈ j.ons, PlainOn c

/-- The forms of a joined table: a name, or name and alias as list, tuple or dictionary. -/
inductive JoinArg : Obj → Obj → Obj → Prop
  | name (s : Str) : JoinArg (.str s) (.str s) .none
  | list (n a : Obj) : JoinArg (.list [n, a]) n a
  | tuple (n a : Obj) : JoinArg (.tuple [n, a]) n a
  | dict (n a : Obj) : JoinArg (.dict [(n, a)]) n a

/-- What may name a table, and an alias. -/
def NameLike (o : Obj) : Prop := (∃ s, o = .str s) ∨ o.isSql = true

open Classical in
/-- The join occurs once among `js`. -/
def Once (js : List Join) (j : Join) : Prop := (js.filter fun k => decide (SameJoin j k)).length = 1

open Classical in
/-- A table with its joins merged. -/
noncomputable def withMergedJoins (t : Table) : Table :=
  { t with joins := mergedJoins (fun a b => decide (SameJoin a b)) t.joins }

/-- All joins of a table are joins of named tables with plain conditions. -/
def PlainlyJoined (t : Table) : Prop := ∀ j ∈ t.joins, PlainJoin j

end SqlPuzzle.Spec
