import Verif.Spec.Parts

/-!
Objects as the library's own constructors build them.
-/

namespace SqlPuzzle.Spec
open SqlPuzzle

/-- What stands in a list of conditions beside conditions proper is an SQL object. -/
def SqlItems (ps : List Cond) : Prop := ∀ o, CondPart.item o ∈ ps → o.isSql = true

/-- What stands in a list of assignments beside assignments proper is an SQL object. -/
def SqlValues (vs : List Value) : Prop := ∀ o, ValuePart.item o ∈ vs → o.isSql = true

/-- The same for the `ON` conditions of every join. -/
def SqlJoins (ts : List Table) : Prop := ∀ t ∈ ts, ∀ j ∈ t.joins, SqlItems j.ons

/-- Every value of the row is given for a column named by a string. -/
def NamedRow (row : List Value) : Prop := ∀ v ∈ row, ∃ c x, v = .value (.str c) x

/-- The object itself, apart from what is inside: no set or dictionary; operands of `&`, `|` and of
unions are SQL objects; the rows of an insert name their columns. -/
def RegularHere : Obj → Prop
  | .set _ | .frozenset _ | .dict _ => False
  | .conds ps | .not_ ps => SqlItems ps
  | .cofc l r _ => l.isSql = true ∧ r.isSql = true
  | .union a b _ => a.isSql = true ∧ b.isSql = true
  | .select q => SqlJoins q.tables ∧ SqlItems q.where_ ∧ SqlItems q.having
  | .insert q => SqlJoins q.tables ∧ (∀ r ∈ q.rows, NamedRow r) ∧ SqlValues q.onDup ∧
      SqlValues q.onConflict
  | .update q => SqlJoins q.tables ∧ SqlValues q.values ∧ SqlItems q.where_
  | .delete q => SqlJoins q.tables ∧ SqlJoins q.references ∧ SqlItems q.where_
  | _ => True

/-- The object and everything inside it is of the usual form. -/
def Regular (o : Obj) : Prop := Throughout RegularHere o

end SqlPuzzle.Spec
