import Verif.Spec.Entries

/-!
What a multi-row INSERT must contain, in terms of the rows the user gave: each row a list of column
names with values.
-/

namespace SqlPuzzle.Spec

/-- A row as the user gives it. -/
abbrev Row := List (Str × Obj)

/-- The value the user gave for the column in this row (the last one, if given repeatedly), `None` if
they gave none. -/
def given (row : Row) (c : Str) : Obj :=
  match (row.filter fun p => p.1 = c).getLast? with
  | some p => p.2
  | none => .none

/-- `cols` lists exactly the columns used in some row, once each, in ascending order. -/
structure ColumnList (rows : List Row) (cols : List Str) : Prop where
  sorted : cols.Pairwise Before
  used : ∀ c, c ∈ cols ↔ ∃ row ∈ rows, ∃ v, (c, v) ∈ row

end SqlPuzzle.Spec
