import Verif.Spec.Sources

/-!
Specification: what an UPDATE or a DELETE of several tables tells the server to change.

The first part reads the tokens of a statement and mentions nothing of the library.  The second part says which
assignments and tables of the Python side the server sees.
-/

namespace SqlPuzzle.Spec

/-! ### The server -/

section
variable {V : Type} (sv : Server V) (src : Sources V)

/-- The assignments `column = value` of an UPDATE, from left to right. -/
def assignmentsOf (ts : List Tok) : List (List Tok × V) :=
  (pieces (.sym ',') (clauseBody updateClauses L!"SET" ts)).filterMap fun p =>
    match pieces (.op L!"=") p with
    | [c, v] => some (c, sv.literal v)
    | _ => none

/-- The combined rows of the tables of an UPDATE that its `WHERE` clause chooses. -/
def rowsUpdated (ts : List Tok) : List (Tuple V) :=
  (fromRows sv src (updatedTable ts)).filter (chooses sv updateClauses ts)

/-- The combined rows of the tables after `FROM` of a DELETE that its `WHERE` clause chooses. -/
def rowsDeleted (ts : List Tok) : List (Tuple V) :=
  (fromRows sv src (clauseBody deleteClauses L!"FROM" ts)).filter (chooses sv deleteClauses ts)

/-- What stands after the word `IGNORE`, if that comes first. -/
def afterIgnore : List Tok → List Tok
  | .word w :: r => if w = L!"IGNORE" then r else .word w :: r
  | r => r

/-- The tables between `DELETE [IGNORE]` and `FROM`: those whose rows are to be deleted.  None may be named if only
one table stands after `FROM`. -/
def targetTables (ts : List Tok) : List (List Tok) :=
  if afterIgnore (clauseBody deleteClauses L!"DELETE" ts) = [] then []
  else pieces (.sym ',') (afterIgnore (clauseBody deleteClauses L!"DELETE" ts))

/-- What a server does with the combined rows chosen: how it carries the assignments out, and how it finds the rows of
the tables named.  It may be anything. -/
structure Changer (V : Type) where
  update : List (Tuple V) → List (List Tok × V) → Database V → Database V
  delete : List (Tuple V) → List (List Tok) → Database V → Database V

variable (ch : Changer V)

/-- `UPDATE [IGNORE] tables SET column = value, … [WHERE condition]`. -/
def carryOutUpdates (ts : List Tok) : Database V → Database V :=
  ch.update (rowsUpdated sv src ts) (assignmentsOf sv ts)

/-- `DELETE [IGNORE] [tables] FROM tables [WHERE condition]`. -/
def carryOutDeletes (ts : List Tok) : Database V → Database V :=
  ch.delete (rowsDeleted sv src ts) (targetTables ts)

end

/-! ### What was asked for -/

/-- The tables that a call on a DELETE names as those whose rows are to be deleted. -/
def TargetNames : DeleteOp → List (Obj × Obj) → Prop
  | .delete ts, ps => GivesNames { pos := ts } ps ∧ ts ≠ [.dict []]
  | _, ps => ps = []

/-- A table given by its name alone. -/
def NamedTable (p : Obj × Obj) : Prop := ∃ s, s ≠ [] ∧ p = (.str s, .none)

section
variable {V : Type} (src : Sources V) (column : Str → List Tok) (value : Obj → V) (holds : Tuple V → Obj → Tri)

/-- The assignment that the server sees of a column name and a value. -/
def assignmentSeen (p : Obj × Obj) : List Tok × V := (seenName column p.1, value p.2)

/-- The combined rows, of the tables and joins asked for, in which all conditions given are true. -/
def rowsAsked (es : List TableEvent) (conds : List (Obj × Obj)) : List (Tuple V) :=
  (sourcesSeen src column holds (tablesAsked es)).filter fun row =>
    decide (∀ p ∈ conds, holds row (.conds [condOf p.1 p.2]) = .t)

end

end SqlPuzzle.Spec
