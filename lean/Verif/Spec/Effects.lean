import Verif.Spec.Clauses
import Verif.Spec.Truth
import Verif.Spec.CondTree
import Verif.Spec.Assign
import Verif.Spec.Inserts

/-!
Specification: what a server does when it carries out an UPDATE, a DELETE or an INSERT of one table.

The first part reads the tokens of a statement and mentions nothing of the library.  The second part says
which columns, values and conditions of the Python side the server sees.
-/

namespace SqlPuzzle.Spec

/-! ### The server -/

/-- A row: the value of each column.  Columns and tables are told apart by the tokens of their names. -/
abbrev Tuple (V : Type) := List Tok → V

/-- The tables, each with its rows. -/
abbrev Database (V : Type) := List Tok → List (Tuple V)

/-- What a server knows: the values of literals, the truth of a predicate in a row, and the defaults of columns. -/
structure Server (V : Type) where
  literal : List Tok → V
  predicate : Tuple V → List Tok → Tri
  default : List Tok → V

section
variable {V : Type} (sv : Server V)

/-- Does the `WHERE` clause choose the row?  Without one every row is chosen. -/
def chooses (ws : List Str) (ts : List Tok) (row : Tuple V) : Bool :=
  let cond := clauseBody ws L!"WHERE" ts
  cond = [] || truth (sv.predicate row) cond = .t

/-- One assignment `column = value`. -/
def setOnce (row : Tuple V) (ts : List Tok) : Tuple V :=
  match pieces (.op L!"=") ts with
  | [c, v] => fun c' => if c' = c then sv.literal v else row c'
  | _ => row

/-- The name of the table of an UPDATE. -/
def updatedTable (ts : List Tok) : List Tok :=
  match clauseBody updateClauses L!"UPDATE" ts with
  | .word w :: r => if w = L!"IGNORE" then r else .word w :: r
  | r => r

/-- `UPDATE [IGNORE] table SET column = value, … [WHERE condition]`; the assignments are carried out from left to right. -/
def carryOutUpdate (ts : List Tok) (db : Database V) : Database V := fun tb =>
  if tb = updatedTable ts then
    (db tb).map fun row =>
      if chooses sv updateClauses ts row then
        (pieces (.sym ',') (clauseBody updateClauses L!"SET" ts)).foldl (setOnce sv) row
      else row
  else db tb

/-- `DELETE FROM table [WHERE condition]`. -/
def carryOutDelete (ts : List Tok) (db : Database V) : Database V := fun tb =>
  if tb = clauseBody deleteClauses L!"FROM" ts then
    (db tb).filter fun row => !chooses sv deleteClauses ts row
  else db tb

/-- The row with these values in these columns, and the default in every other column. -/
def newTuple : List (List Tok) → List (List Tok) → Tuple V
  | c :: cs, v :: vs => fun c' => if c' = c then sv.literal v else newTuple cs vs c'
  | _, _ => sv.default

/-- `INSERT INTO table (column, …) VALUES (value, …), …`. -/
def carryOutInsert (ts : List Tok) (db : Database V) : Database V := fun tb =>
  let into := afterAt L!"INTO" 0 ts
  if tb = into.takeWhile (fun t => !(t = .sym '(' : Bool)) then
    match into.dropWhile (fun t => !(t = .sym '(' : Bool)) with
    | _ :: rest =>
      match closing 0 rest with
      | some (cols, after) =>
        db tb ++ ((pieces (.sym ',') (afterAt L!"VALUES" 0 after)).filterMap inside).map fun vs =>
          newTuple sv (pieces (.sym ',') cols) (pieces (.sym ',') vs)
      | none => db tb
    | [] => db tb
  else db tb

end

/-! ### What the server sees of the Python side -/

/-- `column c` is the column that the server sees when the library writes the name `c`. -/
def NamesSeen (cx : Ctx) (d : Dialect) (column : Str → List Tok) : Prop :=
  ∀ c n u, (sem cx n).str (.sqlRef (.str c)) = .ok u → column c = lex d u

/-- `value v` is the value that the server sees when the library writes the value `v`. -/
def ValuesSeen {V : Type} (cx : Ctx) (d : Dialect) (sv : Server V) (value : Obj → V) : Prop :=
  ∀ v n u, (sem cx n).str (.sqlValue v) = .ok u → value v = sv.literal (lex d u)

/-- `holds row o` is the truth value of the condition `o` on its own in the row. -/
def ConditionsSeen {V : Type} (cx : Ctx) (d : Dialect) (sv : Server V) (holds : Tuple V → Obj → Tri) : Prop :=
  ∀ row, LeafTruth cx d (sv.predicate row) (holds row)

/-- The calls on an UPDATE that leave its table alone. -/
def KeepsTable : UpdateOp → Prop
  | .table _ | .join _ | .leftJoin _ | .rightJoin _ | .on _ => False
  | _ => True

/-- The calls on a DELETE that leave its table alone. -/
def KeepsFrom : DeleteOp → Prop
  | .allowDeleteAll | .forbidDeleteAll | .where_ _ | .ignore _ | .str => True
  | _ => False

end SqlPuzzle.Spec
