import Verif.Spec.Accepted
import Verif.Spec.Changes

/-!
Specification: which forms of UPDATE and DELETE, and which joins, the databases accept, after their manuals: MySQL 5.7,
PostgreSQL and SQLite (before 3.39, which has `FULL JOIN`).  As in Accepted.lean only what differs between them and what
the library writes is described; nothing is said about `sql`.
-/

namespace SqlPuzzle.Spec

/-- One table, joined with no other. -/
def onlyTable (ts : List Tok) : Bool :=
  ts ≠ [] && (pieces (.sym ',') ts).length == 1 && (pieces (.word L!"JOIN") ts).length == 1

/-- An UPDATE: the word `IGNORE` and updating joined or several tables are of MySQL. -/
def updateAccepted (b : Backend) (ts : List Tok) : Bool :=
  let tables := clauseBody updateClauses L!"UPDATE" ts
  let ignore : Bool := ts.tail.head? = some (.word L!"IGNORE")
  match b with
  | .mysql => afterIgnore tables ≠ []
  | .postgresql | .sqlite => !ignore && onlyTable tables
  | .sql => true

/-- A DELETE: the word `IGNORE` and `DELETE targets FROM tables` are of MySQL; without targets there is one table, in MySQL
without alias. -/
def deleteAccepted (b : Backend) (ts : List Tok) : Bool :=
  let tables := clauseBody deleteClauses L!"FROM" ts
  let ignore : Bool := ts.tail.head? = some (.word L!"IGNORE")
  match b with
  | .mysql => if targetTables ts = [] then onlyTable tables && !tables.contains (.word L!"AS") else tables ≠ []
  | .postgresql | .sqlite => !ignore && targetTables ts = [] && onlyTable tables
  | .sql => true

/-- The kinds of the joins after FROM: nothing, `LEFT`, `RIGHT` or `FULL`. -/
def joinKinds (ts : List Tok) : List (List Tok) :=
  (pieces (.sym ',') ts).flatMap fun item => (pieces (.word L!"JOIN") item).dropLast.map fun p => (cutKind p).2

/-- MySQL and SQLite have no `FULL JOIN`. -/
def joinsAccepted (b : Backend) (ts : List Tok) : Bool :=
  match b with
  | .mysql | .sqlite => !(joinKinds (clauseBody selectClauses L!"FROM" ts)).contains [.word L!"FULL"]
  | _ => true

/-! ### What the calls say -/

/-- What a call on an UPDATE says about `IGNORE`. -/
def updateSaysIgnore : UpdateOp → Option Bool
  | .ignore allow => some allow.truthy
  | _ => none

/-- What a call on a DELETE says about `IGNORE`. -/
def deleteSaysIgnore : DeleteOp → Option Bool
  | .ignore allow => some allow.truthy
  | _ => none

/-- There is one table, and it is not joined with others. -/
def OneTable (ts : List Table) : Prop := ∃ t, ts = [t] ∧ t.joins = []

end SqlPuzzle.Spec
