import Verif.Spec.Written

/-!
Specification: what an INSERT tells a server.

The first part reads the tokens of a statement and mentions nothing of the library.  The second part says which rows and
assignments the calls on the Python side give.
-/

namespace SqlPuzzle.Spec

/-! ### The server -/

/-- The words that begin the clauses of an INSERT. -/
def insertClauses : List Str := [L!"INTO", L!"VALUES", L!"ON"]

/-- What a server is told: `REPLACE` or `INSERT`, with `IGNORE` or not, the table, the new rows, and the assignments to
make instead if a row with the same key is there. -/
structure InsertOrder (V : Type) where
  replace : Bool
  ignore : Bool
  table : List Tok
  rows : List (Tuple V)
  updates : List (List Tok × V)

section
variable {V : Type} (sv : Server V)

/-- An assignment `column = value`. -/
def readAssignment (ts : List Tok) : Option (List Tok × V) :=
  match pieces (.op L!"=") ts with
  | [c, v] => some (c, sv.literal v)
  | _ => none

/-- `DUPLICATE KEY UPDATE column = value, …`. -/
def readUpdates (ts : List Tok) : List (List Tok × V) :=
  if ts.take 3 = [.word L!"DUPLICATE", .word L!"KEY", .word L!"UPDATE"] then
    (pieces (.sym ',') (ts.drop 3)).filterMap (readAssignment sv)
  else []

/-- The columns between the parentheses after the table. -/
def readColumns (ts : List Tok) : List (List Tok) :=
  pieces (.sym ',') ((inside (ts.dropWhile fun t => !(t = .sym '(' : Bool))).getD [])

/-- `INSERT|REPLACE [IGNORE] INTO table (column, …) VALUES (value, …), … [ON DUPLICATE KEY UPDATE column = value, …]`. -/
def readInsert (ts : List Tok) : InsertOrder V where
  replace := ts.head? = some (.word L!"REPLACE")
  ignore := ts.tail.head? = some (.word L!"IGNORE")
  table := (clauseBody insertClauses L!"INTO" ts).takeWhile fun t => !(t = .sym '(' : Bool)
  rows := ((pieces (.sym ',') (clauseBody insertClauses L!"VALUES" ts)).filterMap inside).map fun vs =>
    newTuple sv (readColumns (clauseBody insertClauses L!"INTO" ts)) (pieces (.sym ',') vs)
  updates := readUpdates sv (afterAt L!"ON" 0 ts)

/-- The tuple has in every column used in some of the rows the value written for what this row gives (`NULL` if it gives
nothing), and the default in every other column. -/
def TupleWritten (ref lit : Obj → List Tok) (rows : List Row) (row : Row) (tuple : Tuple V) : Prop :=
  (∀ r ∈ rows, ∀ p ∈ r, tuple (ref (.str p.1)) = sv.literal (lit (given row p.1))) ∧
  ∀ x, (∀ r ∈ rows, ∀ p ∈ r, x ≠ ref (.str p.1)) → tuple x = sv.default x

end

/-! ### What was asked for -/

/-- The row that a call on an INSERT gives: a call of `values` in any notation gives one row, with each column once, if all
its values have an allowed type; otherwise it raises and gives none. -/
def RowGiven : InsertOp → List Row → Prop
  | .values a, rs => ∃ row : Row, GivesPairs a (row.map fun p => (.str p.1, p.2)) ∧ (row.map Prod.fst).Nodup ∧
      rs = if ∀ p ∈ row, Fit .setValue p.2 then [row] else []
  | _, rs => rs = []

/-- The last call of `ignore` decides. -/
def ignoreGiven (ops : List InsertOp) : Bool :=
  (ops.filterMap fun
    | .ignore allow => some allow.truthy
    | _ => none).getLast?.getD false

/-- SQLite has no ON DUPLICATE KEY UPDATE: a call of `on_duplicate_key_update` without arguments asks there to replace the
rows that are in the way. -/
def replaceGiven (b : Backend) (ops : List InsertOp) : Bool :=
  b == .sqlite && ops.any fun
    | .onDuplicateKeyUpdate a => a.pos.isEmpty && a.kw.isEmpty
    | _ => false

end SqlPuzzle.Spec
