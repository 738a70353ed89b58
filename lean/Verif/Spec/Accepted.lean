import Verif.Spec.Answers

/-!
Specification: which clauses of a SELECT and of an INSERT the databases accept, after their manuals: MySQL 5.7,
PostgreSQL and SQLite.  Only what differs between them and what the library writes is described; nothing is said
about `sql`, which is no database.

Everything reads the tokens of a statement and mentions nothing of the library, except the names of the databases.
-/

namespace SqlPuzzle.Spec

/-- `LIMIT n`, `OFFSET n`: MySQL and PostgreSQL want a number without sign, and MySQL and SQLite have `OFFSET` only
after `LIMIT`. -/
def pagingAccepted (b : Backend) (ts : List Tok) : Bool :=
  let limit := clauseBody selectClauses L!"LIMIT" ts
  let offset := clauseBody selectClauses L!"OFFSET" ts
  let numbers := (rowNumber L!"LIMIT" ts).isSome && (rowNumber L!"OFFSET" ts).isSome
  match b with
  | .mysql => numbers && (offset = [] || limit ≠ [])
  | .postgresql => numbers
  | .sqlite => offset = [] || limit ≠ []
  | .sql => true

/-- Where we are in `[FIELDS …] [LINES …]`. -/
inductive Section where
  | none | fields | lines
deriving DecidableEq

/-- Is this an option of the section: `TERMINATED BY 'x'` and `[OPTIONALLY] ENCLOSED BY 'x'` of `FIELDS`,
`TERMINATED BY 'x'` of `LINES`? -/
def optionOf : Section → List Str → Bool
  | .fields, ws => ws = [L!"TERMINATED", L!"BY"] || ws = [L!"OPTIONALLY", L!"ENCLOSED", L!"BY"] ||
      ws = [L!"ENCLOSED", L!"BY"]
  | .lines, ws => ws = [L!"TERMINATED", L!"BY"]
  | .none, _ => false

/-- The rest of `INTO OUTFILE 'file'` in MySQL; `ws` are the words since the beginning of the current option. -/
def exportOptions : Section → List Str → List Tok → Bool
  | _, ws, [] => ws = []
  | s, ws, .word w :: ts =>
    if ws = [] ∧ w = L!"FIELDS" then (s = .none : Bool) && exportOptions .fields [] ts
    else if ws = [] ∧ w = L!"LINES" then (s ≠ .lines : Bool) && exportOptions .lines [] ts
    else exportOptions s (ws ++ [w]) ts
  | s, ws, .str _ :: ts => optionOf s ws && exportOptions s [] ts
  | _, _, _ => false

/-- `INTO OUTFILE 'file' …` is a clause of MySQL only. -/
def exportAccepted (b : Backend) (ts : List Tok) : Bool :=
  match b, clauseBody selectClauses L!"INTO" ts with
  | .sql, _ => true
  | _, [] => true
  | .mysql, .word w :: .str _ :: r => w = L!"OUTFILE" && exportOptions .none [] r
  | _, _ => false

/-- SQLite has no `FOR UPDATE`. -/
def lockAccepted (b : Backend) (ts : List Tok) : Bool :=
  b ≠ .sqlite || clauseBody selectClauses L!"FOR" ts = []

/-- `ALL` and `DISTINCT` are the only options of a SELECT in PostgreSQL and SQLite. -/
def wordsAccepted (b : Backend) (ts : List Tok) : Bool :=
  match b with
  | .postgresql | .sqlite => (optionWords ts).all fun t => t = .word L!"ALL" || t = .word L!"DISTINCT"
  | _ => true

/-- Does the database accept these clauses of a SELECT? -/
def selectAccepted (b : Backend) (ts : List Tok) : Bool :=
  pagingAccepted b ts && exportAccepted b ts && lockAccepted b ts && wordsAccepted b ts

/-- `ON CONFLICT (…) DO UPDATE SET …`, after `CONFLICT`. -/
def conflictAccepted : List Tok → Bool
  | .sym '(' :: ts =>
    match closing 0 ts with
    | some (_, .word a :: .word b :: .word c :: _) => a = L!"DO" && b = L!"UPDATE" && c = L!"SET"
    | _ => false
  | _ => false

/-- Does the database accept this INSERT: the word `IGNORE` is of MySQL, `REPLACE` of MySQL, without `IGNORE` and without
`ON DUPLICATE KEY UPDATE`, and of SQLite; `ON DUPLICATE KEY UPDATE` is of MySQL, `ON CONFLICT` of the others. -/
def insertAccepted (b : Backend) (ts : List Tok) : Bool :=
  let replace : Bool := ts.head? = some (.word L!"REPLACE")
  let ignore : Bool := ts.tail.head? = some (.word L!"IGNORE")
  let duplicate := afterAt L!"DUPLICATE" 0 ts
  let conflict := afterAt L!"CONFLICT" 0 ts
  match b with
  | .mysql => !(replace && (ignore || duplicate ≠ [])) && conflict = []
  | .postgresql => !replace && !ignore && duplicate = [] && (conflict = [] || conflictAccepted conflict)
  | .sqlite => !ignore && duplicate = [] && (conflict = [] || conflictAccepted conflict)
  | .sql => true

/-! ### What the calls say -/

/-- What a call says about `FOR UPDATE`. -/
def saysLock : SelectOp → Option Bool
  | .forUpdate allow => some allow.truthy
  | _ => none

/-- What a call on an INSERT says about `IGNORE`. -/
def saysIgnore : InsertOp → Option Bool
  | .ignore allow => some allow.truthy
  | _ => none

/-- The assignments that a call on an INSERT gives to ON CONFLICT, after the conflicting column. -/
def ConflictPairs : InsertOp → List (Obj × Obj) → Prop
  | .onDuplicateKeyUpdate a, ps => (∃ c rest, a.pos = .str c :: rest ∧ GivesPairs { a with pos := rest } ps)
  | _, ps => ps = []

end SqlPuzzle.Spec
