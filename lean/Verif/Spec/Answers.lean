import Verif.Spec.Effects
import Verif.Spec.Numeral
import Verif.Spec.Settings
import Verif.Spec.Accumulate

/-!
Specification: what a server answers to a SELECT of one table.

The first part reads the tokens of a statement and mentions nothing of the library.  The second part says
what the server sees of the Python side.
-/

namespace SqlPuzzle.Spec

/-! ### The server -/

/-- What a row of an answer is made of: a whole row of the table, or a value under a label. -/
inductive Cell (V : Type) where
  | whole (row : Tuple V)
  | named (label : List Tok) (value : V)

/-- Sorting of rows by keys: the column, and whether the direction is descending.  A server may sort as it likes,
by any collation and with any order of equal rows. -/
abbrev Sorter (V : Type) := List (List Tok × Bool) → List (Tuple V) → List (Tuple V)

section
variable {V : Type} (sv : Server V) (sort : Sorter V)

/-- The words after `SELECT`. -/
def optionWords (ts : List Tok) : List Tok :=
  (clauseBody selectClauses L!"SELECT" ts).takeWhile fun t => decide (∃ w ∈ selectWords, t = .word w)

/-- The columns of a SELECT, separated by commas. -/
def selectedColumns (ts : List Tok) : List (List Tok) :=
  pieces (.sym ',') ((clauseBody selectClauses L!"SELECT" ts).dropWhile fun t =>
    decide (∃ w ∈ selectWords, t = .word w))

/-- `*`, `column` or `column AS label`. -/
def cellOf (row : Tuple V) (ts : List Tok) : Cell V :=
  if ts.getLast? = some (.sym '*') then .whole row
  else match pieces (.word L!"AS") ts with
    | [c, a] => .named a (row c)
    | _ => .named ts (row ts)

/-- `column` or `column DESC`. -/
def readKey (ts : List Tok) : List Tok × Bool :=
  if ts.getLast? = some (.word L!"DESC") then (ts.dropLast, true) else (ts, false)

/-- `ORDER BY key, …`. -/
def readKeys (ts : List Tok) : List (List Tok × Bool) :=
  match clauseBody selectClauses L!"ORDER" ts with
  | .word w :: r => if w = L!"BY" then (pieces (.sym ',') r).map readKey else []
  | _ => []

/-- The number after `LIMIT` or `OFFSET`, if the clause is there; no number is an error. -/
def rowNumber (w : Str) (ts : List Tok) : Option (Option Nat) :=
  match clauseBody selectClauses w ts with
  | [] => some none
  | [.num s] => (readNat s).map some
  | _ => none

/-- `offset` rows are skipped, then at most `limit` are taken. -/
def pageOf {α : Type} (limit : Option Nat) (offset : Nat) (rows : List α) : List α :=
  match limit with
  | some l => (rows.drop offset).take l
  | none => rows.drop offset

/-- The statements this specification describes: no grouping, no output to a file, no `DISTINCT`. -/
def isPlain (ts : List Tok) : Bool :=
  clauseBody selectClauses L!"GROUP" ts = [] && clauseBody selectClauses L!"HAVING" ts = [] &&
  clauseBody selectClauses L!"INTO" ts = [] && !(.word L!"DISTINCT" ∈ optionWords ts) &&
  !(.word L!"DISTINCTROW" ∈ optionWords ts)

/-- The answer to `SELECT columns FROM table [WHERE …] [ORDER BY …] [LIMIT …] [OFFSET …]`. -/
def answerOf (ts : List Tok) (db : Database V) : Option (List (List (Cell V))) :=
  match isPlain ts, rowNumber L!"LIMIT" ts, rowNumber L!"OFFSET" ts with
  | true, some limit, some offset =>
    some ((pageOf limit (offset.getD 0) (sort (readKeys ts)
      ((db (clauseBody selectClauses L!"FROM" ts)).filter (chooses sv selectClauses ts)))).map fun row =>
        (selectedColumns ts).map (cellOf row))
  | _, _, _ => none

end

/-! ### What the server sees of the Python side -/

/-- The tokens of a name that the Python side gives. -/
def seenName (column : Str → List Tok) : Obj → List Tok
  | .str s => column s
  | _ => []

/-- A column with an alias, or with none: the value of the column under the alias, or under its own name. -/
def cellSeen {V : Type} (column : Str → List Tok) (row : Tuple V) : Obj × Obj → Cell V
  | (c, .none) => .named (seenName column c) (row (seenName column c))
  | (c, a) => .named (seenName column a) (row (seenName column c))

/-- A column given by name that is not all columns, and an alias that is a name, or none. -/
def NamedColumn (column : Str → List Tok) (p : Obj × Obj) : Prop :=
  (∃ c, p.1 = .str c ∧ (column c).getLast? ≠ some (.sym '*')) ∧
  (p.2 = .none ∨ ∃ a, p.2 = .str a ∧ a ≠ [] ∧ (column a).getLast? ≠ some (.sym '*'))

/-- The calls on a SELECT that leave its table alone, and do not group rows, merge them or write them to a file. -/
def KeepsRows : SelectOp → Prop
  | .columns _ | .where_ _ | .orderBy _ | .limit _ _ | .offset _ | .forUpdate _ | .str => True
  | .option k _ => k ≠ .distinct ∧ k ≠ .distinctrow
  | _ => False

/-- The calls on a SELECT that do not group rows, merge them or write them to a file. -/
def KeepsAnswer : SelectOp → Prop
  | .from_ _ | .fromTable .. | .join .. | .on _ => True
  | op => KeepsRows op

end SqlPuzzle.Spec
