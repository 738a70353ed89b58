import Verif.Spec.Answers
import Verif.Spec.Tidy

/-!
Specification: what a server answers to a SELECT that groups rows, computes aggregates or merges equal rows.

The first part reads the tokens of a statement and mentions nothing of the library.  The second part says
what the server sees of the Python side.
-/

namespace SqlPuzzle.Spec

/-! ### The server -/

/-- How a server groups and merges rows; it may do so as it likes.  `group columns keys rows` has a row for each
group, in which the server finds the values of columns, of aggregates and of labels. -/
structure Grouper (V : Type) where
  group : List (List Tok) → List (List Tok × Bool) → List (Tuple V) → List (Tuple V)
  merge : List (List (Cell V)) → List (List (Cell V))

section
variable {V : Type} (sv : Server V) (sort : Sorter V) (gr : Grouper V)

/-- `GROUP BY key, …`. -/
def groupKeys (ts : List Tok) : List (List Tok × Bool) :=
  match clauseBody selectClauses L!"GROUP" ts with
  | .word w :: r => if w = L!"BY" then (pieces (.sym ',') r).map readKey else []
  | _ => []

/-- `AVG(…)`, `COUNT(…)`, …. -/
def isAggregate : List Tok → Bool
  | .word w :: .sym c :: _ => w ∈ [L!"AVG", L!"COUNT", L!"MAX", L!"MIN", L!"SUM"] && c = '('
  | _ => false

/-- Are the rows grouped?  They are if there is `GROUP BY`, `HAVING` or an aggregate, to be shown or to sort by. -/
def isGrouped (ts : List Tok) : Bool :=
  clauseBody selectClauses L!"GROUP" ts ≠ [] || clauseBody selectClauses L!"HAVING" ts ≠ [] ||
    (selectedColumns ts).any isAggregate || (readKeys ts).any fun k => isAggregate k.1

/-- Does the `HAVING` clause keep the group?  Without one every group is kept. -/
def keepsGroup (ts : List Tok) (row : Tuple V) : Bool :=
  let cond := clauseBody selectClauses L!"HAVING" ts
  cond = [] || truth (sv.predicate row) cond = .t

/-- `DISTINCT` or `DISTINCTROW`. -/
def isMerged (ts : List Tok) : Bool :=
  .word L!"DISTINCT" ∈ optionWords ts || .word L!"DISTINCTROW" ∈ optionWords ts

/-- The answer to a SELECT that does not write to a file. -/
def groupedAnswer (ts : List Tok) (db : Database V) : Option (List (List (Cell V))) :=
  match clauseBody selectClauses L!"INTO" ts, rowNumber L!"LIMIT" ts, rowNumber L!"OFFSET" ts with
  | [], some limit, some offset =>
    let rows := (db (clauseBody selectClauses L!"FROM" ts)).filter (chooses sv selectClauses ts)
    let rows := if isGrouped ts then (gr.group (selectedColumns ts) (groupKeys ts) rows).filter (keepsGroup sv ts)
      else rows
    let answer := (sort (readKeys ts) rows).map fun row => (selectedColumns ts).map (cellOf row)
    some (pageOf limit (offset.getD 0) (if isMerged ts then gr.merge answer else answer))
  | _, _, _ => none

end

/-! ### What the server sees of the Python side -/

def aggregateName : Agg → Str
  | .avg => L!"AVG"
  | .count => L!"COUNT"
  | .max => L!"MAX"
  | .min => L!"MIN"
  | .sum => L!"SUM"

/-- The tokens of a column or of an aggregate of a column. -/
def seenColumn (column : Str → List Tok) : Obj → List Tok
  | .func f distinct (.str s) =>
    .word (aggregateName f) :: .sym '(' :: ((if distinct then [.word L!"DISTINCT"] else []) ++ (column s ++ [.sym ')']))
  | o => seenName column o

/-- A column with an alias, or with none, in the list of columns. -/
def seenShown (column : Str → List Tok) : Obj × Obj → List Tok
  | (c, .none) => seenColumn column c
  | (c, a) => seenColumn column c ++ (.word L!"AS" :: seenName column a)

/-- The value of the column or aggregate under the alias, or under its own name. -/
def cellShown {V : Type} (column : Str → List Tok) (row : Tuple V) : Obj × Obj → Cell V
  | (c, .none) => .named (seenColumn column c) (row (seenColumn column c))
  | (c, a) => .named (seenName column a) (row (seenColumn column c))

/-- A column given by a name that is not all columns and has no parenthesis, or an aggregate of `*` or of a column
with a name that can be written in one way only; and an alias that is a name, or none. -/
def AnswerColumn (q : Char) (column : Str → List Tok) (p : Obj × Obj) : Prop :=
  ((∃ c, p.1 = .str c ∧ '(' ∉ c ∧ (column c).getLast? ≠ some (.sym '*')) ∨ TidyAggregate q p.1) ∧
  (p.2 = .none ∨ ∃ a, p.2 = .str a ∧ a ≠ [] ∧ (column a).getLast? ≠ some (.sym '*'))

/-- A condition on groups: a column given by a name without a parenthesis, or an aggregate of `*` or of a column with a
name that can be written in one way only, is compared with a value. -/
def GroupCond (q : Char) (p : Obj × Obj) : Prop :=
  ((∃ c, p.1 = .str c ∧ '(' ∉ c) ∨ TidyAggregate q p.1) ∧ ExactOperand p.2

/-- The uses that a call on a SELECT gives to ORDER BY: columns given by names without a parenthesis, and aggregates of
`*` or of columns with names that can be written in one way only. -/
def OrderKeys (cx : Ctx) : SelectOp → List Use → Prop
  | .orderBy a, us => ∃ ps, GivesNames a ps ∧ List.Forall₂ (fun p (u : Use) =>
      ((∃ s, p.1 = .str s ∧ '(' ∉ s) ∨ TidyAggregate cx.backend.quote p.1) ∧ u.1 = p.1 ∧
        SortDirection cx p.2 u.2) ps us
  | _, us => us = []

/-- Is this an aggregate? -/
def computes : Obj → Bool
  | .func .. => true
  | _ => false

/-- What a call says about merging: `distinct` and `distinctrow` turn it on or off, `all` turns it off. -/
def saysMerge : SelectOp → Option Bool
  | .option .distinct allow | .option .distinctrow allow => some allow.truthy
  | .option .all _ => some false
  | _ => none

/-- The calls on a SELECT that do not write to a file. -/
def NoFile : SelectOp → Prop
  | .outfile .file _ => False
  | _ => True

/-- The answer that the calls ask for: of the rows of the sources those in which all conditions are true; if something
was grouped, a row for each group, of these the ones in which all conditions of `having` are true; sorted; of each
row the columns asked for; merged if that was asked for; of these the page asked for. -/
def answerAsked {V : Type} (sort : Sorter V) (gr : Grouper V) (column : Str → List Tok)
    (holds : Tuple V → Obj → Tri) (shown : List (Obj × Obj)) (keys groups : List Use) (conds havings : List (Obj × Obj))
    (merged : Bool) (limit offset : Option Int) (source : List (Tuple V)) : List (List (Cell V)) :=
  let all := fun (ps : List (Obj × Obj)) (row : Tuple V) =>
    decide (∀ p ∈ ps, holds row (.conds [condOf p.1 p.2]) = .t)
  let key := fun k : Use => (seenColumn column k.1, k.2)
  let columns := if shown = [] then [[.sym '*']] else shown.map (seenShown column)
  let rows := source.filter (all conds)
  let rows := if !groups.isEmpty || !havings.isEmpty || (shown.any fun p => computes p.1) || keys.any fun k => computes k.1
    then (gr.group columns (groups.map key) rows).filter (all havings) else rows
  let answer := (sort (keys.map key) rows).map fun row =>
    if shown = [] then [.whole row] else shown.map (cellShown column row)
  pageOf (limit.map Int.toNat) ((offset.map Int.toNat).getD 0) (if merged then gr.merge answer else answer)

end SqlPuzzle.Spec
