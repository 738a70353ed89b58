import Verif.Spec.Sources
import Verif.Spec.Groups

/-!
Specification: the columns, tables, keys, values and queries that make up a statement, as a server reads them.

`ref` and `lit` are what the server reads when the library writes a column or table, or a value, on its own.  They are
described by what the library writes, for every object there is: names, numbers, functions, queries and unions.
-/

namespace SqlPuzzle.Spec

/-- `ref o` are the tokens that a server reads when the library writes the column or table `o`. -/
def RefsSeen (cx : Ctx) (d : Dialect) (ref : Obj → List Tok) : Prop :=
  ∀ o n u, (sem cx n).str (.sqlRef o) = .ok u → ref o = lex d u

/-- `lit v` are the tokens that a server reads when the library writes the value `v`. -/
def LiteralsSeen (cx : Ctx) (d : Dialect) (lit : Obj → List Tok) : Prop :=
  ∀ v n u, (sem cx n).str (.sqlValue v) = .ok u → lit v = lex d u

section
variable {V : Type} (src : Sources V) (ref : Obj → List Tok) (holds : Tuple V → Obj → Tri)

/-- `name` or `name AS alias`: `None` and `''` are no alias. -/
def withAlias (name label : Obj) : List Tok :=
  if label.truthy then ref name ++ .word L!"AS" :: ref label else ref name

/-- The rows of a table, which is known by its alias, or by its name if there is none. -/
def tableWritten (name label : Obj) : List (Tuple V) :=
  src.table (ref name) (if label.truthy then ref label else ref name)

/-- A join: all its conditions have to be true. -/
def joinWritten (rows : List (Tuple V)) (j : Join) : List (Tuple V) :=
  src.join (kindSeen j.type) rows (tableWritten src ref j.name j.alias)
    fun row => decide (∀ c ∈ j.ons, holds row (.conds [c]) = .t)

/-- All tables, each with its joins from left to right. -/
def sourcesWritten (ts : List Table) : List (Tuple V) :=
  src.product (ts.map fun t => t.joins.foldl (joinWritten src ref holds) (tableWritten src ref t.name t.alias))

end

section
variable {V : Type} (sort : Sorter V) (gr : Grouper V) (ref : Obj → List Tok) (holds : Tuple V → Obj → Tri)

/-- The columns to be shown. -/
def columnsWritten (cs : List Column) : List (List Tok) :=
  if cs = [] then [[.sym '*']] else cs.map fun c => withAlias ref c.name c.alias

/-- The keys to sort or to group by. -/
def keysWritten (os : List Order) : List (List Tok × Bool) := os.map fun o => (ref o.col, o.desc)

/-- All the conditions are true. -/
def allHold (cs : List Cond) (row : Tuple V) : Bool := decide (∀ c ∈ cs, holds row (.conds [c]) = .t)

/-- The answer to a query whose tables have these rows: the rows in which all conditions of `where` hold are grouped if
there is something to group by, a condition of `having` or an aggregate, and the groups in which all conditions of
`having` hold are kept; what is left is sorted, the columns are shown, equal lines are merged if asked for, and lines are
skipped and counted. -/
def answerWritten (q : Select) (rows : List (Tuple V)) : List (List (Cell V)) :=
  let columns := columnsWritten ref q.columns
  let keys := keysWritten ref q.orderBy
  let rows := rows.filter (allHold holds q.where_)
  let rows :=
    if q.groupBy ≠ [] ∨ q.having ≠ [] ∨ columns.any isAggregate ∨ keys.any (fun k => isAggregate k.1) then
      (gr.group columns (keysWritten ref q.groupBy) rows).filter (allHold holds q.having)
    else rows
  let lines := (sort keys rows).map fun row => columns.map (cellOf row)
  let lines := if q.opts.duplicated = .distinct ∨ q.opts.duplicated = .distinctrow then gr.merge lines else lines
  pageOf (q.limit.limit.map Int.toNat) ((q.limit.offset.map Int.toNat).getD 0) lines

end

/-- A server answers a query between parentheses that stands in the place of a table; `name` makes a table, known by a
label, of the answer. -/
def AnswersInside {V : Type} (sv : Server V) (sort : Sorter V) (gr : Grouper V) (src : Sources V)
    (name : List Tok → Option (List (List (Cell V))) → List (Tuple V)) : Prop :=
  ∀ ts label, src.table (.sym '(' :: (ts ++ [.sym ')'])) label =
    name label (groupedAnswer sv sort gr ts (fromRows sv src))

/-- The two sides of an assignment `column = value`. -/
def assignmentWritten (ref lit : Obj → List Tok) : Value → List (List Tok)
  | .value c v => [ref c, lit v]
  | .item _ => []

/-- The assignments of an UPDATE: the column, and the value of what is written for the value. -/
def assignmentsWritten {V : Type} (sv : Server V) (ref lit : Obj → List Tok) (vs : List Value) : List (List Tok × V) :=
  vs.filterMap fun
    | .value c v => some (ref c, sv.literal (lit v))
    | .item _ => none

/-- The words and signs between the two sides of a comparison. -/
def relationWords : Rel → List Tok
  | .eq => [.op L!"="]
  | .ne => [.op L!"!="]
  | .gt => [.op L!">"]
  | .ge => [.op L!">="]
  | .lt => [.op L!"<"]
  | .le => [.op L!"<="]
  | .like => [.word L!"LIKE"]
  | .notLike => [.word L!"NOT", .word L!"LIKE"]
  | .regexp => [.word L!"REGEXP"]
  | .in_ => [.word L!"IN"]
  | .notIn => [.word L!"NOT", .word L!"IN"]
  | .is => [.word L!"IS"]
  | .isNot => [.word L!"IS", .word L!"NOT"]

/-- A query between parentheses. -/
def enclosed (ts : List Tok) : List Tok := .sym '(' :: (ts ++ [.sym ')'])

end SqlPuzzle.Spec
