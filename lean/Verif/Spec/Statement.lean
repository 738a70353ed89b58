import Verif.Model.Render
import Verif.Spec.Joins
import Verif.Spec.Names
import Verif.Spec.Settings
import Verif.Spec.Inserts

/-!
What a statement consists of: which text each clause contributes, and how the clauses are put
together.  The texts of the objects inside a clause are given by `str` of these objects: `R(name)`
for a name, `V(value)` for a value, `Q(condition)` for a condition.
-/

namespace SqlPuzzle.Spec

/-- Clauses one after the other, each with a blank before it; a clause that is absent leaves nothing. -/
def assemble (cs : List (Option Str)) : Str := cs.flatMap fun c =>
  match c with
  | none => []
  | some t => ' ' :: t

/-- A clause that lists things: absent if there is nothing to list, otherwise the keyword and the
items with the separator between them. -/
def ListClause {α : Type} (keyword sep : Str) (W : α → Str → Prop) (xs : List α)
    (c : Option Str) : Prop :=
  (xs = [] ∧ c = none) ∨
    (xs ≠ [] ∧ ∃ ts, List.Forall₂ W xs ts ∧ c = some (keyword ++ joinS sep ts))

/-- A word that is there or not. -/
def wordIf (b : Bool) (w : Str) : Option Str := if b then some w else none

section
variable (cx : Ctx) (n : Nat)

/-- A name with or without an alias. -/
def AliasedText (name al : Obj) (t : Str) : Prop :=
  ∃ a, (sem cx (n + 1)).str (.sqlRef name) = .ok a ∧
    ((al.truthy = false ∧ t = a) ∨
      (al.truthy = true ∧ ∃ b, (sem cx (n + 1)).str (.sqlRef al) = .ok b ∧
        t = a ++ L!" AS " ++ b))

/-- A column of the column list. -/
def ColumnText (c : Column) (t : Str) : Prop := AliasedText cx n c.name c.alias t

/-- A column of ORDER BY or GROUP BY. -/
def OrderText (o : Order) (t : Str) : Prop :=
  ∃ a, (sem cx (n + 1)).str (.sqlRef o.col) = .ok a ∧
    t = a ++ (if o.desc then L!" DESC" else [])

/-- A condition. -/
def ConditionText (c : Cond) (t : Str) : Prop := (sem cx (n + 1)).str (.conds [c]) = .ok t

/-- An operand of a combined condition: in brackets if it is a `Q` object with several conditions. -/
def OperandText (o : Obj) (t : Str) : Prop :=
  ((∃ c d ps, o = .conds (c :: d :: ps)) ∧ ∃ u, (sem cx n).str o = .ok u ∧ t = '(' :: (u ++ [')'])) ∨
    ((¬ ∃ c d ps, o = .conds (c :: d :: ps)) ∧ (sem cx n).str o = .ok t)

/-- An assignment, or an SQL object given instead. -/
def AssignmentText : Value → Str → Prop
  | .value col v, t => ∃ a b, (sem cx (n + 1)).str (.sqlRef col) = .ok a ∧
      (sem cx (n + 1)).str (.sqlValue v) = .ok b ∧ t = a ++ L!" = " ++ b
  | .item o, t => (sem cx n).str o = .ok t

/-! Joins. -/

/-- Joins of the same table, under the same alias, with the same conditions. -/
def JoinsAgree (a b : Join) : Prop :=
  (sem cx n).eq a.name b.name = .ok true ∧ (sem cx n).eq a.alias b.alias = .ok true ∧
    (sem cx (n + 1)).eq (.conds a.ons) (.conds b.ons) = .ok true

/-- Joins that are not the same: the first difference is found by `==`. -/
def JoinsDiffer (a b : Join) : Prop :=
  (sem cx n).eq a.name b.name = .ok false ∨
    (sem cx n).eq a.name b.name = .ok true ∧
      ((sem cx n).eq a.alias b.alias = .ok false ∨
        (sem cx n).eq a.alias b.alias = .ok true ∧
          (sem cx (n + 1)).eq (.conds a.ons) (.conds b.ons) = .ok false)

/-- The joins of a table, collected in groups: a join goes to the first group whose first join is
the same; if there is none it starts a new group. -/
inductive Collected : List Join → List (List Join) → Prop
  | nil : Collected [] []
  | new {js : List Join} {gs : List (List Join)} {j : Join} : Collected js gs →
      (∀ h t, h :: t ∈ gs → JoinsDiffer cx n h j) → Collected (js ++ [j]) (gs ++ [[j]])
  | old {js : List Join} {pre post : List (List Join)} {h j : Join} {t : List Join} :
      Collected js (pre ++ (h :: t) :: post) → (∀ h t, h :: t ∈ pre → JoinsDiffer cx n h j) →
      JoinsAgree cx n h j → Collected (js ++ [j]) (pre ++ (h :: (t ++ [j])) :: post)

/-- The joins that are written for the joins of a table: each group is merged. -/
def WrittenJoins (js js' : List Join) : Prop :=
  ∃ gs, Collected cx n js gs ∧ js' = gs.flatMap merged

/-- The words of a join. -/
def wordsOfJoin : JoinType → Str
  | .inner => L!"JOIN"
  | .left => L!"LEFT JOIN"
  | .right => L!"RIGHT JOIN"
  | .full => L!"FULL JOIN"

/-- A join: type, table, conditions if there are any. -/
def JoinText (j : Join) (t : Str) : Prop :=
  ∃ a, AliasedText cx n j.name j.alias a ∧
    ((j.ons = [] ∧ t = wordsOfJoin j.type ++ [' '] ++ a) ∨
      (j.ons ≠ [] ∧ ∃ o, (sem cx (n + 1)).str (.conds j.ons) = .ok o ∧
        t = wordsOfJoin j.type ++ [' '] ++ a ++ L!" ON " ++ o))

/-- A table with its joins. -/
def TableText (tb : Table) (t : Str) : Prop :=
  ∃ a js ts, AliasedText cx n tb.name tb.alias a ∧ WrittenJoins cx n tb.joins js ∧
    List.Forall₂ (JoinText cx n) js ts ∧ t = a ++ (ts.flatMap fun j => ' ' :: j)

/-! SELECT. -/

/-- The phrase for a limit and an offset. -/
def limitPhrase : Option Int → Option Int → Option Str
  | none, none => none
  | some l, none => some (L!"LIMIT " ++ intText l)
  | none, some o => some (L!"OFFSET " ++ intText o)
  | some l, some o => some (L!"LIMIT " ++ intText l ++ L!" OFFSET " ++ intText o)

/-- The words of the options, or nothing if none is on. -/
def optionsPhrase (on : SelOpt → Bool) : Option Str :=
  if SelOpt.sorted.filter on = [] then none
  else some (joinS [' '] ((SelOpt.sorted.filter on).map SelOpt.word))

/-- A phrase of the outfile clause. -/
def OutfilePhrase (keyword : Str) : Option Obj → Str → Prop
  | none, t => t = []
  | some v, t => ∃ a, (sem cx (n + 1)).str (.sqlValue v) = .ok a ∧ t = keyword ++ a

/-- The outfile clause: absent without a file. -/
def OutfileClause (o : Outfile) (c : Option Str) : Prop :=
  (o.file = none ∧ c = none) ∨
  (o.file ≠ none ∧ ∃ a b d e, OutfilePhrase cx n L!"INTO OUTFILE " o.file a ∧
    OutfilePhrase cx n L!" FIELDS TERMINATED BY " o.fields b ∧
    OutfilePhrase cx n L!" LINES TERMINATED BY " o.lines d ∧
    OutfilePhrase cx n L!" OPTIONALLY ENCLOSED BY " o.enclosed e ∧ c = some (a ++ b ++ d ++ e))

/-- The clauses of a SELECT. -/
structure SelectParts where
  options : Option Str
  columns : Str
  from_ : Option Str
  where_ : Option Str
  groupBy : Option Str
  having : Option Str
  orderBy : Option Str
  limit : Option Str
  outfile : Option Str
  forUpdate : Option Str

/-- The clauses put together. -/
def SelectParts.text (p : SelectParts) : Str :=
  L!"SELECT" ++ assemble [p.options, some p.columns, p.from_, p.where_, p.groupBy, p.having,
    p.orderBy, p.limit, p.outfile, p.forUpdate]

/-- The clauses that belong to a query. -/
structure SelectPartsOf (q : Select) (p : SelectParts) : Prop where
  options : p.options = optionsPhrase q.opts.isOn
  columns : (q.columns = [] ∧ p.columns = ['*']) ∨
    ∃ ts, q.columns ≠ [] ∧ List.Forall₂ (ColumnText cx n) q.columns ts ∧ p.columns = joinS L!", " ts
  from_ : ListClause L!"FROM " L!", " (TableText cx n) q.tables p.from_
  where_ : ListClause L!"WHERE " L!" AND " (ConditionText cx n) q.where_ p.where_
  groupBy : ListClause L!"GROUP BY " L!", " (OrderText cx n) q.groupBy p.groupBy
  having : ListClause L!"HAVING " L!" AND " (ConditionText cx n) q.having p.having
  orderBy : ListClause L!"ORDER BY " L!", " (OrderText cx n) q.orderBy p.orderBy
  limit : p.limit = limitPhrase q.limit.limit q.limit.offset
  outfile : OutfileClause cx n q.outfile p.outfile
  forUpdate : p.forUpdate = wordIf q.forUpdate L!"FOR UPDATE"

/-- The text of a SELECT. -/
def SelectStatement (q : Select) (t : Str) : Prop :=
  ∃ p, SelectPartsOf cx n q p ∧ Trimmed isWhite p.text t

/-! UPDATE and DELETE. -/

/-- The text of an UPDATE. -/
def UpdateStatement (q : Update) (t : Str) : Prop :=
  ∃ tables values where_, ListClause [] L!", " (TableText cx n) q.tables tables ∧
    ListClause [] L!", " (AssignmentText cx n) q.values values ∧
    ListClause L!"WHERE " L!" AND " (ConditionText cx n) q.where_ where_ ∧
    Trimmed isWhite (L!"UPDATE" ++ assemble
      [wordIf q.ignore L!"IGNORE", tables, some L!"SET", values, where_]) t

/-- The text of a DELETE. -/
def DeleteStatement (q : Delete) (t : Str) : Prop :=
  ∃ tables references where_, ListClause [] L!", " (TableText cx n) q.tables tables ∧
    ListClause [] L!", " (TableText cx n) q.references references ∧
    ListClause L!"WHERE " L!" AND " (ConditionText cx n) q.where_ where_ ∧
    Trimmed isWhite (L!"DELETE" ++ assemble
      [wordIf q.ignore L!"IGNORE", tables, some L!"FROM", references, where_]) t

/-! INSERT. -/

/-- A parenthesised list. -/
def tupleOf (ts : List Str) : Str := '(' :: (joinS L!", " ts ++ [')'])

/-- The parts of a row: one for each given column. -/
def rowOf (row : Row) : List Value := row.map fun p => .value (.str p.1) p.2

/-- The column list and the rows of an INSERT: every row has a value for every column. -/
def RowsText (rows : List Row) (t : Str) : Prop :=
  ∃ (cols names : List Str) (cells : List (List Str)), ColumnList rows cols ∧
    List.Forall₂ (fun c a => (sem cx (n + 1)).str (.sqlRef (.str c)) = .ok a) cols names ∧
    List.Forall₂ (fun row cs => List.Forall₂ (fun c cell =>
      (sem cx (n + 1)).str (.sqlValue (given row c)) = .ok cell) cols cs) rows cells ∧
    t = tupleOf names ++ L!" VALUES " ++ joinS L!", " (cells.map tupleOf)

/-- The words before the assignments of `ON CONFLICT`. -/
def ConflictWords : Option Str → Str → Prop
  | none, t => t = L!"ON CONFLICT () DO UPDATE "
  | some c, t => ∃ a, (sem cx (n + 1)).str (.sqlRef (.str c)) = .ok a ∧
      t = L!"ON CONFLICT (" ++ a ++ L!") DO UPDATE "

/-- The text of an INSERT or REPLACE. -/
def InsertStatement (q : Insert) (t : Str) : Prop :=
  ∃ tables rows words onConflict onDup, ListClause [] L!", " (TableText cx n) q.tables tables ∧
    ((q.rows = [] ∧ rows = none) ∨ (q.rows ≠ [] ∧ ∃ rs u, q.rows = rs.map rowOf ∧
      RowsText cx n rs u ∧ rows = some u)) ∧
    ListClause L!"ON DUPLICATE KEY UPDATE " L!", " (AssignmentText cx n) q.onDup onDup ∧
    ConflictWords cx n q.conflict words ∧
    ListClause words L!", " (AssignmentText cx n) q.onConflict onConflict ∧
    Trimmed isWhite ((if q.isReplace then L!"REPLACE" else L!"INSERT") ++ assemble
      [wordIf q.ignore L!"IGNORE", some L!"INTO", tables, rows, onDup, onConflict]) t

end

end SqlPuzzle.Spec
