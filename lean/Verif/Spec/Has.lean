import Verif.Model.Has
import Verif.Spec.Statement

/-!
What `has()` is meant to answer: whole words in the text of a clause.
-/

namespace SqlPuzzle.Spec

/-- `w` occurs in `t` and no word character touches it. -/
def WholeWord (isWord : Char → Bool) (w t : Str) : Prop :=
  ∃ before after, t = before ++ w ++ after ∧
    (∀ c, before.getLast? = some c → isWord c = false) ∧
    (∀ c, after.head? = some c → isWord c = false)

/-- A word without characters that are special in a regular expression. -/
def Plain (w : Str) : Prop := w ≠ [] ∧ ∀ c ∈ w, c ∉ L!"\\^$.|?*+()[]{}"

/-- What the Unicode tables say about ASCII: the word characters, and the upper-case letters. -/
structure AsciiTables (env : Env) : Prop where
  word : ∀ c : Char, c.toNat < 128 → env.isWord c = (c.isAlphanum || c == '_')
  upper : ∀ s : Str, (∀ c ∈ s, c.toNat < 128) → env.upper s = s.map Char.toUpper

section
variable (cx : Ctx) (n : Nat)

/-- The clauses of a SELECT by the names `has` uses: is the clause there, and what its text is. -/
inductive SelectClause (q : Select) : Str → Prop → (Str → Prop) → Prop
  | columns : SelectClause q L!"columns" True fun t => (q.columns = [] ∧ t = ['*']) ∨
      ∃ ts, q.columns ≠ [] ∧ List.Forall₂ (ColumnText cx n) q.columns ts ∧ t = joinS L!", " ts
  | tables : SelectClause q L!"tables" (q.tables ≠ []) fun t =>
      ListClause L!"FROM " L!", " (TableText cx n) q.tables (some t)
  | where_ : SelectClause q L!"where" (q.where_ ≠ []) fun t =>
      ListClause L!"WHERE " L!" AND " (ConditionText cx n) q.where_ (some t)
  | groupBy : SelectClause q L!"group_by" (q.groupBy ≠ []) fun t =>
      ListClause L!"GROUP BY " L!", " (OrderText cx n) q.groupBy (some t)
  | having : SelectClause q L!"having" (q.having ≠ []) fun t =>
      ListClause L!"HAVING " L!" AND " (ConditionText cx n) q.having (some t)
  | orderBy : SelectClause q L!"order_by" (q.orderBy ≠ []) fun t =>
      ListClause L!"ORDER BY " L!", " (OrderText cx n) q.orderBy (some t)
  | limit : SelectClause q L!"limit" (q.limit.limit ≠ none ∨ q.limit.offset ≠ none) fun t =>
      limitPhrase q.limit.limit q.limit.offset = some t
  | outfile : SelectClause q L!"into_outfile" (q.outfile.file ≠ none) fun t =>
      OutfileClause cx n q.outfile (some t)

/-- The clauses of an UPDATE. -/
inductive UpdateClause (q : Update) : Str → Prop → (Str → Prop) → Prop
  | tables : UpdateClause q L!"tables" (q.tables ≠ []) fun t =>
      ListClause [] L!", " (TableText cx n) q.tables (some t)
  | values : UpdateClause q L!"values" (q.values ≠ []) fun t =>
      ListClause [] L!", " (AssignmentText cx n) q.values (some t)
  | where_ : UpdateClause q L!"where" (q.where_ ≠ []) fun t =>
      ListClause L!"WHERE " L!" AND " (ConditionText cx n) q.where_ (some t)

/-- The clauses of a DELETE. -/
inductive DeleteClause (q : Delete) : Str → Prop → (Str → Prop) → Prop
  | tables : DeleteClause q L!"tables" (q.tables ≠ []) fun t =>
      ListClause [] L!", " (TableText cx n) q.tables (some t)
  | references : DeleteClause q L!"references" (q.references ≠ []) fun t =>
      ListClause [] L!", " (TableText cx n) q.references (some t)
  | where_ : DeleteClause q L!"where" (q.where_ ≠ []) fun t =>
      ListClause L!"WHERE " L!" AND " (ConditionText cx n) q.where_ (some t)

/-- The clauses of an INSERT. -/
inductive InsertClause (q : Insert) : Str → Prop → (Str → Prop) → Prop
  | tables : InsertClause q L!"tables" (q.tables ≠ []) fun t =>
      ListClause [] L!", " (TableText cx n) q.tables (some t)
  | values : InsertClause q L!"values" (q.rows ≠ []) fun t =>
      q.rows ≠ [] ∧ ∃ rs, q.rows = rs.map rowOf ∧ RowsText cx n rs t
  | onDuplicate : InsertClause q L!"on_duplicate_key_update" (q.onDup ≠ []) fun t =>
      ListClause L!"ON DUPLICATE KEY UPDATE " L!", " (AssignmentText cx n) q.onDup (some t)
  | onConflict : InsertClause q L!"on_conflict_do_update" (q.onConflict ≠ []) fun t =>
      ∃ words, ConflictWords cx n q.conflict words ∧
        ListClause words L!", " (AssignmentText cx n) q.onConflict (some t)

end

/-- The select options by the method that sets them, as `has` takes them. -/
def optionMethod : SelOpt → Str
  | .sqlCache => L!"sql_cache"
  | .sqlNoCache => L!"sql_no_cache"
  | .all => L!"all"
  | .distinct => L!"distinct"
  | .distinctrow => L!"distinctrow"
  | .sqlSmallResult => L!"sql_small_result"
  | .sqlBigResult => L!"sql_big_result"
  | .sqlBufferResult => L!"sql_buffer_result"
  | .sqlCalcFoundRows => L!"sql_calc_found_rows"
  | .straightJoin => L!"straight_join"
  | .highPriority => L!"high_priority"

end SqlPuzzle.Spec
