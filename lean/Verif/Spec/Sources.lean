import Verif.Spec.Answers
import Verif.Spec.JoinHistory

/-!
Specification: how a server combines the tables of a statement.

The first part reads the tokens after `FROM` (or `UPDATE`) and mentions nothing of the library.  The second part
says which tables, joins and conditions were asked for on the Python side.
-/

namespace SqlPuzzle.Spec

/-! ### The server -/

/-- What a server does with tables: the rows of a table known by a label, the rows of a join of a kind under a
condition, and the rows of several items of a list.  It may be anything. -/
structure Sources (V : Type) where
  table : (name label : List Tok) → List (Tuple V)
  join : (kind : List Tok) → List (Tuple V) → List (Tuple V) → (Tuple V → Bool) → List (Tuple V)
  product : List (List (Tuple V)) → List (Tuple V)

section
variable {V : Type} (sv : Server V) (src : Sources V)

/-- `name` or `name AS label`. -/
def tableRows (ts : List Tok) : List (Tuple V) :=
  match pieces (.word L!"AS") ts with
  | [n, a] => src.table n a
  | _ => src.table ts ts

/-- What stands before `JOIN`, and the kind of the join, which is its last word if that is `LEFT`, `RIGHT` or
`FULL`. -/
def cutKind (ts : List Tok) : List Tok × List Tok :=
  if ts.getLast? ∈ [some (.word L!"LEFT"), some (.word L!"RIGHT"), some (.word L!"FULL")] then
    (ts.dropLast, ts.getLast?.toList)
  else (ts, [])

/-- `table [ON condition]` after each `JOIN`; without condition every pair of rows is joined. -/
def joinRows (rows : List (Tuple V)) (kind : List Tok) : List (List Tok) → List (Tuple V)
  | [] => rows
  | p :: ps =>
    match pieces (.word L!"ON") (cutKind p).1 with
    | [t, c] => joinRows (src.join kind rows (tableRows src t) fun row => truth (sv.predicate row) c = .t)
        (cutKind p).2 ps
    | _ => joinRows (src.join kind rows (tableRows src (cutKind p).1) fun _ => true) (cutKind p).2 ps

/-- `table [kind] JOIN table [ON condition] …`, from left to right. -/
def itemRows (ts : List Tok) : List (Tuple V) :=
  match pieces (.word L!"JOIN") ts with
  | [] => []
  | p :: ps => joinRows sv src (tableRows src (cutKind p).1) (cutKind p).2 ps

/-- The rows of the items separated by commas. -/
def fromRows (ts : List Tok) : List (Tuple V) := src.product ((pieces (.sym ',') ts).map (itemRows sv src))

end

/-! ### What was asked for -/

/-- The joins of the events, in order; each with all conditions given after it and before the next one. -/
def joinsAsked : List TableEvent → List Join
  | [] => []
  | .join ty n al :: es => ⟨ty, n, al, onsUntilJoin es⟩ :: joinsAsked es
  | _ :: es => joinsAsked es

/-- The tables of the events, in order; each with the joins given after it and before the next table. -/
def tablesAsked : List TableEvent → List Table
  | [] => []
  | .tables ps :: es => givenTogether ps (joinsAsked (untilTable es)) ++ tablesAsked es
  | _ :: es => tablesAsked es

/-- The kind of a join. -/
def kindSeen : JoinType → List Tok
  | .inner => []
  | .left => [.word L!"LEFT"]
  | .right => [.word L!"RIGHT"]
  | .full => [.word L!"FULL"]

section
variable {V : Type} (src : Sources V) (column : Str → List Tok) (holds : Tuple V → Obj → Tri)

/-- A table is known by its alias, or by its name if there is none. -/
def tableSeen (name : Obj) : Obj → List (Tuple V)
  | .str (c :: cs) => src.table (seenName column name) (column (c :: cs))
  | _ => src.table (seenName column name) (seenName column name)

/-- A join: all its conditions have to be true. -/
def joinSeen (rows : List (Tuple V)) (j : Join) : List (Tuple V) :=
  src.join (kindSeen j.type) rows (tableSeen src column j.name j.alias)
    fun row => decide (∀ c ∈ j.ons, holds row (.conds [c]) = .t)

/-- A table with its joins, from left to right. -/
def sourceSeen (t : Table) : List (Tuple V) :=
  t.joins.foldl (joinSeen src column holds) (tableSeen src column t.name t.alias)

/-- All tables with their joins. -/
def sourcesSeen (ts : List Table) : List (Tuple V) := src.product (ts.map (sourceSeen src column holds))

end

/-- The server does not tell a comparison of two columns from its mirror image: `a = b` is as true as `b = a`, `a < b`
as `b > a`. -/
def MirrorsAgree {V : Type} (sv : Server V) : Prop :=
  ∀ row (a b : List Str),
    sv.predicate row (refToks a ++ .op L!"=" :: refToks b) = sv.predicate row (refToks b ++ .op L!"=" :: refToks a) ∧
    sv.predicate row (refToks a ++ .op L!"!=" :: refToks b) = sv.predicate row (refToks b ++ .op L!"!=" :: refToks a) ∧
    sv.predicate row (refToks a ++ .op L!"<" :: refToks b) = sv.predicate row (refToks b ++ .op L!">" :: refToks a) ∧
    sv.predicate row (refToks a ++ .op L!"<=" :: refToks b) = sv.predicate row (refToks b ++ .op L!">=" :: refToks a)

end SqlPuzzle.Spec
