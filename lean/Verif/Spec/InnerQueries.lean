import Verif.Spec.Written

/-!
Specification: a server that answers the queries which stand in the conditions of another query.
-/

namespace SqlPuzzle.Spec

/-- How a server judges conditions with queries in them, once it has the answer to the query; it may do so as it likes.
`compare row left k answer` is for `left = (query)`, `left IN (query)` and so on, `nonempty` for `EXISTS (query)`. -/
structure Judge (V : Type) where
  compare : Tuple V → List Tok → Rel → Option (List (List (Cell V))) → Tri
  nonempty : Option (List (List (Cell V))) → Tri

/-- A server answers the queries in conditions; `under row` are the tables that a query in a condition finds while the
row is judged, so that it may also ask for the columns of that row. -/
def JudgesInside {V : Type} (sv : Server V) (sort : Sorter V) (gr : Grouper V) (under : Tuple V → Sources V)
    (judge : Judge V) : Prop :=
  (∀ row left k ts, G .expr left → G .select ts → sv.predicate row (left ++ (relationWords k ++ enclosed ts)) =
    judge.compare row left k (groupedAnswer sv sort gr ts (fromRows sv (under row)))) ∧
  ∀ row ts, G .select ts → sv.predicate row (.word L!"EXISTS" :: enclosed ts) =
    judge.nonempty (groupedAnswer sv sort gr ts (fromRows sv (under row)))

/-- Is this a condition with a query in it? -/
def AsksInside (ts : List Tok) : Prop :=
  (∃ left k us, G .expr left ∧ G .select us ∧ ts = left ++ (relationWords k ++ enclosed us)) ∨
  ∃ us, G .select us ∧ ts = .word L!"EXISTS" :: enclosed us

/-- The answer to a query that may ask for the columns of a row of the query around it, from the parts of the query. -/
def answerUnder {V : Type} (cx : Ctx) (sort : Sorter V) (gr : Grouper V) (under : Tuple V → Sources V)
    (ref : Obj → List Tok) (holds : Tuple V → Obj → Tri) (n : Nat) (q : Select) (row : Tuple V) : List (List (Cell V)) :=
  answerWritten sort gr ref holds q
    (sourcesWritten (under row) ref holds (selectStep cx (sem cx n) q .str).1.tables)

end SqlPuzzle.Spec
