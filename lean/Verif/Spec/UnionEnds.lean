import Verif.Spec.Unions

/-!
Specification: unions whose last select has `ORDER BY`, `LIMIT`, …
-/

namespace SqlPuzzle.Spec

/-- The same select without `ORDER BY`, `LIMIT`, `OFFSET`, `INTO OUTFILE` and `FOR UPDATE`. -/
def Select.withoutTail (q : Select) : Select :=
  { q with orderBy := [], limit := { limit := none, offset := none }, outfile := {}, forUpdate := false }

/-- The last select of the expression. -/
def UnionTree.last : UnionTree → Select
  | .sel q => q
  | .all _ r => r.last
  | .distinct _ r => r.last

/-- All selects but the last are without `ORDER BY`, `LIMIT`, … -/
def UnionTree.OnlyLastTail : UnionTree → Prop
  | .sel _ => True
  | .all l r => l.NoTail ∧ r.OnlyLastTail
  | .distinct l r => l.NoTail ∧ r.OnlyLastTail

/-- The same expression, its last select without `ORDER BY`, `LIMIT`, … -/
def UnionTree.withoutTail : UnionTree → UnionTree
  | .sel q => .sel (Select.withoutTail q)
  | .all l r => .all l r.withoutTail
  | .distinct l r => .distinct l r.withoutTail

/-- What a query ends with: everything from the first `ORDER`, `LIMIT`, … outside of parentheses. -/
def endOf (ts : List Tok) : List Tok := ts.drop (beforeAt tailWords 0 ts).length

/-- The databases accept a query only if no `UNION` outside of parentheses follows an `ORDER BY`, `LIMIT`,
`INTO OUTFILE` or `FOR UPDATE`: these clauses stand behind the last select. -/
def unionAccepted (ts : List Tok) : Prop := clausesAt [L!"UNION"] 0 (endOf ts) = []

end SqlPuzzle.Spec
