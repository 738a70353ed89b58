import Verif.Spec.Truth
import Verif.Spec.Clauses
import Verif.Model.Render

/-!
Specification: bags of rows, how a server reads a union, and expressions of unions.
-/

namespace SqlPuzzle.Spec

/-- A bag of rows: how often each row occurs. -/
abbrev Bag (Row : Type) : Type := Row → Nat

section
variable {Row : Type}

/-- `UNION ALL`: all rows of both. -/
def Bag.addAll (a b : Bag Row) : Bag Row := fun r => a r + b r

/-- `UNION`: the rows of both, each once. -/
def Bag.addDistinct (a b : Bag Row) : Bag Row := fun r => min 1 (a r + b r)

/-- Words that begin the clauses which belong to a whole union. -/
def tailWords : List Str := [L!"ORDER", L!"LIMIT", L!"OFFSET", L!"INTO", L!"FOR"]

/-- Connect the next query: what stands between two `UNION` begins with `ALL` or not. -/
def nextQuery (sel : List Tok → Bag Row) (b : Bag Row) (ts : List Tok) : Bag Row :=
  if ts.head? = some (.word L!"ALL") then b.addAll (sel ts.tail) else b.addDistinct (sel ts)

/-- The bag of a query: the selects between the words `UNION` from left to right, `sel` gives the bag
of each; then `cut` gives the effect of the final `ORDER BY`, `LIMIT`, … -/
def bagOf (sel : List Tok → Bag Row) (cut : List Tok → Bag Row → Bag Row) (ts : List Tok) : Bag Row :=
  cut (ts.drop (beforeAt tailWords 0 ts).length)
    (match pieces (.word L!"UNION") (beforeAt tailWords 0 ts) with
    | [] => fun _ => 0
    | q :: qs => qs.foldl (nextQuery sel) (sel q))

/-- An expression of selects, `&` and `|`. -/
inductive UnionTree where
  | sel (q : Select)
  | all (l r : UnionTree)           -- `l & r`
  | distinct (l r : UnionTree)      -- `l | r`

/-- The library object of the expression. -/
def UnionTree.obj : UnionTree → Obj
  | .sel q => .select q
  | .all l r => .union l.obj r.obj true
  | .distinct l r => .union l.obj r.obj false

/-- The bag of the expression, from the bags of its selects. -/
def UnionTree.bag (leaf : Obj → Bag Row) : UnionTree → Bag Row
  | .sel q => leaf (.select q)
  | .all l r => (l.bag leaf).addAll (r.bag leaf)
  | .distinct l r => (l.bag leaf).addDistinct (r.bag leaf)

/-- `leaf` gives every object the bag that the server gives to the text of that object on its own. -/
def LeafBag (cx : Ctx) (d : Dialect) (sel : List Tok → Bag Row) (cut : List Tok → Bag Row → Bag Row)
    (leaf : Obj → Bag Row) : Prop :=
  ∀ o n u, (sem cx n).str o = .ok u → leaf o = bagOf sel cut (lex d u)

end

/-- Select without a clause that would belong to the whole union. -/
def Select.NoTail (q : Select) : Prop :=
  q.orderBy = [] ∧ q.limit.limit = none ∧ q.limit.offset = none ∧ q.outfile.file = none ∧
    q.forUpdate = false

/-- All selects of the expression are without such clauses. -/
def UnionTree.NoTail : UnionTree → Prop
  | .sel q => Select.NoTail q
  | .all l r => l.NoTail ∧ r.NoTail
  | .distinct l r => l.NoTail ∧ r.NoTail

/-- Is the expression made with `&` only? -/
def UnionTree.onlyAll : UnionTree → Bool
  | .sel _ => true
  | .all l r => l.onlyAll && r.onlyAll
  | .distinct _ _ => false

/-- Is the expression a select, or is the last operator in its text a `UNION` without `ALL`? -/
def UnionTree.endsDistinct : UnionTree → Bool
  | .sel _ => true
  | .all _ (.sel _) => false
  | .all _ r => r.endsDistinct
  | .distinct _ r => r.endsDistinct

/-- Expressions that need no parentheses: the right operand of `&` is made with `&` only; the right
operand of `|` is a select or ends with `|`. -/
def UnionTree.Regular : UnionTree → Prop
  | .sel _ => True
  | .all l r => l.Regular ∧ r.onlyAll = true
  | .distinct _ r => r.endsDistinct = true

/-- The selects of the expression, from left to right. -/
def UnionTree.selects : UnionTree → List Select
  | .sel q => [q]
  | .all l r => l.selects ++ r.selects
  | .distinct l r => l.selects ++ r.selects

/-- The server reads different texts of any two of them. -/
def DifferentTexts (cx : Ctx) (d : Dialect) (qs : List Select) : Prop :=
  qs.Pairwise fun q q' => ∀ n u u', (sem cx n).str (.select q) = .ok u → (sem cx n).str (.select q') = .ok u' →
    lex d u ≠ lex d u'

end SqlPuzzle.Spec
