import Verif.Spec.Unions

/-!
What the text of a union can tell: its selects, and the operators between them.
-/

namespace SqlPuzzle.Spec

/-- The first select of the expression. -/
def UnionTree.first : UnionTree → Select
  | .sel q => q
  | .all l _ => l.first
  | .distinct l _ => l.first

/-- The other selects, each with the operator before it; `true` stands for `UNION ALL`. -/
def UnionTree.others : UnionTree → List (Bool × Select)
  | .sel _ => []
  | .all l r => l.others ++ (true, r.first) :: r.others
  | .distinct l r => l.others ++ (false, r.first) :: r.others

/-- An expression that adds one select after the other, such as `(a | b) & c`. -/
def UnionTree.OneByOne : UnionTree → Prop
  | .sel _ => True
  | .all l r => l.OneByOne ∧ ∃ q, r = .sel q
  | .distinct l r => l.OneByOne ∧ ∃ q, r = .sel q

end SqlPuzzle.Spec
