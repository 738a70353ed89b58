import Verif.Spec.Truth
import Verif.Model.Render
import Verif.Spec.Lexer

/-!
Specification: trees of conditions and their truth values.
-/

namespace SqlPuzzle.Spec

/-- A tree of conditions as the user builds it. -/
inductive CondTree where
  | cond (col : Obj) (k : Rel) (v : Obj)       -- a column, a relation and a value
  | other (o : Obj)                            -- another object used as a condition (`Exists(…)`)
  | all (ts : List CondTree)                   -- `Q(…)` with one or more conditions
  | both (l r : CondTree)                      -- `l & r`
  | either (l r : CondTree)                    -- `l | r`
  | neg (ts : List CondTree)                   -- `Not(…)` with one or more conditions

mutual

/-- The library object of the tree; a condition on its own is `Q(condition)`. -/
def CondTree.obj : CondTree → Obj
  | .cond c k v => .conds [.cond false c k v]
  | .other o => o
  | .all ts => .conds (CondTree.parts ts)
  | .both l r => .cofc l.obj r.obj .and
  | .either l r => .cofc l.obj r.obj .or
  | .neg ts => .not_ (CondTree.parts ts)

/-- The arguments of `Q`, `Not` and `where`. -/
def CondTree.parts : List CondTree → List Cond
  | [] => []
  | t :: ts => (match t with
    | .cond c k v => .cond false c k v
    | t => .item t.obj) :: CondTree.parts ts

end

mutual

/-- Truth value of the tree, from the truth values of its conditions, each written on its own. -/
def CondTree.value (leaf : Obj → Tri) : CondTree → Tri
  | .cond c k v => leaf (.conds [.cond false c k v])
  | .other o => leaf o
  | .all ts => Tri.all (CondTree.values leaf ts)
  | .both l r => (l.value leaf).and (r.value leaf)
  | .either l r => (l.value leaf).or (r.value leaf)
  | .neg ts => (Tri.all (CondTree.values leaf ts)).not

def CondTree.values (leaf : Obj → Tri) : List CondTree → List Tri
  | [] => []
  | t :: ts => t.value leaf :: CondTree.values leaf ts

end

/-- `leaf` gives every object the truth value that the server gives to the text of that object on its
own; `pred` is what the server says of the predicates in the row at hand. -/
def LeafTruth (cx : Ctx) (d : Dialect) (pred : List Tok → Tri) (leaf : Obj → Tri) : Prop :=
  ∀ o n u, (sem cx n).str o = .ok u → leaf o = truth pred (lex d u)

end SqlPuzzle.Spec
