import Verif.Spec.Accumulate

/-!
Specification: the conditions that calls of `where` and `having` give, whatever they are made of.
-/

namespace SqlPuzzle.Spec

/-- The conditions that the arguments of a call of `where` or `having` give: a single SQL object, several `Q` objects, or
pairs of a column and a value in any notation.  Arguments of which the library drops some (keyword arguments beside `Q`
objects or beside a dictionary, C18) are left out. -/
inductive GivesConditions : Args → List Cond → Prop
  | object {o : Obj} : o.isSql = true → GivesConditions { pos := [o] } [.item o]
  | objects {o o' : Obj} {os : List Obj} : (∀ x ∈ o :: o' :: os, IsCondition x) →
      GivesConditions { pos := o :: o' :: os } ((o :: o' :: os).map .item)
  | pairs {a : Args} {ps : List (Obj × Obj)} : GivesPairs a ps → (a.pos ≠ [] → ∃ x ∈ a.pos, ¬IsCondition x) →
      (∀ kvs, a.pos = [.dict kvs] → a.kw = []) → GivesConditions a (ps.map fun p => condOf p.1 p.2)

/-- The conditions that a call on a SELECT gives to its WHERE clause. -/
def WhereGives : SelectOp → List Cond → Prop
  | .where_ a, cs => GivesConditions a cs
  | _, cs => cs = []

/-- The conditions that a call on a SELECT gives to its HAVING clause. -/
def HavingGives : SelectOp → List Cond → Prop
  | .having a, cs => GivesConditions a cs
  | _, cs => cs = []

/-- The conditions that a call on an UPDATE gives to its WHERE clause. -/
def UpdateGives : UpdateOp → List Cond → Prop
  | .where_ a, cs => GivesConditions a cs
  | _, cs => cs = []

/-- The conditions that a call on a DELETE gives to its WHERE clause. -/
def DeleteGives : DeleteOp → List Cond → Prop
  | .where_ a, cs => GivesConditions a cs
  | _, cs => cs = []

/-- No call of the history raises. -/
def NoneRaise {σ ω : Type} (step : σ → ω → Upd σ) (s : σ) (ops : List ω) : Prop :=
  ∀ before op after, ops = before ++ op :: after → (step (runOps step s before) op).2 = none

/-- Conditions among those given that the library takes for equal (`==`) are true of the same rows. -/
def EqualsAgree {R : Type} (cx : Ctx) (n : Nat) (holds : R → Obj → Tri) (given : List Cond) : Prop :=
  ∀ c ∈ given, ∀ c' ∈ given, (sem cx (n + 1)).eq (.conds [c]) (.conds [c']) = .ok true →
    ∀ row, holds row (.conds [c]) = holds row (.conds [c'])

end SqlPuzzle.Spec
