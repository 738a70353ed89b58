import Verif.Model.Queries

/-!
What a call of a method that takes names names.
-/

namespace SqlPuzzle.Spec

open SqlPuzzle

/-- The argument is given alone: it is no list and no tuple. -/
def Alone (x : Obj) : Prop := (∀ xs, x ≠ .list xs) ∧ ∀ xs, x ≠ .tuple xs

/-- `f(*pos, **kw)` names `name` with the alias `as_`.  Keyword arguments beside a dictionary are not
among them. -/
inductive Named (pos : List Obj) (kw : List (Str × Obj)) : (name as_ : Obj) → Prop
  | plain {x} : x ∈ pos → Alone x → (∀ kvs, pos ≠ [.dict kvs]) → Named pos kw x .none
  | single {x} : .tuple [x] ∈ pos ∨ .list [x] ∈ pos → Named pos kw x .none
  | pair {x y} : .tuple [x, y] ∈ pos ∨ .list [x, y] ∈ pos → Named pos kw x y
  | item {kvs k v} : pos = [.dict kvs] → (k, v) ∈ kvs → Named pos kw k v
  | keyword {k v} : (k, v) ∈ kw → (∀ kvs, pos ≠ [.dict kvs]) → Named pos kw (.str k) v

/-- The arguments that count as true. -/
def trueOnes (pos : List Obj) : List Obj := pos.filter Obj.truthy

end SqlPuzzle.Spec
