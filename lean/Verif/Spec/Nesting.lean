import Verif.Model.Render
import Verif.Spec.Statement

/-!
Specification: which objects are written inside which.

`inObj D b p o` says that the object `p` is written directly inside `o`: with `b = true` in the
place of a name or a value (column, alias, table, operand, assigned value, argument), with
`b = false` as it is (a condition object, an operand of `&` or `|`, a branch of a union, an item of
a list).  `Nested` is its closure, ending with an object in the place of a name or a value.
-/

namespace SqlPuzzle.Spec

/-- Queries that can be used inside other statements. -/
def isQuery : Obj → Bool
  | .select _ | .union .. => true
  | _ => false

/-- Text in parentheses. -/
def parens (s : Str) : Str := '(' :: (s ++ [')'])

section
variable (D : Join → Join → Prop) (b : Bool) (p : Obj)

def inRef (v : Obj) : Prop := b = true ∧ p = v

def inItems (xs : List Obj) : Prop := b = false ∧ ∃ x ∈ xs, p = .sqlValue x

def inVal (v : Obj) : Prop :=
  match v with
  | .list xs | .tuple xs | .set xs | .frozenset xs | .gen xs => inItems b p xs
  | v => b = true ∧ p = v

def inAliased (name as_ : Obj) : Prop := inRef b p name ∨ (as_.truthy = true ∧ inRef b p as_)

def inColumn (c : Column) : Prop := inAliased b p c.name c.alias

def inOrder (o : Order) : Prop := inRef b p o.col

def inCond : Cond → Prop
  | .cond on col k v => inRef b p col ∨ ((on && v.isStr) = false ∧
    match k with
    | .in_ | .notIn =>
      match v.iterate with
      | none => inVal b p v
      | some xs => inItems b p (xs.filter fun x => !x.isNone)
    | _ => inVal b p v)
  | .item o => b = false ∧ p = o

def inConds (ps : List Cond) : Prop := ∃ c ∈ ps, inCond b p c

def inAssign : Value → Prop
  | .value col v => inRef b p col ∨ inVal b p v
  | .item o => b = false ∧ p = o

def inJoin (j : Join) : Prop := inAliased b p j.name j.alias ∨ inConds b p j.ons

/-- Joins are looked at only if any two of them differ (`D`), because equal joins are merged. -/
def inTable (t : Table) : Prop :=
  inAliased b p t.name t.alias ∨
  (t.joins.Pairwise D ∧ ∃ j ∈ t.joins, inJoin b p j)

def inOpt : Option Obj → Prop
  | none => False
  | some v => inVal b p v

def inSelect (s : Select) : Prop :=
  (∃ c ∈ s.columns, inColumn b p c) ∨ (∃ t ∈ s.tables, inTable D b p t) ∨ inConds b p s.where_ ∨
  (∃ o ∈ s.groupBy, inOrder b p o) ∨ inConds b p s.having ∨ ∃ o ∈ s.orderBy, inOrder b p o

/-- A value counts if it is the last one of its column. -/
def inRow (r : List Value) : Prop :=
  ∃ pre c v post, r = pre ++ .value (.str c) v :: post ∧ (∀ w, .value (.str c) w ∉ post) ∧ inVal b p v

def inInsert (i : Insert) : Prop :=
  (∃ t ∈ i.tables, inTable D b p t) ∨ (∃ r ∈ i.rows, inRow b p r) ∨
  (∃ v ∈ i.onDup, inAssign b p v) ∨ ∃ v ∈ i.onConflict, inAssign b p v

def inUpdate (u : Update) : Prop :=
  (∃ t ∈ u.tables, inTable D b p t) ∨ (∃ v ∈ u.values, inAssign b p v) ∨ inConds b p u.where_

def inDelete (s : Delete) : Prop :=
  (∃ t ∈ s.tables, inTable D b p t) ∨ (∃ t ∈ s.references, inTable D b p t) ∨ inConds b p s.where_

def inArg : Obj → Prop
  | .list xs | .tuple xs => ∃ x ∈ xs, inRef b p x
  | e => inRef b p e

def inObj : Obj → Prop
  | .sqlValue v => inVal b p v
  | .sqlRef v => inRef b p v
  | .conds ps => inConds b p ps
  | .cofc l r _ => b = false ∧ (p = l ∨ p = r)
  | .not_ ps => b = false ∧ p = .conds ps
  | .func _ _ e => inArg b p e
  | .concat cs => ∃ c ∈ cs, inColumn b p c
  | .groupConcat cs os _ => (∃ c ∈ cs, inColumn b p c) ∨ ∃ o ∈ os, inOrder b p o
  | .convert e _ => inArg b p e
  | .exists_ e => b = false ∧ p = e
  | .select s => inSelect D b p s
  | .union l r _ => b = false ∧ (p = l ∨ p = r)
  | .insert i => inInsert D b p i
  | .update u => inUpdate D b p u
  | .delete s => inDelete D b p s
  | _ => False

end

/-- `p` is used as a name or a value somewhere inside `o`, at most `n` levels deep. -/
def Nested (cx : Ctx) (p : Obj) : Nat → Obj → Prop
  | 0, _ => False
  | n + 1, o => inObj (JoinsDiffer cx n) true p o ∨
      ∃ b q, q.isSql = true ∧ inObj (JoinsDiffer cx n) b q o ∧ Nested cx p n q

end SqlPuzzle.Spec
