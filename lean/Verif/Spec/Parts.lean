import Verif.Model.Types

/-!
What an object is made of: its direct components, and everything inside it at any depth.
-/

namespace SqlPuzzle.Spec
open SqlPuzzle

def colParts (c : Column) : List Obj := [c.name, c.alias]

def orderParts (o : Order) : List Obj := [o.col]

def condParts : Cond → List Obj
  | .cond _ c _ v => [c, v]
  | .item o => [o]

def valueParts : Value → List Obj
  | .value c v => [c, v]
  | .item o => [o]

def joinParts (j : Join) : List Obj := [j.name, j.alias] ++ j.ons.flatMap condParts

def tableParts (t : Table) : List Obj := [t.name, t.alias] ++ t.joins.flatMap joinParts

def outfileParts (o : Outfile) : List Obj :=
  o.file.toList ++ o.fields.toList ++ o.lines.toList ++ o.enclosed.toList

def selectParts (q : Select) : List Obj :=
  q.columns.flatMap colParts ++ q.tables.flatMap tableParts ++ q.where_.flatMap condParts ++
  q.groupBy.flatMap orderParts ++ q.having.flatMap condParts ++ q.orderBy.flatMap orderParts ++
  outfileParts q.outfile

def insertParts (q : Insert) : List Obj :=
  q.tables.flatMap tableParts ++ q.rows.flatMap (·.flatMap valueParts) ++
  q.onDup.flatMap valueParts ++ q.onConflict.flatMap valueParts

def updateParts (q : Update) : List Obj :=
  q.tables.flatMap tableParts ++ q.values.flatMap valueParts ++ q.where_.flatMap condParts

def deleteParts (q : Delete) : List Obj :=
  q.tables.flatMap tableParts ++ q.references.flatMap tableParts ++ q.where_.flatMap condParts

/-- The direct components of an object: the items of a collection, the operands of an expression,
every name, alias, value and nested query in the clauses of a query. -/
def parts : Obj → List Obj
  | .list xs | .tuple xs | .set xs | .frozenset xs | .gen xs => xs
  | .dict kvs => kvs.flatMap fun p => [p.1, p.2]
  | .sqlValue v | .sqlRef v | .rel _ v | .func _ _ v | .convert v _ | .exists_ v => [v]
  | .conds ps | .not_ ps => ps.flatMap condParts
  | .cofc l r _ => [l, r]
  | .concat cs => cs.flatMap colParts
  | .groupConcat cs os sep => cs.flatMap colParts ++ os.flatMap orderParts ++ [sep]
  | .select q => selectParts q
  | .union a b _ => [a, b]
  | .insert q => insertParts q
  | .update q => updateParts q
  | .delete q => deleteParts q
  | _ => []

/-- `P` holds of the object and of everything inside it. -/
inductive Throughout (P : Obj → Prop) : Obj → Prop where
  | mk {o : Obj} (here : P o) (inside : ∀ x ∈ parts o, Throughout P x) : Throughout P o

end SqlPuzzle.Spec
