import Verif.Spec.Layout
import Verif.Spec.Frame

/-!
Comparison, rendering and sorting of objects in memory by what the functional model says about the
values they denote.
-/

namespace SqlPuzzle.Spec.Layout
open SqlPuzzle SqlPuzzle.Spec

/-- `a == b` for parts of queries and other objects. -/
def treeEq (cx : Ctx) (n : Nat) (a b : Tree) : R Bool :=
  let f := denote n
  let S := sem cx n
  let r : Option (R Bool) :=
    match a, b with
    | .node (.lib .table) _, .node (.lib .table) _ => do some (tableEq cx S (← tableT f a) (← tableT f b))
    | .node (.lib .column) _, .node (.lib .column) _ => do some (columnEq S (← columnT f a) (← columnT f b))
    | .node (.lib .value) _, _ | _, .node (.lib .value) _ => do
      some (valueEq cx S (← valueT f a) (← valueT f b))
    | .node (.lib .condition) _, _ | _, .node (.lib .condition) _ | .node (.lib .onCondition) _, _
    | _, .node (.lib .onCondition) _ => do some (condEq cx S (← condT f a) (← condT f b))
    | a, b => do some (S.eq (← f a) (← f b))
  r.getD (.error .unmodelled)

/-- `sorted(dictionary.items())`. -/
def treeSort (cx : Ctx) (n : Nat) (h : Heap) (kvs : List (Val × Val)) : R (List (Val × Val)) :=
  match (kvs.mapM fun kv => denote n (look h n kv.1)) with
  | none => .error .unmodelled
  | some ks => do
    let ps ← sortItems (sem cx n) (ks.zipIdx.map fun k => (k.1, .int k.2))
    .ok (ps.filterMap fun p => match p.2 with
      | .int (.ofNat i) => kvs[i]?
      | _ => none)

/-- The runtime of the functional model.  It leaves out that rendering minimises joins. -/
def runtime (cx : Ctx) (n : Nat) : Runtime where
  eq a b := HM.reads fun h => treeEq cx n (look h n a) (look h n b)
  str a := HM.reads fun h =>
    match denote n (look h n a) with
    | some o => (sem cx n).str o
    | none => .error .unmodelled
  sort kvs := HM.reads fun h => treeSort cx n h kvs

end SqlPuzzle.Spec.Layout
