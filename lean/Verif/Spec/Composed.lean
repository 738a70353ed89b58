import Verif.Spec.Chosen
import Verif.Spec.Written
import Verif.Spec.Settings

/-!
Specification: the answer that the calls made on a SELECT ask for, whatever columns, keys and conditions are made of.
-/

namespace SqlPuzzle.Spec

/-- `kept` are the items of `given`, in order, without those that are the same as an earlier one that is kept. -/
inductive KeptBy {α : Type} (same : α → α → Prop) : (given kept : List α) → Prop
  | nil : KeptBy same [] []
  | old {given kept : List α} {k x : α} : KeptBy same given kept → k ∈ kept → same k x →
      KeptBy same (given ++ [x]) kept
  | new {given kept : List α} {x : α} : KeptBy same given kept → (∀ k ∈ kept, ¬ same k x) →
      KeptBy same (given ++ [x]) (kept ++ [x])

/-- `kept` are the columns of `given`, in order, without those that are the same as an earlier one that is kept, each with
the direction given last for it. -/
inductive KeysBy (same : Obj → Obj → Prop) : (given kept : List Use) → Prop
  | nil : KeysBy same [] []
  | old {given front back : List Use} {c c' : Obj} {d d' : Bool} : KeysBy same given (front ++ (c, d) :: back) →
      (∀ u ∈ front, ¬ same u.1 c') → same c c' → KeysBy same (given ++ [(c', d')]) (front ++ (c, d') :: back)
  | new {given kept : List Use} {c : Obj} {d : Bool} : KeysBy same given kept → (∀ u ∈ kept, ¬ same u.1 c) →
      KeysBy same (given ++ [(c, d)]) (kept ++ [(c, d)])

/-- Python's `==` says that the objects are equal. -/
def TakenEqual (cx : Ctx) (n : Nat) (a b : Obj) : Prop := (sem cx n).eq a b = .ok true

/-- Columns with equal names and equal aliases. -/
def EqualColumns (cx : Ctx) (n : Nat) (p p' : Obj × Obj) : Prop := TakenEqual cx n p.1 p'.1 ∧ TakenEqual cx n p.2 p'.2

/-- The columns, of any kind, with their directions, that a call of `order_by` or `group_by` gives. -/
def GivesKeys (cx : Ctx) (a : Args) (us : List Use) : Prop :=
  ∃ ps, GivesNames a ps ∧ List.Forall₂ (fun p (u : Use) => u.1 = p.1 ∧ SortDirection cx p.2 u.2) ps us

/-- What a call on a SELECT gives to ORDER BY. -/
def OrderGives (cx : Ctx) : SelectOp → List Use → Prop
  | .orderBy a, us => GivesKeys cx a us
  | _, us => us = []

/-- What a call on a SELECT gives to GROUP BY. -/
def GroupGives (cx : Ctx) : SelectOp → List Use → Prop
  | .groupBy a, us => GivesKeys cx a us
  | _, us => us = []

/-- The calls on a SELECT that say nothing about its tables. -/
def LeavesTables : SelectOp → Prop
  | .from_ _ | .fromTable .. | .join .. | .on _ => False
  | _ => True

/-- The answer that is asked for: the rows in which all conditions hold; grouped, if there is something to group by, a
condition for groups or an aggregate, and then only the groups in which all conditions for groups hold; sorted; of each row
the columns; equal lines merged if that is asked for; the page asked for.  `ref` is what the server reads when the library
writes a column alone. -/
def answerComposed {V : Type} (sort : Sorter V) (gr : Grouper V) (ref : Obj → List Tok) (holds : Tuple V → Obj → Tri)
    (shown : List (Obj × Obj)) (keys groups : List Use) (conds havings : List Cond) (merged : Bool)
    (limit offset : Option Int) (rows : List (Tuple V)) : List (List (Cell V)) :=
  let columns := if shown = [] then [[.sym '*']] else shown.map fun p => withAlias ref p.1 p.2
  let key := fun u : Use => (ref u.1, u.2)
  let rows := rows.filter (allHold holds conds)
  let rows :=
    if groups ≠ [] ∨ havings ≠ [] ∨ columns.any isAggregate ∨ keys.any (fun u => isAggregate (ref u.1)) then
      (gr.group columns (groups.map key) rows).filter (allHold holds havings)
    else rows
  let lines := (sort (keys.map key) rows).map fun row => columns.map (cellOf row)
  pageOf (limit.map Int.toNat) ((offset.map Int.toNat).getD 0) (if merged then gr.merge lines else lines)

end SqlPuzzle.Spec
