import Verif.Spec.Accumulate
import Verif.Model.OrderThreads

/-!
What calls of `order_by` and `group_by` by several threads ask for.
-/

namespace SqlPuzzle.Spec

/-- The columns with their directions that a call of `order_by` or `group_by` gives, in order. -/
def GivesUses (cx : Ctx) (a : Args) (us : List Use) : Prop := ∃ ps, GivesNames a ps ∧ Uses cx ps us

/-- The orders `os` of a query on which several threads call `order_by` (or `group_by`), after the steps of the
schedule. -/
def orderThreads (cx : Ctx) (n : Nat) (os : List Order) (calls : List Args) (schedule : List Nat) : OrderWorld :=
  runOrderThreads cx (sem cx n) (os, calls.map (startOrder (sem cx n))) schedule

/-- Orders by names or numbers of columns, no column twice, as calls of `order_by` and `group_by` leave them. -/
def PlainOrders (os : List Order) : Prop :=
  (∀ o ∈ os, (∃ s, o.col = .str s) ∨ ∃ i, o.col = .int i) ∧ (os.map OrderS.col).Nodup

/-- Of these calls only the call number `i` gives the column. -/
def OnlyIn (uss : List (List Use)) (i : Nat) (c : Obj) : Prop :=
  ∀ j us, uss[j]? = some us → c ∈ us.map Prod.fst → j = i

end SqlPuzzle.Spec
