import Verif.Spec.FirstUse
import Verif.Spec.Accumulate

/-!
What the assignments of an UPDATE do to a row.
-/

namespace SqlPuzzle.Spec

/-- One assignment: the column gets the value, the other columns keep theirs. -/
def assignOne {V : Type} (value : Obj → V) (row : Str → V) : ValuePart Obj → Str → V
  | .value (.str c) v => fun c' => if c' = c then value v else row c'
  | _ => row

/-- A server that carries out the assignments of SET from left to right, as MySQL does: the row afterwards.  `value` is
what the server reads for a value, `row` the row before. -/
def assigned {V : Type} (value : Obj → V) (row : Str → V) (vs : List (ValuePart Obj)) : Str → V :=
  vs.foldl (assignOne value) row

/-- The column of an assignment. -/
def assignedColumn : ValuePart Obj → Option Obj
  | .value c _ => some c
  | .item _ => none

/-- Whenever a column is given a value that it was given before, that is still its value. -/
def NoReturn (given : List (Obj × Obj)) : Prop :=
  ∀ a b k v, given = a ++ (k, v) :: b → (k, v) ∈ a → LastValue a k v

/-- No column is given two different values. -/
def OneValueEach (given : List (Obj × Obj)) : Prop :=
  ∀ k v v', (k, v) ∈ given → (k, v') ∈ given → v = v'

/-- The assignments that a call on an INSERT gives to ON DUPLICATE KEY UPDATE. -/
def DuplicatePairs : InsertOp → List (Obj × Obj) → Prop
  | .onDuplicateKeyUpdate a, ps => GivesPairs a ps
  | _, ps => ps = []

end SqlPuzzle.Spec
