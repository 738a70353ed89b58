import Verif.Spec.Parts

/-!
Objects in which no join involves a query.
-/

namespace SqlPuzzle.Spec
open SqlPuzzle

/-- A SELECT, INSERT, UPDATE or DELETE query. -/
def isAnyQuery : Obj → Bool
  | .select _ | .insert _ | .update _ | .delete _ => true
  | _ => false

/-- There is no query in the object. -/
def QueryFree (o : Obj) : Prop := Throughout (fun x => isAnyQuery x = false) o

/-- The joins of a query. -/
def joinsOf : Obj → List Join
  | .select q => q.tables.flatMap (·.joins)
  | .insert q => q.tables.flatMap (·.joins)
  | .update q => q.tables.flatMap (·.joins)
  | .delete q => (q.tables ++ q.references).flatMap (·.joins)
  | _ => []

/-- No join, of the object itself or of a query at any depth in it, has a query as its table or
alias or in its conditions. -/
def NoQueryInJoins (o : Obj) : Prop :=
  Throughout (fun x => ∀ j ∈ joinsOf x, ∀ y ∈ joinParts j, QueryFree y) o

end SqlPuzzle.Spec
