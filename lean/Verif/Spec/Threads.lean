import Verif.Spec.Arguments
import Verif.Spec.Entries

/-!
What a call of `where` gives, for calls made by several threads.
-/

namespace SqlPuzzle.Spec

/-- The conditions that a call of `where` gives, in order: those of its pairs, or a SQL object given alone,
or condition objects given together. -/
inductive GivesConds : Args → List Cond → Prop
  | pairs {a : Args} {ps : List (Obj × Obj)} : GivesPairs a ps →
      (a.pos ≠ [] → ∃ x ∈ a.pos, ¬IsCondition x) → GivesConds a (ps.map fun p => condOf p.1 p.2)
  | alone (o : Obj) : o.isSql = true → GivesConds { pos := [o] } [.item o]
  | together {xs : List Obj} : 2 ≤ xs.length → (∀ x ∈ xs, IsCondition x) →
      GivesConds { pos := xs } (xs.map .item)

/-- No single SQL object is given: such an object is added without a look at the others. -/
def LooksFirst (a : Args) : Prop := ∀ o, a = { pos := [o] } → o.isSql = false

/-- The parts with a number. -/
def numbered {α : Type} (i : Nat) (tagged : List (Nat × α)) : List α :=
  tagged.filterMap fun t => if t.1 = i then some t.2 else none

end SqlPuzzle.Spec
