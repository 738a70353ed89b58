import Verif.Model.Types

/-!
What merging repeated joins means, independently of the loop in the library.
-/

namespace SqlPuzzle.Spec

/-- Each item that is not the same as an item before it. -/
def firsts {α : Type} (same : α → α → Bool) : List α → List α
  | [] => []
  | x :: xs => x :: (firsts same xs).filter fun y => !same x y

/-- What becomes of all the joins of one table with one condition: a single one stays; several with
an inner join among them become one inner join; several of one type become one of that type;
otherwise all stay. -/
def merged : List Join → List Join
  | [] => []
  | [j] => [j]
  | j :: js =>
    if (j :: js).any fun x => x.type == .inner then [{ j with type := .inner }]
    else if (j :: js).all fun x => x.type == j.type then [j]
    else j :: js

/-- The joins after merging: for each different join, in order of first use, what its repetitions
become. -/
def mergedJoins (same : Join → Join → Bool) (js : List Join) : List Join :=
  (firsts same js).flatMap fun h => merged (js.filter (same h))

/-- Mirror image of a comparison of two columns: sides swapped, relation reversed. -/
def mirror : Cond → Option Cond
  | .cond true (.str a) .eq (.str b) => some (.cond true (.str b) .eq (.str a))
  | .cond true (.str a) .ne (.str b) => some (.cond true (.str b) .ne (.str a))
  | .cond true (.str a) .lt (.str b) => some (.cond true (.str b) .gt (.str a))
  | .cond true (.str a) .gt (.str b) => some (.cond true (.str b) .lt (.str a))
  | .cond true (.str a) .le (.str b) => some (.cond true (.str b) .ge (.str a))
  | .cond true (.str a) .ge (.str b) => some (.cond true (.str b) .le (.str a))
  | _ => none

/-- The same join condition: identical, or the mirror image. -/
def SameOn (a b : Cond) : Prop := a = b ∨ mirror a = some b

/-- Join of the same table, under the same alias, with the same conditions. -/
def SameJoin (a b : Join) : Prop :=
  a.name = b.name ∧ a.alias = b.alias ∧ a.ons.length = b.ons.length ∧
    ∀ p ∈ a.ons.zip b.ons, SameOn p.1 p.2

end SqlPuzzle.Spec
