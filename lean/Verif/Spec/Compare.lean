import Verif.Spec.Entries
import Verif.Model.Compare

/-!
Vocabulary for the comparison operators: what objects are compared by.
-/

namespace SqlPuzzle.Spec

/-- `s` is what `o` is compared by: a string stands for itself, a library object for its text. -/
inductive ComparedBy (cx : Ctx) (n : Nat) : Obj → Str → Prop
  | string (s : Str) : ComparedBy cx n (.str s) s
  | object {o : Obj} {s : Str} : o.isSql = true → (sem cx n).str o = .ok s → ComparedBy cx n o s

/-- Queries, `Q` objects and relations: their classes have an `==` of their own, which does not look
at the text. -/
inductive OwnEquality : Obj → Prop
  | relation (k : Rel) (v : Obj) : OwnEquality (.rel k v)
  | q (ps : List Cond) : OwnEquality (.conds ps)
  | select (q : Select) : OwnEquality (.select q)
  | union (a b : Obj) (all : Bool) : OwnEquality (.union a b all)
  | insert (q : Insert) : OwnEquality (.insert q)
  | update (q : Update) : OwnEquality (.update q)
  | delete (q : Delete) : OwnEquality (.delete q)

/-- Relations such as `GT(3)`. -/
inductive IsRelation : Obj → Prop
  | mk (k : Rel) (v : Obj) : IsRelation (.rel k v)

/-- The operation raises nothing and its answer is the truth value of `P`. -/
def Answers (x : R Bool) (P : Prop) : Prop := ∃ r, x = .ok r ∧ (r = true ↔ P)

/-- A query whose rows can be joined. -/
inductive Subquery : Obj → Prop
  | select (q : Select) : Subquery (.select q)
  | union (a b : Obj) (all : Bool) : Subquery (.union a b all)

end SqlPuzzle.Spec
