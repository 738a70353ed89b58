import Verif.Proofs.Basic
import Verif.Props.Strings

/-!
C11: lists of values.
-/

namespace SqlPuzzle

open Spec

/-- The container types whose items are written as a list. -/
inductive Container where
  | list | tuple | set | frozenset
deriving DecidableEq, Repr

/-- A container with the given items. -/
def Container.wrap : Container → List Obj → Obj
  | .list, xs => .list xs
  | .tuple, xs => .tuple xs
  | .set, xs => .set xs
  | .frozenset, xs => .frozenset xs

/-- Texts with `, ` between them, in parentheses. -/
def parenthesised : List Str → Str
  | ts => '(' :: (joinS [',', ' '] ts ++ [')'])

theorem str_container (cx : Ctx) (n : Nat) (k : Container) (xs : List Obj) :
    (sem cx (n + 1)).str (.sqlValue (k.wrap xs)) =
      if xs.isEmpty then .error .invalidArgument else listText (sem cx n) xs := by
  cases k <;> rfl

/-- C11. The text of a non-empty list, tuple or set is the texts of its items as values, in order,
separated by commas, in parentheses; it exists iff every item has a text. -/
theorem C11_list (cx : Ctx) (n : Nat) (k : Container) (xs : List Obj) (hx : xs ≠ []) (t : Str) :
    (sem cx (n + 1)).str (.sqlValue (k.wrap xs)) = .ok t ↔
      ∃ ts, List.Forall₂ (fun x u => (sem cx n).str (.sqlValue x) = .ok u) xs ts ∧
        t = parenthesised ts := by
  rw [str_container]
  have : xs.isEmpty = false := by simpa using hx
  rw [this]
  simp only [Bool.false_eq_true, if_false, listText]
  rw [bind_ok]
  constructor
  · rintro ⟨ts, h1, h2⟩
    injection h2 with h2
    exact ⟨ts, mapR_ok_iff.mp h1, h2.symm⟩
  · rintro ⟨ts, h1, rfl⟩
    exact ⟨ts, mapR_ok_iff.mpr h1, rfl⟩

/-- C11. An empty list, tuple or set is refused. -/
theorem C11_empty (cx : Ctx) (n : Nat) (k : Container) :
    (sem cx (n + 1)).str (.sqlValue (k.wrap [])) = .error .invalidArgument := by
  cases k <;> rfl

/-- C11. A range is written like the list of its numbers. -/
theorem C11_range (cx : Ctx) (n : Nat) (xs : List Int) :
    (sem cx (n + 1)).str (.sqlValue (.range xs)) =
      (sem cx (n + 1)).str (.sqlValue (.list (xs.map .int))) := by
  cases xs <;> rfl

/-- Values nested in containers to any depth; the leaves are integers. -/
inductive Nest where
  | leaf (i : Int)
  | node (k : Container) (xs : List Nest)

mutual
/-- The Python value. -/
def Nest.obj : Nest → Obj
  | .leaf i => .int i
  | .node k xs => k.wrap (Nest.objs xs)
def Nest.objs : List Nest → List Obj
  | [] => []
  | x :: xs => x.obj :: Nest.objs xs
end

mutual
/-- The expected text; `none` if some container is empty. -/
def Nest.text : Nest → Option Str
  | .leaf i => some (intText i)
  | .node _ xs => if xs.isEmpty then none else (Nest.texts xs).map parenthesised
def Nest.texts : List Nest → Option (List Str)
  | [] => some []
  | x :: xs =>
    match x.text, Nest.texts xs with
    | some t, some ts => some (t :: ts)
    | _, _ => none
end

mutual
/-- Nesting depth. -/
def Nest.depth : Nest → Nat
  | .leaf _ => 1
  | .node _ xs => Nest.depths xs + 1
def Nest.depths : List Nest → Nat
  | [] => 0
  | x :: xs => max x.depth (Nest.depths xs)
end

/-- A text, or the exception for an empty container. -/
def orInvalid {α : Type} : Option α → R α
  | some a => .ok a
  | none => .error .invalidArgument

mutual
/-- C11, any depth: nested containers are written as nested parentheses, and an empty container
anywhere inside is refused. -/
theorem C11_nested (cx : Ctx) : ∀ (x : Nest) (n : Nat), x.depth ≤ n →
    (sem cx n).str (.sqlValue x.obj) = orInvalid x.text
  | .leaf i, n, h => by
    cases n with
    | zero => simp [Nest.depth] at h
    | succ n => rfl
  | .node k xs, n, h => by
    cases n with
    | zero => simp [Nest.depth] at h
    | succ n =>
      simp only [Nest.depth, Nat.add_le_add_iff_right] at h
      have ih := C11_nested_list cx xs n h
      simp only [Nest.obj, Nest.text]
      rw [str_container]
      cases xs with
      | nil => rfl
      | cons y ys =>
        simp only [Nest.objs, List.isEmpty_cons, Bool.false_eq_true, if_false, listText] at ih ⊢
        rw [ih]
        cases Nest.texts (y :: ys) <;> rfl
theorem C11_nested_list (cx : Ctx) : ∀ (xs : List Nest) (n : Nat), Nest.depths xs ≤ n →
    mapR (fun x => (sem cx n).str (.sqlValue x)) (Nest.objs xs) = orInvalid (Nest.texts xs)
  | [], n, h => rfl
  | x :: xs, n, h => by
    simp only [Nest.depths] at h
    have h1 := C11_nested cx x n (by omega)
    have h2 := C11_nested_list cx xs n (by omega)
    simp only [Nest.objs, Nest.texts]
    rw [mapR_cons, h1, h2]
    cases x.text with
    | none => rfl
    | some t => cases Nest.texts xs <;> rfl
end

example : Nest.text (.node .list [.leaf 1, .node .tuple [.leaf (-2), .leaf 3], .node .set [.leaf 4]]) =
    some L!"(1, (-2, 3), (4))" ∧
    (Nest.node .list [.leaf 1, .node .tuple []]).text = none := by decide

end SqlPuzzle
