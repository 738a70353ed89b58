import Mathlib.Data.List.Forall2
import Verif.Model.Args

/-!
What a call of a method that takes names or pairs gives, read off the arguments alone.

A method that takes pairs (`where`, `having`, `on`, `set`, `values`) is called as `f(x, y)`, as
`f([(x, y), …])`, as `f((x, y), …)`, with a dictionary, or with keyword arguments.  A method that
takes names (`columns`, `from_`, `order_by`, `group_by`) is called as `f(x, (y, alias), …)`, with a
dictionary, or with keyword arguments.
-/

namespace SqlPuzzle

/-- Keyword names without the two that collide with parameters of the library (C19). -/
def KwFree (kw : List (Str × Obj)) : Prop := ∀ p ∈ kw, p.1 ≠ L!"options" ∧ p.1 ≠ L!"self"

/-- No keyword is called `self`, which every method has as its first parameter. -/
def NoSelf (kw : List (Str × Obj)) : Prop := ∀ p ∈ kw, p.1 ≠ L!"self"

/-- The same items as a dictionary with string keys. -/
def dictOf (kw : List (Str × Obj)) : Obj := .dict (kw.map fun p => (.str p.1, p.2))

namespace Spec

/-- Strict order of strings: at the first difference by code point, a proper prefix first. -/
inductive Before : Str → Str → Prop
  | nil (b : Char) (bs : Str) : Before [] (b :: bs)
  | here {a b : Char} (as bs : Str) : a.toNat < b.toNat → Before (a :: as) (b :: bs)
  | there (a : Char) {as bs : Str} : Before as bs → Before (a :: as) (a :: bs)

/-- The items of a dictionary with string keys, one by one in ascending order of the keys. -/
def Ascending (items : List (Str × Obj)) (ps : List (Obj × Obj)) : Prop :=
  ∃ sorted : List (Str × Obj), sorted.Perm items ∧
    sorted.Pairwise (fun p q => Before p.1 q.1) ∧ ps = sorted.map fun p => (.str p.1, p.2)

/-- A list or tuple and its items. -/
inductive IsSeq : Obj → List Obj → Prop
  | list (xs : List Obj) : IsSeq (.list xs) xs
  | tuple (xs : List Obj) : IsSeq (.tuple xs) xs

/-- A pair written as a list or tuple.  Missing items count as `None`. -/
inductive IsPair : Obj → Obj × Obj → Prop
  | two {x a b : Obj} : IsSeq x [a, b] → IsPair x (a, b)
  | one {x a : Obj} : IsSeq x [a] → IsPair x (a, .none)
  | zero {x : Obj} : IsSeq x [] → IsPair x (.none, .none)

/-- A name alone, or a pair. -/
inductive IsName : Obj → Obj × Obj → Prop
  | name {x : Obj} : (∀ xs, ¬IsSeq x xs) → IsName x (x, .none)
  | pair {x : Obj} {p : Obj × Obj} : IsPair x p → IsName x p

/-- The pairs given by the positional arguments. -/
inductive Pairs : List Obj → List (Obj × Obj) → Prop
  | nothing : Pairs [] []
  | direct {x : Obj} (y : Obj) : (∀ xs, ¬IsSeq x xs) → Pairs [x, y] [(x, y)]
  | listed {x : Obj} {xs : List Obj} {ps : List (Obj × Obj)} :
      IsSeq x xs → List.Forall₂ IsPair xs ps → Pairs [x] ps
  | several {x y : Obj} {xs : List Obj} {ps : List (Obj × Obj)} :
      List.Forall₂ IsPair (x :: y :: xs) ps → Pairs (x :: y :: xs) ps

/-- The pairs that a call of a method taking pairs gives, in order. -/
inductive GivesPairs : Args → List (Obj × Obj) → Prop
  | usual {pos : List Obj} {kw : List (Str × Obj)} {ps qs : List (Obj × Obj)} :
      Pairs pos ps → Ascending kw qs → KwFree kw → GivesPairs { pos := pos, kw := kw } (ps ++ qs)
  | dict {items kw : List (Str × Obj)} {ps : List (Obj × Obj)} :
      Ascending items ps → KwFree kw → GivesPairs { pos := [dictOf items], kw := kw } ps

/-- The names, with their second items or `None`, that a call of a method taking names gives, in
order. -/
inductive GivesNames : Args → List (Obj × Obj) → Prop
  | usual {pos : List Obj} {kw : List (Str × Obj)} {ps qs : List (Obj × Obj)} :
      (∀ kvs, pos ≠ [.dict kvs]) → List.Forall₂ IsName pos ps → Ascending kw qs → KwFree kw →
      GivesNames { pos := pos, kw := kw } (ps ++ qs)
  | dict {items kw : List (Str × Obj)} {ps : List (Obj × Obj)} :
      Ascending items ps → KwFree kw → GivesNames { pos := [dictOf items], kw := kw } ps

/-- Python's rules for arguments: keyword names are distinct, and so are the keys of a dictionary;
here, the keys of a dictionary are strings. -/
structure WellKeyed (a : Args) : Prop where
  keywords : (a.kw.map Prod.fst).Nodup
  dict : ∀ kvs, a.pos = [.dict kvs] → ∃ items : List (Str × Obj),
    kvs = items.map (fun p => (.str p.1, p.2)) ∧ (items.map Prod.fst).Nodup

end Spec

end SqlPuzzle
