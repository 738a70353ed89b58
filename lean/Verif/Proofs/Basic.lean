import Mathlib.Data.List.Forall2
import Verif.Model.Base

/-!
Lemmas about `Except` and list helpers.
-/

namespace SqlPuzzle

theorem bind_ok {α β : Type} {x : R α} {f : α → R β} {b : β} :
    (x >>= f) = .ok b ↔ ∃ a, x = .ok a ∧ f a = .ok b := by
  cases x with
  | error e => simp [bind, Except.bind]
  | ok a => simp [bind, Except.bind]

theorem bind_error {α β : Type} {x : R α} {f : α → R β} {e : Err} :
    (x >>= f) = .error e ↔ x = .error e ∨ ∃ a, x = .ok a ∧ f a = .error e := by
  cases x with
  | error e => simp [bind, Except.bind]
  | ok a => simp [bind, Except.bind]

@[simp] theorem ok_bind {α β : Type} {a : α} {f : α → R β} : ((.ok a : R α) >>= f) = f a := rfl

@[simp] theorem error_bind {α β : Type} {e : Err} {f : α → R β} :
    ((.error e : R α) >>= f) = .error e := rfl

theorem mapR_nil {α β : Type} (f : α → R β) : mapR f [] = .ok [] := rfl

theorem mapR_cons {α β : Type} (f : α → R β) (x : α) (xs : List α) :
    mapR f (x :: xs) = f x >>= fun y => mapR f xs >>= fun ys => .ok (y :: ys) := rfl

theorem mapR_ok_iff {α β : Type} {f : α → R β} {xs : List α} {ys : List β} :
    mapR f xs = .ok ys ↔ List.Forall₂ (fun x y => f x = .ok y) xs ys := by
  induction xs generalizing ys with
  | nil =>
    rw [mapR_nil]
    constructor
    · intro h; injection h with h; subst h; exact .nil
    · intro h; cases h; rfl
  | cons x xs ih =>
    rw [mapR_cons, bind_ok]
    constructor
    · rintro ⟨y, hy, h⟩
      obtain ⟨zs, hz, h⟩ := bind_ok.mp h
      injection h with h
      subst h
      exact .cons hy (ih.mp hz)
    · intro h
      cases h with
      | cons h1 h2 =>
        refine ⟨_, h1, ?_⟩
        rw [ih.mpr h2]; rfl

theorem mapR_congr {α β : Type} {f g : α → R β} {xs : List α} (h : ∀ x ∈ xs, f x = g x) :
    mapR f xs = mapR g xs := by
  induction xs with
  | nil => rfl
  | cons x xs ih =>
    rw [mapR_cons, mapR_cons, h x (by simp), ih (fun y hy => h y (by simp [hy]))]

theorem mapR_length {α β : Type} {f : α → R β} {xs : List α} {ys : List β} (h : mapR f xs = .ok ys) :
    ys.length = xs.length := (mapR_ok_iff.mp h).length_eq.symm

theorem mapR_map {α β γ : Type} (f : β → R γ) (g : α → β) (xs : List α) :
    mapR f (xs.map g) = mapR (fun x => f (g x)) xs := by
  induction xs with
  | nil => rfl
  | cons x xs ih => rw [List.map_cons, mapR_cons, mapR_cons, ih]

theorem mapR_append {α β : Type} (f : α → R β) (xs ys : List α) :
    mapR f (xs ++ ys) = mapR f xs >>= fun a => mapR f ys >>= fun b => .ok (a ++ b) := by
  induction xs with
  | nil =>
    rw [List.nil_append, mapR_nil, ok_bind]
    cases mapR f ys <;> rfl
  | cons x xs ih =>
    rw [List.cons_append, mapR_cons, mapR_cons, ih]
    cases f x with
    | error e => rfl
    | ok y =>
      cases mapR f xs with
      | error e => rfl
      | ok a =>
        cases mapR f ys <;> rfl

@[simp] theorem andR_ok (a b : Bool) : andR (.ok a) (.ok b) = .ok (a && b) := by cases a <;> rfl

@[simp] theorem orR_ok (a b : Bool) : orR (.ok a) (.ok b) = .ok (a || b) := by cases a <;> rfl

theorem andR_true {a b : R Bool} : andR a b = .ok true ↔ a = .ok true ∧ b = .ok true := by
  unfold andR
  cases a with
  | error e => simp
  | ok x => cases x <;> simp

theorem orR_true {a b : R Bool} :
    orR a b = .ok true ↔ a = .ok true ∨ (a = .ok false ∧ b = .ok true) := by
  unfold orR
  cases a with
  | error e => simp
  | ok x => cases x <;> simp

theorem orR_false {a b : R Bool} : orR a b = .ok false ↔ a = .ok false ∧ b = .ok false := by
  unfold orR
  cases a with
  | error e => simp
  | ok x => cases x <;> simp

theorem anyR_false {α : Type} {f : α → R Bool} {xs : List α} :
    anyR f xs = .ok false ↔ ∀ x ∈ xs, f x = .ok false := by
  induction xs with
  | nil => simp [anyR]
  | cons x xs ih => rw [anyR, orR_false, ih]; simp

theorem anyR_true_mem {α : Type} {f : α → R Bool} {xs : List α} (h : anyR f xs = .ok true) :
    ∃ x ∈ xs, f x = .ok true := by
  induction xs with
  | nil => simp [anyR] at h
  | cons x xs ih =>
    rw [anyR, orR_true] at h
    rcases h with h | ⟨_, h⟩
    · exact ⟨x, by simp, h⟩
    · obtain ⟨y, hy, h⟩ := ih h
      exact ⟨y, by simp [hy], h⟩

theorem anyR_ok {α : Type} (f : α → Bool) (xs : List α) :
    anyR (fun x => .ok (f x)) xs = .ok (xs.any f) := by
  induction xs with
  | nil => rfl
  | cons x xs ih => rw [anyR, ih]; simp

theorem allR_true {α : Type} {f : α → R Bool} {xs : List α} :
    allR f xs = .ok true ↔ ∀ x ∈ xs, f x = .ok true := by
  induction xs with
  | nil => simp [allR]
  | cons x xs ih => rw [allR, andR_true, ih]; simp

theorem eqListR_true {α : Type} {eq : α → α → R Bool} {xs ys : List α} :
    eqListR eq xs ys = .ok true ↔ List.Forall₂ (fun x y => eq x y = .ok true) xs ys := by
  unfold eqListR
  constructor
  · intro h
    by_cases hl : xs.length = ys.length
    · rw [if_pos hl, allR_true] at h
      rw [List.forall₂_iff_zip]
      exact ⟨hl, fun {a b} hm => h (a, b) hm⟩
    · rw [if_neg hl] at h; cases h
  · intro h
    rw [if_pos h.length_eq, allR_true]
    rintro ⟨a, b⟩ hm
    exact (List.forall₂_iff_zip.mp h).2 hm

end SqlPuzzle
