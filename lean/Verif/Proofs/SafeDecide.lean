import Verif.Spec.Safe
import Verif.Proofs.RefForm

/-!
Whether an object contains raw SQL can be computed; used in the examples.
-/

namespace SqlPuzzle

open Spec

section
variable {q : Char} {P : Kind → Obj → Prop} [∀ k o, Decidable (P k o)]

instance (s : Str) : Decidable (SafeName q s) := inferInstanceAs (Decidable (_ ∧ _))

instance (s : Str) : Decidable (NoReference q s) :=
  decidable_of_iff (isReference q s = false) (by
    rw [← Bool.not_eq_true, isReference_iff]
    simp [NoReference])

instance (v : Obj) : Decidable (safeVal q P v) := by
  cases v
  case float f =>
    cases f with
    | fin neg m e => exact isTrue ⟨neg, m, e, rfl⟩
    | inf neg => exact isFalse (by rintro ⟨_, _, _, h⟩; cases h)
    | nan => exact isFalse (by rintro ⟨_, _, _, h⟩; cases h)
  case decimal f =>
    cases f with
    | fin neg m e => exact isTrue ⟨neg, m, e, rfl⟩
    | inf neg => exact isFalse (by rintro ⟨_, _, _, h⟩; cases h)
    | nan => exact isFalse (by rintro ⟨_, _, _, h⟩; cases h)
  case list xs =>
    exact (match xs with
      | [] => isFalse (fun h => h.1 rfl)
      | x :: xs => decidable_of_iff (∀ y ∈ x :: xs, P .expr (.sqlValue y)) ⟨fun h => ⟨by simp, h⟩, fun h => h.2⟩)
  case tuple xs =>
    exact (match xs with
      | [] => isFalse (fun h => h.1 rfl)
      | x :: xs => decidable_of_iff (∀ y ∈ x :: xs, P .expr (.sqlValue y)) ⟨fun h => ⟨by simp, h⟩, fun h => h.2⟩)
  case set xs =>
    exact (match xs with
      | [] => isFalse (fun h => h.1 rfl)
      | x :: xs => decidable_of_iff (∀ y ∈ x :: xs, P .expr (.sqlValue y)) ⟨fun h => ⟨by simp, h⟩, fun h => h.2⟩)
  case frozenset xs =>
    exact (match xs with
      | [] => isFalse (fun h => h.1 rfl)
      | x :: xs => decidable_of_iff (∀ y ∈ x :: xs, P .expr (.sqlValue y)) ⟨fun h => ⟨by simp, h⟩, fun h => h.2⟩)
  case gen xs =>
    exact (match xs with
      | [] => isFalse (fun h => h.1 rfl)
      | x :: xs => decidable_of_iff (∀ y ∈ x :: xs, P .expr (.sqlValue y)) ⟨fun h => ⟨by simp, h⟩, fun h => h.2⟩)
  all_goals (unfold safeVal; infer_instance)

instance (v : Obj) : Decidable (safeRef q P v) := by
  cases v <;> (unfold safeRef; infer_instance)

instance (n a : Obj) : Decidable (safeAliased q P n a) := inferInstanceAs (Decidable (_ ∧ _))

instance (c : Column) : Decidable (safeColumn q P c) := inferInstanceAs (Decidable (safeAliased ..))

instance (c : Cond) : Decidable (safeCond q P c) := by
  cases c with
  | item o => exact inferInstanceAs (Decidable (P .cond o))
  | cond on col k v =>
    have h : Decidable (match v.iterate with
      | none => safeVal q P v
      | some xs => (on && v.isStr) = false ∧ xs ≠ [] ∧
          ∀ x ∈ xs, x.isNone = false → P .expr (.sqlValue x)) := by
      match v.iterate with
      | none => exact inferInstanceAs (Decidable (safeVal q P v))
      | some [] => exact isFalse (fun h => h.2.1 rfl)
      | some (x :: xs) =>
        exact decidable_of_iff ((on && v.isStr) = false ∧
          ∀ y ∈ x :: xs, y.isNone = false → P .expr (.sqlValue y))
          ⟨fun h => ⟨h.1, by simp, h.2⟩, fun h => ⟨h.1, h.2.2⟩⟩
    cases k <;> (unfold safeCond; infer_instance)

instance (ps : List Cond) : Decidable (safeConds q P ps) := inferInstanceAs (Decidable (∀ p ∈ ps, _))

instance (v : Value) : Decidable (safeAssign q P v) := by
  cases v <;> (unfold safeAssign; infer_instance)

instance (j : Join) : Decidable (safeJoin q P j) := inferInstanceAs (Decidable (_ ∧ _))

instance (t : Table) : Decidable (safeTable q P t) :=
  inferInstanceAs (Decidable (_ ∧ ∀ j ∈ t.joins, _))

instance (v : Option Obj) : Decidable (safeOpt q P v) := by
  cases v <;> (unfold safeOpt; infer_instance)

instance (s : Select) : Decidable (safeSelect q P s) := by unfold safeSelect; infer_instance

instance (v : Value) :
    Decidable (∃ c x, v = .value (.str c) x ∧ SafeName q c ∧ safeVal q P x) := by
  cases v with
  | item o => exact isFalse (by rintro ⟨_, _, h, _⟩; cases h)
  | value c x =>
    cases c
    case str c =>
      exact decidable_of_iff (SafeName q c ∧ safeVal q P x)
        ⟨fun h => ⟨c, x, rfl, h⟩, by rintro ⟨_, _, h, h'⟩; cases h; exact h'⟩
    all_goals exact isFalse (by rintro ⟨_, _, h, _⟩; cases h)

instance (r : List Value) : Decidable (safeRow q P r) :=
  match r with
  | [] => isFalse fun h => h.1 rfl
  | v :: r => decidable_of_iff
      (∀ w ∈ v :: r, ∃ c x, w = .value (.str c) x ∧ SafeName q c ∧ safeVal q P x)
      ⟨fun h => ⟨by simp, h⟩, fun h => h.2⟩

instance (s : Insert) : Decidable (safeInsert q P s) := by
  have h : Decidable (s.onConflict ≠ [] → s.onDup = [] ∧ ∃ c, s.conflict = some c ∧ SafeName q c) := by
    match s.onConflict, s.onDup, s.conflict with
    | [], _, _ => exact isTrue fun h => absurd rfl h
    | _ :: _, _ :: _, _ => exact isFalse fun h => by have := (h (by simp)).1; cases this
    | _ :: _, [], none => exact isFalse fun h => by obtain ⟨_, _, h, _⟩ := h (by simp); cases h
    | _ :: _, [], some c =>
      exact decidable_of_iff (SafeName q c)
        ⟨fun h _ => ⟨rfl, c, rfl, h⟩, fun h => by
          obtain ⟨_, _, e, h⟩ := h (by simp)
          cases e
          exact h⟩
  have h' : Decidable (s.isReplace = true → s.onDup = [] ∧ s.onConflict = []) :=
    decidable_of_iff (s.isReplace = true → s.onDup.isEmpty = true ∧ s.onConflict.isEmpty = true)
      (by simp)
  unfold safeInsert
  infer_instance

instance (s : Update) : Decidable (safeUpdate q P s) := by unfold safeUpdate; infer_instance

instance (s : Delete) : Decidable (safeDelete q P s) := by unfold safeDelete; infer_instance

instance (e : Obj) : Decidable (safeArg q P e) := by
  cases e
  case list xs =>
    exact (match xs with
      | [] => isFalse (fun h => h.1 rfl)
      | x :: xs => decidable_of_iff (∀ y ∈ x :: xs, safeRef q P y) ⟨fun h => ⟨by simp, h⟩, fun h => h.2⟩)
  case tuple xs =>
    exact (match xs with
      | [] => isFalse (fun h => h.1 rfl)
      | x :: xs => decidable_of_iff (∀ y ∈ x :: xs, safeRef q P y) ⟨fun h => ⟨by simp, h⟩, fun h => h.2⟩)
  all_goals (unfold safeArg; infer_instance)

instance (o : Obj) : Decidable (safeExpr q P o) := by
  cases o
  case exists_ e => cases e <;> (unfold safeExpr; infer_instance)
  all_goals (unfold safeExpr; infer_instance)

instance (o : Obj) : Decidable (safeQuery q P o) := by
  cases o <;> (unfold safeQuery; infer_instance)

instance (k : Kind) (o : Obj) : Decidable (safeF q P k o) := by
  cases k
  case cond =>
    cases o
    case conds ps =>
      exact (match ps with
        | [] => isFalse (fun h => h.1 rfl)
        | p :: ps => decidable_of_iff (safeConds q P (p :: ps)) ⟨fun h => ⟨by simp, h⟩, fun h => h.2⟩)
    all_goals (unfold safeF; infer_instance)
  case stmt => cases o <;> (unfold safeF; infer_instance)
  all_goals (unfold safeF; infer_instance)

end

instance decSafe (q : Char) : ∀ (n : Nat) (k : Kind) (o : Obj), Decidable (Safe q n k o)
  | 0, _, _ => isFalse id
  | n + 1, k, o =>
    have : ∀ k o, Decidable (Safe q n k o) := decSafe q n
    inferInstanceAs (Decidable (safeF q (Safe q n) k o))

end SqlPuzzle
