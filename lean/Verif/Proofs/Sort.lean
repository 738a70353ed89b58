import Verif.Model.Base

/-!
`sortBy` sorts, and sorting does not depend on the order of the input.
-/

namespace SqlPuzzle

theorem insertBy_perm {α : Type} (le : α → α → Bool) (x : α) (xs : List α) :
    (insertBy le x xs).Perm (x :: xs) := by
  induction xs with
  | nil => exact .refl _
  | cons y ys ih =>
    unfold insertBy
    split
    · exact .refl _
    · exact ((List.Perm.cons y ih).trans (.swap x y ys))

theorem sortBy_perm {α : Type} (le : α → α → Bool) (xs : List α) : (sortBy le xs).Perm xs := by
  induction xs with
  | nil => exact .refl _
  | cons x xs ih => exact (insertBy_perm le x _).trans (.cons x ih)

/-- The order is total and transitive. -/
structure LinearLe {α : Type} (le : α → α → Bool) : Prop where
  total : ∀ a b, le a b = true ∨ le b a = true
  trans : ∀ a b c, le a b = true → le b c = true → le a c = true

theorem insertBy_pairwise {α : Type} {le : α → α → Bool} (h : LinearLe le) (x : α) {xs : List α}
    (hs : xs.Pairwise fun a b => le a b = true) :
    (insertBy le x xs).Pairwise fun a b => le a b = true := by
  induction xs with
  | nil => simp [insertBy]
  | cons y ys ih =>
    rw [List.pairwise_cons] at hs
    unfold insertBy
    split
    · rename_i hxy
      rw [List.pairwise_cons]
      refine ⟨fun z hz => ?_, List.pairwise_cons.mpr hs⟩
      rcases List.mem_cons.mp hz with rfl | hz
      · exact hxy
      · exact h.trans _ _ _ hxy (hs.1 z hz)
    · rename_i hxy
      rw [List.pairwise_cons]
      refine ⟨fun z hz => ?_, ih hs.2⟩
      rcases List.mem_cons.mp ((insertBy_perm le x ys).mem_iff.mp hz) with rfl | hz
      · rcases h.total z y with h1 | h1
        · exact absurd h1 hxy
        · exact h1
      · exact hs.1 z hz

theorem sortBy_pairwise {α : Type} {le : α → α → Bool} (h : LinearLe le) (xs : List α) :
    (sortBy le xs).Pairwise fun a b => le a b = true := by
  induction xs with
  | nil => exact .nil
  | cons x xs ih => exact insertBy_pairwise h x ih

/-- A sorted list stays as it is. -/
theorem sortBy_sorted {α : Type} {le : α → α → Bool} {xs : List α}
    (hs : xs.Pairwise fun a b => le a b = true) : sortBy le xs = xs := by
  induction xs with
  | nil => rfl
  | cons x xs ih =>
    rw [List.pairwise_cons] at hs
    rw [sortBy, ih hs.2]
    cases xs with
    | nil => rfl
    | cons y ys => rw [insertBy, if_pos (hs.1 y (by simp))]

/-- Sorting permuted lists gives the same list, if different elements never tie. -/
theorem sortBy_eq_of_perm {α : Type} {le : α → α → Bool} (h : LinearLe le) {xs ys : List α}
    (hp : xs.Perm ys) (ha : ∀ a ∈ xs, ∀ b ∈ xs, le a b = true → le b a = true → a = b) :
    sortBy le xs = sortBy le ys := by
  refine List.Perm.eq_of_pairwise (le := fun a b => le a b = true) ?_
    (sortBy_pairwise h xs) (sortBy_pairwise h ys)
    (((sortBy_perm le xs).trans hp).trans (sortBy_perm le ys).symm)
  intro a b ha' hb' h1 h2
  exact ha a ((sortBy_perm le xs).mem_iff.mp ha')
    b (hp.mem_iff.mpr ((sortBy_perm le ys).mem_iff.mp hb')) h1 h2

/-! ### Order of strings -/

theorem strLe_refl (a : Str) : strLe a a = true := by
  induction a with
  | nil => rfl
  | cons x xs ih => simp [strLe, ih]

theorem char_toNat_inj {a b : Char} (h : a.toNat = b.toNat) : a = b := by
  apply Char.ext
  exact UInt32.toNat_inj.mp h

theorem strLe_total (a b : Str) : strLe a b = true ∨ strLe b a = true := by
  induction a generalizing b with
  | nil => left; rfl
  | cons x xs ih =>
    cases b with
    | nil => right; rfl
    | cons y ys =>
      unfold strLe
      by_cases h : x = y
      · subst h; simpa using ih ys
      · have h' : ¬ y = x := fun e => h e.symm
        have hn : x.toNat ≠ y.toNat := fun e => h (char_toNat_inj e)
        simp only [if_neg h, if_neg h', decide_eq_true_eq]
        omega

theorem strLe_antisymm {a b : Str} (h1 : strLe a b = true) (h2 : strLe b a = true) : a = b := by
  induction a generalizing b with
  | nil =>
    cases b with
    | nil => rfl
    | cons y ys => simp [strLe] at h2
  | cons x xs ih =>
    cases b with
    | nil => simp [strLe] at h1
    | cons y ys =>
      unfold strLe at h1 h2
      by_cases h : x = y
      · subst h
        simp only [if_true] at h1 h2
        rw [ih h1 h2]
      · have h' : ¬ y = x := fun e => h e.symm
        simp only [if_neg h, if_neg h', decide_eq_true_eq] at h1 h2
        omega

theorem strLe_trans {a b c : Str} (h1 : strLe a b = true) (h2 : strLe b c = true) :
    strLe a c = true := by
  induction a generalizing b c with
  | nil => rfl
  | cons x xs ih =>
    cases b with
    | nil => simp [strLe] at h1
    | cons y ys =>
      cases c with
      | nil => simp [strLe] at h2
      | cons z zs =>
        unfold strLe at h1 h2 ⊢
        by_cases hxy : x = y
        · subst hxy
          simp only [if_true] at h1
          by_cases hxz : x = z
          · subst hxz
            simp only [if_true] at h2 ⊢
            exact ih h1 h2
          · simp only [if_neg hxz] at h2 ⊢
            exact h2
        · simp only [if_neg hxy, decide_eq_true_eq] at h1
          by_cases hyz : y = z
          · subst hyz
            simp only [if_neg hxy, decide_eq_true_eq]
            exact h1
          · simp only [if_neg hyz, decide_eq_true_eq] at h2
            have hxz : ¬ x = z := by
              rintro rfl
              omega
            simp only [if_neg hxz, decide_eq_true_eq]
            omega

theorem linear_strLe : LinearLe strLe := ⟨strLe_total, fun _ _ _ => strLe_trans⟩

theorem linear_key {β : Type} : LinearLe (fun a b : Str × β => strLe a.1 b.1) :=
  ⟨fun a b => strLe_total a.1 b.1, fun _ _ _ => strLe_trans⟩

/-- Elements of a list with distinct keys are determined by their keys. -/
theorem eq_of_nodup_key {β : Type} {xs : List (Str × β)} (h : (xs.map Prod.fst).Nodup) {a b : Str × β}
    (ha : a ∈ xs) (hb : b ∈ xs) (hk : a.1 = b.1) : a = b := by
  induction xs with
  | nil => cases ha
  | cons x xs ih =>
    rw [List.map_cons, List.nodup_cons] at h
    rcases List.mem_cons.mp ha with ha | ha
    · rcases List.mem_cons.mp hb with hb | hb
      · rw [ha, hb]
      · exact absurd (List.mem_map.mpr ⟨b, hb, by rw [← hk, ha]⟩) h.1
    · rcases List.mem_cons.mp hb with hb | hb
      · exact absurd (List.mem_map.mpr ⟨a, ha, by rw [hk, hb]⟩) h.1
      · exact ih h.2 ha hb

/-- Sorting by distinct keys does not depend on the order of the input. -/
theorem sortBy_key_perm {β : Type} {xs ys : List (Str × β)} (hp : xs.Perm ys)
    (hn : (xs.map Prod.fst).Nodup) :
    sortBy (fun a b => strLe a.1 b.1) xs = sortBy (fun a b => strLe a.1 b.1) ys :=
  sortBy_eq_of_perm linear_key hp fun _ ha _ hb h1 h2 =>
    eq_of_nodup_key hn ha hb (strLe_antisymm h1 h2)

end SqlPuzzle
