import Verif.Model.Backend

/-!
The derivative-based matcher of `Model/Regex.lean` decides the declarative language.
-/

namespace SqlPuzzle
namespace Re

theorem lang_seq {a b : Re} {s : Str} :
    Lang (.seq a b) s ↔ ∃ u v, s = u ++ v ∧ Lang a u ∧ Lang b v := by
  constructor
  · intro h; cases h with
    | seq h1 h2 => exact ⟨_, _, rfl, h1, h2⟩
  · rintro ⟨u, v, rfl, h1, h2⟩; exact .seq h1 h2

theorem lang_alt {a b : Re} {s : Str} : Lang (.alt a b) s ↔ Lang a s ∨ Lang b s := by
  constructor
  · intro h; cases h with
    | altL h => exact Or.inl h
    | altR h => exact Or.inr h
  · rintro (h | h)
    · exact .altL h
    · exact .altR h

theorem lang_eps {s : Str} : Lang .eps s ↔ s = [] := by
  constructor
  · intro h; cases h; rfl
  · rintro rfl; exact .eps

theorem lang_cls {p : Char → Bool} {s : Str} : Lang (.cls p) s ↔ ∃ c, s = [c] ∧ p c = true := by
  constructor
  · intro h; cases h with
    | cls h => exact ⟨_, rfl, h⟩
  · rintro ⟨c, rfl, h⟩; exact .cls h

theorem lang_fail {s : Str} : ¬ Lang .fail s := by intro h; cases h

theorem lang_chr {c : Char} {s : Str} : Lang (.chr c) s ↔ s = [c] := by
  unfold chr
  rw [lang_cls]
  constructor
  · rintro ⟨x, rfl, h⟩; rw [beq_iff_eq] at h; rw [h]
  · rintro rfl; exact ⟨c, rfl, by simp⟩

/-- A non-empty word of `a*` starts with a non-empty word of `a`. -/
theorem lang_star_cons {a : Re} {c : Char} {s : Str} :
    Lang (.star a) (c :: s) ↔ ∃ u v, s = u ++ v ∧ Lang a (c :: u) ∧ Lang (.star a) v := by
  constructor
  · intro h
    generalize hr : Re.star a = r at h
    generalize hs : c :: s = t at h
    induction h with
    | starNil => cases hs
    | @starCons b x y h1 h2 _ ih =>
      cases hr
      cases x with
      | nil => exact ih rfl (by simpa using hs)
      | cons d x =>
        simp only [List.cons_append, List.cons.injEq] at hs
        obtain ⟨rfl, rfl⟩ := hs
        exact ⟨x, y, rfl, h1, h2⟩
    | _ => cases hr
  · rintro ⟨u, v, rfl, h1, h2⟩
    exact Lang.starCons (s := c :: u) h1 h2

theorem nullable_iff (r : Re) : r.nullable = true ↔ Lang r [] := by
  induction r with
  | fail => simp [nullable, lang_fail]
  | eps => simp [nullable, lang_eps]
  | cls p => simp [nullable, lang_cls]
  | seq a b iha ihb =>
    simp only [nullable, Bool.and_eq_true, iha, ihb, lang_seq]
    constructor
    · rintro ⟨h1, h2⟩; exact ⟨[], [], rfl, h1, h2⟩
    · rintro ⟨u, v, h, h1, h2⟩
      obtain ⟨rfl, rfl⟩ := List.nil_eq_append_iff.mp h
      exact ⟨h1, h2⟩
  | alt a b iha ihb => simp [nullable, iha, ihb, lang_alt]
  | star a _ => simp [nullable, Lang.starNil]

theorem deriv_iff (r : Re) (c : Char) (s : Str) : Lang (r.deriv c) s ↔ Lang r (c :: s) := by
  induction r generalizing s with
  | fail => simp [deriv, lang_fail]
  | eps => simp [deriv, lang_fail, lang_eps]
  | cls p =>
    unfold deriv
    by_cases h : p c = true
    · rw [if_pos h, lang_eps, lang_cls]
      constructor
      · rintro rfl; exact ⟨c, rfl, h⟩
      · rintro ⟨d, h1, _⟩; simp at h1; exact h1.2
    · rw [if_neg h]
      constructor
      · exact fun h => absurd h lang_fail
      · rw [lang_cls]; rintro ⟨d, h1, h2⟩; simp at h1; rw [h1.1] at h; exact absurd h2 h
  | seq a b iha ihb =>
    unfold deriv
    have key : Lang (.seq (a.deriv c) b) s ↔
        ∃ u v, s = u ++ v ∧ Lang a (c :: u) ∧ Lang b v := by
      rw [lang_seq]; simp [iha]
    by_cases h : a.nullable = true
    · rw [if_pos h, lang_alt, key, ihb, lang_seq]
      constructor
      · rintro (⟨u, v, rfl, h1, h2⟩ | h1)
        · exact ⟨c :: u, v, rfl, h1, h2⟩
        · exact ⟨[], c :: s, rfl, (nullable_iff a).mp h, h1⟩
      · rintro ⟨u, v, h0, h1, h2⟩
        cases u with
        | nil => right; simp at h0; rw [h0]; exact h2
        | cons d u =>
          simp only [List.cons_append, List.cons.injEq] at h0
          obtain ⟨rfl, rfl⟩ := h0
          exact Or.inl ⟨u, v, rfl, h1, h2⟩
    · rw [if_neg h, key, lang_seq]
      constructor
      · rintro ⟨u, v, rfl, h1, h2⟩; exact ⟨c :: u, v, rfl, h1, h2⟩
      · rintro ⟨u, v, h0, h1, h2⟩
        cases u with
        | nil => exact absurd ((nullable_iff a).mpr h1) h
        | cons d u =>
          simp only [List.cons_append, List.cons.injEq] at h0
          obtain ⟨rfl, rfl⟩ := h0
          exact ⟨u, v, rfl, h1, h2⟩
  | alt a b iha ihb => simp [deriv, lang_alt, iha, ihb]
  | star a iha =>
    unfold deriv
    rw [lang_seq, lang_star_cons]
    simp [iha]

/-- The matcher is correct: `re.match('^r$', s)` is language membership. -/
theorem fullmatch_iff (r : Re) (s : Str) : r.fullmatch s = true ↔ Lang r s := by
  unfold fullmatch
  induction s generalizing r with
  | nil => exact nullable_iff r
  | cons c cs ih => simp only [List.foldl_cons]; rw [ih, deriv_iff]

theorem lang_plus_cls {p : Char → Bool} {s : Str} :
    Lang (.plus (.cls p)) s ↔ s ≠ [] ∧ ∀ c ∈ s, p c = true := by
  have star : ∀ s, Lang (.star (.cls p)) s ↔ ∀ c ∈ s, p c = true := by
    intro s
    induction s with
    | nil => simp [Lang.starNil]
    | cons c cs ih =>
      rw [lang_star_cons]
      constructor
      · rintro ⟨u, v, rfl, h1, h2⟩
        rw [lang_cls] at h1
        obtain ⟨d, hd, hp⟩ := h1
        simp only [List.cons.injEq] at hd
        obtain ⟨rfl, rfl⟩ := hd
        rw [List.nil_append] at ih
        intro x hx
        rcases List.mem_cons.mp hx with rfl | hx
        · exact hp
        · exact ih.mp h2 x (by simpa using hx)
      · intro h
        refine ⟨[], cs, rfl, lang_cls.mpr ⟨c, rfl, h c (by simp)⟩, ?_⟩
        exact ih.mpr fun x hx => h x (by simp [hx])
  unfold plus
  rw [lang_seq]
  constructor
  · rintro ⟨u, v, rfl, h1, h2⟩
    obtain ⟨d, rfl, hp⟩ := lang_cls.mp h1
    refine ⟨by simp, ?_⟩
    intro c hc
    rcases List.mem_append.mp hc with hc | hc
    · simp at hc; rw [hc]; exact hp
    · exact (star v).mp h2 c hc
  · rintro ⟨h1, h2⟩
    cases s with
    | nil => exact absurd rfl h1
    | cons c cs =>
      exact ⟨[c], cs, rfl, lang_cls.mpr ⟨c, rfl, h2 c (by simp)⟩,
        (star cs).mpr fun x hx => h2 x (by simp [hx])⟩

end Re
end SqlPuzzle
