import Verif.Spec.Has
import Verif.Proofs.Sort
import Verif.Proofs.Basic

/-!
The search of `has`, and the words of a list of words joined by spaces.
-/

namespace SqlPuzzle
open Spec

theorem wordAt_iff (cx : Ctx) (v t : Str) :
    wordAt cx v t = true ↔
      ∃ b, t = v ++ b ∧ ∀ c, b.head? = some c → cx.env.isWord c = false := by
  induction v generalizing t with
  | nil =>
    cases t with
    | nil => exact ⟨fun _ => ⟨[], rfl, fun c h => (by cases h)⟩, fun _ => rfl⟩
    | cons c cs =>
      show (!cx.env.isWord c) = true ↔ _
      constructor
      · intro h
        refine ⟨c :: cs, rfl, fun d hd => ?_⟩
        cases hd
        simpa using h
      · rintro ⟨b, hb, h⟩
        have : b = c :: cs := hb.symm
        subst this
        simp [h c rfl]
  | cons x v ih =>
    cases t with
    | nil =>
      constructor
      · intro h; cases h
      · rintro ⟨b, hb, _⟩; cases hb
    | cons c cs =>
      show (x == c && wordAt cx v cs) = true ↔ _
      rw [Bool.and_eq_true, ih]
      constructor
      · rintro ⟨h1, b, h2, h3⟩
        have : x = c := by simpa using h1
        exact ⟨b, by rw [this, h2]; rfl, h3⟩
      · rintro ⟨b, hb, h⟩
        cases hb
        exact ⟨by simp, b, rfl, h⟩

theorem searchFrom_iff (cx : Ctx) (v t : Str) (prev : Bool) :
    searchFrom cx v prev t = true ↔
      ∃ a b, t = a ++ v ++ b ∧ (a = [] → prev = false) ∧
        (∀ c, a.getLast? = some c → cx.env.isWord c = false) ∧
        (∀ c, b.head? = some c → cx.env.isWord c = false) := by
  induction t generalizing prev with
  | nil =>
    show (!prev && wordAt cx v []) = true ↔ _
    rw [Bool.and_eq_true, wordAt_iff]
    constructor
    · rintro ⟨h1, b, h2, h3⟩
      exact ⟨[], b, h2, fun _ => by simpa using h1, fun c h => (by cases h), h3⟩
    · rintro ⟨a, b, h1, h2, _, h4⟩
      have ha : a = [] := by
        cases a with
        | nil => rfl
        | cons x a => cases h1
      subst ha
      exact ⟨by simp [h2 rfl], b, h1, h4⟩
  | cons c cs ih =>
    show ((!prev && wordAt cx v (c :: cs)) || searchFrom cx v (cx.env.isWord c) cs) = true ↔ _
    rw [Bool.or_eq_true, Bool.and_eq_true, wordAt_iff, ih]
    constructor
    · rintro (⟨h1, b, h2, h3⟩ | ⟨a, b, h1, h2, h3, h4⟩)
      · exact ⟨[], b, h2, fun _ => by simpa using h1, fun c h => (by cases h), h3⟩
      · refine ⟨c :: a, b, by rw [h1]; rfl, fun h => (by cases h), fun d hd => ?_, h4⟩
        cases a with
        | nil =>
          have : c = d := by simpa using hd
          subst this
          exact h2 rfl
        | cons x a => exact h3 d (by rw [← hd]; simp)
    · rintro ⟨a, b, h1, h2, h3, h4⟩
      cases a with
      | nil => exact Or.inl ⟨by simp [h2 rfl], b, h1, h4⟩
      | cons x a =>
        right
        cases h1
        refine ⟨a, b, rfl, fun h => ?_, fun d hd => ?_, h4⟩
        · subst h; exact h3 c rfl
        · apply h3 d
          rw [List.getLast?_cons, hd]
          rfl

theorem search_whole (cx : Ctx) (v t : Str) :
    searchFrom cx v false t = true ↔ WholeWord cx.env.isWord v t := by
  rw [searchFrom_iff]
  constructor
  · rintro ⟨a, b, h1, _, h3, h4⟩; exact ⟨a, b, h1, h3, h4⟩
  · rintro ⟨a, b, h1, h3, h4⟩; exact ⟨a, b, h1, fun _ => rfl, h3, h4⟩

theorem plain_meta {w : Str} (h : Plain w) : w.any isMeta = false := by
  rw [List.any_eq_false]
  intro c hc hm
  refine h.2 c hc ?_
  unfold isMeta at hm
  exact List.contains_iff_mem.mp hm

theorem plain_truthy {w : Str} (h : Plain w) : (Obj.str w).truthy = true := by
  cases w with
  | nil => exact absurd rfl h.1
  | cons c w => rfl

/-- A whole word of a text that does not contain the separator lies in one of the pieces. -/
theorem whole_join {isWord : Char → Bool} {w : Str} (hw : w ≠ []) (hc : ∀ c ∈ w, isWord c = true)
    (hs : isWord ' ' = false) {ws : List Str} (hws : ∀ x ∈ ws, ∀ c ∈ x, isWord c = true) :
    WholeWord isWord w (joinS [' '] ws) ↔ w ∈ ws := by
  have key : ∀ (x a b r : Str), (∀ c ∈ x, isWord c = true) →
      (∀ c, r.head? = some c → isWord c = false) → x ++ r = a ++ w ++ b →
      (∀ c, a.getLast? = some c → isWord c = false) →
      (∀ c, b.head? = some c → isWord c = false) →
      (a = [] ∧ w = x) ∨ ∃ a', a = x ++ a' ∧ r = a' ++ w ++ b := by
    intro x a b r hx hr e ha hb
    rw [List.append_assoc, List.append_eq_append_iff] at e
    rcases e with ⟨a', e1, e2⟩ | ⟨c', e1, e2⟩
    · exact Or.inr ⟨a', e1, by rw [e2, List.append_assoc]⟩
    · cases a with
      | nil =>
        have e3 : x ++ r = w ++ b := by rw [e1, List.nil_append, ← e2]
        rw [List.append_eq_append_iff] at e3
        rcases e3 with ⟨a', e4, e5⟩ | ⟨c'', e4, e5⟩
        · cases a' with
          | nil => exact Or.inl ⟨rfl, by simpa using e4⟩
          | cons y a' =>
            have h1 := hr y (by rw [e5]; rfl)
            have h2 := hc y (by rw [e4]; simp)
            rw [h1] at h2; cases h2
        · cases c'' with
          | nil => exact Or.inl ⟨rfl, by simpa using e4.symm⟩
          | cons y c'' =>
            have h1 := hb y (by rw [e5]; rfl)
            have h2 := hx y (by rw [e4]; simp)
            rw [h1] at h2; cases h2
      | cons y a =>
        exfalso
        have hl := List.getLast?_eq_some_getLast (l := y :: a) (by simp)
        have h1 := ha _ hl
        have h2 := hx _ (by rw [e1]; exact List.mem_append_left _ (List.getLast_mem (List.cons_ne_nil y a)))
        rw [h1] at h2; cases h2
  constructor
  · rintro ⟨a, b, e, ha, hb⟩
    induction ws generalizing a with
    | nil =>
      exfalso
      cases a <;> cases w <;> first | exact hw rfl | cases e
    | cons x ws ih =>
      have hx := hws x (List.mem_cons_self ..)
      cases ws with
      | nil =>
        rcases key x a b [] hx (fun c h => (by cases h)) (by rw [List.append_nil]; exact e) ha hb with
          ⟨_, h⟩ | ⟨a', h1, h2⟩
        · rw [h]; exact List.mem_singleton.mpr rfl
        · exfalso
          cases a' <;> cases w <;> first | exact hw rfl | cases h2
      | cons y ys =>
        have e' : x ++ (' ' :: joinS [' '] (y :: ys)) = a ++ w ++ b := by
          rw [← e]; show _ = x ++ [' '] ++ joinS [' '] (y :: ys); simp
        rcases key x a b _ hx (fun c h => (by cases h; exact hs)) e' ha hb with
          ⟨_, h⟩ | ⟨a', h1, h2⟩
        · rw [h]; exact List.mem_cons_self ..
        · cases a' with
          | nil =>
            exfalso
            cases w with
            | nil => exact hw rfl
            | cons z w =>
              have : z = ' ' := by
                have := congrArg List.head? h2
                simpa using this.symm
              have h3 := hc z (List.mem_cons_self ..)
              rw [this, hs] at h3; cases h3
          | cons z a' =>
            refine List.mem_cons_of_mem _ (ih (fun x hx => hws x (List.mem_cons_of_mem _ hx)) a' ?_ ?_)
            · have := congrArg List.tail h2
              simpa using this
            · intro c hc'
              apply ha c
              rw [h1, List.getLast?_append, List.getLast?_cons, hc']
              rfl
  · intro h
    induction ws with
    | nil => cases h
    | cons x ws ih =>
      cases ws with
      | nil =>
        have : w = x := by simpa using h
        exact ⟨[], [], by rw [this]; simp [joinS], fun c h => (by cases h), fun c h => (by cases h)⟩
      | cons y ys =>
        have ej : joinS [' '] (x :: y :: ys) = x ++ [' '] ++ joinS [' '] (y :: ys) := rfl
        rcases List.mem_cons.mp h with h | h
        · refine ⟨[], ' ' :: joinS [' '] (y :: ys), by rw [ej, h]; simp, fun c h => (by cases h),
            fun c h => (by cases h; exact hs)⟩
        · obtain ⟨a, b, e, ha, hb⟩ := ih (fun x hx => hws x (List.mem_cons_of_mem _ hx)) h
          refine ⟨x ++ [' '] ++ a, b, by rw [ej, e]; simp, fun c hc' => ?_, hb⟩
          cases a with
          | nil =>
            have : ' ' = c := by simpa using hc'
            rw [← this]; exact hs
          | cons z a => exact ha c (by rw [← hc', List.getLast?_append, List.getLast?_cons]; rfl)

/-- A whole word of a piece set off by spaces is a whole word of the line. -/
theorem whole_mid {isWord : Char → Bool} (hs : isWord ' ' = false) {w p : Str} (x : Str) {y : Str}
    (hy : y = [] ∨ y.head? = some ' ') (h : WholeWord isWord w p) :
    WholeWord isWord w (x ++ (' ' :: p) ++ y) := by
  obtain ⟨a, b, e, ha, hb⟩ := h
  refine ⟨x ++ ' ' :: a, b ++ y, by rw [e]; simp, fun c hc => ?_, fun c hc => ?_⟩
  · cases a with
    | nil =>
      have : ' ' = c := by simpa using hc
      rw [← this]; exact hs
    | cons z a =>
      apply ha c
      rw [← hc, List.getLast?_append, List.getLast?_cons, List.getLast?_cons_cons,
        List.getLast?_cons]
      rfl
  · cases b with
    | nil =>
      rcases hy with h | h
      · rw [h] at hc; cases hc
      · rw [List.nil_append, h] at hc; cases hc; exact hs
    | cons z b => exact hb c hc

/-- Whole words without white space survive `strip`. -/
theorem whole_strip {isWord : Char → Bool} {w s : Str} (hw : w ≠ [])
    (hn : ∀ c ∈ w, isSpace c = false) (h : WholeWord isWord w s) :
    WholeWord isWord w (strip s) := by
  have drop : ∀ (a w b : Str), w ≠ [] → (∀ c ∈ w, isSpace c = false) →
      ∃ a', (a ++ w ++ b).dropWhile isSpace = a' ++ w ++ b ∧
        ∀ c, a'.getLast? = some c → a.getLast? = some c := by
    intro a w b hw hn
    induction a with
    | nil =>
      refine ⟨[], ?_, fun c h => h⟩
      cases w with
      | nil => exact absurd rfl hw
      | cons z w =>
        show List.dropWhile isSpace (z :: (w ++ b)) = z :: (w ++ b)
        rw [List.dropWhile_cons, if_neg (by simp [hn z (List.mem_cons_self ..)])]
    | cons x a ih =>
      by_cases hx : isSpace x = true
      · obtain ⟨a', e, h⟩ := ih
        refine ⟨a', ?_, fun c hc => ?_⟩
        · show List.dropWhile isSpace (x :: (a ++ w ++ b)) = _
          rw [List.dropWhile_cons, if_pos hx, e]
        · rw [List.getLast?_cons, h c hc]; rfl
      · refine ⟨x :: a, ?_, fun c h => h⟩
        show List.dropWhile isSpace (x :: (a ++ w ++ b)) = x :: (a ++ w ++ b)
        rw [List.dropWhile_cons, if_neg hx]
  obtain ⟨a, b, e, ha, hb⟩ := h
  obtain ⟨a', e1, h1⟩ := drop a w b hw hn
  obtain ⟨b', e2, h2⟩ := drop b.reverse w.reverse a'.reverse (by simpa using hw)
    (fun c hc => hn c (List.mem_reverse.mp hc))
  refine ⟨a', b'.reverse, ?_, fun c hc => ha c (h1 c hc), fun c hc => hb c ?_⟩
  · unfold strip
    rw [e, e1]
    have : (a' ++ w ++ b).reverse = b.reverse ++ w.reverse ++ a'.reverse := by simp
    rw [this, e2]
    simp
  · rw [List.head?_reverse] at hc
    have := h2 c hc
    rwa [List.getLast?_reverse] at this

theorem clause_head {b : Bool} {t : R Str} {s : Str} (h : clause b t = .ok s) :
    s = [] ∨ s.head? = some ' ' := by
  unfold clause at h
  cases b with
  | false => cases h; exact Or.inl rfl
  | true =>
    cases t with
    | error e => cases h
    | ok t => cases h; exact Or.inr rfl

theorem clause_set {b : Bool} {t : R Str} {s u : Str} (h : clause b t = .ok s) (hb : b = true)
    (hu : t = .ok u) : s = ' ' :: u := by
  subst hb; subst hu
  cases h; rfl

theorem head_append {a b : Str} (ha : a = [] ∨ a.head? = some ' ')
    (hb : b = [] ∨ b.head? = some ' ') : a ++ b = [] ∨ (a ++ b).head? = some ' ' := by
  rcases ha with rfl | ha
  · exact hb
  · cases a with
    | nil => cases ha
    | cons c a => exact Or.inr ha

end SqlPuzzle
