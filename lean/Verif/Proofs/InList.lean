import Verif.Proofs.TruthTree

/-!
Tokens of `IN` and `NOT IN`, and their truth values.
-/

namespace SqlPuzzle

open Spec

/-- How an expression begins and ends. -/
theorem expr_ends {ts : List Tok} (h : G .expr ts) :
    ts.head? ≠ some (.word L!"NOT") ∧ ts.getLast? ≠ some (.word L!"NOT") ∧
      ((∃ us, ts = paren us ∧ ∃ b, Built b us) ∨ ts.head? ≠ some (.sym '(')) := by
  have hp : ∀ us : List Tok, (paren us).getLast? = some (.sym ')') := fun us => by
    show ([Tok.sym '('] ++ us ++ [Tok.sym ')']).getLast? = _
    rw [List.getLast?_concat]
  have hc : ∀ (w : Str) (us : List Tok), w ≠ L!"NOT" →
      (Tok.word w :: paren us).head? ≠ some (.word L!"NOT") ∧
      (Tok.word w :: paren us).getLast? ≠ some (.word L!"NOT") ∧
      ((∃ vs, Tok.word w :: paren us = paren vs ∧ ∃ b, Built b vs) ∨
        (Tok.word w :: paren us).head? ≠ some (.sym '(')) := fun w us hw => by
    refine ⟨by simpa using hw, ?_, .inr (by simp)⟩
    have : (Tok.word w :: paren us).getLast? = some (.sym ')') := by
      show ([Tok.word w, Tok.sym '('] ++ us ++ [Tok.sym ')']).getLast? = _
      rw [List.getLast?_concat]
    rw [this]
    simp
  have hagg : ∀ {f : Str}, f ∈ aggregates → f ≠ L!"NOT" := fun {f} hf =>
    (by decide : ∀ f ∈ aggregates, f ≠ L!"NOT") f hf
  cases h with
  | @name ps h =>
    have hseg : ∀ p, segmentTok p ≠ .word L!"NOT" ∧ segmentTok p ≠ .sym '(' := by
      intro p
      unfold segmentTok
      split <;> refine ⟨by simp, by simp⟩
    have hhead : ∀ ps : List Str, ps ≠ [] → ∃ p us, refToks ps = segmentTok p :: us := by
      intro ps hne
      match ps, hne with
      | [p], _ => exact ⟨p, [], rfl⟩
      | p :: q :: ps, _ => exact ⟨p, _, rfl⟩
    have hlast : ∀ ps : List Str, ps ≠ [] → ∃ p, (refToks ps).getLast? = some (segmentTok p) := by
      intro ps hne
      induction ps with
      | nil => exact absurd rfl hne
      | cons p ps ih =>
        cases ps with
        | nil => exact ⟨p, rfl⟩
        | cons q ps =>
          obtain ⟨l, hl⟩ := ih (by simp)
          refine ⟨l, ?_⟩
          show (segmentTok p :: .sym '.' :: refToks (q :: ps)).getLast? = _
          obtain ⟨p', us, e⟩ := hhead (q :: ps) (by simp)
          rw [e] at hl ⊢
          simpa [List.getLast?_cons] using hl
    obtain ⟨p, us, e⟩ := hhead ps h
    obtain ⟨l, el⟩ := hlast ps h
    refine ⟨?_, ?_, .inr ?_⟩
    · rw [e]; simpa using (hseg p).1
    · rw [el]; simpa using (hseg l).1
    · rw [e]; simpa using (hseg p).2
  | lit h => cases h <;> exact ⟨by simp, by simp, .inr (by simp)⟩
  | neg => exact ⟨by simp, by simp, .inr (by simp)⟩
  | tuple h => exact ⟨by simp [paren], by rw [hp]; simp, .inl ⟨_, rfl, _, g_built h (by fine)⟩⟩
  | subquery h => exact ⟨by simp [paren], by rw [hp]; simp, .inl ⟨_, rfl, _, g_built h trivial⟩⟩
  | aggregate hf h => exact hc _ _ (hagg hf)
  | aggregateDistinct hf h => exact hc _ _ (hagg hf)
  | concat h => exact hc _ _ (by decide)
  | groupConcat h1 h2 h3 => exact hc _ _ (by decide)
  | convert hw h => exact hc _ _ (by decide)
  | exists_ h => exact hc _ _ (by decide)

theorem expr_inside {ts r : List Tok} (h : G .expr ts) (hr : r ≠ []) : inside (ts ++ r) = none := by
  have hne := (expr_facts (s := .word L!"AND") (by decide) h).2
  rcases (expr_ends h).2.2 with ⟨us, rfl, b, hb⟩ | hh
  · have e : paren us ++ r = .sym '(' :: (us ++ (.sym ')' :: r)) := by simp [paren]
    rw [e]
    show (match closing 0 (us ++ (.sym ')' :: r)) with
      | some (r, []) => some r
      | _ => none) = none
    rw [closing_built hb]
    have : closing 0 (.sym ')' :: r) = some ([], r) := by simp [closing]
    rw [this]
    cases r with
    | nil => exact absurd rfl hr
    | cons x xs => rfl
  · cases ts with
    | nil => exact absurd rfl hne
    | cons t ts =>
      unfold inside
      split
      · rename_i heq
        cases heq
        exact absurd rfl hh
      · rfl

section
variable {V : Type} [DecidableEq V] (val : List Tok → Option V) (other : List Tok → Tri)

theorem in_head {C r : List Tok} (hC : G .expr C) :
    (C ++ r).head? ≠ some (.word L!"NOT") ∧ C ++ r ≠ [] := by
  have hne := (expr_facts (s := .word L!"AND") (by decide) hC).2
  cases C with
  | nil => exact absurd rfl hne
  | cons t C => exact ⟨(expr_ends hC).1, by simp⟩

theorem truth_compare {C r : List Tok} (hC : G .expr C) (hr : r ≠ []) (ht : Tight r)
    (p : List Tok → Tri) : truth p (C ++ r) = p (C ++ r) :=
  truth_pred p ⟨(expr_facts (by decide) hC).1.append ht.1, (expr_facts (by decide) hC).1.append ht.2⟩
    (in_head hC).2 (in_head hC).1 (expr_inside hC hr)

/-- The truth value of `c IN (…)`. -/
def memberOf (c : Option V) (vs : List (Option V)) : Tri := Tri.any (vs.map (sqlEq c))

variable {C : List Tok} {xs : List (List Tok)} (hC : G .expr C) (hne : xs ≠ []) (hx : ∀ x ∈ xs, G .expr x)

include hx hne in
theorem inList_eq : inList val C (paren (commas xs)) = some (memberOf (val C) (xs.map val)) := by
  have hb : Built false (commas xs) := g_built (g_list hne hx) (by fine)
  unfold inList
  rw [inside_paren hb]
  show (if isSubquery (commas xs) = true then _ else _) = _
  rw [conj_not_query hb]
  simp only [Bool.false_eq_true, if_false]
  rw [show commas xs = joinT [.sym ','] xs from rfl,
    pieces_joinT hne (fun x h => (expr_facts (by decide) (hx x h)).1) (by simp) (by simp)]
  unfold memberOf
  rw [List.map_map]
  rfl

include hC hx hne in
theorem truth_in : truth (predicate val other) (C ++ (.word L!"IN" :: paren (commas xs))) =
    memberOf (val C) (xs.map val) := by
  have hb : Built false (commas xs) := g_built (g_list hne hx) (by fine)
  rw [truth_compare hC (by simp) ⟨.cons (by simp) (by simp) (by simp) (whole_paren hb),
    .cons (by simp) (by simp) (by simp) (whole_paren hb)⟩]
  unfold predicate
  rw [(expr_facts (s := .word L!"IN") (by decide) hC).1.cut (by simp) (by simp), (whole_paren hb).one]
  show (if C.getLast? = some (.word L!"NOT") then _ else _) = _
  rw [if_neg (expr_ends hC).2.1, inList_eq val hne hx]
  rfl

include hC hx hne in
theorem truth_notIn :
    truth (predicate val other) (C ++ (.word L!"NOT" :: .word L!"IN" :: paren (commas xs))) =
    (memberOf (val C) (xs.map val)).not := by
  have hb : Built false (commas xs) := g_built (g_list hne hx) (by fine)
  rw [truth_compare hC (by simp)
    ⟨.cons (by simp) (by simp) (by simp) (.cons (by simp) (by simp) (by simp) (whole_paren hb)),
    .cons (by simp) (by simp) (by simp) (.cons (by simp) (by simp) (by simp) (whole_paren hb))⟩]
  unfold predicate
  have e : C ++ (.word L!"NOT" :: .word L!"IN" :: paren (commas xs)) =
      (C ++ [.word L!"NOT"]) ++ (.word L!"IN" :: paren (commas xs)) := by simp
  rw [e, ((expr_facts (s := .word L!"IN") (by decide) hC).1.append
    (.cons (by simp) (by simp) (by simp) (whole_nil _))).cut (by simp) (by simp), (whole_paren hb).one]
  show (if (C ++ [Tok.word L!"NOT"]).getLast? = some (.word L!"NOT") then _ else _) = _
  rw [if_pos (by simp), List.dropLast_concat, inList_eq val hne hx]
  rfl

include hC in
theorem truth_isNull : truth (predicate val other) (C ++ [.word L!"IS", .word L!"NULL"]) =
    if (val C).isNone then .t else .f := by
  have hn : ∀ s, s ≠ .word L!"NULL" → Whole s [Tok.word L!"NULL"] := fun s hs =>
    .cons (by simp) (by simp) (Ne.symm hs) (whole_nil _)
  have hi : ∀ s, s ≠ .word L!"IS" → s ≠ .word L!"NULL" → Whole s [Tok.word L!"IS", .word L!"NULL"] :=
    fun s h1 h2 => .cons (by simp) (by simp) (Ne.symm h1) (hn s h2)
  rw [truth_compare hC (by simp) ⟨hi _ (by simp) (by simp), hi _ (by simp) (by simp)⟩]
  unfold predicate
  rw [((expr_facts (s := .word L!"IN") (by decide) hC).1.append (hi _ (by simp) (by simp))).one,
    (expr_facts (s := .word L!"IS") (by decide) hC).1.cut (by simp) (by simp), (hn _ (by simp)).one]
  show (if _ then _ else _) = _
  rw [if_pos rfl]

include hC in
theorem truth_isNotNull :
    truth (predicate val other) (C ++ [.word L!"IS", .word L!"NOT", .word L!"NULL"]) =
    if (val C).isNone then .f else .t := by
  have hn : ∀ s, s ≠ .word L!"NULL" → s ≠ .word L!"NOT" → Whole s [Tok.word L!"NOT", Tok.word L!"NULL"] :=
    fun s h1 h2 => .cons (by simp) (by simp) (Ne.symm h2) (.cons (by simp) (by simp) (Ne.symm h1) (whole_nil _))
  have hi : ∀ s, s ≠ .word L!"IS" → s ≠ .word L!"NULL" → s ≠ .word L!"NOT" →
      Whole s [Tok.word L!"IS", .word L!"NOT", .word L!"NULL"] :=
    fun s h1 h2 h3 => .cons (by simp) (by simp) (Ne.symm h1) (hn s h2 h3)
  rw [truth_compare hC (by simp) ⟨hi _ (by simp) (by simp) (by simp), hi _ (by simp) (by simp) (by simp)⟩]
  unfold predicate
  rw [((expr_facts (s := .word L!"IN") (by decide) hC).1.append (hi _ (by simp) (by simp) (by simp))).one,
    (expr_facts (s := .word L!"IS") (by decide) hC).1.cut (by simp) (by simp), (hn _ (by simp) (by simp)).one]
  show (if _ then _ else if _ then _ else _) = _
  rw [if_neg (by decide), if_pos rfl]

end

/-! ### Membership -/

section
variable {V : Type} [DecidableEq V]

theorem sqlEq_cases (c v : Option V) :
    (sqlEq c v = .t ↔ c ≠ none ∧ v = c) ∧ (sqlEq c v = .f ↔ c ≠ none ∧ v ≠ none ∧ v ≠ c) := by
  cases c <;> cases v <;> simp [sqlEq]
  rename_i a b
  by_cases h : a = b
  · subst h; simp
  · simp [h, Ne.symm h]

theorem memberOf_t (c : Option V) (vs : List (Option V)) :
    memberOf c vs = .t ↔ c ≠ none ∧ c ∈ vs := by
  induction vs with
  | nil => simp [memberOf, Tri.any]
  | cons v vs ih =>
    have e : memberOf c (v :: vs) = (sqlEq c v).or (memberOf c vs) := rfl
    have h1 := (sqlEq_cases c v).1
    rw [e]
    have : ∀ a b : Tri, a.or b = .t ↔ a = .t ∨ b = .t := by intro a b; cases a <;> cases b <;> simp [Tri.or]
    rw [this, ih, h1, List.mem_cons]
    constructor
    · rintro (⟨a, b⟩ | ⟨a, b⟩)
      · exact ⟨a, .inl b.symm⟩
      · exact ⟨a, .inr b⟩
    · rintro ⟨a, b | b⟩
      · exact .inl ⟨a, b.symm⟩
      · exact .inr ⟨a, b⟩

theorem memberOf_f (c : Option V) (vs : List (Option V)) (hne : vs ≠ []) (hv : none ∉ vs) :
    memberOf c vs = .f ↔ c ≠ none ∧ c ∉ vs := by
  induction vs with
  | nil => exact absurd rfl hne
  | cons v vs ih =>
    have e : memberOf c (v :: vs) = (sqlEq c v).or (memberOf c vs) := rfl
    have h2 := (sqlEq_cases c v).2
    have : ∀ a b : Tri, a.or b = .f ↔ a = .f ∧ b = .f := by intro a b; cases a <;> cases b <;> simp [Tri.or]
    rw [e, this, h2]
    have hv1 : v ≠ none := fun h => hv (by simp [h])
    cases vs with
    | nil =>
      simp only [memberOf, List.map_nil, Tri.any, List.foldr_nil, and_true, List.mem_singleton]
      constructor
      · rintro ⟨a, _, b⟩; exact ⟨a, fun h => b h.symm⟩
      · rintro ⟨a, b⟩; exact ⟨a, hv1, fun h => b h.symm⟩
    | cons w ws =>
      rw [ih (by simp) (fun h => hv (List.mem_cons_of_mem _ h))]
      constructor
      · rintro ⟨⟨a, _, b⟩, _, k⟩
        refine ⟨a, fun h => ?_⟩
        rcases List.mem_cons.mp h with h | h
        · exact b h.symm
        · exact k h
      · rintro ⟨a, b⟩
        exact ⟨⟨a, hv1, fun h => b (by simp [h])⟩, a, fun h => b (List.mem_cons_of_mem _ h)⟩

end

end SqlPuzzle
