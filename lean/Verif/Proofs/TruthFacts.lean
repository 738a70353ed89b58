import Verif.Spec.Truth
import Verif.Proofs.GrammarFacts

/-!
How conditions of the grammar are evaluated.
-/

namespace SqlPuzzle

open Spec

/-! ### Pieces -/

/-- Put tokens before the first piece. -/
def fronts (ts : List Tok) : List (List Tok) → List (List Tok)
  | [] => [ts]
  | p :: ps => (ts ++ p) :: ps

theorem fronts_append (ts us : List Tok) (ps : List (List Tok)) :
    fronts (ts ++ us) ps = fronts ts (fronts us ps) := by
  cases ps <;> simp [fronts]

theorem fronts_cons (t : Tok) (ts : List Tok) (ps : List (List Tok)) :
    fronts (t :: ts) ps = front t (fronts ts ps) := by
  cases ps <;> rfl

theorem splitAt_ne (s : Tok) (n : Nat) (ts : List Tok) : Spec.splitAt s n ts ≠ [] := by
  cases ts with
  | nil => simp [Spec.splitAt]
  | cons t ts =>
    have hf : ∀ ps, front t ps ≠ [] := by intro ps; cases ps <;> simp [front]
    unfold Spec.splitAt
    split
    · exact hf _
    · split
      · exact hf _
      · split
        · simp
        · exact hf _

theorem fronts_nil {s : Tok} {n : Nat} {ts : List Tok} :
    fronts [] (Spec.splitAt s n ts) = Spec.splitAt s n ts := by
  cases h : Spec.splitAt s n ts with
  | nil => exact absurd h (splitAt_ne s n ts)
  | cons p ps => rfl

theorem splitAt_skip {s t : Tok} {n : Nat} {ts : List Tok} (h1 : t ≠ .sym '(') (h2 : t ≠ .sym ')')
    (h3 : n = 0 → t ≠ s) : Spec.splitAt s n (t :: ts) = front t (Spec.splitAt s n ts) := by
  conv => lhs; unfold Spec.splitAt
  rw [if_neg h1, if_neg h2, if_neg (fun h => h3 h.1 h.2)]

theorem splitAt_hit {s : Tok} {ts : List Tok} (h1 : s ≠ .sym '(') (h2 : s ≠ .sym ')') :
    Spec.splitAt s 0 (s :: ts) = [] :: Spec.splitAt s 0 ts := by
  conv => lhs; unfold Spec.splitAt
  rw [if_neg h1, if_neg h2, if_pos ⟨rfl, rfl⟩]

theorem splitAt_paren {s : Tok} {n : Nat} {ts r : List Tok}
    (ih : ∀ r, Spec.splitAt s (n + 1) (ts ++ r) = fronts ts (Spec.splitAt s (n + 1) r)) :
    Spec.splitAt s n (paren ts ++ r) = fronts (paren ts) (Spec.splitAt s n r) := by
  have e : paren ts ++ r = .sym '(' :: (ts ++ (.sym ')' :: r)) := by simp [paren]
  rw [e]
  conv => lhs; unfold Spec.splitAt
  rw [if_pos rfl, ih]
  have e2 : Spec.splitAt s (n + 1) (.sym ')' :: r) = front (.sym ')') (Spec.splitAt s n r) := by
    conv => lhs; unfold Spec.splitAt
    rw [if_neg (by simp), if_pos rfl]
    rfl
  rw [e2]
  show _ = fronts (.sym '(' :: (ts ++ [.sym ')'])) _
  rw [fronts_cons, fronts_append, fronts_cons, fronts_nil]

theorem splitAt_built {s : Tok} {b : Bool} {ts : List Tok} (h : Built b ts) (n : Nat) (r : List Tok) :
    Spec.splitAt s (n + 1) (ts ++ r) = fronts ts (Spec.splitAt s (n + 1) r) := by
  induction h generalizing n r with
  | nil => exact fronts_nil.symm
  | cons h _ ih => rw [List.cons_append, splitAt_skip h.2.1 h.2.2.1 (by simp), ih, fronts_cons]
  | append _ _ ih1 ih2 => rw [List.append_assoc, ih1, ih2, fronts_append]
  | paren _ ih => exact splitAt_paren fun r => ih (n + 1) r
  | select _ ih => rw [List.cons_append, splitAt_skip (by simp) (by simp) (by simp), ih, fronts_cons]
  | union _ _ ih1 ih2 =>
    rw [List.append_assoc, ih1, List.cons_append, splitAt_skip (by simp) (by simp) (by simp), ih2,
      fronts_append, fronts_cons]
  | @unionAll ts us _ _ ih1 ih2 =>
    rw [List.append_assoc, ih1, fronts_append]
    congr 1
    refine (splitAt_skip (by simp) (by simp) (by simp)).trans ?_
    show front _ (Spec.splitAt s (n + 1) (.word L!"ALL" :: (us ++ r))) = _
    rw [splitAt_skip (by simp) (by simp) (by simp), ih2]
    show _ = fronts (.word L!"UNION" :: .word L!"ALL" :: us) _
    rw [fronts_cons, fronts_cons]

/-- The tokens do not contain `s` outside parentheses. -/
def Whole (s : Tok) (ts : List Tok) : Prop :=
  ∀ r, Spec.splitAt s 0 (ts ++ r) = fronts ts (Spec.splitAt s 0 r)

theorem whole_nil (s : Tok) : Whole s [] := fun _ => fronts_nil.symm

theorem Whole.append {s : Tok} {ts us : List Tok} (h : Whole s ts) (k : Whole s us) :
    Whole s (ts ++ us) := fun r => by rw [List.append_assoc, h, k, fronts_append]

theorem Whole.cons {s t : Tok} {ts : List Tok} (h1 : t ≠ .sym '(') (h2 : t ≠ .sym ')') (h3 : t ≠ s)
    (k : Whole s ts) : Whole s (t :: ts) := fun r => by
  rw [List.cons_append, splitAt_skip h1 h2 (fun _ => h3), k, fronts_cons]

theorem whole_paren {s : Tok} {b : Bool} {ts : List Tok} (h : Built b ts) : Whole s (paren ts) :=
  fun _ => splitAt_paren fun r => splitAt_built h 0 r

theorem Whole.one {s : Tok} {ts : List Tok} (h : Whole s ts) : pieces s ts = [ts] := by
  have := h []
  rw [List.append_nil] at this
  unfold Spec.pieces
  rw [this]
  simp [Spec.splitAt, fronts]

theorem Whole.cut {s : Tok} {ts us : List Tok} (h : Whole s ts) (h1 : s ≠ .sym '(')
    (h2 : s ≠ .sym ')') : pieces s (ts ++ (s :: us)) = ts :: pieces s us := by
  unfold Spec.pieces
  rw [h, splitAt_hit h1 h2]
  simp [fronts]

theorem pieces_joinT {s : Tok} {xs : List (List Tok)} (hne : xs ≠ []) (h : ∀ x ∈ xs, Whole s x)
    (h1 : s ≠ .sym '(') (h2 : s ≠ .sym ')') : pieces s (joinT [s] xs) = xs := by
  induction xs with
  | nil => exact absurd rfl hne
  | cons x xs ih =>
    cases xs with
    | nil => exact (h x (by simp)).one
    | cons y ys =>
      have e : joinT [s] (x :: y :: ys) = x ++ (s :: joinT [s] (y :: ys)) := rfl
      rw [e, (h x (by simp)).cut h1 h2, ih (by simp) fun z hz => h z (List.mem_cons_of_mem _ hz)]

theorem whole_joinT {s t : Tok} {xs : List (List Tok)} (h : ∀ x ∈ xs, Whole s x)
    (h1 : t ≠ .sym '(') (h2 : t ≠ .sym ')') (h3 : t ≠ s) : Whole s (joinT [t] xs) := by
  induction xs with
  | nil => exact whole_nil s
  | cons x xs ih =>
    cases xs with
    | nil => exact h x (by simp)
    | cons y ys =>
      exact (h x (by simp)).append (.cons h1 h2 h3 (ih fun z hz => h z (List.mem_cons_of_mem _ hz)))

theorem front_count (t : Tok) (ps : List (List Tok)) (h : ps ≠ []) :
    (front t ps).length = ps.length ∧ (front t ps).flatten.length = ps.flatten.length + 1 := by
  cases ps with
  | nil => exact absurd rfl h
  | cons p ps => simp [front]; try omega

theorem splitAt_count (s : Tok) (ts : List Tok) : ∀ n,
    (Spec.splitAt s n ts).flatten.length + (Spec.splitAt s n ts).length = ts.length + 1 := by
  induction ts with
  | nil => intro n; simp [Spec.splitAt]
  | cons t ts ih =>
    intro n
    have hf : ∀ m, (front t (Spec.splitAt s m ts)).flatten.length +
        (front t (Spec.splitAt s m ts)).length = (t :: ts).length + 1 := by
      intro m
      have := front_count t _ (splitAt_ne s m ts)
      have := ih m
      simp only [List.length_cons]
      omega
    unfold Spec.splitAt
    split
    · exact hf _
    · split
      · exact hf _
      · split
        · have := ih n
          simp only [List.flatten_cons, List.length_cons, List.nil_append]
          omega
        · exact hf _

theorem length_le_flatten {p : List Tok} {ps : List (List Tok)} (h : p ∈ ps) :
    p.length ≤ ps.flatten.length := by
  induction ps with
  | nil => cases h
  | cons q ps ih =>
    rw [List.flatten_cons, List.length_append]
    rcases List.mem_cons.mp h with rfl | h
    · omega
    · have := ih h; omega

theorem pieces_smaller {s : Tok} {ts p : List Tok} (h : 1 < (pieces s ts).length) (hp : p ∈ pieces s ts) :
    p.length < ts.length := by
  have h1 := splitAt_count s ts 0
  have h2 := length_le_flatten hp
  unfold Spec.pieces at h h2
  omega

theorem closing_count : ∀ (ts : List Tok) (n : Nat) (a b : List Tok), closing n ts = some (a, b) →
    a.length + b.length < ts.length := by
  intro ts
  induction ts with
  | nil => intro n a b h; cases h
  | cons t ts ih =>
    intro n a b h
    have hm : ∀ m, (closing m ts).map (fun p => (t :: p.1, p.2)) = some (a, b) →
        a.length + b.length < (t :: ts).length := by
      intro m hm
      obtain ⟨⟨a', b'⟩, h1, h2⟩ := Option.map_eq_some_iff.mp hm
      cases h2
      have := ih m a' b' h1
      simp only [List.length_cons]
      omega
    unfold closing at h
    split at h
    · exact hm _ h
    · split at h
      · split at h
        · cases h; simp
        · exact hm _ h
      · exact hm _ h

theorem inside_smaller {ts r : List Tok} (h : inside ts = some r) : r.length < ts.length := by
  unfold inside at h
  split at h
  · rename_i us
    split at h
    · rename_i r' hc
      cases h
      have := closing_count us 0 r [] hc
      simp only [List.length_cons, List.length_nil] at *
      omega
    · cases h
  · cases h

theorem closing_built {b : Bool} {ts : List Tok} (h : Built b ts) (n : Nat) (r : List Tok) :
    closing n (ts ++ r) = (closing n r).map fun p => (ts ++ p.1, p.2) := by
  have other : ∀ {n : Nat} {t : Tok} {ts : List Tok}, t ≠ .sym '(' → t ≠ .sym ')' →
      closing n (t :: ts) = (closing n ts).map fun p => (t :: p.1, p.2) := by
    intro n t ts h1 h2
    conv => lhs; unfold closing
    rw [if_neg h1, if_neg h2]
  induction h generalizing n r with
  | nil => simp
  | cons h _ ih => rw [List.cons_append, other h.2.1 h.2.2.1, ih, Option.map_map]; rfl
  | append _ _ ih1 ih2 =>
    rw [List.append_assoc, ih1, ih2, Option.map_map]
    congr 1
    funext p
    simp
  | @paren b ts _ ih =>
    have e : paren ts ++ r = .sym '(' :: (ts ++ (.sym ')' :: r)) := by simp [paren]
    rw [e]
    conv => lhs; unfold closing
    rw [if_pos rfl, ih]
    have e2 : closing (n + 1) (.sym ')' :: r) = (closing n r).map fun p => (.sym ')' :: p.1, p.2) := by
      conv => lhs; unfold closing
      rw [if_neg (by simp), if_pos rfl]
    rw [e2, Option.map_map, Option.map_map]
    congr 1
    funext p
    simp [paren]
  | select _ ih => rw [List.cons_append, other (by simp) (by simp), ih, Option.map_map]; rfl
  | union _ _ ih1 ih2 =>
    rw [List.append_assoc, ih1, List.cons_append, other (by simp) (by simp), ih2, Option.map_map,
      Option.map_map]
    congr 1
    funext p
    simp
  | @unionAll ts us _ _ ih1 ih2 =>
    have e : ts ++ (words [L!"UNION", L!"ALL"] ++ us) ++ r =
        ts ++ (.word L!"UNION" :: .word L!"ALL" :: (us ++ r)) := by simp [words]
    rw [e, ih1, other (by simp) (by simp), other (by simp) (by simp), ih2, Option.map_map,
      Option.map_map, Option.map_map]
    congr 1
    funext p
    simp [words]

theorem inside_paren {b : Bool} {ts : List Tok} (h : Built b ts) : inside (paren ts) = some ts := by
  have hc : closing 0 (ts ++ [.sym ')']) = some (ts, []) := by
    rw [closing_built h]
    simp [closing]
  show (match closing 0 (ts ++ [.sym ')']) with
    | some (r, []) => some r
    | _ => none) = some ts
  rw [hc]

/-! ### Truth values -/

section
variable (pred : List Tok → Tri)

theorem truthF_eq : ∀ (k : Nat) (ts : List Tok) (m n : Nat), ts.length ≤ k → ts.length ≤ m →
    ts.length ≤ n → truthF pred m ts = truthF pred n ts := by
  intro k
  induction k with
  | zero =>
    intro ts m n hk _ _
    have : ts = [] := List.length_eq_zero_iff.mp (by omega)
    subst this
    cases m <;> cases n <;> rfl
  | succ k ih =>
    intro ts m n hk hm hn
    cases hts : ts with
    | nil => cases m <;> cases n <;> rfl
    | cons t us =>
      have hl : ts.length = us.length + 1 := by rw [hts]; rfl
      rw [← hts]
      obtain ⟨m, rfl⟩ : ∃ m', m = m' + 1 := ⟨m - 1, by omega⟩
      obtain ⟨n, rfl⟩ : ∃ n', n = n' + 1 := ⟨n - 1, by omega⟩
      have small : ∀ p : List Tok, p.length < ts.length → truthF pred m p = truthF pred n p :=
        fun p hp => ih p m n (by omega) (by omega) (by omega)
      have hmap : ∀ s, 1 < (pieces s ts).length →
          (pieces s ts).map (truthF pred m) = (pieces s ts).map (truthF pred n) :=
        fun s hs => List.map_congr_left fun p hp => small p (pieces_smaller hs hp)
      unfold truthF
      split
      · rename_i h; rw [hmap _ h]
      · split
        · rename_i h; rw [hmap _ h]
        · split
          · rw [small]
            rw [List.length_tail]; omega
          · split
            · rename_i r hr
              split
              · rfl
              · exact small r (inside_smaller hr)
            · rfl

theorem truth_step {ts : List Tok} (hne : ts ≠ []) : truth pred ts =
    if 1 < (pieces (.word L!"OR") ts).length then
      Tri.any ((pieces (.word L!"OR") ts).map (truth pred))
    else if 1 < (pieces (.word L!"AND") ts).length then
      Tri.all ((pieces (.word L!"AND") ts).map (truth pred))
    else if ts.head? = some (.word L!"NOT") then (truth pred ts.tail).not
    else match inside ts with
      | some r => if isSubquery r then pred ts else truth pred r
      | none => pred ts := by
  have hl : 0 < ts.length := List.length_pos_iff.mpr hne
  obtain ⟨n, hn⟩ : ∃ n, ts.length = n + 1 := ⟨ts.length - 1, by omega⟩
  have small : ∀ p : List Tok, p.length < ts.length → truthF pred n p = truth pred p :=
    fun p hp => truthF_eq pred p.length p n p.length (Nat.le_refl _) (by omega) (Nat.le_refl _)
  have hmap : ∀ s, 1 < (pieces s ts).length →
      (pieces s ts).map (truthF pred n) = (pieces s ts).map (truth pred) :=
    fun s hs => List.map_congr_left fun p hp => small p (pieces_smaller hs hp)
  conv => lhs; unfold truth
  rw [hn]
  conv => lhs; unfold truthF
  split
  · rename_i h; rw [hmap _ h]
  · split
    · rename_i h; rw [hmap _ h]
    · split
      · rw [small]
        rw [List.length_tail]; omega
      · split
        · rename_i r hr
          rw [hr]
          dsimp only
          rw [small r (inside_smaller hr)]
        · rename_i hr
          rw [hr]

/-- Tokens without `AND` and `OR` outside parentheses. -/
def Tight (ts : List Tok) : Prop := Whole (.word L!"AND") ts ∧ Whole (.word L!"OR") ts

theorem truth_paren {b : Bool} {ts : List Tok} (h : Built b ts) (hs : isSubquery ts = false) :
    truth pred (paren ts) = truth pred ts := by
  rw [truth_step pred (by simp [paren]), (whole_paren h).one, (whole_paren h).one, if_neg (by simp), if_neg (by simp), if_neg (by simp [paren]), inside_paren h]
  show (if isSubquery ts = true then _ else _) = _
  rw [hs]
  rfl

theorem truth_not {ts : List Tok} (h : Tight ts) :
    truth pred (.word L!"NOT" :: ts) = (truth pred ts).not := by
  have h1 : Whole (.word L!"OR") (.word L!"NOT" :: ts) := .cons (by simp) (by simp) (by simp) h.2
  have h2 : Whole (.word L!"AND") (.word L!"NOT" :: ts) := .cons (by simp) (by simp) (by simp) h.1
  rw [truth_step pred (by simp), h1.one, h2.one, if_neg (by simp), if_neg (by simp)]
  exact if_pos rfl

/-- A predicate. -/
theorem truth_pred {ts : List Tok} (h : Tight ts) (hne : ts ≠ [])
    (hn : ts.head? ≠ some (.word L!"NOT")) (hi : inside ts = none) : truth pred ts = pred ts := by
  rw [truth_step pred hne, h.1.one, h.2.one, if_neg (by simp), if_neg (by simp), if_neg hn, hi]

theorem joinT_ne {sep : List Tok} {x : List Tok} {xs : List (List Tok)} (h : x ∈ xs) (hx : x ≠ []) :
    joinT sep xs ≠ [] := by
  cases xs with
  | nil => cases h
  | cons y ys =>
    cases ys with
    | nil => rw [List.mem_singleton.mp h] at hx; exact hx
    | cons z zs =>
      rcases List.mem_cons.mp h with rfl | h
      · intro e
        exact hx (List.append_eq_nil_iff.mp e).1
      · intro e
        have := (List.append_eq_nil_iff.mp (List.append_eq_nil_iff.mp e).2).2
        exact joinT_ne h hx this

theorem tri_all_one (v : Tri) : Tri.all [v] = v := by cases v <;> rfl

theorem tri_any_one (v : Tri) : Tri.any [v] = v := by cases v <;> rfl

theorem tri_and_assoc (a b c : Tri) : (a.and b).and c = a.and (b.and c) := by
  cases a <;> cases b <;> cases c <;> rfl

theorem tri_all_append (vs ws : List Tri) : Tri.all (vs ++ ws) = (Tri.all vs).and (Tri.all ws) := by
  induction vs with
  | nil =>
    have : ∀ v : Tri, Tri.and .t v = v := by intro v; cases v <;> rfl
    exact (this _).symm
  | cons v vs ih =>
    show v.and (Tri.all (vs ++ ws)) = _
    rw [ih, ← tri_and_assoc]
    rfl

theorem truth_all {xs : List (List Tok)} (hne : xs ≠ []) (h : ∀ x ∈ xs, Tight x ∧ x ≠ []) :
    truth pred (joinT [.word L!"AND"] xs) = Tri.all (xs.map (truth pred)) := by
  match xs, hne, h with
  | [x], _, _ => exact (tri_all_one _).symm
  | x :: y :: ys, hne, h =>
    have h1 : Whole (.word L!"OR") (joinT [.word L!"AND"] (x :: y :: ys)) :=
      whole_joinT (fun z hz => (h z hz).1.2) (by simp) (by simp) (by simp)
    have h2 := pieces_joinT hne (fun z hz => (h z hz).1.1) (by simp) (by simp)
    rw [truth_step pred (joinT_ne (x := x) (by simp) (h x (by simp)).2), h1.one, h2,
      if_neg (by simp), if_pos (by simp)]

theorem truth_any2 {ts us : List Tok} (h : Whole (.word L!"OR") ts) (k : Whole (.word L!"OR") us) :
    truth pred (ts ++ (.word L!"OR" :: us)) = (truth pred ts).or (truth pred us) := by
  rw [truth_step pred (by simp), h.cut (by simp) (by simp), k.one, if_pos (by simp)]
  show (truth pred ts).or (Tri.any [truth pred us]) = _
  rw [tri_any_one]

end

end SqlPuzzle
