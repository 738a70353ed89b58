import Verif.Proofs.Plain
import Verif.Spec.Joins
import Mathlib.Data.List.Induction

/-!
`_minimize_joins`: idempotent for any comparison, and what it computes for an equivalence.
-/

namespace SqlPuzzle

open Spec

section
variable (cx : Ctx) (S : Sem)

theorem sameJoin_type (a b : Join) (x y : JoinType) :
    sameJoin cx S { a with type := x } { b with type := y } = sameJoin cx S a b := rfl

/-- Groups as `_minimize_joins` builds them. -/
structure Grouped (gs : List (Join × List Join)) : Prop where
  apart : gs.Pairwise fun g g' => ∀ j ∈ g'.1 :: g'.2, sameJoin cx S g.1 j = .ok false
  together : ∀ g ∈ gs, ∀ j ∈ g.2, sameJoin cx S g.1 j = .ok true

theorem groupInsert_cases {gs gs' : List (Join × List Join)} {j : Join}
    (h : groupInsert cx S gs j = .ok gs') :
    ((∀ g ∈ gs, sameJoin cx S g.1 j = .ok false) ∧ gs' = gs ++ [(j, [])]) ∨
    ∃ pre hd t post, gs = pre ++ (hd, t) :: post ∧ (∀ g ∈ pre, sameJoin cx S g.1 j = .ok false) ∧
      sameJoin cx S hd j = .ok true ∧ gs' = pre ++ (hd, t ++ [j]) :: post := by
  induction gs generalizing gs' with
  | nil => cases h; exact .inl ⟨by simp, rfl⟩
  | cons g gs ih =>
    obtain ⟨hd, t⟩ := g
    unfold groupInsert at h
    rw [bind_ok] at h
    obtain ⟨b, h1, h2⟩ := h
    cases b with
    | true => cases h2; exact .inr ⟨[], hd, t, gs, rfl, by simp, h1, rfl⟩
    | false =>
      simp only [Bool.false_eq_true, if_false] at h2
      rw [bind_ok] at h2
      obtain ⟨r, h3, h4⟩ := h2
      cases h4
      rcases ih h3 with ⟨h5, rfl⟩ | ⟨pre, hd', t', post, rfl, h5, h6, rfl⟩
      · refine .inl ⟨?_, rfl⟩
        intro g hg
        rcases List.mem_cons.mp hg with rfl | hg
        · exact h1
        · exact h5 g hg
      · refine .inr ⟨(hd, t) :: pre, hd', t', post, rfl, ?_, h6, rfl⟩
        intro g hg
        rcases List.mem_cons.mp hg with rfl | hg
        · exact h1
        · exact h5 g hg

theorem groupInsert_new {gs : List (Join × List Join)} {j : Join}
    (h : ∀ g ∈ gs, sameJoin cx S g.1 j = .ok false) :
    groupInsert cx S gs j = .ok (gs ++ [(j, [])]) := by
  induction gs with
  | nil => rfl
  | cons g gs ih =>
    obtain ⟨hd, t⟩ := g
    unfold groupInsert
    rw [h (hd, t) (by simp)]
    simp only [ok_bind, Bool.false_eq_true, if_false]
    rw [ih fun g hg => h g (by simp [hg])]
    rfl

theorem groupInsert_old {pre post : List (Join × List Join)} {hd j : Join} {t : List Join}
    (h : ∀ g ∈ pre, sameJoin cx S g.1 j = .ok false) (h1 : sameJoin cx S hd j = .ok true) :
    groupInsert cx S (pre ++ (hd, t) :: post) j = .ok (pre ++ (hd, t ++ [j]) :: post) := by
  induction pre with
  | nil =>
    rw [List.nil_append, groupInsert, h1]
    rfl
  | cons g gs ih =>
    obtain ⟨hd', t'⟩ := g
    rw [List.cons_append, groupInsert, h (hd', t') (by simp)]
    simp only [ok_bind, Bool.false_eq_true, if_false]
    rw [ih fun g hg => h g (by simp [hg])]
    rfl

theorem groupInsert_grouped {gs gs' : List (Join × List Join)} {j : Join}
    (hg : Grouped cx S gs) (h : groupInsert cx S gs j = .ok gs') : Grouped cx S gs' := by
  obtain ⟨ha, ht⟩ := hg
  rcases groupInsert_cases cx S h with ⟨h1, rfl⟩ | ⟨pre, hd, t, post, rfl, h1, h2, rfl⟩
  · constructor
    · rw [List.pairwise_append]
      refine ⟨ha, by simp, ?_⟩
      intro g hg g' hg' k hk
      rw [List.mem_singleton.mp hg'] at hk
      simp only [List.mem_singleton] at hk
      rw [hk]; exact h1 g hg
    · intro g hg
      rcases List.mem_append.mp hg with hg | hg
      · exact ht g hg
      · rw [List.mem_singleton.mp hg]; simp
  · rw [List.pairwise_append, List.pairwise_cons] at ha
    obtain ⟨a1, ⟨a2, a3⟩, a4⟩ := ha
    constructor
    · rw [List.pairwise_append, List.pairwise_cons]
      refine ⟨a1, ⟨a2, a3⟩, ?_⟩
      intro g hg g' hg'
      rcases List.mem_cons.mp hg' with rfl | hg'
      · intro k hk
        rcases List.mem_cons.mp hk with rfl | hk
        · exact a4 g hg (k, t) (by simp) k (by simp)
        · rcases List.mem_append.mp hk with hk | hk
          · exact a4 g hg (hd, t) (by simp) k (by simp [hk])
          · rw [List.mem_singleton.mp hk]; exact h1 g hg
      · exact a4 g hg g' (by simp [hg'])
    · intro g hg
      rcases List.mem_append.mp hg with hg | hg
      · exact ht g (by simp [hg])
      · rcases List.mem_cons.mp hg with rfl | hg
        · intro k hk
          rcases List.mem_append.mp hk with hk | hk
          · exact ht (hd, t) (by simp) k hk
          · rw [List.mem_singleton.mp hk]; exact h2
        · exact ht g (by simp [hg])

theorem groupJoins_grouped {gs gs' : List (Join × List Join)} {js : List Join}
    (hg : Grouped cx S gs) (h : groupJoins cx S gs js = .ok gs') : Grouped cx S gs' := by
  induction js generalizing gs with
  | nil => cases h; exact hg
  | cons j js ih =>
    unfold groupJoins at h
    rw [bind_ok] at h
    obtain ⟨g1, h1, h2⟩ := h
    exact ih (groupInsert_grouped cx S hg h1) h2

theorem groupJoins_append (gs : List (Join × List Join)) (js ks : List Join) :
    groupJoins cx S gs (js ++ ks) = groupJoins cx S gs js >>= fun g => groupJoins cx S g ks := by
  induction js generalizing gs with
  | nil => rfl
  | cons j js ih =>
    rw [List.cons_append, groupJoins, groupJoins]
    cases groupInsert cx S gs j with
    | error e => rfl
    | ok g => exact ih g

/-- A group after merging, as a group. -/
def normGroup (g : Join × List Join) : Join × List Join :=
  let js := g.1 :: g.2
  if !g.2.isEmpty && js.any (fun j => j.type == .inner) then ({ g.1 with type := .inner }, [])
  else if !g.2.isEmpty && js.all (fun j => j.type == g.1.type) then (g.1, [])
  else g

theorem collapse_norm (g : Join × List Join) :
    collapseGroup g = (normGroup g).1 :: (normGroup g).2 ∧
    collapseGroup (normGroup g) = collapseGroup g := by
  by_cases h1 : (!g.2.isEmpty && (g.1 :: g.2).any fun j => j.type == .inner) = true
  · have hn : normGroup g = ({ g.1 with type := .inner }, []) := by simp only [normGroup, h1, if_true]
    have hc : collapseGroup g = [{ g.1 with type := .inner }] := by
      simp only [collapseGroup, h1, if_true]
    rw [hn, hc]
    exact ⟨rfl, rfl⟩
  · by_cases h2 : (!g.2.isEmpty && (g.1 :: g.2).all fun j => j.type == g.1.type) = true
    · have hn : normGroup g = (g.1, []) := by simp only [normGroup, h1, h2, if_true]; rfl
      have hc : collapseGroup g = [g.1] := by simp only [collapseGroup, h1, h2, if_true]; rfl
      rw [hn, hc]
      exact ⟨rfl, rfl⟩
    · have hn : normGroup g = g := by simp only [normGroup, h1, h2]; rfl
      have hc : collapseGroup g = g.1 :: g.2 := by simp only [collapseGroup, h1, h2]; rfl
      rw [hn, hc]
      exact ⟨rfl, rfl⟩

/-- The joins of a merged group compare like those of the group. -/
theorem norm_same (g : Join × List Join) :
    (∀ j, sameJoin cx S (normGroup g).1 j = sameJoin cx S g.1 j) ∧
    (∀ h, sameJoin cx S h (normGroup g).1 = sameJoin cx S h g.1) ∧
    ((normGroup g).2 = [] ∨ (normGroup g).2 = g.2) := by
  unfold normGroup
  simp only
  split
  · exact ⟨fun _ => rfl, fun _ => rfl, .inl rfl⟩
  · split
    · exact ⟨fun _ => rfl, fun _ => rfl, .inl rfl⟩
    · exact ⟨fun _ => rfl, fun _ => rfl, .inr rfl⟩

theorem groupJoins_tail {acc : List (Join × List Join)} {hd : Join} {t js : List Join}
    (h : ∀ g ∈ acc, ∀ j ∈ js, sameJoin cx S g.1 j = .ok false)
    (h1 : ∀ j ∈ js, sameJoin cx S hd j = .ok true) :
    groupJoins cx S (acc ++ [(hd, t)]) js = .ok (acc ++ [(hd, t ++ js)]) := by
  induction js generalizing t with
  | nil => simp [groupJoins]
  | cons j js ih =>
    rw [groupJoins, groupInsert_old cx S (fun g hg => h g hg j (by simp)) (h1 j (by simp)), ok_bind,
      ih (fun g hg k hk => h g hg k (by simp [hk])) fun k hk => h1 k (by simp [hk])]
    simp

theorem regroup {acc gs : List (Join × List Join)} (h : Grouped cx S (acc ++ gs)) :
    groupJoins cx S (acc.map normGroup) (gs.flatMap collapseGroup) =
      .ok ((acc ++ gs).map normGroup) := by
  induction gs generalizing acc with
  | nil => simp [groupJoins]
  | cons g gs ih =>
    obtain ⟨ha, ht⟩ := h
    have ha' := ha
    rw [List.pairwise_append, List.pairwise_cons] at ha'
    obtain ⟨_, _, a4⟩ := ha'
    obtain ⟨n1, n2, n3⟩ := norm_same cx S g
    have new : ∀ g0 ∈ acc.map normGroup, sameJoin cx S g0.1 (normGroup g).1 = .ok false := by
      intro g0 hg0
      obtain ⟨g1, hg1, rfl⟩ := List.mem_map.mp hg0
      rw [n2, (norm_same cx S g1).1]
      exact a4 g1 hg1 g (by simp) g.1 (by simp)
    have sub : ∀ j ∈ (normGroup g).2, j ∈ g.2 := by
      rcases n3 with h | h <;> rw [h] <;> simp
    have step : groupJoins cx S (acc.map normGroup) (collapseGroup g) =
        .ok ((acc ++ [g]).map normGroup) := by
      rw [(collapse_norm g).1, groupJoins, groupInsert_new cx S new, ok_bind,
        groupJoins_tail cx S (acc := acc.map normGroup) ?_ ?_]
      · simp
      · intro g0 hg0 j hj
        obtain ⟨g1, hg1, rfl⟩ := List.mem_map.mp hg0
        rw [(norm_same cx S g1).1]
        exact a4 g1 hg1 g (by simp) j (by simp [sub j hj])
      · intro j hj
        rw [n1]
        exact ht g (by simp) j (sub j hj)
    rw [List.flatMap_cons, groupJoins_append, step, ok_bind, ih ⟨by simpa using ha, by simpa using ht⟩]
    simp

/-- Merging merged joins changes nothing, whatever the comparison does. -/
theorem minimizeJoins_idem {js js' : List Join} (h : minimizeJoins cx S js = .ok js') :
    minimizeJoins cx S js' = .ok js' := by
  unfold minimizeJoins at h
  rw [bind_ok] at h
  obtain ⟨gs, h1, h2⟩ := h
  cases h2
  have hg : Grouped cx S gs := groupJoins_grouped cx S ⟨.nil, by simp⟩ h1
  have := regroup cx S (acc := []) hg
  simp only [List.map_nil, List.nil_append] at this
  unfold minimizeJoins
  rw [this, ok_bind]
  congr 1
  rw [List.flatMap_map]
  exact List.flatMap_congr fun g _ => (collapse_norm g).2

theorem minimizeJoins_ne_nil {js js' : List Join} (h : minimizeJoins cx S js = .ok js')
    (hj : js ≠ []) : js' ≠ [] := by
  unfold minimizeJoins at h
  rw [bind_ok] at h
  obtain ⟨gs, h1, h2⟩ := h
  cases h2
  have hm := groupJoins_members cx S h1
  cases gs with
  | nil =>
    have := hm.length_eq
    cases js with
    | nil => exact absurd rfl hj
    | cons a as => simp [members] at this
  | cons g gs => simp [(collapse_norm g).1]

/-- Joins that are pairwise different are left alone. -/
theorem minimizeJoins_distinct {js : List Join}
    (h : js.Pairwise fun a b => sameJoin cx S a b = .ok false) : minimizeJoins cx S js = .ok js := by
  have main : ∀ acc : List Join, (acc ++ js).Pairwise (fun a b => sameJoin cx S a b = .ok false) →
      groupJoins cx S (acc.map fun j => (j, [])) js = .ok ((acc ++ js).map fun j => (j, [])) := by
    clear h
    induction js with
    | nil => intro acc _; simp [groupJoins]
    | cons j js ih =>
      intro acc h
      have h' := h
      rw [List.pairwise_append] at h'
      rw [groupJoins, groupInsert_new cx S, ok_bind]
      · have := ih (acc ++ [j]) (by simpa using h)
        simpa using this
      · intro g hg
        obtain ⟨a, ha, rfl⟩ := List.mem_map.mp hg
        exact h'.2.2 a ha j (by simp)
  have := main [] h
  simp only [List.map_nil, List.nil_append] at this
  unfold minimizeJoins
  rw [this, ok_bind]
  congr 1
  rw [List.flatMap_map]
  have : ∀ j : Join, collapseGroup (j, []) = [j] := fun j => rfl
  simp only [this]
  simp

end

/-! ### Declarative description -/

section firsts
variable {α : Type} {same : α → α → Bool}

theorem firsts_snoc (xs : List α) (j : α) :
    firsts same (xs ++ [j]) =
      firsts same xs ++ (if xs.any (fun x => same x j) then [] else [j]) := by
  induction xs with
  | nil => simp [firsts]
  | cons x xs ih =>
    rw [List.cons_append, firsts, ih, firsts, List.filter_append, List.any_cons]
    cases h1 : same x j <;> cases h2 : xs.any (fun x => same x j) <;> simp [h1]

theorem firsts_sublist (xs : List α) : (firsts same xs).Sublist xs := by
  induction xs with
  | nil => exact .slnil
  | cons x xs ih => exact ((List.filter_sublist).trans ih).cons_cons x

theorem firsts_pairwise (xs : List α) : (firsts same xs).Pairwise fun a b => same a b = false := by
  induction xs with
  | nil => exact .nil
  | cons x xs ih =>
    rw [firsts, List.pairwise_cons]
    refine ⟨?_, ih.filter _⟩
    intro y hy
    simpa using (List.mem_filter.mp hy).2

theorem firsts_rep {xs : List α} (refl : ∀ x ∈ xs, same x x = true)
    (trans : ∀ x ∈ xs, ∀ y ∈ xs, ∀ z ∈ xs, same x y = true → same y z = true → same x z = true) :
    ∀ x ∈ xs, ∃ h ∈ firsts same xs, same h x = true := by
  induction xs with
  | nil => simp
  | cons y ys ih =>
    intro x hx
    rcases List.mem_cons.mp hx with rfl | hx
    · exact ⟨x, by simp [firsts], refl x (by simp)⟩
    · obtain ⟨h, h1, h2⟩ := ih (fun z hz => refl z (by simp [hz]))
        (fun a ha b hb c hc => trans a (by simp [ha]) b (by simp [hb]) c (by simp [hc])) x hx
      have hm : h ∈ ys := (firsts_sublist ys).subset h1
      by_cases h3 : same y h = true
      · exact ⟨y, by simp [firsts], trans y (by simp) h (by simp [hm]) x (by simp [hx]) h3 h2⟩
      · refine ⟨h, ?_, h2⟩
        rw [firsts]
        exact List.mem_cons_of_mem _ (List.mem_filter.mpr ⟨h1, by simpa using h3⟩)

end firsts

theorem collapse_merged (j : Join) (js : List Join) : collapseGroup (j, js) = merged (j :: js) := by
  cases js with
  | nil => rfl
  | cons k ks => rfl

/-- `_minimize_joins` computes the declarative description, if the comparison is an equivalence on
the joins at hand. -/
theorem minimizeJoins_eq_merged {cx : Ctx} {S : Sem} {same : Join → Join → Bool} {js : List Join}
    (hs : ∀ a ∈ js, ∀ b ∈ js, sameJoin cx S a b = .ok (same a b))
    (refl : ∀ a ∈ js, same a a = true)
    (symm : ∀ a ∈ js, ∀ b ∈ js, same a b = true → same b a = true)
    (trans : ∀ a ∈ js, ∀ b ∈ js, ∀ c ∈ js, same a b = true → same b c = true → same a c = true) :
    minimizeJoins cx S js = .ok (mergedJoins same js) := by
  have key : groupJoins cx S [] js =
      .ok ((firsts same js).map fun h => (h, (js.filter (same h)).tail)) := by
    -- prefixes of `js`
    have : ∀ xs : List Join, (∀ x ∈ xs, x ∈ js) → groupJoins cx S [] xs =
        .ok ((firsts same xs).map fun h => (h, (xs.filter (same h)).tail)) := by
      intro xs
      induction xs using List.reverseRecOn with
      | nil => intro _; rfl
      | append_singleton xs j ih =>
        intro hx
        have hx' : ∀ x ∈ xs, x ∈ js := fun x h => hx x (by simp [h])
        have hj : j ∈ js := hx j (by simp)
        have hf : ∀ h ∈ firsts same xs, h ∈ js := fun h hh =>
          hx' h ((firsts_sublist xs).subset hh)
        rw [groupJoins_append, ih hx', ok_bind, groupJoins]
        have fin : ∀ g : List (Join × List Join), (groupInsert cx S ((firsts same xs).map fun h =>
              (h, (xs.filter (same h)).tail)) j) = .ok g →
            (groupInsert cx S ((firsts same xs).map fun h => (h, (xs.filter (same h)).tail)) j >>=
              fun g => groupJoins cx S g []) = .ok g := by
          intro g hg; rw [hg]; rfl
        by_cases hany : xs.any (fun x => same x j) = true
        · -- a known join
          obtain ⟨x, hxm, hxj⟩ := List.any_eq_true.mp hany
          obtain ⟨h, h1, h2⟩ := firsts_rep (same := same) (xs := xs) (fun a ha => refl a (hx' a ha))
            (fun a ha b hb c hc => trans a (hx' a ha) b (hx' b hb) c (hx' c hc)) x hxm
          have hhj : same h j = true := trans h (hf h h1) x (hx' x hxm) j hj h2 hxj
          obtain ⟨pre, post, hp⟩ := List.append_of_mem h1
          have hpw := firsts_pairwise (same := same) xs
          rw [hp, List.pairwise_append, List.pairwise_cons] at hpw
          obtain ⟨_, ⟨p2, _⟩, p4⟩ := hpw
          have hpre : ∀ a ∈ pre, same a j = false := by
            intro a ha
            have haj : a ∈ js := hf a (by rw [hp]; simp [ha])
            rw [← Bool.not_eq_true]
            intro h5
            have := p4 a ha h (by simp)
            rw [trans a haj j hj h (hf h h1) h5 (symm h (hf h h1) j hj hhj)] at this
            cases this
          have hpost : ∀ a ∈ post, same a j = false := by
            intro a ha
            have haj : a ∈ js := hf a (by rw [hp]; simp [ha])
            rw [← Bool.not_eq_true]
            intro h5
            have := p2 a ha
            rw [trans h (hf h h1) j hj a haj hhj (symm a haj j hj h5)] at this
            cases this
          refine fin _ ?_
          rw [firsts_snoc, hany, if_pos rfl, List.append_nil, hp]
          simp only [List.map_append, List.map_cons]
          rw [groupInsert_old cx S]
          · congr 1
            have tail_eq : ∀ a, a ∈ xs → same a a = true →
                ((xs ++ [j]).filter (same a)).tail =
                  (xs.filter (same a)).tail ++ (if same a j then [j] else []) := by
              intro a ha hr
              rw [List.filter_append]
              have : xs.filter (same a) ≠ [] :=
                List.ne_nil_of_mem (List.mem_filter.mpr ⟨ha, hr⟩)
              rw [List.tail_append_of_ne_nil this]
              cases h9 : same a j <;> simp [h9]
            have mem_of : ∀ a, a ∈ firsts same xs → a ∈ xs := fun a ha =>
              (firsts_sublist xs).subset ha
            congr 1
            · refine List.map_congr_left fun a ha => ?_
              have : a ∈ xs := mem_of a (by rw [hp]; simp [ha])
              rw [tail_eq a this (refl a (hx' a this)), hpre a ha]
              simp
            · congr 1
              · have : h ∈ xs := mem_of h h1
                rw [tail_eq h this (refl h (hx' h this)), hhj]
                simp
              · refine List.map_congr_left fun a ha => ?_
                have : a ∈ xs := mem_of a (by rw [hp]; simp [ha])
                rw [tail_eq a this (refl a (hx' a this)), hpost a ha]
                simp
          · intro g hg
            obtain ⟨a, ha, rfl⟩ := List.mem_map.mp hg
            rw [hs a (hf a (by rw [hp]; simp [ha])) j hj, hpre a ha]
          · rw [hs h (hf h h1) j hj, hhj]
        · -- a new join
          have hany' : xs.any (fun x => same x j) = false := by simpa using hany
          have hno : ∀ x ∈ xs, same x j = false := by
            intro x hxm
            rw [← Bool.not_eq_true]
            exact fun h => hany (List.any_eq_true.mpr ⟨x, hxm, h⟩)
          refine fin _ ?_
          rw [groupInsert_new cx S]
          · rw [firsts_snoc, hany']
            simp only [Bool.false_eq_true, if_false, List.map_append, List.map_cons, List.map_nil]
            congr 2
            · refine List.map_congr_left fun a ha => ?_
              have ham := (firsts_sublist xs).subset ha
              rw [List.filter_append]
              simp [hno a ham]
            · rw [List.filter_append]
              have h0 : xs.filter (same j) = [] := by
                rw [List.filter_eq_nil_iff]
                intro x hxm h
                have := hno x hxm
                rw [symm j hj x (hx' x hxm) h] at this
                cases this
              rw [h0]
              simp [refl j hj]
          · intro g hg
            obtain ⟨a, ha, rfl⟩ := List.mem_map.mp hg
            rw [hs a (hf a ha) j hj, hno a ((firsts_sublist xs).subset ha)]
    exact this js fun x h => h
  unfold minimizeJoins mergedJoins
  rw [key, ok_bind]
  congr 1
  rw [List.flatMap_map]
  refine List.flatMap_congr fun h hh => ?_
  have hm : h ∈ js := (firsts_sublist js).subset hh
  rw [collapse_merged]
  congr 1
  -- the first member of the group is `h`
  have hfirst : ∀ xs : List Join, (∀ x ∈ xs, x ∈ js) → h ∈ firsts same xs →
      (xs.filter (same h)).head? = some h := by
    intro xs hx hmem
    induction xs with
    | nil => cases hmem
    | cons x xs ih =>
      rw [firsts] at hmem
      rcases List.mem_cons.mp hmem with rfl | hmem
      · rw [List.filter_cons, if_pos (refl h hm)]; rfl
      · obtain ⟨h1, h2⟩ := List.mem_filter.mp hmem
        have h3 : same h x = false := by
          rw [← Bool.not_eq_true]
          intro h3
          rw [symm h hm x (hx x (by simp)) h3] at h2
          cases h2
        rw [List.filter_cons, if_neg (by simp [h3])]
        exact ih (fun y hy => hx y (by simp [hy])) h1
  have := hfirst js (fun x h => h) hh
  cases hl : js.filter (same h) with
  | nil => rw [hl] at this; cases this
  | cons a as =>
    rw [hl] at this
    simp only [List.head?_cons, Option.some.injEq] at this
    rw [this]
    rfl

end SqlPuzzle
