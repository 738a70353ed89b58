import Verif.Model.Queries
import Verif.Proofs.Basic

/-!
Invariants of the mutators.
-/

namespace SqlPuzzle

theorem forUpd_inv {σ α : Type} {P : σ → Prop} {f : σ → α → Upd σ} {xs : List α}
    (hf : ∀ s, ∀ x ∈ xs, P s → P (f s x).1) {s : σ} (hs : P s) : P (forUpd f s xs).1 := by
  induction xs generalizing s with
  | nil => exact hs
  | cons x xs ih =>
    have h1 := hf s x (by simp) hs
    unfold forUpd
    split
    · rename_i s' h; rw [h] at h1; exact ih (fun s y hy => hf s y (by simp [hy])) h1
    · rename_i s' e h; rw [h] at h1; exact h1

theorem withR_inv {σ α : Type} {P : σ → Prop} {s : σ} {r : R α} {f : α → Upd σ} (hs : P s)
    (hf : ∀ a, r = .ok a → P (f a).1) : P (withR s r f).1 := by
  cases r with
  | error e => exact hs
  | ok a => exact hf a rfl

theorem appendUnique_cases {α : Type} (eq : α → α → R Bool) (ps : List α) (p : α) :
    (appendUnique eq ps p).1 = ps ∨ (appendUnique eq ps p).1 = ps ++ [p] := by
  unfold appendUnique
  split <;> simp

theorem appendUnique_inv {α : Type} {P : α → Prop} {eq : α → α → R Bool} {ps : List α} {p : α}
    (hp : ∀ x ∈ ps, P x) (h : P p) : ∀ x ∈ (appendUnique eq ps p).1, P x := by
  rcases appendUnique_cases eq ps p with h1 | h1 <;> rw [h1]
  · exact hp
  · intro x hx
    rcases List.mem_append.mp hx with hx | hx
    · exact hp x hx
    · rw [List.mem_singleton.mp hx]; exact h

/-- The loop all accumulating methods share. -/
def addAll {α β : Type} (eq : α → α → R Bool) (mk : β → R α) (ps : List α) (bs : List β) :
    Upd (List α) :=
  forUpd (fun ps b => withR ps (mk b) fun c => appendUnique eq ps c) ps bs

theorem addAll_nil {α β : Type} (eq : α → α → R Bool) (mk : β → R α) (ps : List α) :
    addAll eq mk ps [] = (ps, none) := rfl

theorem addAll_cons {α β : Type} {eq : α → α → R Bool} {mk : β → R α} {ps : List α} {b : β}
    {bs : List β} {r : Upd (List α)} (h : addAll eq mk ps (b :: bs) = r) :
    (∃ e, mk b = .error e ∧ r = (ps, some e)) ∨
    ∃ c, mk b = .ok c ∧
      ((∃ e, anyR (fun q => eq q c) ps = .error e ∧ r = (ps, some e)) ∨
       (anyR (fun q => eq q c) ps = .ok true ∧ addAll eq mk ps bs = r) ∨
       (anyR (fun q => eq q c) ps = .ok false ∧ addAll eq mk (ps ++ [c]) bs = r)) := by
  subst h
  unfold addAll
  simp only [forUpd]
  cases mk b with
  | error e => exact .inl ⟨e, rfl, rfl⟩
  | ok c =>
    refine .inr ⟨c, rfl, ?_⟩
    simp only [withR, appendUnique]
    cases anyR (fun q => eq q c) ps with
    | error e => exact .inl ⟨e, rfl, rfl⟩
    | ok t =>
      cases t with
      | true => exact .inr (.inl ⟨rfl, rfl⟩)
      | false => exact .inr (.inr ⟨rfl, rfl⟩)

/-- Nothing that was there is changed or removed, and what is added comes from the arguments in
their order. -/
theorem addAll_extends {α β : Type} {eq : α → α → R Bool} {mk : β → R α} {ps ps' : List α}
    {bs : List β} {e : Option Err} (h : addAll eq mk ps bs = (ps', e)) :
    ∃ new bs', ps' = ps ++ new ∧ bs'.Sublist bs ∧
      List.Forall₂ (fun b c => mk b = .ok c) bs' new := by
  induction bs generalizing ps with
  | nil => cases h; exact ⟨[], [], by simp, .slnil, .nil⟩
  | cons b bs ih =>
    rcases addAll_cons h with ⟨e, _, h1⟩ | ⟨c, hc, ⟨e, _, h1⟩ | ⟨_, h1⟩ | ⟨_, h1⟩⟩
    · cases h1; exact ⟨[], [], by simp, List.nil_sublist _, .nil⟩
    · cases h1; exact ⟨[], [], by simp, List.nil_sublist _, .nil⟩
    · obtain ⟨new, bs', h2, h3, h4⟩ := ih h1
      exact ⟨new, bs', h2, h3.cons b, h4⟩
    · obtain ⟨new, bs', h2, h3, h4⟩ := ih h1
      exact ⟨c :: new, b :: bs', by simp [h2], h3.cons_cons b, .cons hc h4⟩

/-- After success every argument is represented. -/
theorem addAll_represented {α β : Type} {eq : α → α → R Bool} {mk : β → R α} {ps ps' : List α}
    {bs : List β} (h : addAll eq mk ps bs = (ps', none)) :
    ∀ b ∈ bs, ∃ c, mk b = .ok c ∧ ∃ c' ∈ ps', c' = c ∨ eq c' c = .ok true := by
  induction bs generalizing ps with
  | nil => simp
  | cons b bs ih =>
    rcases addAll_cons h with ⟨e, _, h1⟩ | ⟨c, hc, ⟨e, _, h1⟩ | ⟨h0, h1⟩ | ⟨_, h1⟩⟩
    · cases h1
    · cases h1
    · intro b' hb'
      rcases List.mem_cons.mp hb' with rfl | hb'
      · obtain ⟨x, hx, hx'⟩ := anyR_true_mem h0
        obtain ⟨new, _, h2, _⟩ := addAll_extends h1
        exact ⟨c, hc, x, by simp [h2, hx], .inr hx'⟩
      · exact ih h1 b' hb'
    · intro b' hb'
      rcases List.mem_cons.mp hb' with rfl | hb'
      · obtain ⟨new, _, h2, _⟩ := addAll_extends h1
        exact ⟨c, hc, c, by simp [h2], .inl rfl⟩
      · exact ih h1 b' hb'

/-- No two items are equal, if there were none before. -/
theorem addAll_distinct {α β : Type} {eq : α → α → R Bool} {mk : β → R α} {ps ps' : List α}
    {bs : List β} {e : Option Err} (h : addAll eq mk ps bs = (ps', e))
    (hp : ps.Pairwise fun a b => eq a b = .ok false) :
    ps'.Pairwise fun a b => eq a b = .ok false := by
  induction bs generalizing ps with
  | nil => cases h; exact hp
  | cons b bs ih =>
    rcases addAll_cons h with ⟨e, _, h1⟩ | ⟨c, hc, ⟨e, _, h1⟩ | ⟨_, h1⟩ | ⟨h0, h1⟩⟩
    · cases h1; exact hp
    · cases h1; exact hp
    · exact ih h1 hp
    · refine ih h1 ?_
      rw [List.pairwise_append]
      refine ⟨hp, by simp, ?_⟩
      intro a ha b hb
      rw [List.mem_singleton.mp hb]
      exact anyR_false.mp h0 a ha

theorem updateLast_nil {α : Type} (f : α → Upd α) : updateLast f [] = none := rfl

theorem updateLast_concat {α : Type} (f : α → Upd α) (xs : List α) (x : α) :
    updateLast f (xs ++ [x]) = some (xs ++ [(f x).1], (f x).2) := by
  induction xs with
  | nil => rfl
  | cons y ys ih =>
    cases h : ys ++ [x] with
    | nil => simp at h
    | cons z zs =>
      rw [List.cons_append, h, updateLast, ← h, ih]
      rfl

theorem updateLast_none {α : Type} {f : α → Upd α} {xs : List α} :
    updateLast f xs = none ↔ xs = [] := by
  constructor
  · intro h
    rcases List.eq_nil_or_concat' xs with h1 | ⟨ys, y, rfl⟩
    · exact h1
    · rw [updateLast_concat] at h; cases h
  · rintro rfl; rfl

theorem updateLast_some {α : Type} {f : α → Upd α} {xs : List α} {r : Upd (List α)}
    (h : updateLast f xs = some r) :
    ∃ ys y, xs = ys ++ [y] ∧ r = (ys ++ [(f y).1], (f y).2) := by
  rcases List.eq_nil_or_concat' xs with h1 | ⟨ys, y, rfl⟩
  · subst h1; cases h
  · rw [updateLast_concat] at h
    injection h with h
    exact ⟨ys, y, rfl, h.symm⟩

theorem runOps_inv {σ ω : Type} {P : σ → Prop} {step : σ → ω → Upd σ}
    (h : ∀ s o, P s → P (step s o).1) (s : σ) (ops : List ω) (hs : P s) :
    P (runOps step s ops) := by
  induction ops generalizing s with
  | nil => exact hs
  | cons o ops ih => exact ih _ (h s o hs)

@[simp] theorem runOps_nil {σ ω : Type} (step : σ → ω → Upd σ) (s : σ) : runOps step s [] = s := rfl

@[simp] theorem runOps_cons {σ ω : Type} (step : σ → ω → Upd σ) (s : σ) (o : ω) (ops : List ω) :
    runOps step s (o :: ops) = runOps step (step s o).1 ops := rfl

@[simp] theorem runOps_append {σ ω : Type} (step : σ → ω → Upd σ) (s : σ) (xs ys : List ω) :
    runOps step s (xs ++ ys) = runOps step (runOps step s xs) ys := by
  simp [runOps, List.foldl_append]

/-! ### Minimised joins -/

section
variable (cx : Ctx) (S : Sem)

/-- All joins of a list of groups. -/
def members (gs : List (Join × List Join)) : List Join := gs.flatMap fun g => g.1 :: g.2

theorem groupInsert_members {gs gs' : List (Join × List Join)} {j : Join}
    (h : groupInsert cx S gs j = .ok gs') : (members gs').Perm (members gs ++ [j]) := by
  induction gs generalizing gs' with
  | nil => cases h; simp [members]
  | cons g gs ih =>
    obtain ⟨hd, t⟩ := g
    unfold groupInsert at h
    rw [bind_ok] at h
    obtain ⟨b, h1, h2⟩ := h
    cases b with
    | true =>
      cases h2
      simp only [members, List.flatMap_cons, List.cons_append, List.append_assoc]
      refine List.Perm.cons _ (List.Perm.append_left _ ?_)
      exact (List.perm_append_singleton _ _).symm
    | false =>
      simp only [Bool.false_eq_true, if_false] at h2
      rw [bind_ok] at h2
      obtain ⟨r, h3, h4⟩ := h2
      cases h4
      have := ih h3
      simp only [members, List.flatMap_cons, List.cons_append, List.append_assoc] at this ⊢
      exact List.Perm.cons _ (List.Perm.append_left _ this)

theorem groupJoins_members {gs gs' : List (Join × List Join)} {js : List Join}
    (h : groupJoins cx S gs js = .ok gs') : (members gs').Perm (members gs ++ js) := by
  induction js generalizing gs with
  | nil => cases h; simp
  | cons j js ih =>
    unfold groupJoins at h
    rw [bind_ok] at h
    obtain ⟨g1, h1, h2⟩ := h
    refine (ih h2).trans ?_
    refine ((groupInsert_members cx S h1).append_right js).trans ?_
    simp

theorem collapseGroup_mem {g : Join × List Join} {j : Join} (h : j ∈ collapseGroup g) :
    ∃ j0 ∈ g.1 :: g.2, j.name = j0.name ∧ j.alias = j0.alias ∧ j.ons = j0.ons := by
  unfold collapseGroup at h
  simp only at h
  split at h
  · rw [List.mem_singleton.mp h]; exact ⟨g.1, by simp, rfl, rfl, rfl⟩
  · split at h
    · rw [List.mem_singleton.mp h]; exact ⟨g.1, by simp, rfl, rfl, rfl⟩
    · exact ⟨j, h, rfl, rfl, rfl⟩

theorem minimizeJoins_mem {js js' : List Join} (h : minimizeJoins cx S js = .ok js') {j : Join}
    (hj : j ∈ js') : ∃ j0 ∈ js, j.name = j0.name ∧ j.alias = j0.alias ∧ j.ons = j0.ons := by
  unfold minimizeJoins at h
  rw [bind_ok] at h
  obtain ⟨gs, h1, h2⟩ := h
  cases h2
  obtain ⟨g, hg, hj⟩ := List.mem_flatMap.mp hj
  obtain ⟨j0, h0, h3⟩ := collapseGroup_mem hj
  refine ⟨j0, ?_, h3⟩
  have := (groupJoins_members cx S h1).mem_iff (a := j0)
  simp only [members, List.flatMap_nil, List.nil_append] at this
  exact this.mp (List.mem_flatMap.mpr ⟨g, hg, h0⟩)

end

end SqlPuzzle
