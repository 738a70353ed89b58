import Verif.Proofs.Entries

/-!
What a call that raises has done: the entries before the one it stopped at.
-/

namespace SqlPuzzle

open Spec

namespace Spec

/-- The arguments of `f([(x, y), …])`. -/
def asPairs (ps : List (Obj × Obj)) : Args := { pos := [.list (ps.map fun p => .tuple [p.1, p.2])] }

/-- The arguments of `f((x, y), …)`. -/
def asNames (ps : List (Obj × Obj)) : Args := { pos := ps.map fun p => .tuple [p.1, p.2] }

end Spec

/-- A loop that stops has run over the entries before. -/
theorem forUpd_stop {σ α : Type} {f : σ → α → Upd σ} (hf : ∀ s x s' e, f s x = (s', some e) → s' = s)
    {xs : List α} {s s' : σ} {e : Err} (h : forUpd f s xs = (s', some e)) :
    ∃ pre x post, xs = pre ++ x :: post ∧ forUpd f s pre = (s', none) := by
  induction xs generalizing s with
  | nil => cases h
  | cons x xs ih =>
    unfold forUpd at h
    split at h
    · rename_i s1 h1
      obtain ⟨pre, y, post, rfl, h2⟩ := ih h
      refine ⟨x :: pre, y, post, rfl, ?_⟩
      unfold forUpd
      rw [h1]
      exact h2
    · rename_i s1 e1 h1
      cases h
      refine ⟨[], x, xs, rfl, ?_⟩
      rw [hf _ _ _ _ h1]
      rfl

theorem rows2_split {ps : List (Obj × Obj)} {pre : List (List Obj)} {x : List Obj} {post : List (List Obj)}
    (h : rows2 ps = pre ++ x :: post) : ∃ before g after, ps = before ++ g :: after ∧ pre = rows2 before := by
  obtain ⟨b, r, rfl, rfl, h2⟩ := List.map_eq_append_iff.mp h
  obtain ⟨g, r', rfl, _, _⟩ := List.map_eq_cons_iff.mp h2
  exact ⟨b, g, r', rfl, rfl⟩

theorem ascending_nil : Ascending [] [] := ⟨[], .refl _, .nil, rfl⟩

theorem asPairs_gives (ps : List (Obj × Obj)) : GivesPairs (asPairs ps) ps := by
  have h : GivesPairs (asPairs ps) (ps ++ []) :=
    .usual (.listed (.list _) (by
      rw [List.forall₂_map_left_iff]
      exact List.forall₂_same.mpr fun p _ => .two (.tuple _))) ascending_nil (by intro p hp; cases hp)
  rwa [List.append_nil] at h

theorem asNames_gives (ps : List (Obj × Obj)) : GivesNames (asNames ps) ps := by
  have h : GivesNames (asNames ps) (ps ++ []) := by
    refine .usual ?_ ?_ ascending_nil (by intro p hp; cases hp)
    · intro kvs e
      match ps, e with
      | p :: ps, e => simp at e
    · rw [List.forall₂_map_left_iff]
      exact List.forall₂_same.mpr fun p _ => .pair (.two (.tuple _))
  rwa [List.append_nil] at h

theorem appendUnique_stop {α : Type} {eq : α → α → R Bool} {ps ps' : List α} {p : α} {e : Err}
    (h : appendUnique eq ps p = (ps', some e)) : ps' = ps := by
  unfold appendUnique at h
  split at h <;> cases h
  rfl

theorem withR_stop {σ α : Type} {s s' : σ} {r : R α} {f : α → Upd σ} {e : Err}
    (hf : ∀ x, f x = (s', some e) → s' = s) (h : withR s r f = (s', some e)) : s' = s := by
  unfold withR at h
  split at h
  · cases h; rfl
  · exact hf _ h

variable {cx : Ctx} {S : Sem}

/-- A loop over parsed entries. -/
theorem entries_stop {σ : Type} {s s' : σ} {f : σ → List Obj → Upd σ} {e : Err}
    (hf : ∀ s x s' e, f s x = (s', some e) → s' = s) {given : List (Obj × Obj)}
    (h : forUpd f s (rows2 given) = (s', some e)) :
    ∃ before g after, given = before ++ g :: after ∧ forUpd f s (rows2 before) = (s', none) := by
  obtain ⟨pre, x, post, h1, h2⟩ := forUpd_stop hf h
  obtain ⟨before, g, after, h3, rfl⟩ := rows2_split h1
  exact ⟨before, g, after, h3, h2⟩

theorem condsWhere_stop {on : Bool} {ps ps' : List Cond} {a : Args} {e : Err} (hw : WellKeyed a)
    (hq : (!a.pos.isEmpty && a.pos.all Obj.isConds) = false)
    (h : condsWhere cx S on ps a = (ps', some e)) :
    ps' = ps ∨ ∃ before g after, GivesPairs a (before ++ g :: after) ∧
      condsWhere cx S on ps (asPairs before) = (ps', none) := by
  unfold condsWhere at h
  split at h
  · left; cases h; rfl
  rename_i hs
  split at h
  · cases h
  rw [hq] at h
  simp only [Bool.false_eq_true, if_false] at h
  unfold withR at h
  split at h
  · left; cases h; rfl
  rename_i bs hp
  obtain ⟨given, hg, rfl⟩ := givesPairs_of S hw (by simpa using hs) hp
  right
  obtain ⟨before, g, after, rfl, h2⟩ := entries_stop
    (fun s x s' e h => withR_stop (fun _ => appendUnique_stop) h) h
  refine ⟨before, g, after, hg, ?_⟩
  have hl := asPairs_gives before
  obtain ⟨h3, h4⟩ := givesPairs_parse hl S
  unfold condsWhere
  rw [h4, givesPairs_custom hl, h3]
  exact h2

theorem valuesSet_stop {vs vs' : List Value} {a : Args} {e : Err} (hw : WellKeyed a)
    (h : valuesSet cx S vs a = (vs', some e)) :
    vs' = vs ∨ ∃ before g after, GivesPairs a (before ++ g :: after) ∧
      valuesSet cx S vs (asPairs before) = (vs', none) := by
  unfold valuesSet at h
  split at h
  · left; cases h; rfl
  rename_i hs
  split at h
  · cases h
  unfold withR at h
  split at h
  · left; cases h; rfl
  rename_i bs hp
  obtain ⟨given, hg, rfl⟩ := givesPairs_of S hw (by simpa using hs) hp
  right
  obtain ⟨before, g, after, rfl, h2⟩ := entries_stop
    (fun s x s' e h => withR_stop (fun _ => appendUnique_stop) h) h
  refine ⟨before, g, after, hg, ?_⟩
  have hl := asPairs_gives before
  obtain ⟨h3, h4⟩ := givesPairs_parse hl S
  unfold valuesSet
  rw [h4, givesPairs_custom hl, h3]
  exact h2

theorem columnsAdd_stop {cs cs' : List Column} {a : Args} {e : Err} (hw : WellKeyed a)
    (h : columnsAdd S cs a = (cs', some e)) :
    cs' = cs ∨ ∃ before g after, GivesNames a (before ++ g :: after) ∧
      columnsAdd S cs (asNames before) = (cs', none) := by
  unfold columnsAdd at h
  split at h
  · left; cases h; rfl
  rename_i hs
  unfold withR at h
  split at h
  · left; cases h; rfl
  rename_i bs hp
  obtain ⟨given, hg, rfl⟩ := givesNames_of S hw (by simpa using hs) hp
  right
  obtain ⟨before, g, after, rfl, h2⟩ := entries_stop
    (fun s x s' e h => withR_stop (fun _ => appendUnique_stop) h) h
  refine ⟨before, g, after, hg, ?_⟩
  obtain ⟨h3, h4⟩ := givesNames_parse (asNames_gives before) S
  unfold columnsAdd
  rw [h4, h3]
  exact h2

theorem asNames_truthy (ps : List (Obj × Obj)) : (asNames ps).pos.filter Obj.truthy = (asNames ps).pos := by
  rw [List.filter_eq_self]
  intro x hx
  obtain ⟨p, _, rfl⟩ := List.mem_map.mp hx
  rfl

theorem tablesSet_stop {ts ts' : List Table} {a : Args} {e : Err} (hw : WellKeyed a)
    (ht : ∀ x ∈ a.pos, x.truthy = true)
    (h : tablesSet cx S ts a = (ts', some e)) :
    ts' = ts ∨ ∃ before g after, GivesNames a (before ++ g :: after) ∧
      tablesSet cx S ts (asNames before) = (ts', none) := by
  unfold tablesSet at h
  split at h
  · left; cases h; rfl
  rename_i hs
  rw [List.filter_eq_self.mpr ht] at h
  unfold withR at h
  split at h
  · left; cases h; rfl
  rename_i bs hp
  obtain ⟨given, hg, rfl⟩ := givesNames_of S hw (by simpa using hs) hp
  right
  obtain ⟨before, g, after, rfl, h2⟩ := entries_stop
    (fun s x s' e h => withR_stop (fun _ => appendUnique_stop) h) h
  refine ⟨before, g, after, hg, ?_⟩
  obtain ⟨h3, h4⟩ := givesNames_parse (asNames_gives before) S
  unfold tablesSet
  rw [h4, asNames_truthy]
  simp only [Bool.false_eq_true, if_false]
  rw [h3]
  exact h2

theorem ordersAdd_stop {os os' : List Order} {a : Args} {e : Err} (hw : WellKeyed a)
    (h : ordersAdd cx S os a = (os', some e)) :
    os' = os ∨ ∃ before g after, GivesNames a (before ++ g :: after) ∧
      ordersAdd cx S os (asNames before) = (os', none) := by
  unfold ordersAdd at h
  split at h
  · left; cases h; rfl
  rename_i hs
  unfold withR at h
  split at h
  · left; cases h; rfl
  rename_i bs hp
  obtain ⟨given, hg, rfl⟩ := givesNames_of S hw (by simpa using hs) hp
  right
  obtain ⟨before, g, after, rfl, h2⟩ := entries_stop
    (fun s x s' e h => withR_stop (fun _ h => by cases h) h) h
  refine ⟨before, g, after, hg, ?_⟩
  obtain ⟨h3, h4⟩ := givesNames_parse (asNames_gives before) S
  unfold ordersAdd
  rw [h4, h3]
  exact h2

/-- A change of the last element that stops. -/
theorem updateLast_stop {α β : Type} {f : α → Upd α} {f' : β → α → Upd α} {P : β → Prop} {e : Err}
    (hf : ∀ x x', f x = (x', some e) → x' = x ∨ ∃ b, P b ∧ f' b x = (x', none)) {xs xs' : List α}
    (h : updateLast f xs = some (xs', some e)) :
    xs' = xs ∨ ∃ b, P b ∧ updateLast (f' b) xs = some (xs', none) := by
  induction xs generalizing xs' with
  | nil => cases h
  | cons x xs ih =>
    cases xs with
    | nil =>
      simp only [updateLast, Option.some.injEq, Prod.mk.injEq] at h
      obtain ⟨rfl, h2⟩ := h
      rcases hf x (f x).1 (Prod.ext rfl h2) with h3 | ⟨b, hb, h3⟩
      · left; rw [h3]
      · right
        refine ⟨b, hb, ?_⟩
        simp only [updateLast, h3]
    | cons y ys =>
      simp only [updateLast, Option.map_eq_some_iff] at h
      obtain ⟨⟨zs, r⟩, h1, h2⟩ := h
      cases h2
      rcases ih h1 with h3 | ⟨b, hb, h3⟩
      · left; rw [h3]
      · right
        refine ⟨b, hb, ?_⟩
        simp only [updateLast, h3, Option.map_some]

theorem tablesOn_stop {ts ts' : List Table} {a : Args} {e : Err} (hw : WellKeyed a)
    (hq : (!a.pos.isEmpty && a.pos.all Obj.isConds) = false)
    (h : tablesOn cx S ts a = (ts', some e)) :
    ts' = ts ∨ ∃ before g after, GivesPairs a (before ++ g :: after) ∧
      tablesOn cx S ts (asPairs before) = (ts', none) := by
  unfold tablesOn at h
  split at h
  · left; cases h; rfl
  split at h
  · left; cases h; rfl
  rename_i r hr
  subst h
  have key := updateLast_stop (P := fun before => ∃ g after, GivesPairs a (before ++ g :: after))
    (f' := fun before t => tableOn cx S t (asPairs before)) (fun t t' ht => ?_) hr
  · rcases key with h1 | ⟨before, ⟨g, after, hg⟩, h1⟩
    · exact .inl h1
    · refine .inr ⟨before, g, after, hg, ?_⟩
      unfold tablesOn
      rw [(givesPairs_parse (asPairs_gives before) S).2, h1]
      rfl
  · unfold tableOn at ht
    split at ht
    · left; cases ht; rfl
    rename_i js e' hj
    cases ht
    have key := updateLast_stop (P := fun before => ∃ g after, GivesPairs a (before ++ g :: after))
      (f' := fun before (j : Join) =>
        let r := condsWhere cx S true j.ons (asPairs before)
        ({ j with ons := r.1 }, r.2)) (fun j j' hj => ?_) hj
    · rcases key with h1 | ⟨before, hb, h1⟩
      · left; rw [h1]
      · right
        refine ⟨before, hb, ?_⟩
        unfold tableOn
        rw [h1]
    · simp only [Prod.mk.injEq] at hj
      obtain ⟨rfl, hj⟩ := hj
      rcases condsWhere_stop (ps' := (condsWhere cx S true j.ons a).1) hw hq (Prod.ext rfl hj) with
        h1 | ⟨before, g, after, hg, h1⟩
      · left; rw [h1]
      · right
        refine ⟨before, ⟨g, after, hg⟩, ?_⟩
        simp only [h1]

end SqlPuzzle
