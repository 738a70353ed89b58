import Verif.Proofs.Parsing
import Verif.Proofs.Sort

/-! The order of the items of a dictionary whose keys are library objects or integers. -/

namespace SqlPuzzle

/-- Results of `mapR` on permuted lists. -/
theorem mapR_perm {α β : Type} {f : α → R β} {xs xs' : List α} (hp : xs.Perm xs') :
    ∀ {ys : List β}, mapR f xs = .ok ys → ∃ ys', mapR f xs' = .ok ys' ∧ ys.Perm ys' := by
  induction hp with
  | nil => exact fun h => ⟨_, h, .refl _⟩
  | cons x _ ih =>
    intro ys h
    rw [mapR_cons] at h
    obtain ⟨y, h1, h2⟩ := bind_ok.mp h
    obtain ⟨zs, h3, h4⟩ := bind_ok.mp h2
    cases h4
    obtain ⟨zs', h5, h6⟩ := ih h3
    exact ⟨y :: zs', by rw [mapR_cons, h1, h5]; rfl, h6.cons y⟩
  | swap x x' xs =>
    intro ys h
    rw [mapR_cons] at h
    obtain ⟨y, h1, h2⟩ := bind_ok.mp h
    obtain ⟨zs, h3, h4⟩ := bind_ok.mp h2
    cases h4
    rw [mapR_cons] at h3
    obtain ⟨y', h5, h6⟩ := bind_ok.mp h3
    obtain ⟨ws, h7, h8⟩ := bind_ok.mp h6
    cases h8
    exact ⟨y' :: y :: ws, by rw [mapR_cons, mapR_cons, h1, h5, h7]; rfl, .swap ..⟩
  | trans _ _ ih1 ih2 =>
    intro ys h
    obtain ⟨ys', h1, h2⟩ := ih1 h
    obtain ⟨ys'', h3, h4⟩ := ih2 h1
    exact ⟨ys'', h3, h2.trans h4⟩

theorem textKeys_some {ks : List (SortKey × (Obj × Obj))} {ts : List (Str × (Obj × Obj))} :
    textKeys ks = some ts ↔ ks = ts.map fun p => (.text p.1, p.2) := by
  induction ks generalizing ts with
  | nil => cases ts <;> simp [textKeys]
  | cons k ks ih =>
    obtain ⟨k, kv⟩ := k
    cases k with
    | num i => cases ts <;> simp [textKeys]
    | text s =>
      cases ts with
      | nil => simp [textKeys]
      | cons t ts =>
        obtain ⟨t, w⟩ := t
        simp only [textKeys, Option.map_eq_some_iff, List.cons.injEq, Prod.mk.injEq, List.map_cons,
          SortKey.text.injEq]
        constructor
        · rintro ⟨a, h1, ⟨rfl, rfl⟩, rfl⟩; exact ⟨⟨rfl, rfl⟩, ih.mp h1⟩
        · rintro ⟨⟨rfl, rfl⟩, h⟩; exact ⟨_, ih.mpr h, ⟨rfl, rfl⟩, rfl⟩

theorem numKeys_some {ks : List (SortKey × (Obj × Obj))} {ts : List (Int × (Obj × Obj))} :
    numKeys ks = some ts ↔ ks = ts.map fun p => (.num p.1, p.2) := by
  induction ks generalizing ts with
  | nil => cases ts <;> simp [numKeys]
  | cons k ks ih =>
    obtain ⟨k, kv⟩ := k
    cases k with
    | text i => cases ts <;> simp [numKeys]
    | num s =>
      cases ts with
      | nil => simp [numKeys]
      | cons t ts =>
        obtain ⟨t, w⟩ := t
        simp only [numKeys, Option.map_eq_some_iff, List.cons.injEq, Prod.mk.injEq, List.map_cons,
          SortKey.num.injEq]
        constructor
        · rintro ⟨a, h1, ⟨rfl, rfl⟩, rfl⟩; exact ⟨⟨rfl, rfl⟩, ih.mp h1⟩
        · rintro ⟨⟨rfl, rfl⟩, h⟩; exact ⟨_, ih.mpr h, ⟨rfl, rfl⟩, rfl⟩

/-- A list that is a permutation of an image is an image of a permutation. -/
theorem perm_of_map {α β : Type} {f : α → β} {ys : List α} :
    ∀ {xs : List β}, (ys.map f).Perm xs → ∃ ys', xs = ys'.map f ∧ ys.Perm ys' := by
  intro xs h
  induction ys generalizing xs with
  | nil => exact ⟨[], by simpa using h.symm.eq_nil, .refl _⟩
  | cons y ys ih =>
    have hm : f y ∈ xs := h.subset (by simp)
    obtain ⟨pre, post, rfl⟩ := List.append_of_mem hm
    have h2 : (ys.map f).Perm (pre ++ post) := by
      have := h.trans List.perm_middle
      exact (List.perm_cons _).mp this
    obtain ⟨zs, e, hz⟩ := ih h2
    obtain ⟨z1, z2, rfl, rfl, rfl⟩ := List.map_eq_append_iff.mp e.symm
    exact ⟨z1 ++ y :: z2, by simp, (hz.cons y).trans List.perm_middle.symm⟩

theorem sortItems_any_order {S : Sem} {kvs kvs' r : List (Obj × Obj)}
    (hk : ∀ k v w i, (k, v) ∈ kvs → (k, w) ∈ kvs → (k = .int i) → v = w)
    (hb : ∀ b v, (Obj.bool b, v) ∉ kvs) (hp : kvs.Perm kvs')
    (h : sortItems S kvs = .ok r) : sortItems S kvs' = .ok r := by
  unfold sortItems at h ⊢
  rw [← hp.length_eq]
  split at h
  · rename_i hl
    rw [if_pos hl]
    match kvs, hl, hp with
    | [], _, hp => rw [← hp.nil_eq]; exact h
    | [x], _, hp => rw [← List.perm_singleton.mp hp.symm |>.symm]; exact h
  · rename_i hl
    rw [if_neg hl]
    obtain ⟨ks, h1, h2⟩ := bind_ok.mp h
    obtain ⟨ks', h3, h4⟩ := mapR_perm hp h1
    rw [h3, ok_bind]
    cases ht : textKeys ks with
    | some ts =>
      rw [ht] at h2
      simp only at h2
      split at h2
      · rename_i hn
        rw [textKeys_some.mp ht] at h4
        obtain ⟨ts', rfl, h5⟩ := perm_of_map h4
        rw [textKeys_some.mpr rfl]
        simp only
        rw [if_pos ((h5.map Prod.fst).nodup_iff.mp hn), ← sortBy_key_perm h5 hn]
        exact h2
      · cases h2
    | none =>
      rw [ht] at h2
      simp only at h2
      cases hm : numKeys ks with
      | none => rw [hm] at h2; cases h2
      | some ns =>
        rw [hm] at h2
        have he := numKeys_some.mp hm
        rw [he] at h4
        obtain ⟨ns', rfl, h5⟩ := perm_of_map h4
        have hx : textKeys (ns'.map fun p => (SortKey.num p.1, p.2)) = none := by
          cases hc : textKeys (ns'.map fun p => (SortKey.num p.1, p.2)) with
          | none => rfl
          | some ts =>
            exfalso
            have h6 := textKeys_some.mp hc
            cases ns' with
            | nil =>
              rw [h5.eq_nil] at he
              rw [he] at ht
              cases ht
            | cons a as =>
              cases ts with
              | nil => cases h6
              | cons b bs => simp at h6
        rw [hx, numKeys_some.mpr rfl]
        simp only
        cases h2
        congr 2
        symm
        refine sortBy_eq_of_perm ⟨fun a b => ?_, fun a b c => ?_⟩ h5 ?_
        · simp only [decide_eq_true_eq]; omega
        · simp only [decide_eq_true_eq]; omega
        · intro a ha b hb' h6 h7
          simp only [decide_eq_true_eq] at h6 h7
          have h8 : a.1 = b.1 := by omega
          have key : ∀ x ∈ ns, x.2 ∈ kvs ∧ x.2.1 = .int x.1 := by
            intro x hx'
            have hx2 : (SortKey.num x.1, x.2) ∈ ks := by
              rw [he]; exact List.mem_map_of_mem (f := fun p => (SortKey.num p.1, p.2)) hx'
            obtain ⟨kv, hkv, h9⟩ := mapR_mem h1 hx2
            obtain ⟨k, h10, h11⟩ := bind_ok.mp h9
            cases h11
            refine ⟨hkv, ?_⟩
            unfold sortKey at h10
            split at h10
            · cases h10
            · rename_i i e; cases h10; exact e
            · rename_i b e
              exact absurd (by rw [← e]; exact hkv) (hb b x.2.2)
            · split at h10
              · obtain ⟨t, _, h12⟩ := bind_ok.mp h10
                cases h12
              · cases h10
          obtain ⟨a1, k1, v1⟩ := a
          obtain ⟨b1, k2, v2⟩ := b
          obtain ⟨m1, e1⟩ := key _ ha
          obtain ⟨m2, e2⟩ := key _ hb'
          simp only at h8 m1 m2 e1 e2
          subst h8 e1 e2
          rw [hk _ _ _ _ m1 m2 rfl]

end SqlPuzzle
