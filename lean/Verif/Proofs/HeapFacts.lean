import Verif.Spec.Heap
import Verif.Proofs.Basic
import Mathlib.Data.List.Forall2

/-! Proofs about `copy.deepcopy`. -/

namespace SqlPuzzle.HeapFacts
open SqlPuzzle SqlPuzzle.Spec

/-- `y` is what `x` of the old heap is copied to. -/
def Copied (h0 : Heap) (m : Memo) : Val → Val → Prop
  | .atom a, y => y = .atom a
  | .ref p, y => (∃ q, m.lookup p = some q ∧ y = .ref q) ∨ (Frozen h0 p ∧ y = .ref p)

structure Pre (h0 h : Heap) (m : Memo) : Prop where
  ext : ∀ (i : Nat) c, h0[i]? = some c → h[i]? = some c
  keys : ∀ p q, m.lookup p = some q → p < h0.length ∧ h0.length ≤ q ∧ q < h.length ∧ ¬ Frozen h0 p
  inj : ∀ p p' q, m.lookup p = some q → m.lookup p' = some q → p = p'

structure Post (h0 h : Heap) (m : Memo) (h' : Heap) (m' : Memo) : Prop where
  ext : ∀ (i : Nat) c, h[i]? = some c → h'[i]? = some c
  memo : ∀ p q, m.lookup p = some q → m'.lookup p = some q
  new : ∀ p q, m.lookup p = none → m'.lookup p = some q → h.length ≤ q ∧
    ∃ c, h0[p]? = some c ∧ c.cls ≠ .gen ∧ ∃ ys zs, h'[q]? = some ⟨c.cls, ys⟩ ∧
      SameFields c.cls ys zs ∧ List.Forall₂ (Copied h0 m') c.fields zs
  pre : Pre h0 h' m'

theorem lt_of_some' {h : Heap} {a : Nat} {c : Cell} (e : h[a]? = some c) : a < h.length :=
  (List.getElem?_eq_some_iff.1 e).1

theorem length_le {h h' : Heap} (e : ∀ (i : Nat) c, h[i]? = some c → h'[i]? = some c) :
    h.length ≤ h'.length := by
  rcases Nat.eq_zero_or_pos h.length with h0 | h0
  · omega
  · have hi : h.length - 1 < h.length := by omega
    have := e (h.length - 1) _ (List.getElem?_eq_getElem hi)
    have := (List.getElem?_eq_some_iff.1 this).1
    omega

theorem Copied.mono {h0 m m'} (hm : ∀ p q, m.lookup p = some q → m'.lookup p = some q) {x y : Val}
    (h : Copied h0 m x y) : Copied h0 m' x y := by
  cases x with
  | atom a => exact h
  | ref p =>
    rcases h with ⟨q, hq, e⟩ | h
    · exact .inl ⟨q, hm _ _ hq, e⟩
    · exact .inr h

theorem Post.refl {h0 h m} (hp : Pre h0 h m) : Post h0 h m h m where
  ext _ _ e := e
  memo _ _ e := e
  new p q e1 e2 := by rw [e1] at e2; cases e2
  pre := hp

theorem Post.trans {h0 h m h1 m1 h2 m2} (a : Post h0 h m h1 m1) (b : Post h0 h1 m1 h2 m2) :
    Post h0 h m h2 m2 where
  ext i c e := b.ext i c (a.ext i c e)
  memo p q e := b.memo p q (a.memo p q e)
  new p q e1 e2 := by
    cases e3 : m1.lookup p with
    | none =>
      obtain ⟨l, r⟩ := b.new p q e3 e2
      exact ⟨Nat.le_trans (length_le a.ext) l, r⟩
    | some q1 =>
      have : q1 = q := by have := b.memo p q1 e3; rw [e2] at this; exact (Option.some.inj this).symm
      subst this
      obtain ⟨l, c, hc, hg, ys, zs, hy, hs, hr⟩ := a.new p q1 e1 e3
      exact ⟨l, c, hc, hg, ys, zs, b.ext _ _ hy, hs, hr.imp fun _ _ h => h.mono b.memo⟩
  pre := b.pre

/-- A value that refers into the old heap. -/
def Inside (h0 : Heap) (v : Val) : Prop := ∀ p, v = .ref p → p < h0.length

theorem copyAll_post {h0 : Heap} {f : Heap → Memo → Val → R (Heap × Memo × Val)}
    (hf : ∀ h m v h' m' v', Pre h0 h m → Inside h0 v → f h m v = .ok (h', m', v') →
      Post h0 h m h' m' ∧ Copied h0 m' v v') :
    ∀ xs h m h' m' ys, Pre h0 h m → (∀ x ∈ xs, Inside h0 x) → copyAll f h m xs = .ok (h', m', ys) →
      Post h0 h m h' m' ∧ List.Forall₂ (Copied h0 m') xs ys := by
  intro xs
  induction xs with
  | nil =>
    intro h m h' m' ys hp _ e
    simp only [copyAll, Except.ok.injEq, Prod.mk.injEq] at e
    obtain ⟨rfl, rfl, rfl⟩ := e
    exact ⟨.refl hp, .nil⟩
  | cons x xs ih =>
    intro h m h' m' ys hp hx e
    simp only [copyAll, bind_ok] at e
    obtain ⟨⟨h1, m1, y⟩, e1, ⟨h2, m2, ys'⟩, e2, e3⟩ := e
    simp only [Except.ok.injEq, Prod.mk.injEq] at e3
    obtain ⟨rfl, rfl, rfl⟩ := e3
    obtain ⟨p1, c1⟩ := hf _ _ _ _ _ _ hp (hx x (by simp)) e1
    obtain ⟨p2, c2⟩ := ih _ _ _ _ _ p1.pre (fun z hz => hx z (by simp [hz])) e2
    exact ⟨p1.trans p2, .cons (c1.mono p2.memo) c2⟩

theorem lookup_cons_self (p q : Nat) (m : Memo) : List.lookup p ((p, q) :: m) = some q := by
  simp [List.lookup]

theorem lookup_cons_ne {p p' q : Nat} {m : Memo} (h : p' ≠ p) :
    List.lookup p' ((p, q) :: m) = m.lookup p' := by
  have : (p' == p) = false := by simpa using h
  simp [List.lookup, this]

/-- Noting a copy of `p` at the end of memory. -/
theorem Pre.note {h0 h m} (hp : Pre h0 h m) {p : Nat} (hl : p < h0.length) (hf : ¬ Frozen h0 p)
    (c : Cell) : Pre h0 (h ++ [c]) ((p, h.length) :: m) where
  ext i d e := by
    have := hp.ext i d e
    rw [List.getElem?_append_left (List.getElem?_eq_some_iff.1 this).1]
    exact this
  keys p' q e := by
    by_cases hpp : p' = p
    · subst hpp
      rw [lookup_cons_self] at e
      cases e
      exact ⟨hl, length_le hp.ext, by simp, hf⟩
    · rw [lookup_cons_ne hpp] at e
      obtain ⟨a, b, c', d⟩ := hp.keys _ _ e
      exact ⟨a, b, by simp; omega, d⟩
  inj p1 p2 q e1 e2 := by
    by_cases h1 : p1 = p <;> by_cases h2 : p2 = p
    · rw [h1, h2]
    · subst h1
      rw [lookup_cons_self] at e1
      rw [lookup_cons_ne h2] at e2
      cases e1
      have := (hp.keys _ _ e2).2.2.1
      omega
    · subst h2
      rw [lookup_cons_self] at e2
      rw [lookup_cons_ne h1] at e1
      cases e2
      have := (hp.keys _ _ e1).2.2.1
      omega
    · rw [lookup_cons_ne h1] at e1
      rw [lookup_cons_ne h2] at e2
      exact hp.inj _ _ _ e1 e2

/-- A copy made after what it refers to. -/
theorem Post.after {h0 h m h1 m1} (a : Post h0 h m h1 m1) {p : Nat} {c : Cls} {xs ys zs : List Val}
    (hc : h0[p]? = some ⟨c, xs⟩) (hg : c ≠ .gen) (hf : ¬ Frozen h0 p) (hn : m1.lookup p = none)
    (hs : SameFields c ys zs) (hr : List.Forall₂ (Copied h0 m1) xs zs) :
    Post h0 h m (h1 ++ [⟨c, ys⟩]) ((p, h1.length) :: m1) := by
  have hmono : ∀ p' q, m1.lookup p' = some q → List.lookup p' ((p, h1.length) :: m1) = some q := by
    intro p' q e
    by_cases hpp : p' = p
    · subst hpp; rw [hn] at e; cases e
    · rw [lookup_cons_ne hpp]; exact e
  refine a.trans ⟨?_, hmono, ?_, a.pre.note (List.getElem?_eq_some_iff.1 hc).1 hf _⟩
  · intro i d e
    rw [List.getElem?_append_left (List.getElem?_eq_some_iff.1 e).1]
    exact e
  · intro p' q e1 e2
    by_cases hpp : p' = p
    · subst hpp
      rw [lookup_cons_self] at e2
      cases e2
      exact ⟨Nat.le_refl _, _, hc, hg, ys, zs, by simp, hs, hr.imp fun _ _ h => h.mono hmono⟩
    · rw [lookup_cons_ne hpp, e1] at e2
      cases e2

theorem forall₂_frozen {h0 : Heap} {m : Memo} (hk : ∀ p q, m.lookup p = some q → ¬ Frozen h0 p) :
    ∀ {xs ys}, (∀ q, Val.ref q ∈ xs → Frozen h0 q) → List.Forall₂ (Copied h0 m) xs ys → ys = xs := by
  intro xs ys hx hr
  induction hr with
  | nil => rfl
  | @cons x y xs ys h _ ih =>
    rw [ih fun q hq => hx q (by simp [hq])]
    cases x with
    | atom a => rw [show y = _ from h]
    | ref p =>
      rcases h with ⟨q, hq, _⟩ | ⟨_, e⟩
      · exact absurd (hx p (by simp)) (hk p q hq)
      · rw [e]

theorem forall₂_same {h0 : Heap} {m : Memo} (hk : ∀ p q, m.lookup p = some q → p < q) :
    ∀ {xs ys}, List.Forall₂ (Copied h0 m) xs ys → ys = xs → ∀ q, Val.ref q ∈ xs → Frozen h0 q := by
  intro xs ys hr
  induction hr with
  | nil => intro _ q hq; cases hq
  | @cons x y xs ys h _ ih =>
    intro e q hq
    injection e with e1 e2
    subst e1
    rcases List.mem_cons.1 hq with rfl | hq
    · rcases h with ⟨r, hr, e⟩ | ⟨hf, _⟩
      · cases e; have := hk _ _ hr; omega
      · exact hf
    · exact ih e2 q hq

theorem sameFields_rfl (c : Cls) (xs : List Val) : SameFields c xs xs := by
  cases c <;> first | rfl | exact List.Perm.refl _

theorem sameFields_arrange {so : List Val → List Val} (hso : ∀ xs, (so xs).Perm xs) (c : Cls)
    (xs : List Val) : SameFields c (c.arrange so xs) xs := by
  cases c <;> first | rfl | exact hso _

theorem deepcopy_post {so : List Val → List Val} (hso : ∀ xs, (so xs).Perm xs) {h0 : Heap}
    (wf : WellFormed h0) : ∀ n h m v h' m' v', Pre h0 h m →
    Inside h0 v → deepcopy so n h m v = .ok (h', m', v') → Post h0 h m h' m' ∧ Copied h0 m' v v' := by
  intro n
  induction n with
  | zero =>
    intro h m v h' m' v' hp _ e
    cases v with
    | atom a =>
      simp only [deepcopy, Except.ok.injEq, Prod.mk.injEq] at e
      obtain ⟨rfl, rfl, rfl⟩ := e
      exact ⟨.refl hp, rfl⟩
    | ref p => simp [deepcopy] at e
  | succ n ih =>
    intro h m v h' m' v' hp hv e
    cases v with
    | atom a =>
      simp only [deepcopy, Except.ok.injEq, Prod.mk.injEq] at e
      obtain ⟨rfl, rfl, rfl⟩ := e
      exact ⟨.refl hp, rfl⟩
    | ref p =>
      have hl : p < h0.length := hv p rfl
      cases hm : m.lookup p with
      | some q =>
        simp only [deepcopy, hm, Except.ok.injEq, Prod.mk.injEq] at e
        obtain ⟨rfl, rfl, rfl⟩ := e
        exact ⟨.refl hp, .inl ⟨q, hm, rfl⟩⟩
      | none =>
        obtain ⟨c, hc⟩ : ∃ c, h0[p]? = some c := ⟨_, List.getElem?_eq_getElem hl⟩
        have hc' : h[p]? = some c := hp.ext _ _ hc
        have hin : ∀ x ∈ c.fields, Inside h0 x := by
          intro x hx q e
          subst e
          exact wf c (List.mem_of_getElem? hc) q hx
        have all := fun h m h' m' ys hp => copyAll_post ih c.fields h m h' m' ys hp hin
        have other : ∀ (hne : c.cls ≠ .tuple) (hg : c.cls ≠ .gen),
            (do let (h1, m1, ys) ← copyAll (deepcopy so n) (h ++ [⟨c.cls, []⟩]) ((p, h.length) :: m) c.fields
                .ok (h1.set h.length ⟨c.cls, ys⟩, m1, .ref h.length) : R (Heap × Memo × Val))
              = .ok (h', m', v') → Post h0 h m h' m' ∧ Copied h0 m' (.ref p) v' := by
          intro hne hg e
          have hf : ¬ Frozen h0 p := by
            rintro ⟨hc2, -⟩
            rw [hc] at hc2
            cases hc2
            exact hne rfl
          simp only [bind_ok] at e
          obtain ⟨⟨h1, m1, ys⟩, e1, e2⟩ := e
          simp only [Except.ok.injEq, Prod.mk.injEq] at e2
          obtain ⟨rfl, rfl, rfl⟩ := e2
          obtain ⟨P, C⟩ := all _ _ _ _ _ (hp.note hl hf _) e1
          have hpl : m1.lookup p = some h.length := P.memo _ _ (lookup_cons_self _ _ _)
          have hle := length_le P.ext
          simp only [List.length_append, List.length_singleton] at hle
          refine ⟨⟨?_, ?_, ?_, ?_, ?_, P.pre.inj⟩, .inl ⟨_, hpl, rfl⟩⟩
          · intro i d ei
            have hi := (List.getElem?_eq_some_iff.1 ei).1
            rw [List.getElem?_set_ne (by omega)]
            exact P.ext _ _ (by rw [List.getElem?_append_left hi]; exact ei)
          · intro p' q e3
            refine P.memo _ _ ?_
            rw [lookup_cons_ne (by rintro rfl; rw [hm] at e3; cases e3)]
            exact e3
          · intro p' q e1 e2
            by_cases hpp : p' = p
            · subst hpp
              rw [hpl] at e2
              cases e2
              exact ⟨Nat.le_refl _, c, hc, hg, ys, ys, by simp [List.getElem?_set]; omega,
                sameFields_rfl _ _, C⟩
            · obtain ⟨l, d, hd, hdg, ys', zs, hz, hs, hr⟩ := P.new p' q (by rw [lookup_cons_ne hpp]; exact e1) e2
              simp only [List.length_append, List.length_singleton] at l
              exact ⟨by omega, d, hd, hdg, ys', zs, by rw [List.getElem?_set_ne (by omega)]; exact hz,
                hs, hr⟩
          · intro i d ei
            have hi := (List.getElem?_eq_some_iff.1 ei).1
            have := length_le hp.ext
            rw [List.getElem?_set_ne (by omega)]
            exact P.pre.ext _ _ ei
          · intro p' q e
            have := P.pre.keys _ _ e
            simpa using this
        rcases c with ⟨c, xs⟩
        simp only [deepcopy, hm, hc'] at e
        split at e
        · cases e
        rename_i hg
        split at e
        · rename_i ht
          subst ht
          simp only [bind_ok] at e
          obtain ⟨⟨h1, m1, ys⟩, e1, e⟩ := e
          obtain ⟨P, C⟩ := all _ _ _ _ _ hp e1
          cases hm1 : m1.lookup p with
          | some q =>
            simp only [hm1, Except.ok.injEq, Prod.mk.injEq] at e
            obtain ⟨rfl, rfl, rfl⟩ := e
            exact ⟨P, .inl ⟨q, hm1, rfl⟩⟩
          | none =>
            simp only [hm1] at e
            split at e
            · rename_i heq
              simp only [Except.ok.injEq, Prod.mk.injEq] at e
              obtain ⟨rfl, rfl, rfl⟩ := e
              refine ⟨P, .inr ⟨⟨hc, ?_⟩, rfl⟩⟩
              refine forall₂_same ?_ C heq
              intro a b hab
              have := P.pre.keys _ _ hab
              omega
            · rename_i hne
              simp only [Except.ok.injEq, Prod.mk.injEq] at e
              obtain ⟨rfl, rfl, rfl⟩ := e
              refine ⟨P.after hc hg ?_ hm1 (sameFields_rfl _ _) C, .inl ⟨_, lookup_cons_self _ _ _, rfl⟩⟩
              rintro ⟨hc2, hx⟩
              rw [hc] at hc2
              cases hc2
              exact hne (forall₂_frozen (fun a b hab => (P.pre.keys a b hab).2.2.2) hx C)
        rename_i ht
        split at e
        · simp only [bind_ok] at e
          obtain ⟨⟨h1, m1, ys⟩, e1, e⟩ := e
          obtain ⟨P, C⟩ := all _ _ _ _ _ hp e1
          cases hm1 : m1.lookup p with
          | some q =>
            simp only [hm1, Except.ok.injEq, Prod.mk.injEq] at e
            obtain ⟨rfl, rfl, rfl⟩ := e
            exact ⟨P, .inl ⟨q, hm1, rfl⟩⟩
          | none =>
            simp only [hm1, Except.ok.injEq, Prod.mk.injEq] at e
            obtain ⟨rfl, rfl, rfl⟩ := e
            refine ⟨P.after hc hg ?_ hm1 (sameFields_arrange hso _ _) C,
              .inl ⟨_, lookup_cons_self _ _ _, rfl⟩⟩
            rintro ⟨hc2, -⟩
            rw [hc] at hc2
            cases hc2
            exact ht rfl
        · exact other ht hg e

theorem pre_start (h : Heap) : Pre h h [] :=
  ⟨fun _ _ e => e, by intro p q e; simp at e, by intro p p' q e; simp at e⟩

theorem frozen_not_key {h0 h m} (hp : Pre h0 h m) {p} (hf : Frozen h0 p) : m.lookup p = none := by
  cases e : m.lookup p with
  | none => rfl
  | some q => exact absurd hf (hp.keys p q e).2.2.2

theorem copied_rename {h0 h m} (hp : Pre h0 h m) {x y : Val} (hc : Copied h0 m x y) :
    y = renameVal (fun p => (m.lookup p).getD p) x := by
  cases x with
  | atom a => exact hc
  | ref p =>
    rcases hc with ⟨q, hq, e⟩ | ⟨hf, e⟩
    · simp [renameVal, hq, e]
    · simp [renameVal, frozen_not_key hp hf, e]

theorem forall₂_mem {α β : Type} {r : α → β → Prop} {xs ys} (hr : List.Forall₂ r xs ys) {x : α}
    (hx : x ∈ xs) : ∃ y, r x y := by
  induction hr with
  | nil => cases hx
  | cons h1 _ ih =>
    rcases List.mem_cons.1 hx with e | hx
    · subst e; exact ⟨_, h1⟩
    · exact ih hx

theorem forall₂_map {α β : Type} {r : α → β → Prop} {xs ys} {f : α → β} (hr : List.Forall₂ r xs ys)
    (hf : ∀ x y, r x y → y = f x) : ys = xs.map f := by
  induction hr with
  | nil => rfl
  | cons h1 _ ih => rw [List.map_cons, hf _ _ h1, ih]

theorem isCopy {so : List Val → List Val} (hso : ∀ xs, (so xs).Perm xs) {n h p h' v} (wf : WellFormed h) (hl : p < h.length)
    (e : copyObj so n h p = .ok (h', v)) : ∃ q, v = .ref q ∧ IsCopy h h' p q := by
  simp only [copyObj, bind_ok] at e
  obtain ⟨⟨h1, m, v1⟩, e1, e2⟩ := e
  simp only [Except.ok.injEq, Prod.mk.injEq] at e2
  obtain ⟨rfl, rfl⟩ := e2
  obtain ⟨P, C⟩ := deepcopy_post hso wf n h [] _ _ _ _ (pre_start h) (by rintro q ⟨⟩; exact hl) e1
  have covered : ∀ a, Reach h p a → (∃ q, m.lookup a = some q) ∨ Frozen h a := by
    intro a ha
    induction ha with
    | self =>
      rcases C with ⟨q, hq, _⟩ | ⟨hf, _⟩
      · exact .inl ⟨q, hq⟩
      · exact .inr hf
    | @next a b c _ hc hb ih =>
      rcases ih with ⟨q, hq⟩ | hf
      · obtain ⟨_, c', hc', _, ys, zs, _, _, hr⟩ := P.new a q (by simp) hq
        rw [hc] at hc'
        cases hc'
        rcases forall₂_mem hr hb with ⟨y, ⟨q', hq', _⟩ | ⟨hf, _⟩⟩
        · exact .inl ⟨q', hq'⟩
        · exact .inr hf
      · obtain ⟨hc2, hx⟩ := hf
        rw [hc] at hc2
        cases hc2
        exact .inr (hx b hb)
  have eself := copied_rename P.pre C
  refine ⟨_, eself, P.ext, fun a => (m.lookup a).getD a, rfl, ?_, ?_⟩
  · intro a b ha hb hab
    rcases covered a ha with ⟨qa, ea⟩ | fa <;> rcases covered b hb with ⟨qb, eb⟩ | fb
    · simp only [ea, eb, Option.getD_some] at hab
      subst hab
      exact P.pre.inj _ _ _ ea eb
    · simp only [ea, frozen_not_key P.pre fb, Option.getD_some, Option.getD_none] at hab
      obtain ⟨hc2, -⟩ := fb
      have := (List.getElem?_eq_some_iff.1 hc2).1
      have := (P.pre.keys _ _ ea).2.1
      omega
    · simp only [eb, frozen_not_key P.pre fa, Option.getD_some, Option.getD_none] at hab
      obtain ⟨hc2, -⟩ := fa
      have := (List.getElem?_eq_some_iff.1 hc2).1
      have := (P.pre.keys _ _ eb).2.1
      omega
    · simpa [frozen_not_key P.pre fa, frozen_not_key P.pre fb] using hab
  · intro a ha
    rcases covered a ha with ⟨q, hq⟩ | hf
    · obtain ⟨l, c, hc, _, ys, zs, hy, hs, hr⟩ := P.new a q (by simp) hq
      refine ⟨⟨c.cls, c.fields, ys, hc, ?_, ?_⟩, .inl (by simpa [hq] using l)⟩
      · simpa only [hq, Option.getD_some] using hy
      · rw [← forall₂_map hr fun _ _ hxy => copied_rename P.pre hxy]
        exact hs
    · refine ⟨?_, .inr ⟨by simp [frozen_not_key P.pre hf], hf⟩⟩
      obtain ⟨hc2, hx⟩ := hf
      refine ⟨_, _, _, hc2, by simpa [frozen_not_key P.pre ⟨hc2, hx⟩] using P.ext _ _ hc2, ?_⟩
      show _ = _
      symm
      rw [List.map_congr_left (g := id), List.map_id]
      intro x hxm
      cases x with
      | atom _ => rfl
      | ref b => simp [renameVal, frozen_not_key P.pre (hx b hxm)]

/-! When copying works. -/

theorem copied_no_gen {so : List Val → List Val} (hso : ∀ xs, (so xs).Perm xs) {n h p h' v}
    (wf : WellFormed h) (hl : p < h.length) (e : copyObj so n h p = .ok (h', v)) {a : Nat} {c : Cell}
    (r : Reach h p a) (hc : h[a]? = some c) : c.cls ≠ .gen := by
  simp only [copyObj, bind_ok] at e
  obtain ⟨⟨h1, m, v1⟩, e1, e2⟩ := e
  obtain ⟨P, C⟩ := deepcopy_post hso wf n h [] _ _ _ _ (pre_start h) (by rintro q ⟨⟩; exact hl) e1
  have covered : ∀ a, Reach h p a → (∃ q, m.lookup a = some q) ∨ Frozen h a := by
    intro a ha
    induction ha with
    | self =>
      rcases C with ⟨q, hq, _⟩ | ⟨hf, _⟩
      · exact .inl ⟨q, hq⟩
      · exact .inr hf
    | @next a b c _ hc hb ih =>
      rcases ih with ⟨q, hq⟩ | hf
      · obtain ⟨_, c', hc', _, ys, zs, _, _, hr⟩ := P.new a q (by simp) hq
        rw [hc] at hc'
        cases hc'
        rcases forall₂_mem hr hb with ⟨y, ⟨q', hq', _⟩ | ⟨hf, _⟩⟩
        · exact .inl ⟨q', hq'⟩
        · exact .inr hf
      · obtain ⟨hc2, hx⟩ := hf
        rw [hc] at hc2
        cases hc2
        exact .inr (hx b hb)
  rcases covered a r with ⟨q, hq⟩ | ⟨hf, _⟩
  · obtain ⟨_, c', hc', hg, _⟩ := P.new a q (by simp) hq
    rw [hc] at hc'
    cases hc'
    exact hg
  · rw [hc] at hf
    cases hf
    exact Cls.noConfusion

/-- How many objects below the address `N` are not yet copied. -/
def todo (m : Memo) : Nat → Nat
  | 0 => 0
  | N + 1 => todo m N + if (m.lookup N).isNone then 1 else 0

theorem todo_mono {m m' : Memo} (hm : ∀ p q, m.lookup p = some q → m'.lookup p = some q) (N : Nat) :
    todo m' N ≤ todo m N := by
  induction N with
  | zero => exact Nat.le_refl _
  | succ N ih =>
    simp only [todo]
    cases e : m.lookup N with
    | none => simp; split <;> omega
    | some q => simp [hm _ _ e]; exact ih

theorem todo_note {m : Memo} {p q : Nat} (hm : m.lookup p = none) {N : Nat} (hp : p < N) :
    todo ((p, q) :: m) N + 1 ≤ todo m N := by
  have hmono : ∀ p' q', m.lookup p' = some q' → List.lookup p' ((p, q) :: m) = some q' := by
    intro p' q' e
    rw [lookup_cons_ne (by rintro rfl; rw [hm] at e; cases e)]
    exact e
  induction N with
  | zero => omega
  | succ N ih =>
    simp only [todo]
    by_cases h : p = N
    · subst h
      have := todo_mono hmono p
      simp [hm]
      exact this
    · have := ih (by omega)
      rw [lookup_cons_ne (Ne.symm h)]
      omega

theorem copyAll_works {h0 : Heap} {f : Heap → Memo → Val → R (Heap × Memo × Val)} {k : Nat}
    (hf : ∀ h m v h' m' v', Pre h0 h m → Inside h0 v → f h m v = .ok (h', m', v') →
      Post h0 h m h' m' ∧ Copied h0 m' v v') :
    ∀ xs h m, Pre h0 h m → todo m h0.length ≤ k → (∀ x ∈ xs, Inside h0 x) →
      (∀ x ∈ xs, ∀ h m, Pre h0 h m → todo m h0.length ≤ k → ∃ r, f h m x = .ok r) →
      ∃ r, copyAll f h m xs = .ok r := by
  intro xs
  induction xs with
  | nil => intro h m _ _ _ _; exact ⟨_, rfl⟩
  | cons x xs ih =>
    intro h m hp hk hi hx
    obtain ⟨⟨h1, m1, y⟩, e1⟩ := hx x (by simp) h m hp hk
    obtain ⟨P, -⟩ := hf _ _ _ _ _ _ hp (hi x (by simp)) e1
    obtain ⟨⟨h2, m2, ys⟩, e2⟩ := ih h1 m1 P.pre (Nat.le_trans (todo_mono P.memo _) hk)
      (fun z hz => hi z (by simp [hz])) fun z hz => hx z (by simp [hz])
    exact ⟨(h2, m2, y :: ys), by simp only [copyAll, bind_ok]; exact ⟨_, e1, _, e2, rfl⟩⟩

instance (c : Cls) : Decidable (BuiltLater c) := by unfold BuiltLater; infer_instance

theorem late_built {c : Cls} (h : c.late = true) : BuiltLater c := by
  cases c <;> simp_all [Cls.late, BuiltLater]

theorem built_late {c : Cls} (h : BuiltLater c) (h2 : c ≠ .tuple) : c.late = true := by
  rcases h with rfl | rfl | rfl | rfl
  · exact absurd rfl h2
  all_goals rfl

theorem deepcopy_works {so : List Val → List Val} (hso : ∀ xs, (so xs).Perm xs) {h0 : Heap}
    (wf : WellFormed h0) {root : Nat}
    (hgen : ∀ a c, Reach h0 root a → h0[a]? = some c → c.cls ≠ .gen)
    {age : Nat → Nat} (hage : ∀ (a b : Nat) (c d : Cell), h0[a]? = some c → h0[b]? = some d →
      BuiltLater c.cls → BuiltLater d.cls → Val.ref b ∈ c.fields → age b < age a)
    {M : Nat} (hM : ∀ a, a < h0.length → age a ≤ M) :
    ∀ n h m a c, Pre h0 h m → Reach h0 root a → h0[a]? = some c →
      todo m h0.length * (M + 3) + (if BuiltLater c.cls then age a + 1 else 0) + 1 ≤ n →
      ∃ r, deepcopy so n h m (.ref a) = .ok r := by
  intro n
  induction n with
  | zero => intro h m a c _ _ _ hn; omega
  | succ n ih =>
    intro h m a c hp hr hc hn
    cases hm : m.lookup a with
    | some q => exact ⟨(h, m, .ref q), by simp only [deepcopy, hm]⟩
    | none =>
      have hl := lt_of_some' hc
      have hc' := hp.ext _ _ hc
      have hin : ∀ x ∈ c.fields, Inside h0 x := by
        intro x hx q e
        subst e
        exact wf c (List.mem_of_getElem? hc) q hx
      have hg := hgen a c hr hc
      have post := fun h m v h' m' v' hp hv e => deepcopy_post hso wf n h m v h' m' v' hp hv e
      have child : ∀ x ∈ c.fields, ∀ h m, Pre h0 h m →
          (∀ (b : Nat) d, x = .ref b → h0[b]? = some d →
            todo m h0.length * (M + 3) + (if BuiltLater d.cls then age b + 1 else 0) + 1 ≤ n) →
          ∃ r, deepcopy so n h m x = .ok r := by
        intro x hx h m hp hb
        cases x with
        | atom _ => cases n <;> exact ⟨_, rfl⟩
        | ref b =>
          have hbl := hin _ hx b rfl
          exact ih h m b _ hp (hr.next hc hx) (List.getElem?_eq_getElem hbl)
            (hb b _ rfl (List.getElem?_eq_getElem hbl))
      have first : BuiltLater c.cls → ∃ r, copyAll (deepcopy so n) h m c.fields = .ok r := by
        intro hbl
        refine copyAll_works (k := todo m h0.length) post c.fields h m hp (Nat.le_refl _) hin ?_
        intro x hx h' m' hp' hk
        refine child x hx h' m' hp' ?_
        rintro b d rfl hd
        simp only [hbl, if_true] at hn
        have : todo m' h0.length * (M + 3) ≤ todo m h0.length * (M + 3) := Nat.mul_le_mul_right _ hk
        split
        · rename_i hbd
          have := hage a b c d hc hd hbl hbd hx
          omega
        · omega
      have later : ¬ BuiltLater c.cls → ∃ r, copyAll (deepcopy so n) (h ++ [⟨c.cls, []⟩])
          ((a, h.length) :: m) c.fields = .ok r := by
        intro hbl
        have hf : ¬ Frozen h0 a := by
          rintro ⟨hc2, -⟩
          rw [hc] at hc2
          cases hc2
          exact hbl (.inl rfl)
        refine copyAll_works (k := todo ((a, h.length) :: m) h0.length) post c.fields _ _
          (hp.note hl hf _) (Nat.le_refl _) hin ?_
        intro x hx h' m' hp' hk
        refine child x hx h' m' hp' ?_
        rintro b d rfl hd
        have h1 : todo m' h0.length + 1 ≤ todo m h0.length := by
          have := todo_note (q := h.length) hm hl
          omega
        have h2 : (todo m' h0.length + 1) * (M + 3) ≤ todo m h0.length * (M + 3) :=
          Nat.mul_le_mul_right _ h1
        rw [Nat.add_mul] at h2
        have h3 := hM b (lt_of_some' hd)
        split <;> omega
      rcases c with ⟨c, xs⟩
      simp only [deepcopy, hm, hc', if_neg hg]
      by_cases ht : c = .tuple
      · subst ht
        obtain ⟨⟨h1, m1, ys⟩, e1⟩ := first (.inl rfl)
        simp only [if_true, show copyAll (deepcopy so n) h m xs = _ from e1]
        simp only [bind, Except.bind]
        split
        · exact ⟨_, rfl⟩
        · split <;> exact ⟨_, rfl⟩
      · simp only [if_neg ht]
        by_cases hlate : c.late = true
        · obtain ⟨⟨h1, m1, ys⟩, e1⟩ := first (late_built hlate)
          simp only [hlate, if_true, show copyAll (deepcopy so n) h m xs = _ from e1]
          simp only [bind, Except.bind]
          split <;> exact ⟨_, rfl⟩
        · obtain ⟨⟨h1, m1, ys⟩, e1⟩ := later fun hb => hlate (built_late hb ht)
          simp only [if_neg hlate, show copyAll (deepcopy so n) _ _ xs = _ from e1]
          exact ⟨_, rfl⟩

theorem bounded (age : Nat → Nat) (N : Nat) : ∃ M, ∀ a, a < N → age a ≤ M := by
  induction N with
  | zero => exact ⟨0, by intro a h; omega⟩
  | succ N ih =>
    obtain ⟨M, hM⟩ := ih
    refine ⟨max M (age N), fun a h => ?_⟩
    rcases Nat.lt_succ_iff_lt_or_eq.1 h with h | rfl
    · exact Nat.le_trans (hM a h) (Nat.le_max_left _ _)
    · exact Nat.le_max_right _ _

theorem copy_works {so : List Val → List Val} (hso : ∀ xs, (so xs).Perm xs) {h : Heap}
    (wf : WellFormed h) {p : Nat} (hl : p < h.length) (ho : Ordered h)
    (hgen : ∀ a c, Reach h p a → h[a]? = some c → c.cls ≠ .gen) :
    ∃ N, ∀ n, N ≤ n → ∃ h' v, copyObj so n h p = .ok (h', v) := by
  obtain ⟨age, hage⟩ := ho
  obtain ⟨M, hM⟩ := bounded age h.length
  refine ⟨todo [] h.length * (M + 3) + (if BuiltLater h[p].cls then age p + 1 else 0) + 1,
    fun n hn => ?_⟩
  · obtain ⟨⟨h', m, v⟩, e⟩ := deepcopy_works hso wf hgen hage hM n h [] p _ (pre_start h) .self
      (List.getElem?_eq_getElem hl) hn
    exact ⟨h', v, by simp only [copyObj, e]; rfl⟩

theorem copyAll_err {h0 : Heap} {f : Heap → Memo → Val → R (Heap × Memo × Val)} {P : Err → Prop}
    (hf : ∀ h m v h' m' v', Pre h0 h m → Inside h0 v → f h m v = .ok (h', m', v') →
      Post h0 h m h' m' ∧ Copied h0 m' v v')
    (he : ∀ h m v e, Pre h0 h m → Inside h0 v → f h m v = .error e → P e) :
    ∀ xs h m e, Pre h0 h m → (∀ x ∈ xs, Inside h0 x) → copyAll f h m xs = .error e → P e := by
  intro xs
  induction xs with
  | nil => intro h m e _ _ h; cases h
  | cons x xs ih =>
    intro h m e hp hi hx
    cases e1 : f h m x with
    | error e' =>
      simp only [copyAll, e1] at hx
      cases hx
      exact he _ _ _ _ hp (hi x (by simp)) e1
    | ok r =>
      obtain ⟨h1, m1, y⟩ := r
      obtain ⟨P1, -⟩ := hf _ _ _ _ _ _ hp (hi x (by simp)) e1
      cases e2 : copyAll f h1 m1 xs with
      | error e' =>
        simp only [copyAll, e1] at hx
        have : e' = e := by
          have hx' : (copyAll f h1 m1 xs >>= fun r => _) = Except.error e := hx
          rw [e2] at hx'
          cases hx'
          rfl
        subst this
        exact ih _ _ _ P1.pre (fun z hz => hi z (by simp [hz])) e2
      | ok r =>
        simp only [copyAll, e1] at hx
        have hx' : (copyAll f h1 m1 xs >>= fun r => _) = Except.error e := hx
        rw [e2] at hx'
        cases hx'

theorem deepcopy_err {so : List Val → List Val} (hso : ∀ xs, (so xs).Perm xs) {h0 : Heap}
    (wf : WellFormed h0) : ∀ n h m v e, Pre h0 h m → Inside h0 v → deepcopy so n h m v = .error e →
    e = .typeError ∨ e = .recursionError := by
  intro n
  induction n with
  | zero =>
    intro h m v e _ _ he
    cases v with
    | atom _ => cases he
    | ref p => cases he; exact .inr rfl
  | succ n ih =>
    intro h m v e hp hv he
    cases v with
    | atom _ => cases he
    | ref p =>
      have hl := hv p rfl
      have hc := hp.ext _ _ (List.getElem?_eq_getElem hl)
      have hcm := List.getElem_mem hl
      generalize h0[p] = c at hc hcm
      have hin : ∀ x ∈ c.fields, Inside h0 x := by
        intro x hx q e
        subst e
        exact wf c hcm q hx
      have err := fun h m e hp => copyAll_err (deepcopy_post hso wf n) ih c.fields h m e hp hin
      rcases c with ⟨c, xs⟩
      cases hm : m.lookup p with
      | some q => simp only [deepcopy, hm] at he; cases he
      | none =>
        simp only [deepcopy, hm, hc] at he
        split at he
        · cases he; exact .inl rfl
        split at he
        · cases e1 : copyAll (deepcopy so n) h m xs with
          | error e' =>
            rw [e1] at he
            cases he
            exact err _ _ _ hp e1
          | ok r =>
            rw [e1] at he
            obtain ⟨h1, m1, ys⟩ := r
            have he' : (match m1.lookup p with | some q => _ | none => _) = Except.error e := he
            split at he'
            · cases he'
            · split at he' <;> cases he'
        split at he
        · cases e1 : copyAll (deepcopy so n) h m xs with
          | error e' =>
            rw [e1] at he
            cases he
            exact err _ _ _ hp e1
          | ok r =>
            rw [e1] at he
            obtain ⟨h1, m1, ys⟩ := r
            have he' : (match m1.lookup p with | some q => _ | none => _) = Except.error e := he
            split at he' <;> cases he'
        · rename_i hg ht _
          cases e1 : copyAll (deepcopy so n) (h ++ [⟨c, []⟩]) ((p, h.length) :: m) xs with
          | error e' =>
            rw [e1] at he
            cases he
            refine err _ _ _ (hp.note hl ?_ _) e1
            rintro ⟨hc2, -⟩
            rw [hp.ext _ _ hc2] at hc
            cases hc
            exact ht rfl
          | ok r =>
            rw [e1] at he
            cases he

/-! What is seen. -/

theorem look_iso {h h' : Heap} {f : Nat → Nat} {X : Nat → Prop}
    (hX : ∀ a, X a → ∃ c xs, h[a]? = some ⟨c, xs⟩ ∧ h'[f a]? = some ⟨c, xs.map (renameVal f)⟩ ∧
      ∀ b, Val.ref b ∈ xs → X b) :
    ∀ n a, X a → look h' n (.ref (f a)) = look h n (.ref a) := by
  intro n
  induction n with
  | zero => intros; rfl
  | succ n ih =>
    intro a ha
    obtain ⟨c, xs, h1, h2, h3⟩ := hX a ha
    simp only [look, h1, h2, List.map_map]
    congr 1
    apply List.map_congr_left
    intro x hx
    cases x with
    | atom _ => cases n <;> rfl
    | ref b => exact ih b (h3 b hx)

theorem look_atom (h : Heap) (n : Nat) (a : Atom) : look h n (.atom a) = .atom a := by
  cases n <;> rfl

theorem look_same {h h' : Heap} {X : Nat → Prop}
    (hX : ∀ a, X a → ∃ c : Cell, h[a]? = some c ∧ h'[a]? = some c ∧ ∀ b, Val.ref b ∈ c.fields → X b)
    (n : Nat) (v : Val) (hv : ∀ a, v = .ref a → X a) : look h' n v = look h n v := by
  cases v with
  | atom a => rw [look_atom, look_atom]
  | ref a =>
    refine look_iso (f := id) (X := X) ?_ n a (hv a rfl)
    intro a ha
    obtain ⟨⟨c, xs⟩, h1, h2, h3⟩ := hX a ha
    refine ⟨c, xs, h1, ?_, h3⟩
    rw [List.map_congr_left (g := id), List.map_id]
    · exact h2
    · intro x _; cases x <;> rfl

theorem reach_lt {h : Heap} (wf : WellFormed h) {p a : Nat} (hl : p < h.length) (r : Reach h p a) :
    a < h.length := by
  induction r with
  | self => exact hl
  | next _ hc hb _ => exact wf _ (List.mem_of_getElem? hc) _ hb

/-- Two parties share only immutable objects. -/
structure Apart (w : World) : Prop where
  sep : ∃ X Y : Nat → Prop,
    (∀ a, X a → ∃ c : Cell, w.heap[a]? = some c ∧ (∀ b, Val.ref b ∈ c.fields → X b) ∧
      (Y a → ¬ Mutable c.cls)) ∧
    (∀ a, Y a → ∃ c : Cell, w.heap[a]? = some c ∧ (∀ b, Val.ref b ∈ c.fields → Y b)) ∧
    (∀ a, Val.ref a ∈ w.left → X a) ∧ (∀ a, Val.ref a ∈ w.right → Y a)

theorem Apart.flip {w : World} (a : Apart w) : Apart ⟨w.heap, w.right, w.left⟩ := by
  obtain ⟨X, Y, hX, hY, hl, hr⟩ := a.sep
  refine ⟨Y, X, ?_, ?_, hr, hl⟩
  · intro a ha
    obtain ⟨c, h1, h2⟩ := hY a ha
    refine ⟨c, h1, h2, fun hx => ?_⟩
    obtain ⟨d, h3, _, h4⟩ := hX a hx
    rw [h1] at h3
    cases h3
    exact h4 ha
  · intro a ha
    obtain ⟨c, h1, h2, _⟩ := hX a ha
    exact ⟨c, h1, h2⟩

theorem lt_of_some {h : Heap} {a : Nat} {c : Cell} (e : h[a]? = some c) : a < h.length :=
  (List.getElem?_eq_some_iff.1 e).1

theorem left_step {w w' : World} (ap : Apart w) (s : LeftStep w w') :
    Apart w' ∧ ∀ n, ∀ v ∈ w.right, look w'.heap n v = look w.heap n v := by
  obtain ⟨X, Y, hX, hY, hl, hr⟩ := ap.sep
  rcases w with ⟨h, A, B⟩
  rcases w' with ⟨h', A', B'⟩
  obtain ⟨st, rfl⟩ := s
  simp only at *
  cases st with
  | @read _ _ p c v hp hc hv =>
    refine ⟨⟨X, Y, hX, hY, ?_, hr⟩, fun _ _ _ => rfl⟩
    intro a ha
    rcases List.mem_cons.1 ha with e | ha
    · obtain ⟨d, hd, hd2, _⟩ := hX p (hl p hp)
      rw [hc] at hd
      cases hd
      exact hd2 a (e ▸ hv)
    · exact hl a ha
  | @create _ _ c xs hx =>
    have keep : ∀ (a : Nat) d, h[a]? = some d → (h ++ [⟨c, xs⟩])[a]? = some d := by
      intro a d e
      rw [List.getElem?_append_left (lt_of_some e)]
      exact e
    refine ⟨⟨fun a => X a ∨ a = h.length, Y, ?_, ?_, ?_, hr⟩, ?_⟩
    · rintro a (ha | rfl)
      · obtain ⟨d, h1, h2, h3⟩ := hX a ha
        exact ⟨d, keep _ _ h1, fun b hb => .inl (h2 b hb), h3⟩
      · refine ⟨⟨c, xs⟩, by simp, ?_, ?_⟩
        · intro b hb
          exact .inl (hl b (hx _ hb))
        · intro hy
          obtain ⟨d, hd, _⟩ := hY _ hy
          have := lt_of_some hd
          omega
    · intro a ha
      obtain ⟨d, h1, h2⟩ := hY a ha
      exact ⟨d, keep _ _ h1, h2⟩
    · intro a ha
      rcases List.mem_cons.1 ha with e | ha
      · cases e; exact .inr rfl
      · exact .inl (hl a ha)
    · intro n v hv
      refine look_same (X := Y) ?_ n v fun a e => hr a (e ▸ hv)
      intro a ha
      obtain ⟨d, h1, h2⟩ := hY a ha
      exact ⟨d, h1, keep _ _ h1, h2⟩
  | @change _ _ p c xs ys hp hc hm hy =>
    have hXp := hl p hp
    have hYp : ¬ Y p := by
      intro hy
      obtain ⟨d, h1, _, h3⟩ := hX p hXp
      rw [hc] at h1
      cases h1
      exact h3 hy hm
    have keep : ∀ a d, a ≠ p → h[a]? = some d → (h.set p ⟨c, ys⟩)[a]? = some d := by
      intro a d ha e
      rw [List.getElem?_set_ne (Ne.symm ha)]
      exact e
    refine ⟨⟨X, Y, ?_, ?_, hl, hr⟩, ?_⟩
    · intro a ha
      by_cases hap : a = p
      · subst hap
        refine ⟨⟨c, ys⟩, by simp [lt_of_some hc], ?_, fun h => absurd h hYp⟩
        intro b hb
        exact hl b (hy _ hb)
      · obtain ⟨d, h1, h2, h3⟩ := hX a ha
        exact ⟨d, keep _ _ hap h1, h2, h3⟩
    · intro a ha
      obtain ⟨d, h1, h2⟩ := hY a ha
      exact ⟨d, keep _ _ (by rintro rfl; exact hYp ha) h1, h2⟩
    · intro n v hv
      refine look_same (X := Y) ?_ n v fun a e => hr a (e ▸ hv)
      intro a ha
      obtain ⟨d, h1, h2⟩ := hY a ha
      exact ⟨d, h1, keep _ _ (by rintro rfl; exact hYp ha) h1, h2⟩

theorem right_step {w w' : World} (ap : Apart w) (s : RightStep w w') :
    Apart w' ∧ ∀ n, ∀ v ∈ w.left, look w'.heap n v = look w.heap n v := by
  obtain ⟨a, b⟩ := left_step (w := ⟨w.heap, w.right, w.left⟩) (w' := ⟨w'.heap, w'.right, w'.left⟩)
    ap.flip s
  exact ⟨a.flip, b⟩

theorem history_apart {w w' : World} (ap : Apart w) (s : History w w') : Apart w' := by
  induction s with
  | start => exact ap
  | left _ s ih => exact (left_step ih s).1
  | right _ s ih => exact (right_step ih s).1

theorem copy_apart {h h' : Heap} {p q : Nat} (wf : WellFormed h) (hc : IsCopy h h' p q)
    {A : List Val} (hA : ∀ a, Val.ref a ∈ A → a < h.length) : Apart ⟨h', A, [.ref q]⟩ := by
  obtain ⟨old, f, rfl, -, hf⟩ := hc
  refine ⟨(· < h.length), fun b => ∃ a, Reach h p a ∧ b = f a, ?_, ?_, hA, ?_⟩
  · intro a ha
    refine ⟨_, old _ _ (List.getElem?_eq_getElem ha), ?_, ?_⟩
    · intro b hb
      exact wf _ (List.getElem_mem ha) b hb
    · rintro ⟨b, hb, rfl⟩
      rcases (hf b hb).2 with h1 | ⟨h1, hfr⟩
      · omega
      · obtain ⟨hc2, -⟩ := hfr
        have hc3 := h1.symm ▸ hc2
        rw [List.getElem?_eq_getElem ha] at hc3
        rw [Option.some.inj hc3]
        exact id
  · rintro _ ⟨a, ha, rfl⟩
    obtain ⟨⟨c, xs, ys, h1, h2, h3⟩, -⟩ := hf a ha
    refine ⟨_, h2, ?_⟩
    intro b hb
    have hb' : Val.ref b ∈ xs.map (renameVal f) := by
      cases c <;> first | exact h3 ▸ hb | exact (List.Perm.mem_iff h3).1 hb
    obtain ⟨x, hx, e⟩ := List.mem_map.1 hb'
    cases x with
    | atom _ => cases e
    | ref a2 => cases e; exact ⟨a2, ha.next h1 hx, rfl⟩
  · intro a ha
    rcases List.mem_singleton.1 ha with e
    cases e
    exact ⟨p, .self, rfl⟩

end SqlPuzzle.HeapFacts
