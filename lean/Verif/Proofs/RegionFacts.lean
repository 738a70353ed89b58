import Verif.Proofs.FrameFacts

/-! Proofs about which objects a query refers to after a call. -/

namespace SqlPuzzle.RegionFacts
open SqlPuzzle SqlPuzzle.Spec SqlPuzzle.HM SqlPuzzle.FrameFacts

/-- The value is in the region. -/
def In (X : Nat → Prop) (v : Val) : Prop := ∀ b, v = .ref b → X b

theorem in_ref {X : Nat → Prop} {b : Nat} : In X (.ref b) ↔ X b :=
  ⟨fun h => h b rfl, by rintro h _ ⟨⟩; exact h⟩

theorem in_atom {X : Nat → Prop} (a : Atom) : In X (.atom a) := by rintro _ ⟨⟩

/-- From `h` to `h'` the region `X` has grown to `X'` by new objects only; classes stay, and lists
outside the region stay as they are. -/
structure Step (h : Heap) (X : Nat → Prop) (h' : Heap) (X' : Nat → Prop) : Prop where
  grows : h.length ≤ h'.length
  closed : Closed h' X'
  sub : ∀ a, X a → X' a
  old : ∀ a, a < h.length → X' a → X a
  lists : ∀ (p : Nat) xs, h[p]? = some ⟨.list, xs⟩ → ¬ X p → h'[p]? = some ⟨.list, xs⟩
  cls : ∀ (p : Nat) c, h[p]? = some c → ∃ c', h'[p]? = some c' ∧ c'.cls = c.cls

theorem Step.refl {h X} (hc : Closed h X) : Step h X h X :=
  ⟨Nat.le_refl _, hc, fun _ => id, fun _ _ => id, fun _ _ h _ => h, fun _ c h => ⟨c, h, rfl⟩⟩

theorem lt_of_some {h : Heap} {p : Nat} {c : Cell} (e : h[p]? = some c) : p < h.length :=
  (List.getElem?_eq_some_iff.1 e).1

theorem Step.trans {h1 X1 h2 X2 h3 X3} (a : Step h1 X1 h2 X2) (b : Step h2 X2 h3 X3) :
    Step h1 X1 h3 X3 :=
  ⟨Nat.le_trans a.grows b.grows, b.closed, fun x hx => b.sub x (a.sub x hx),
    fun x hl hx => a.old x hl (b.old x (Nat.lt_of_lt_of_le hl a.grows) hx),
    fun p xs h hx => b.lists p xs (a.lists p xs h hx) fun hx' => hx (a.old p (lt_of_some h) hx'),
    fun p c h =>
      have ⟨c1, h1, e1⟩ := a.cls p c h
      have ⟨c2, h2, e2⟩ := b.cls p c1 h1
      ⟨c2, h2, e2.trans e1⟩⟩

/-- Started in a state with `G`, the program keeps the region closed, and ends with `Q`. -/
def Rg {α : Type} (G : Heap → (Nat → Prop) → Prop) (m : HM α)
    (Q : Heap → (Nat → Prop) → α → Prop) : Prop :=
  ∀ h X, Closed h X → G h X → ∃ X', Step h X (m h).1 X' ∧ ∀ a, (m h).2 = .ok a → Q (m h).1 X' a

/-- Assertions that survive steps. -/
def Lasting (G : Heap → (Nat → Prop) → Prop) : Prop := ∀ h X h' X', Step h X h' X' → G h X → G h' X'

theorem Lasting.and {G K : Heap → (Nat → Prop) → Prop} (hG : Lasting G) (hK : Lasting K) :
    Lasting fun h X => G h X ∧ K h X :=
  fun h X h' X' s g => ⟨hG h X h' X' s g.1, hK h X h' X' s g.2⟩

theorem Lasting.all {ι : Type} {P : ι → Prop} {G : ι → Heap → (Nat → Prop) → Prop}
    (hG : ∀ i, Lasting (G i)) : Lasting fun h X => ∀ i, P i → G i h X :=
  fun h X h' X' s g i hi => hG i h X h' X' s (g i hi)

theorem lasting_in (v : Val) : Lasting fun _ X => In X v := fun _ _ _ _ s hv b hb => s.sub b (hv b hb)

theorem lasting_at (q : Nat) : Lasting fun _ X => X q := fun _ _ _ _ s hv => s.sub q hv

section
variable {α β : Type} {G : Heap → (Nat → Prop) → Prop}

theorem rg_ret {a : α} {Q : Heap → (Nat → Prop) → α → Prop}
    (hq : ∀ h X, G h X → Q h X a) : Rg G (ret a) Q :=
  fun h X hc hg => ⟨X, .refl hc, fun x hx => by cases hx; exact hq h X hg⟩

theorem rg_raise {e : Err} {Q : Heap → (Nat → Prop) → α → Prop} : Rg G (raise e : HM α) Q :=
  fun _ X hc _ => ⟨X, .refl hc, fun x hx => by cases hx⟩

theorem rg_reads {f : Heap → R α} {Q : Heap → (Nat → Prop) → α → Prop}
    (hq : ∀ h X a, Closed h X → G h X → f h = .ok a → Q h X a) : Rg G (reads f) Q :=
  fun h X hc hg => ⟨X, .refl hc, fun x hx => hq h X x hc hg hx⟩

theorem rg_read {f : Heap → R α} : Rg G (reads f) fun h X _ => G h X :=
  rg_reads fun _ _ _ _ h _ => h

theorem rg_ofR {r : R α} : Rg G (ofR r) fun h X _ => G h X :=
  fun _ X hc hg => ⟨X, .refl hc, fun _ _ => hg⟩

theorem rg_andThen {m : HM α} {f : α → HM β}
    {Q : Heap → (Nat → Prop) → α → Prop} {Q' : Heap → (Nat → Prop) → β → Prop}
    (hm : Rg G m Q) (hf : ∀ a, Rg (fun h X => Q h X a) (f a) Q') : Rg G (andThen m f) Q' := by
  intro h X hc hg
  obtain ⟨X1, s1, q1⟩ := hm h X hc hg
  unfold andThen
  rcases e : m h with ⟨h1, _ | a⟩
  · rw [e] at s1
    exact ⟨X1, s1, fun x hx => by cases hx⟩
  · rw [e] at s1 q1
    obtain ⟨X2, s2, q2⟩ := hf a h1 X1 s1.closed (q1 a rfl)
    exact ⟨X2, s1.trans s2, q2⟩

theorem rg_bind {m : HM α} {f : α → HM β}
    {Q : Heap → (Nat → Prop) → α → Prop} {Q' : Heap → (Nat → Prop) → β → Prop}
    (hm : Rg G m Q) (hf : ∀ a, Rg (fun h X => Q h X a) (f a) Q') : Rg G (m >>= f) Q' :=
  rg_andThen hm hf

theorem rg_pre {G' : Heap → (Nat → Prop) → Prop} {m : HM α} {Q : Heap → (Nat → Prop) → α → Prop}
    (hg : ∀ h X, Closed h X → G' h X → G h X) (hm : Rg G m Q) : Rg G' m Q :=
  fun h X hc g => hm h X hc (hg h X hc g)

theorem rg_post {m : HM α} {Q Q' : Heap → (Nat → Prop) → α → Prop}
    (hq : ∀ h X a, Q h X a → Q' h X a) (hm : Rg G m Q) : Rg G m Q' := fun h X hc g =>
  have ⟨X', s, q⟩ := hm h X hc g
  ⟨X', s, fun a ha => hq _ _ _ (q a ha)⟩

theorem rg_keep {K : Heap → (Nat → Prop) → Prop} (hK : Lasting K) (hg : ∀ h X, G h X → K h X)
    {m : HM α} {Q : Heap → (Nat → Prop) → α → Prop} (hm : Rg G m Q) :
    Rg G m (fun h X a => Q h X a ∧ K h X) := fun h X hc g =>
  have ⟨X', s, q⟩ := hm h X hc g
  ⟨X', s, fun a ha => ⟨q a ha, hK _ _ _ _ s (hg h X g)⟩⟩

theorem rg_same (hG : Lasting G) {m : HM α} {Q : Heap → (Nat → Prop) → α → Prop} (hm : Rg G m Q) :
    Rg G m (fun h X _ => G h X) :=
  rg_post (fun _ _ _ h => h.2) (rg_keep hG (fun _ _ => id) hm)

theorem rg_alloc {c : Cls} {xs : List Val} (hx : ∀ h X, G h X → ∀ v ∈ xs, In X v) :
    Rg G (alloc c xs) fun _ X p => X p := by
  intro h X hc hg
  have hx := hx h X hg
  have at_lt : ∀ {a : Nat}, a < h.length → (h ++ [⟨c, xs⟩])[a]? = h[a]? := fun ha =>
    List.getElem?_append_left ha
  refine ⟨fun a => X a ∨ a = h.length, ⟨by simp [alloc], ?_, fun _ => .inl, ?_, ?_, ?_⟩, ?_⟩
  · intro a d b ha hd hb
    simp only [alloc] at hd
    rcases ha with ha | rfl
    · by_cases hlt : a < h.length
      · rw [at_lt hlt] at hd
        exact .inl (hc a d b ha hd hb)
      · have hd' := (List.getElem?_eq_some_iff.1 hd).1
        have : a = h.length := by simp at hd'; omega
        subst this
        simp at hd
        subst hd
        exact .inl (hx _ hb b rfl)
    · simp at hd
      subst hd
      exact .inl (hx _ hb b rfl)
  · rintro a ha (h1 | rfl)
    · exact h1
    · exact absurd ha (Nat.lt_irrefl _)
  · intro p zs hp _
    show (h ++ [_])[p]? = _
    rw [at_lt (lt_of_some hp)]
    exact hp
  · intro p d hp
    refine ⟨d, ?_, rfl⟩
    show (h ++ [_])[p]? = _
    rw [at_lt (lt_of_some hp)]
    exact hp
  · intro p hp
    cases hp
    exact .inr rfl

/-- A cell is given new contents made of the old and of things in the region. -/
theorem step_set {h : Heap} {X : Nat → Prop} {p : Nat} {c : Cell} {ys : List Val} (hc : Closed h X)
    (e : h[p]? = some c) (hp : X p ∨ c.cls ≠ .list) (hy : X p → ∀ y ∈ ys, y ∈ c.fields ∨ In X y) :
    Step h X (h.set p ⟨c.cls, ys⟩) X := by
  have lt := lt_of_some e
  refine ⟨by simp, ?_, fun _ => id, fun _ _ => id, ?_, ?_⟩
  · intro a d b ha hd hb
    by_cases hap : a = p
    · subst hap
      simp [lt] at hd
      subst hd
      rcases hy ha _ hb with hb | hb
      · exact hc _ _ b ha e hb
      · exact hb b rfl
    · rw [List.getElem?_set_ne (Ne.symm hap)] at hd
      exact hc a d b ha hd hb
  · intro a xs ha hx
    by_cases hap : a = p
    · subst hap
      rw [ha] at e
      cases e
      rcases hp with hp | hp
      · exact absurd hp hx
      · exact absurd rfl hp
    · rw [List.getElem?_set_ne (Ne.symm hap)]
      exact ha
  · intro a d ha
    by_cases hap : a = p
    · subst hap
      rw [ha] at e
      cases e
      exact ⟨⟨c.cls, ys⟩, by simp [lt], rfl⟩
    · exact ⟨d, by rw [List.getElem?_set_ne (Ne.symm hap)]; exact ha, rfl⟩

theorem rg_modify {p : Nat} {f : List Val → List Val}
    (hp : ∀ h X, G h X → X p ∨ ∃ c, h[p]? = some c ∧ c.cls ≠ .list)
    (hf : ∀ h X, G h X → X p → ∀ xs, ∀ y ∈ f xs, y ∈ xs ∨ In X y) :
    Rg G (HM.modify p f) fun _ _ _ => True := by
  intro h X hc hg
  cases e : h[p]? with
  | none =>
    simp only [HM.modify, e]
    exact ⟨X, .refl hc, fun _ _ => trivial⟩
  | some c =>
    simp only [HM.modify, e]
    refine ⟨X, step_set hc e ?_ fun hx => hf h X hg hx c.fields, fun _ _ => trivial⟩
    rcases hp h X hg with hp | ⟨d, h1, h2⟩
    · exact .inl hp
    · rw [e] at h1
      cases h1
      exact .inr h2

theorem rg_push {l : Nat} {v : Val} (hg : ∀ h X, G h X → X l ∧ In X v) :
    Rg G (hPush l v) fun _ _ _ => True := by
  refine rg_modify (fun h X g => .inl (hg h X g).1) fun h X g _ xs y hy => ?_
  rcases List.mem_append.1 hy with hy | hy
  · exact .inl hy
  · rcases List.mem_singleton.1 hy with rfl
    exact .inr (hg h X g).2

theorem rg_setAttr {p i : Nat} {v : Val} (hg : ∀ h X, G h X → X p ∧ In X v) :
    Rg G (hSetAttr p i v) fun _ _ _ => True := by
  refine rg_modify (fun h X g => .inl (hg h X g).1) fun h X g _ xs y hy => ?_
  rcases List.mem_or_eq_of_mem_set hy with hy | rfl
  · exact .inl hy
  · exact .inr (hg h X g).2

theorem rg_each {γ : Type} {f : γ → HM Unit} (xs : List γ)
    (hf : ∀ x ∈ xs, Rg G (f x) fun h X _ => G h X) : Rg G (each f xs) fun h X _ => G h X := by
  induction xs with
  | nil => exact rg_ret fun _ _ => id
  | cons x xs ih =>
    exact rg_bind (hf x (by simp)) fun _ => ih fun y hy => hf y (by simp [hy])

theorem rg_some {γ : Type} {f : γ → HM Bool} (xs : List γ)
    (hf : ∀ x ∈ xs, Rg G (f x) fun h X _ => G h X) : Rg G (some? f xs) fun h X _ => G h X := by
  induction xs with
  | nil => exact rg_ret fun _ _ => id
  | cons x xs ih =>
    refine rg_bind (hf x (by simp)) fun b => ?_
    split
    · exact rg_ret fun _ _ => id
    · exact ih fun y hy => hf y (by simp [hy])

theorem rg_quiet {m : HM α}
    (hg : ∀ h, Undisturbed (fun _ => False) h (m h).1)
    (hm : ∀ h X, Closed h X → ∃ X', Closed (m h).1 X' ∧ (∀ a, X a → X' a) ∧
      ∀ a, a < h.length → X' a → X a) : Rg G m fun _ _ _ => True := by
  intro h X hc hk
  obtain ⟨X', c1, c2, c3⟩ := hm h X hc
  have u := hg h
  refine ⟨X', ⟨u.grows, c1, c2, c3, ?_, ?_⟩, fun _ _ => trivial⟩
  · intro p xs hp _
    obtain ⟨d, d1, -, d2⟩ := u.cell p _ hp
    rcases d2 with w | t
    · exact w.elim
    · cases t; exact d1
  · intro p c hp
    obtain ⟨d, d1, d2, -⟩ := u.cell p _ hp
    exact ⟨d, d1, d2⟩

end

section
variable {T : Runtime} (hT : Gentle T) (ht : Tidy T) {G : Heap → (Nat → Prop) → Prop}
include hT ht

theorem rg_eq (hG : Lasting G) (a b : Val) : Rg G (T.eq a b) fun h X _ => G h X :=
  rg_same hG (rg_quiet (hT.eq a b) (ht.eq a b))

theorem rg_str (hG : Lasting G) (a : Val) : Rg G (T.str a) fun h X _ => G h X :=
  rg_same hG (rg_quiet (hT.str a) (ht.str a))

theorem rg_appendUnique (hG : Lasting G) {l : Nat} {v : Val} (hv : ∀ h X, G h X → X l ∧ In X v) :
    Rg G (hAppendUnique T l v) fun _ _ _ => True := by
  refine rg_bind rg_read fun xs => ?_
  refine rg_bind (Q := fun h X _ => G h X) (rg_some xs fun x _ => rg_eq hT ht hG x v) fun b => ?_
  split
  · exact rg_ret fun _ _ _ => trivial
  · exact rg_push hv

end

/-- What may be passed as the value of a condition: something in the region, or a list of such. -/
def Give (h : Heap) (X : Nat → Prop) (v : Val) : Prop :=
  In X v ∨ ∃ p xs, v = .ref p ∧ h[p]? = some ⟨.list, xs⟩ ∧ ∀ x ∈ xs, In X x

theorem lasting_give (v : Val) : Lasting fun h X => Give h X v := by
  rintro h X h' X' s (hv | ⟨p, xs, rfl, hp, hx⟩)
  · exact .inl fun b hb => s.sub b (hv b hb)
  · by_cases hX : X p
    · exact .inl (in_ref.2 (s.sub p hX))
    · exact .inr ⟨p, xs, rfl, s.lists p xs hp hX, fun x hm b hb => s.sub b (hx x hm b hb)⟩

theorem lasting_dict (v : Val) : Lasting fun h _ => IsDict h v := by
  rintro h X h' X' s ⟨p, c, rfl, hp, hk⟩
  obtain ⟨c', hc', e⟩ := s.cls p c hp
  exact ⟨p, c', rfl, hc', e.trans hk⟩

theorem lasting_listed (v : Val) : Lasting fun h _ => Listed h v := by
  rintro h X h' X' s ⟨p, c, rfl, hp, hk⟩
  obtain ⟨c', hc', e⟩ := s.cls p c hp
  exact ⟨p, c', rfl, hc', by rw [e]; exact hk⟩

theorem Lasting.or {G K : Heap → (Nat → Prop) → Prop} (hG : Lasting G) (hK : Lasting K) :
    Lasting fun h X => G h X ∨ K h X :=
  fun h X h' X' s g => g.imp (hG h X h' X' s) (hK h X h' X' s)

/-- In the region, or a container. -/
def Fine (h : Heap) (X : Nat → Prop) (v : Val) : Prop := In X v ∨ Listed h v ∨ IsDict h v

theorem lasting_fine (v : Val) : Lasting fun h X => Fine h X v :=
  (lasting_in v).or ((lasting_listed v).or (lasting_dict v))

theorem give_fine {h X v} (g : Give h X v) : Fine h X v := by
  rcases g with g | ⟨p, xs, rfl, hp, -⟩
  · exact .inl g
  · exact .inr (.inl ⟨p, _, rfl, hp, .inl rfl⟩)

theorem listed_shallow {h : Heap} {v : Val} (l : Listed h v) :
    (∃ xs, shallow h v = .list xs) ∨ ∃ xs, shallow h v = .tuple xs := by
  obtain ⟨p, ⟨c, xs⟩, rfl, hp, rfl | rfl⟩ := l
  · exact .inl ⟨_, by simp only [shallow, hp]; rfl⟩
  · exact .inr ⟨_, by simp only [shallow, hp]; rfl⟩

theorem dict_shallow {h : Heap} {v : Val} (l : IsDict h v) : ∃ xs, shallow h v = .dict xs := by
  obtain ⟨p, ⟨c, xs⟩, rfl, hp, rfl⟩ := l
  exact ⟨_, by simp only [shallow, hp]; rfl⟩

theorem fine_checked {h : Heap} {X : Nat → Prop} {v : Val} {ts : List PyType} (f : Fine h X v)
    (hl : ts.any (Obj.isInst (.list [])) = false) (ht : ts.any (Obj.isInst (.tuple [])) = false)
    (hd : ts.any (Obj.isInst (.dict [])) = false)
    (e : checkType ts (shallow h v) = .ok ()) : In X v := by
  rcases f with f | f | f
  · exact f
  · exfalso
    rcases listed_shallow f with ⟨xs, e'⟩ | ⟨xs, e'⟩
    · rw [e', checkType, Obj.allowed] at e
      have : ts.any (Obj.isInst (.list xs)) = ts.any (Obj.isInst (.list [])) :=
      congrArg ts.any (funext fun t => by cases t <;> rfl)
      rw [this, hl] at e
      cases e
    · rw [e', checkType, Obj.allowed] at e
      have : ts.any (Obj.isInst (.tuple xs)) = ts.any (Obj.isInst (.tuple [])) :=
      congrArg ts.any (funext fun t => by cases t <;> rfl)
      rw [this, ht] at e
      cases e
  · exfalso
    obtain ⟨xs, e'⟩ := dict_shallow f
    rw [e', checkType, Obj.allowed] at e
    have : ts.any (Obj.isInst (.dict xs)) = ts.any (Obj.isInst (.dict [])) :=
      congrArg ts.any (funext fun t => by cases t <;> rfl)
    rw [this, hd] at e
    cases e

theorem rg_check {G : Heap → (Nat → Prop) → Prop} {ts : List PyType} {v : Val}
    (hl : ts.any (Obj.isInst (.list [])) = false) (ht : ts.any (Obj.isInst (.tuple [])) = false)
    (hd : ts.any (Obj.isInst (.dict [])) = false) (hf : ∀ h X, G h X → Fine h X v) :
    Rg G (hCheck ts v) fun h X _ => In X v ∧ G h X :=
  rg_reads fun h X _ _ g e => ⟨fine_checked (hf h X g) hl ht hd e, g⟩

theorem pairUp_mem : ∀ (xs : List Val) (k v : Val), (k, v) ∈ pairUp xs → k ∈ xs ∧ v ∈ xs
  | [], k, v, h => by simp [pairUp] at h
  | [x], k, v, h => by simp [pairUp] at h
  | x :: y :: r, k, v, h => by
    rw [pairUp] at h
    rcases List.mem_cons.1 h with h | h
    · cases h; simp
    · have := pairUp_mem r k v h
      simp [this]

theorem rg_relValue (k : Rel) (v : Val) :
    Rg (fun h X => Give h X v ∧ (k.isIn = false → In X v)) (hRelValue k v)
      fun _ X w => In X w := by
  unfold hRelValue
  split
  · rename_i hk
    refine rg_bind (Q := fun h X o => (∀ ys, o = some ys → ∀ y ∈ ys, In X y) ∧ (o = none → In X v))
      ?_ fun o => ?_
    · rintro h X hc ⟨hv, -⟩
      have at_ : ∀ (p : Nat) c xs, v = .ref p → h[p]? = some ⟨c, xs⟩ → ∀ x ∈ xs, In X x := by
        rintro p c xs rfl hp x hm b rfl
        rcases hv with hv | ⟨p', xs', e, hp', hx'⟩
        · exact hc p _ b (hv p rfl) hp hm
        · cases e
          rw [hp'] at hp
          cases hp
          exact hx' _ hm b rfl
      have nolist : ∀ (p : Nat), v = .ref p → (∀ xs, h[p]? ≠ some ⟨.list, xs⟩) → In X v := by
        rintro p rfl hp
        rcases hv with hv | ⟨p', xs', e, hp', hx'⟩
        · exact hv
        · cases e
          exact absurd hp' (hp _)
      have same : ∀ o, hIterate v h = (h, .ok o) → ((∀ ys, o = some ys → ∀ y ∈ ys, In X y) ∧
          (o = none → In X v)) → ∃ X', Step h X (hIterate v h).1 X' ∧ ∀ a,
          (hIterate v h).2 = .ok a → (∀ ys, a = some ys → ∀ y ∈ ys, In X' y) ∧ (a = none → In X' v) := by
        intro o e h1
        rw [e]
        exact ⟨X, .refl hc, by rintro a ⟨⟩; exact h1⟩
      have atoms : ∀ ys : List Val, (∀ y ∈ ys, ∃ a, y = .atom a) → ∀ y ∈ ys, In X y := by
        intro ys hy y hm
        obtain ⟨a, rfl⟩ := hy y hm
        exact in_atom a
      cases v with
      | atom a =>
        cases a with
        | range xs => exact same _ rfl ⟨by rintro ys ⟨⟩; exact atoms _ (by simp), by simp⟩
        | str xs => exact same _ rfl ⟨by rintro ys ⟨⟩; exact atoms _ (by simp), by simp⟩
        | bytes xs => exact same _ rfl ⟨by rintro ys ⟨⟩; exact atoms _ (by simp), by simp⟩
        | _ => exact same none rfl ⟨by rintro ys ⟨⟩, fun _ => in_atom _⟩
      | ref p =>
        cases e : h[p]? with
        | none =>
          exact same none (by simp only [hIterate, e])
            ⟨by rintro ys ⟨⟩, fun _ => nolist p rfl (by simp [e])⟩
        | some c =>
          obtain ⟨c, xs⟩ := c
          have items := at_ p c xs rfl e
          have it : hIterate (.ref p) h = (h, .ok (some xs)) → ∃ X',
              Step h X (hIterate (.ref p) h).1 X' ∧ ∀ a, (hIterate (.ref p) h).2 = .ok a →
              (∀ ys, a = some ys → ∀ y ∈ ys, In X' y) ∧ (a = none → In X' (.ref p)) := fun e' =>
            same _ e' ⟨by rintro ys ⟨⟩; exact items, by simp⟩
          have no : hIterate (.ref p) h = (h, .ok none) → (∀ ys, c = .list → xs ≠ ys) → ∃ X',
              Step h X (hIterate (.ref p) h).1 X' ∧ ∀ a, (hIterate (.ref p) h).2 = .ok a →
              (∀ ys, a = some ys → ∀ y ∈ ys, In X' y) ∧ (a = none → In X' (.ref p)) := fun e' hn =>
            same _ e' ⟨by rintro ys ⟨⟩, fun _ => nolist p rfl fun ys h' => by
              rw [e] at h'; cases h'; exact hn _ rfl rfl⟩
          cases c with
          | list | tuple | set | frozenset => exact it (by simp only [hIterate, e])
          | dict =>
            refine same (some ((pairUp xs).map Prod.fst)) (by simp only [hIterate, e]) ⟨?_, by simp⟩
            rintro ys ⟨⟩ y hy
            obtain ⟨⟨k, w⟩, hm, rfl⟩ := List.mem_map.1 hy
            exact items _ (pairUp_mem xs k w hm).1
          | method | lib k => exact no (by simp only [hIterate, e]) (by rintro _ ⟨⟩)
          | gen =>
            have e1 : hIterate (.ref p) h = (h.set p ⟨.gen, []⟩, .ok (some xs)) := by
              simp only [hIterate, e]
            rw [e1]
            refine ⟨X, step_set (c := ⟨.gen, xs⟩) hc e (.inr (by simp)) (by simp), ?_⟩
            rintro a ⟨⟩
            exact ⟨by rintro ys ⟨⟩; exact items, by simp⟩
    · split
      · rename_i ys
        exact rg_bind (rg_alloc fun h X g => g.1 ys rfl) fun a => rg_ret fun h X g => in_ref.2 g
      · exact rg_ret fun h X g => g.2 rfl
  · rename_i hk
    exact rg_ret fun h X g => g.2 (by simpa using hk)

theorem rg_mkCond (on : Bool) (col v : Val) :
    Rg (fun h X => Fine h X col ∧ (Give h X v ∨ IsDict h v)) (hMkCond on col v)
      fun _ X w => In X w := by
  refine rg_bind (rg_check (by decide) (by decide) (by decide) fun h X g => g.1) fun _ => ?_
  refine rg_bind (Q := fun h X _ => In X col ∧ Give h X v) (rg_reads fun h X _ _ g e => ?_) fun _ => ?_
  · refine ⟨g.1, g.2.2.resolve_right fun d => ?_⟩
    obtain ⟨xs, e'⟩ := dict_shallow d
    rw [e'] at e
    cases e
  refine rg_bind (Q := fun h X k => (In X col ∧ Give h X v) ∧ hDefaultRel h v = k)
    (rg_reads fun h X a _ g e => ⟨g, by cases e; rfl⟩) fun k => ?_
  refine rg_bind (Q := fun _ X w => In X w ∧ In X col) (rg_keep (lasting_in col) (fun _ _ g => g.1.1) ?_)
    fun r => ?_
  · cases k with
    | none =>
      refine rg_ret fun h X g => ?_
      rcases g.1.2 with hv | ⟨p, xs, rfl, hp, -⟩
      · exact hv
      · exfalso
        have := g.2
        simp only [hDefaultRel, hp] at this
        cases this
    | some k =>
      refine rg_bind (Q := fun _ X w => In X w) (rg_pre ?_ (rg_relValue k v)) fun w => ?_
      · rintro h X - ⟨⟨-, g⟩, e⟩
        refine ⟨g, fun hk => ?_⟩
        rcases g with hv | ⟨p, xs, rfl, hp, -⟩
        · exact hv
        · exfalso
          simp only [hDefaultRel, hp] at e
          have : k = .in_ := by
            have := Option.some.inj e
            rw [← this]
            simp only [shallow, hp]
            rfl
          subst this
          cases hk
      · refine rg_bind rg_read fun _ => ?_
        refine rg_bind (rg_alloc fun h X g x hx => ?_) fun a => rg_ret fun h X g => in_ref.2 g
        rcases List.mem_singleton.1 hx with rfl
        exact g
  · refine rg_bind (rg_alloc fun h X g x hx => ?_) fun a => rg_ret fun h X g => in_ref.2 g
    rcases List.mem_cons.1 hx with rfl | hx
    · exact g.2
    · rcases List.mem_singleton.1 hx with rfl
      exact g.1

/-! ### Arguments -/

theorem asList_some {h : Heap} {pos ys : List Val} (e : hAsList h pos = some ys) :
    ∃ (r : Nat) (c : Cell), pos = [.ref r] ∧ h[r]? = some c ∧ (c.cls = .list ∨ c.cls = .tuple) ∧
      c.fields = ys := by
  unfold hAsList at e
  split at e
  · rename_i p
    split at e <;> cases e
    · rename_i hc; exact ⟨p, _, rfl, hc, .inl rfl, rfl⟩
    · rename_i hc; exact ⟨p, _, rfl, hc, .inr rfl, rfl⟩
  · cases e

theorem asList_none {h : Heap} {r : Nat} {c : Cell} (e : hAsList h [.ref r] = none)
    (hc : h[r]? = some c) : ¬ (c.cls = .list ∨ c.cls = .tuple) := by
  rintro (hk | hk)
  · obtain ⟨k, xs⟩ := c
    cases hk
    simp only [hAsList, hc] at e
    cases e
  · obtain ⟨k, xs⟩ := c
    cases hk
    simp only [hAsList, hc] at e
    cases e

theorem batch_mem {o : ParseOpts} {vs b : List Val} (e : hCreateBatch o vs = .ok b) :
    ((hPairOf b).1 = .atom .none ∨ (hPairOf b).1 ∈ vs) ∧
    ((hPairOf b).2 = .atom .none ∨ (hPairOf b).2 ∈ vs) := by
  have key : ∀ x ∈ b, x = .atom .none ∨ x ∈ vs := by
    unfold hCreateBatch at e
    split at e <;> cases e
    intro x hx
    rcases List.mem_append.1 hx with hx | hx
    · exact .inr hx
    · exact .inl (List.eq_of_mem_replicate hx)
  match b, key with
  | [], _ => exact ⟨.inl rfl, .inl rfl⟩
  | [x], key => exact ⟨key x (by simp), .inl rfl⟩
  | x :: y :: r, key => exact ⟨key x (by simp), key y (by simp)⟩

theorem batch_two {o : ParseOpts} {k v : Val} {b : List Val} (e : hCreateBatch o [k, v] = .ok b) :
    hPairOf b = (k, v) := by
  unfold hCreateBatch at e
  split at e <;> cases e
  rfl

theorem mapR_of_mem {α β : Type} {f : α → R β} : ∀ {xs : List α} {ys : List β}, mapR f xs = .ok ys →
    ∀ y ∈ ys, ∃ x ∈ xs, f x = .ok y
  | [], ys, e, y, hy => by cases e; cases hy
  | x :: xs, ys, e, y, hy => by
    rw [mapR] at e
    simp only [bind_ok] at e
    obtain ⟨z, hz, zs, hzs, e⟩ := e
    cases e
    rcases List.mem_cons.1 hy with rfl | hy
    · exact ⟨x, by simp, hz⟩
    · obtain ⟨w, hw, e⟩ := mapR_of_mem hzs y hy
      exact ⟨w, by simp [hw], e⟩

/-- An item of a parsed list: from inside a list or tuple, or itself. -/
theorem parseList_mem {h : Heap} {o : ParseOpts} {xs : List Val} {bs : List (List Val)}
    (e : hParseList h o xs = .ok bs) {b : List Val} (hb : b ∈ bs) :
    (∃ r c, Val.ref r ∈ xs ∧ h[r]? = some c ∧ (c.cls = .list ∨ c.cls = .tuple) ∧
      hCreateBatch o c.fields = .ok b) ∨
    (o.minItems = 1 ∧ ∃ x ∈ xs, hAsList h [x] = none ∧ hCreateBatch o [x] = .ok b) := by
  obtain ⟨x, hx, e⟩ := mapR_of_mem e b hb
  split at e
  · rename_i ys hy
    obtain ⟨r, c, e1, hc, hk, rfl⟩ := asList_some hy
    cases e1
    exact .inl ⟨r, c, hx, hc, hk, e⟩
  · rename_i hn
    split at e
    · rename_i hm
      exact .inr ⟨hm, x, hx, hn, e⟩
    · cases e

/-- Where the columns of a batch parsed from positional arguments come from. -/
theorem positional_mem {h : Heap} {o : ParseOpts} {pos : List Val} {bs : List (List Val)}
    (e : hParsePositional h o pos = .ok bs) {b : List Val} (hb : b ∈ bs) :
    (o.minItems ≠ 1 ∧ hIsArgs h pos = true ∧ o.minItems ≤ pos.length ∧ pos.length ≤ o.maxItems ∧
      hCreateBatch o pos = .ok b) ∨
    (∃ l c, pos = [.ref l] ∧ h[l]? = some c ∧ (c.cls = .list ∨ c.cls = .tuple) ∧ o.allowList = true ∧
      ∃ bs, hParseList h o c.fields = .ok bs ∧ b ∈ bs) ∨
    ((o.allowList = true → hAsList h pos = none) ∧ hParseList h o pos = .ok bs) := by
  unfold hParsePositional at e
  split at e
  · rename_i hc
    simp only [Bool.and_eq_true, decide_eq_true_eq] at hc
    rw [bind_ok] at e
    obtain ⟨b', e', e⟩ := e
    cases e
    rcases List.mem_singleton.1 hb with rfl
    exact .inl ⟨by omega, hc.1.2, hc.2.1, hc.2.2, e'⟩
  · split at e
    · rename_i xs ha hl
      obtain ⟨r, c, rfl, hc, hk, rfl⟩ := asList_some hl
      exact .inr (.inl ⟨r, c, rfl, hc, hk, ha, bs, e, hb⟩)
    · rename_i hn
      split at e
      · refine .inr (.inr ⟨fun ha => ?_, e⟩)
        cases hl : hAsList h pos with
        | none => rfl
        | some xs => exact absurd hl (hn xs ha)
      · cases e
        cases hb

section
variable {T : Runtime} (hT : Gentle T) (ht : Tidy T)
include hT ht

theorem rg_parse {P : Heap → (Nat → Prop) → Val → Prop} (hP : ∀ v, Lasting fun h X => P h X v)
    (ha : ∀ h X a, P h X (.atom a)) {G : Heap → (Nat → Prop) → Prop} (o : ParseOpts) (a : HArgs)
    (hpos : ∀ h X bs, G h X → hParsePositional h o a.pos = .ok bs →
      ∀ b ∈ bs, P h X (hPairOf b).1 ∧ P h X (hPairOf b).2)
    (hdict : ∀ h X d xs, G h X → a.pos = [.ref d] → h[d]? = some ⟨.dict, xs⟩ → ∀ v ∈ xs, P h X v)
    (hkw : ∀ h X k v, G h X → (k, v) ∈ a.kw → P h X v) :
    Rg G (hParseArgs T o a) fun h X bs => ∀ b ∈ bs, P h X (hPairOf b).1 ∧ P h X (hPairOf b).2 := by
  have lastBs : ∀ bs : List (List Val),
      Lasting fun h X => ∀ b ∈ bs, P h X (hPairOf b).1 ∧ P h X (hPairOf b).2 := fun bs =>
    Lasting.all fun b => (hP _).and (hP _)
  have dict : ∀ kvs : List (Val × Val), Rg (fun h X => ∀ kv ∈ kvs, P h X kv.1 ∧ P h X kv.2)
      (hParseDict T o kvs) fun h X bs => ∀ b ∈ bs, P h X (hPairOf b).1 ∧ P h X (hPairOf b).2 := by
    intro kvs
    refine rg_bind (Q := fun h X items => ∀ kv ∈ items, P h X kv.1 ∧ P h X kv.2) ?_ fun items => ?_
    · intro h X hc g
      obtain ⟨X', s, -⟩ := rg_quiet (G := fun _ _ => True) (hT.sort kvs) (ht.sort kvs) h X hc trivial
      refine ⟨X', s, fun r hr kv hkv => ?_⟩
      have := g kv (ht.items kvs h r hr kv hkv)
      exact ⟨hP _ _ _ _ _ s this.1, hP _ _ _ _ _ s this.2⟩
    · intro h X hc g
      refine ⟨X, .refl hc, fun bs hbs b hb => ?_⟩
      obtain ⟨kv, hkv, e⟩ := mapR_of_mem hbs b hb
      rw [batch_two e]
      exact g kv hkv
  unfold hParseArgs
  split
  · exact rg_raise
  refine rg_bind (Q := fun h X xs => G h X ∧ ∀ b ∈ xs, P h X (hPairOf b).1 ∧ P h X (hPairOf b).2)
    (rg_reads fun h X bs _ g e => ⟨g, hpos h X bs g e⟩) fun xs => ?_
  refine rg_bind (Q := fun h X ys => (∀ b ∈ ys, P h X (hPairOf b).1 ∧ P h X (hPairOf b).2) ∧
    ∀ b ∈ xs, P h X (hPairOf b).1 ∧ P h X (hPairOf b).2)
    (rg_keep (lastBs xs) (fun _ _ g => g.2) ?_) fun ys => rg_ret fun h X g b hb => ?_
  · refine rg_bind (Q := fun h X d => G h X ∧ hAsDict h a.pos = d)
      (rg_reads fun h X d _ g e => ⟨g.1, by cases e; rfl⟩) fun d => ?_
    cases d with
    | some kvs =>
      dsimp only
      split
      · refine rg_pre ?_ (dict kvs)
        rintro h X - ⟨g, e⟩ ⟨k, v⟩ hkv
        unfold hAsDict at e
        split at e
        · rename_i d hpos
          split at e <;> cases e
          rename_i xs hd
          have := pairUp_mem xs k v hkv
          exact ⟨hdict h X d xs g hpos hd k this.1, hdict h X d xs g hpos hd v this.2⟩
        · cases e
      · exact rg_raise
    | none =>
      dsimp only
      split
      · exact rg_ret fun _ _ _ b hb => by cases hb
      split
      · refine rg_pre ?_ (dict _)
        rintro h X - ⟨g, -⟩ kv hkv
        obtain ⟨⟨k, v⟩, hm, rfl⟩ := List.mem_map.1 hkv
        exact ⟨ha _ _ _, hkw h X k v g hm⟩
      · exact rg_raise
  · rcases List.mem_append.1 hb with hb | hb
    · exact g.2 b hb
    · exact g.1 b hb

end

/-- Whatever arguments give is in the region or a container. -/
structure Loose (h : Heap) (X : Nat → Prop) (deep : Bool) (a : HArgs) : Prop where
  pos : ∀ v ∈ a.pos, Fine h X v
  item : ∀ r c v, Val.ref r ∈ a.pos → h[r]? = some c → (c.cls = .list ∨ c.cls = .tuple) →
    v ∈ c.fields → Fine h X v
  inner : deep = true → ∀ l c r d v, a.pos = [.ref l] → h[l]? = some c → (c.cls = .list ∨ c.cls = .tuple) →
    Val.ref r ∈ c.fields → h[r]? = some d → (d.cls = .list ∨ d.cls = .tuple) → v ∈ d.fields →
    Fine h X v
  entry : ∀ d xs v, Val.ref d ∈ a.pos → h[d]? = some ⟨.dict, xs⟩ → v ∈ xs → Fine h X v
  kw : ∀ k v, (k, v) ∈ a.kw → Fine h X v

/-- Whatever arguments give is in the region or a list of such things. -/
def Tight (h : Heap) (X : Nat → Prop) (a : HArgs) : Prop := ∀ v, Leaf h a v → Give h X v

theorem tight_loose {h X a} (t : Tight h X a) (deep : Bool) : Loose h X deep a where
  pos v hv := by
    by_cases hl : Listed h v
    · exact .inr (.inl hl)
    by_cases hd : IsDict h v
    · exact .inr (.inr hd)
    · exact give_fine (t v (.arg hv hl hd))
  item r c v hr hc hk hv := by
    by_cases hl : Listed h v
    · exact .inr (.inl hl)
    · exact give_fine (t v (.item hr hc hk hv fun _ => hl))
  inner _ l c r d v hl hc hk hr hd hk' hv := give_fine (t v (.inner hl hc hk hr hd hk' hv))
  entry d xs v hd hc hv := give_fine (t v (.entry hd hc hv))
  kw k v hv := give_fine (t v (.kw hv))

section
variable {T : Runtime} (hT : Gentle T) (ht : Tidy T) {G : Heap → (Nat → Prop) → Prop}
include hT ht

theorem rg_parseLoose (o : ParseOpts) (a : HArgs) (hG : ∀ h X, G h X → Loose h X o.allowList a) :
    Rg G (hParseArgs T o a) fun h X bs => ∀ b ∈ bs, Fine h X (hPairOf b).1 ∧ Fine h X (hPairOf b).2 := by
  have none_ : ∀ h X, Fine h X (.atom .none) := fun h X => .inl (in_atom _)
  refine rg_parse hT ht lasting_fine (fun _ _ a => .inl (in_atom a)) o a ?_
    (fun h X d xs g hp hd v hv => (hG h X g).entry d xs v (by simp [hp]) hd hv)
    (fun h X k v g hv => (hG h X g).kw k v hv)
  intro h X bs g e b hb
  have up : ∀ vs : List Val, hCreateBatch o vs = .ok b → (∀ v ∈ vs, Fine h X v) →
      Fine h X (hPairOf b).1 ∧ Fine h X (hPairOf b).2 := by
    intro vs e hv
    obtain ⟨h1, h2⟩ := batch_mem e
    exact ⟨h1.elim (fun e => e ▸ none_ h X) (hv _), h2.elim (fun e => e ▸ none_ h X) (hv _)⟩
  rcases positional_mem e hb with ⟨-, -, -, -, e⟩ | ⟨l, c, hp, hc, hk, al, bs', e, hb⟩ | ⟨-, e⟩
  · exact up _ e (hG h X g).pos
  · rcases parseList_mem e hb with ⟨r, d, hr, hd, hk', e⟩ | ⟨-, x, hx, -, e⟩
    · exact up _ e fun v hv => (hG h X g).inner al l c r d v hp hc hk hr hd hk' hv
    · exact up _ e fun v hv => by
        rcases List.mem_singleton.1 hv with rfl
        exact (hG h X g).item l c v (by simp [hp]) hc hk hx
  · rcases parseList_mem e hb with ⟨r, d, hr, hd, hk', e⟩ | ⟨-, x, hx, -, e⟩
    · exact up _ e fun v hv => (hG h X g).item r d v hr hd hk' hv
    · exact up _ e fun v hv => by
        rcases List.mem_singleton.1 hv with rfl
        exact (hG h X g).pos v hx

theorem rg_parseTight (a : HArgs) (hG : ∀ h X, G h X → Tight h X a) :
    Rg G (hParseArgs T pairOpts a) fun h X bs => ∀ b ∈ bs,
      (Give h X (hPairOf b).1 ∨ IsDict h (hPairOf b).1) ∧
      (Give h X (hPairOf b).2 ∨ IsDict h (hPairOf b).2) := by
  refine rg_parse hT ht (P := fun h X v => Give h X v ∨ IsDict h v)
    (fun v => (lasting_give v).or (lasting_dict v)) (fun _ _ a => .inl (.inl (in_atom a))) pairOpts a ?_
    (fun h X d xs g hp hd v hv => .inl (hG h X g v (.entry (by simp [hp]) hd hv)))
    (fun h X k v g hv => .inl (hG h X g v (.kw hv)))
  intro h X bs g e b hb
  have t := hG h X g
  have up : ∀ vs : List Val, hCreateBatch pairOpts vs = .ok b → (∀ v ∈ vs, Leaf h a v) →
      (Give h X (hPairOf b).1 ∨ IsDict h (hPairOf b).1) ∧
      (Give h X (hPairOf b).2 ∨ IsDict h (hPairOf b).2) := by
    intro vs e hv
    obtain ⟨h1, h2⟩ := batch_mem e
    exact ⟨.inl (h1.elim (fun e => e ▸ .inl (in_atom _)) fun h => t _ (hv _ h)),
      .inl (h2.elim (fun e => e ▸ .inl (in_atom _)) fun h => t _ (hv _ h))⟩
  rcases positional_mem e hb with ⟨-, ia, l1, l2, e⟩ | ⟨l, c, hp, hc, hk, -, bs', e, hb⟩ | ⟨hn, e⟩
  · match hp : a.pos, ia, l1, l2, e with
    | [], _, l1, _, _ => exact absurd l1 (by decide)
    | [x], _, l1, _, _ => exact absurd l1 (by simp [pairOpts])
    | [k, v], ia, _, _, e =>
      rw [batch_two e]
      have hk : ¬ Listed h k := by
        intro l
        simp only [hIsArgs] at ia
        rcases listed_shallow l with ⟨xs, e⟩ | ⟨xs, e⟩ <;> rw [e] at ia <;> cases ia
      refine ⟨?_, .inl (t v (.second hp hk))⟩
      by_cases hd : IsDict h k
      · exact .inr hd
      · exact .inl (t k (.arg (by simp [hp]) hk hd))
    | x :: y :: z :: r, _, _, l2, _ => exact absurd l2 (by simp [pairOpts])
  · rcases parseList_mem e hb with ⟨r, d, hr, hd, hk', e⟩ | ⟨h1, -⟩
    · exact up _ e fun v hv => .inner hp hc hk hr hd hk' hv
    · cases h1
  · rcases parseList_mem e hb with ⟨r, d, hr, hd, hk', e⟩ | ⟨h1, -⟩
    · refine up _ e fun v hv => .item hr hd hk' hv fun hp => ?_
      rw [hp] at hn
      exact absurd hk' (asList_none (hn rfl) hd)
    · cases h1

end

/-! ### Parts -/

theorem sql_in {h : Heap} {X : Nat → Prop} {v : Val} (f : Fine h X v)
    (e : (shallow h v).isSql = true) : In X v := by
  rcases f with f | f | f
  · exact f
  · rcases listed_shallow f with ⟨xs, e'⟩ | ⟨xs, e'⟩ <;> rw [e'] at e <;> cases e
  · obtain ⟨xs, e'⟩ := dict_shallow f
    rw [e'] at e
    cases e

theorem conds_in {h : Heap} {X : Nat → Prop} {v : Val} (f : Fine h X v)
    (e : (shallow h v).isConds = true) : In X v := by
  rcases f with f | f | f
  · exact f
  · rcases listed_shallow f with ⟨xs, e'⟩ | ⟨xs, e'⟩ <;> rw [e'] at e <;> cases e
  · obtain ⟨xs, e'⟩ := dict_shallow f
    rw [e'] at e
    cases e

theorem custom_in {h : Heap} {X : Nat → Prop} {a : HArgs} {deep : Bool} {v : Val} (l : Loose h X deep a)
    (e : hCustomArg h a = some v) : In X v := by
  unfold hCustomArg at e
  split at e
  · rename_i w _ hp
    split at e <;> cases e
    rename_i hs
    exact sql_in (l.pos v (by simp [hp])) hs
  · cases e

section
variable {T : Runtime} (hT : Gentle T) (ht : Tidy T) {l : Nat} {a : HArgs}
include hT ht

theorem rg_where (on : Bool) :
    Rg (fun h X => X l ∧ Tight h X a) (hWhere T on l a) fun _ _ _ => True := by
  unfold hWhere
  split
  · exact rg_raise
  refine rg_bind (Q := fun h X o => (X l ∧ Tight h X a) ∧ ∀ v, o = some v → In X v)
    (rg_reads fun h X o _ g e => ⟨g, fun v hv => by
      cases e; exact custom_in (tight_loose g.2 true) hv⟩) fun o => ?_
  cases o with
  | some v => exact rg_push fun h X g => ⟨g.1.1, g.2 v rfl⟩
  | none =>
    refine rg_bind (Q := fun h X b => (X l ∧ Tight h X a) ∧ (b = true → ∀ v ∈ a.pos, In X v))
      (rg_reads fun h X o _ g e => ⟨g.1, fun hb v hv => ?_⟩) fun all => ?_
    · cases e
      simp only [Bool.and_eq_true, List.all_eq_true] at hb
      exact conds_in ((tight_loose g.1.2 true).pos v hv) (hb.2 v hv)
    · split
      · rename_i hb
        have last : Lasting fun (_ : Heap) X => X l ∧ ∀ v ∈ a.pos, In X v :=
          (lasting_at l).and (Lasting.all fun v => lasting_in v)
        refine rg_pre (fun h X _ g => ⟨g.1.1, g.2 hb⟩)
          (rg_post (fun _ _ _ _ => trivial) (rg_each a.pos fun v hv =>
            rg_same last (rg_appendUnique hT ht last fun h X g => ⟨g.1, g.2 v hv⟩)))
      · refine rg_bind (rg_keep (lasting_at l) (fun h X g => g.1.1)
          (rg_parseTight hT ht a fun h X g => g.1.2)) fun bs => ?_
        have lastP : ∀ v, Lasting fun h X => Give h X v ∨ IsDict h v :=
          fun v => (lasting_give v).or (lasting_dict v)
        have last : Lasting fun h X => (∀ b ∈ bs, (Give h X (hPairOf b).1 ∨ IsDict h (hPairOf b).1) ∧
            (Give h X (hPairOf b).2 ∨ IsDict h (hPairOf b).2)) ∧ X l :=
          (Lasting.all fun b => (lastP _).and (lastP _)).and (lasting_at l)
        refine rg_post (fun _ _ _ _ => trivial) (rg_each bs fun b hb => rg_same last
          (Q := fun _ _ _ => True) (rg_bind (rg_keep (lasting_at l) (fun h X g => g.2)
            (rg_pre ?_ (rg_mkCond on (hPairOf b).1 (hPairOf b).2))) fun c => ?_))
        · intro h X _ g
          exact ⟨(g.1 b hb).1.elim give_fine fun d => .inr (.inr d), (g.1 b hb).2⟩
        · exact rg_appendUnique hT ht ((lasting_in c).and (lasting_at l)) fun h X g => ⟨g.2, g.1⟩

/-- The common form of loops over parsed arguments. -/
theorem rg_loop {o : ParseOpts} {f : List Val → HM Unit}
    (hf : ∀ b, Rg (fun h X => (Fine h X (hPairOf b).1 ∧ Fine h X (hPairOf b).2) ∧ X l) (f b)
      fun _ _ _ => True) :
    Rg (fun h X => X l ∧ Loose h X o.allowList a) (do
      let bs ← hParseArgs T o a
      each f bs) fun _ _ _ => True := by
  refine rg_bind (rg_keep (lasting_at l) (fun h X g => g.1)
    (rg_parseLoose hT ht o a fun h X g => g.2)) fun bs => ?_
  have last : Lasting fun h X => (∀ b ∈ bs, Fine h X (hPairOf b).1 ∧ Fine h X (hPairOf b).2) ∧ X l :=
    (Lasting.all fun b => (lasting_fine _).and (lasting_fine _)).and (lasting_at l)
  exact rg_post (fun _ _ _ _ => trivial) (rg_each bs fun b hb => rg_same last
    (rg_pre (fun h X _ g => ⟨g.1 b hb, g.2⟩) (hf b)))

theorem rg_new {c : Lib} {x y : Val} {G : Heap → (Nat → Prop) → Prop}
    (hG : ∀ h X, G h X → (In X x ∧ In X y) ∧ X l) :
    Rg G (do
      let p ← alloc (.lib c) [x, y]
      hAppendUnique T l (.ref p)) fun _ _ _ => True := by
  refine rg_bind (rg_keep (lasting_at l) (fun h X g => (hG h X g).2)
    (rg_alloc fun h X g v hv => ?_)) fun p => ?_
  · rcases List.mem_cons.1 hv with rfl | hv
    · exact (hG h X g).1.1
    · rcases List.mem_singleton.1 hv with rfl
      exact (hG h X g).1.2
  · exact rg_appendUnique hT ht ((lasting_at p).and (lasting_at l)) fun h X g => ⟨g.2, in_ref.2 g.1⟩

theorem rg_columns : Rg (fun h X => X l ∧ Loose h X false a) (hColumns T l a) fun _ _ _ => True := by
  unfold hColumns
  split
  · exact rg_raise
  refine rg_loop hT ht (o := nameOpts) fun b => ?_
  refine rg_bind (rg_check (by decide) (by decide) (by decide) fun h X g => g.1.1) fun _ => ?_
  refine rg_bind (rg_check (by decide) (by decide) (by decide) fun h X g => g.2.1.2) fun _ => ?_
  exact rg_new hT ht fun h X g => ⟨⟨g.2.1, g.1⟩, g.2.2.2⟩

theorem rg_values : Rg (fun h X => X l ∧ Loose h X true a) (hValues T l a) fun _ _ _ => True := by
  unfold hValues
  split
  · exact rg_raise
  refine rg_bind (Q := fun h X o => (X l ∧ Loose h X true a) ∧ ∀ v, o = some v → In X v)
    (rg_reads fun h X o _ g e => ⟨g, fun v hv => by cases e; exact custom_in g.2 hv⟩) fun o => ?_
  cases o with
  | some v => exact rg_push fun h X g => ⟨g.1.1, g.2 v rfl⟩
  | none =>
    refine rg_pre (fun h X _ g => g.1) (rg_loop hT ht (o := pairOpts) fun b => ?_)
    refine rg_bind (rg_check (by decide) (by decide) (by decide) fun h X g => g.1.1) fun _ => ?_
    refine rg_bind (rg_check (by decide) (by decide) (by decide) fun h X g => g.2.1.2) fun _ => ?_
    exact rg_new hT ht fun h X g => ⟨⟨g.2.1, g.1⟩, g.2.2.2⟩

omit hT ht in
theorem rg_mkTable {n al : Val} {G : Heap → (Nat → Prop) → Prop}
    (hG : ∀ h X, G h X → Fine h X n ∧ Fine h X al) :
    Rg G (hMkTable n al) fun _ X t => X t := by
  refine rg_bind (rg_check (by decide) (by decide) (by decide) fun h X g => (hG h X g).1) fun _ => ?_
  refine rg_bind (rg_check (by decide) (by decide) (by decide) fun h X g => (hG h X g.2).2) fun _ => ?_
  refine rg_bind (rg_keep ((lasting_in n).and (lasting_in al)) (fun h X g => ⟨g.2.1, g.1⟩)
    (rg_alloc fun h X g v hv => by cases hv)) fun js => rg_alloc fun h X g v hv => ?_
  simp only [List.mem_cons, List.not_mem_nil, or_false] at hv
  rcases hv with rfl | rfl | rfl
  · exact g.2.1
  · exact g.2.2
  · exact in_ref.2 g.1

omit hT ht in
theorem loose_filter {h X} {f : Val → Bool} (g : Loose h X false a) :
    Loose h X false { a with pos := a.pos.filter f } where
  pos v hv := g.pos v (List.mem_filter.1 hv).1
  item r c v hr := g.item r c v (List.mem_filter.1 hr).1
  inner h := by cases h
  entry d xs v hd := g.entry d xs v (List.mem_filter.1 hd).1
  kw := g.kw

theorem rg_tables : Rg (fun h X => X l ∧ Loose h X false a) (hTables T l a) fun _ _ _ => True := by
  unfold hTables
  split
  · exact rg_raise
  refine rg_bind (Q := fun h X pos => X l ∧ Loose h X false { a with pos := pos })
    (rg_reads fun h X pos _ g e => ⟨g.1, by cases e; exact loose_filter g.2⟩) fun pos => ?_
  refine rg_loop hT ht (o := nameOpts) fun b => ?_
  refine rg_bind (rg_keep (lasting_at l) (fun h X g => g.2) (rg_mkTable fun h X g => g.1)) fun t => ?_
  exact rg_appendUnique hT ht ((lasting_at t).and (lasting_at l)) fun h X g => ⟨g.2, in_ref.2 g.1⟩

theorem rg_findOrder {G : Heap → (Nat → Prop) → Prop} (hG : Lasting G) (col : Val) (xs : List Val) :
    Rg G (hFindOrder T col xs) fun h X o => G h X ∧ ∀ p, o = some p → Val.ref p ∈ xs := by
  induction xs with
  | nil => exact rg_ret fun _ _ g => ⟨g, by rintro _ ⟨⟩⟩
  | cons x xs ih =>
    cases x with
    | atom _ => exact rg_raise
    | ref p =>
      refine rg_bind rg_read fun c => ?_
      split
      · refine rg_bind (rg_eq hT ht hG _ _) fun b => ?_
        split
        · exact rg_ret fun _ _ g => ⟨g, by rintro _ ⟨⟩; simp⟩
        · exact rg_post (fun _ _ _ g => ⟨g.1, fun p hp => by simp [g.2 p hp]⟩) ih
      · exact rg_raise

theorem rg_orders (cx : Ctx) :
    Rg (fun h X => X l ∧ Loose h X false a) (hOrders T cx l a) fun _ _ _ => True := by
  unfold hOrders
  split
  · exact rg_raise
  refine rg_loop hT ht (o := nameOpts) fun b => ?_
  refine rg_bind (Q := fun h X xs => (Fine h X (hPairOf b).1 ∧ X l) ∧ ∀ x ∈ xs, In X x)
    (rg_reads fun h X xs hc g e => ⟨⟨g.1.1, g.2⟩, fun x hx => ?_⟩) fun xs => ?_
  · rw [bind_ok] at e
    obtain ⟨c, e1, e⟩ := e
    cases e
    rintro p rfl
    rw [cellAt_ok] at e1
    exact hc l c p g.2 e1 (List.mem_of_mem_drop hx)
  have last : Lasting fun h X => (Fine h X (hPairOf b).1 ∧ X l) ∧ ∀ x ∈ xs, In X x :=
    ((lasting_fine _).and (lasting_at l)).and (Lasting.all fun x => lasting_in x)
  refine rg_bind (rg_findOrder hT ht last _ xs) fun o => ?_
  cases o with
  | none =>
    refine rg_bind (rg_check (by decide) (by decide) (by decide) fun h X g => g.1.1.1) fun _ => ?_
    refine rg_bind (Q := fun h X d => (In X (hPairOf b).1 ∧ In X d) ∧ X l)
      (rg_reads fun h X d _ g e => ⟨⟨g.1, ?_⟩, g.2.1.1.2⟩) fun d => ?_
    · rw [bind_ok] at e
      obtain ⟨_, -, e⟩ := e
      cases e
      exact in_atom _
    refine rg_bind (rg_keep (lasting_at l) (fun h X g => g.2) (rg_alloc fun h X g v hv => ?_))
      fun p => rg_push fun h X g => ⟨g.2, in_ref.2 g.1⟩
    rcases List.mem_cons.1 hv with rfl | hv
    · exact g.1.1
    · rcases List.mem_singleton.1 hv with rfl
      exact g.1.2
  | some p =>
    refine rg_bind (Q := fun h X d => X p ∧ In X d)
      (rg_reads fun h X d _ g e => ⟨g.1.2 _ (g.2 p rfl) p rfl, ?_⟩) fun d => ?_
    · rw [bind_ok] at e
      obtain ⟨_, -, e⟩ := e
      cases e
      exact in_atom _
    refine rg_modify (fun h X g => .inl g.1) fun h X g _ xs y hy => ?_
    rcases List.mem_cons.1 hy with rfl | hy
    · cases xs with
      | nil => exact .inr (in_atom _)
      | cons x xs => exact .inl (by simp)
    · rcases List.mem_singleton.1 hy with rfl
      exact .inr g.2

omit hT ht in
theorem rg_newPart {c : Lib} {sep : Str} {G : Heap → (Nat → Prop) → Prop} :
    Rg G (hNewPart c sep []) fun _ X r => X r.1 ∧ X r.2 := by
  refine rg_bind (rg_alloc fun h X g v hv => ?_) fun l => ?_
  · rcases List.mem_singleton.1 hv with rfl
    exact in_atom _
  refine rg_bind (rg_keep (lasting_at l) (fun _ _ g => g) (rg_alloc fun h X g v hv => ?_)) fun p =>
    rg_ret fun h X g => g
  rcases List.mem_singleton.1 hv with rfl
  exact in_ref.2 g

end

/-! ### Steps that leave the arguments alone -/

/-- Lists, tuples and dictionaries. -/
def Carries (c : Cls) : Prop := c = .list ∨ c = .tuple ∨ c = .dict

theorem loose_step {h X h' X'} {deep : Bool} {a : HArgs} (s : Step h X h' X')
    (same : ∀ (r : Nat) c, h[r]? = some c → Carries c.cls → h'[r]? = some c)
    (new : ∀ r, h.length ≤ r → r < h'.length → X' r) (g : Loose h X deep a) : Loose h' X' deep a := by
  have back : ∀ (r : Nat) c, h'[r]? = some c → Carries c.cls → h[r]? = some c ∨ X' r := by
    intro r c hc hk
    by_cases lt : r < h.length
    · have h0 : h[r]? = some h[r] := List.getElem?_eq_getElem lt
      obtain ⟨c', h1, h2⟩ := s.cls r _ h0
      rw [hc] at h1
      cases h1
      have := same r _ h0 (h2 ▸ hk)
      rw [hc] at this
      cases this
      exact .inl h0
    · exact .inr (new r (Nat.le_of_not_lt lt) (lt_of_some hc))
  have fine : ∀ v, Fine h X v → Fine h' X' v := fun v => lasting_fine v h X h' X' s
  have inX : ∀ (r : Nat) c v, X' r → h'[r]? = some c → v ∈ c.fields → Fine h' X' v := by
    rintro r c v hr hc hv
    exact .inl fun b hb => s.closed r c b hr hc (hb ▸ hv)
  have li : ∀ {c : Cell}, (c.cls = .list ∨ c.cls = .tuple) → Carries c.cls := fun h =>
    h.elim .inl fun h => .inr (.inl h)
  refine ⟨fun v hv => fine v (g.pos v hv), ?_, ?_, ?_, fun k v hv => fine v (g.kw k v hv)⟩
  · intro r c v hr hc hk hv
    rcases back r c hc (li hk) with h0 | hx
    · exact fine v (g.item r c v hr h0 hk hv)
    · exact inX r c v hx hc hv
  · intro dp l c r d v hl hc hk hr hd hk' hv
    rcases back r d hd (li hk') with d0 | hx
    · rcases back l c hc (li hk) with c0 | hx
      · exact fine v (g.inner dp l c r d v hl c0 hk hr d0 hk' hv)
      · exact inX r d v (s.closed l c r hx hc hr) hd hv
    · exact inX r d v hx hd hv
  · intro d xs v hd hc hv
    rcases back d _ hc (.inr (.inr rfl)) with h0 | hx
    · exact fine v (g.entry d xs v hd h0 hv)
    · exact inX d _ v hx hc hv

section
variable {G : Heap → (Nat → Prop) → Prop} {deep : Bool} {a : HArgs}

theorem rg_allocLoose {c : Cls} {xs : List Val} (hx : ∀ h X, G h X → ∀ v ∈ xs, In X v)
    (hl : ∀ h X, G h X → Loose h X deep a) :
    Rg G (alloc c xs) fun h X p => (X p ∧ h[p]? = some ⟨c, xs⟩) ∧ Loose h X deep a := by
  intro h X hc hg
  obtain ⟨X', s, hX⟩ := rg_alloc (G := G) (c := c) hx h X hc hg
  refine ⟨X', s, fun p hp => ?_⟩
  have hXp := hX p hp
  cases hp
  refine ⟨⟨hXp, by simp [alloc]⟩, loose_step s ?_ ?_ (hl h X hg)⟩
  · intro r d hd _
    show (h ++ [_])[r]? = _
    rw [List.getElem?_append_left (lt_of_some hd)]
    exact hd
  · intro r h1 h2
    have : r = h.length := by simp [alloc] at h2; omega
    subst this
    exact hXp

theorem rg_modifyLoose {p : Nat} {f : List Val → List Val}
    (hp : ∀ h X, G h X → X p ∧ ∃ k xs, h[p]? = some ⟨.lib k, xs⟩)
    (hf : ∀ h X, G h X → ∀ xs, ∀ y ∈ f xs, y ∈ xs ∨ In X y)
    (hl : ∀ h X, G h X → Loose h X deep a) :
    Rg G (HM.modify p f) fun h X _ => Loose h X deep a := by
  intro h X hc hg
  obtain ⟨hX, k, xs, e⟩ := hp h X hg
  simp only [HM.modify, e]
  have s := step_set (c := ⟨.lib k, xs⟩) (ys := f xs) hc e (.inl hX) fun _ => hf h X hg xs
  refine ⟨X, s, fun _ _ => loose_step s ?_ ?_ (hl h X hg)⟩
  · intro r c hr hk
    have : r ≠ p := by
      rintro rfl
      rw [e] at hr
      cases hr
      rcases hk with hk | hk | hk <;> cases hk
    rw [List.getElem?_set_ne this.symm]
    exact hr
  · intro r h1 h2
    simp at h2
    omega

end

section
variable {T : Runtime} (hT : Gentle T) (ht : Tidy T) {l : Nat} {a : HArgs}
include hT ht

theorem rg_rows : Rg (fun h X => X l ∧ Loose h X true a) (hRows T l a) fun _ _ _ => True := by
  refine rg_bind (Q := fun h X r => ((X r.1 ∧ X r.2) ∧ X l) ∧ Loose h X true a) ?_ fun r => ?_
  · refine rg_bind (rg_keep (lasting_at l) (fun _ _ g => g.1)
      (rg_allocLoose (fun h X g v hv => ?_) fun _ _ g => g.2)) fun p => ?_
    · rcases List.mem_singleton.1 hv with rfl
      exact in_atom _
    refine rg_bind (rg_keep ((lasting_at l).and (lasting_at p)) (fun _ _ g => ⟨g.2, g.1.1.1⟩)
      (rg_allocLoose (fun h X g v hv => ?_) fun _ _ g => g.1.2)) fun q =>
        rg_ret fun h X g => ⟨⟨⟨g.1.1.1, g.2.2⟩, g.2.1⟩, g.1.2⟩
    rcases List.mem_singleton.1 hv with rfl
    exact in_ref.2 g.1.1.1
  obtain ⟨p, row⟩ := r
  refine rg_bind (rg_keep ((lasting_at p).and (lasting_at l)) (fun _ _ g => ⟨g.1.1.1, g.1.2⟩)
    (rg_pre (fun _ _ _ g => ⟨g.1.1.2, g.2⟩) (rg_values hT ht))) fun _ => ?_
  exact rg_push fun h X g => ⟨g.2.2, in_ref.2 g.2.1⟩

omit hT ht in
theorem rg_mkRef {v : Val} {deep : Bool} {G : Heap → (Nat → Prop) → Prop}
    (hG : ∀ h X, G h X → In X v ∧ Loose h X deep a) :
    Rg G (hMkRef v) fun h X p => X p ∧ Loose h X deep a := by
  refine rg_bind (rg_keep (lasting_in v) (fun _ _ g => (hG _ _ g).1)
    (rg_allocLoose (fun h X g w hw => ?_) fun _ _ g => (hG _ _ g).2)) fun p => ?_
  · rcases List.mem_cons.1 hw with rfl | hw
    · exact in_atom _
    · rcases List.mem_singleton.1 hw with rfl
      exact (hG h X g).1
  have lastP : Lasting fun h X => X p ∧ ∃ c, h[p]? = some c ∧ c.cls = .lib .sqlReference := by
    rintro h X h' X' s ⟨hp, c, hc, hk⟩
    obtain ⟨c', h1, h2⟩ := s.cls p c hc
    exact ⟨s.sub p hp, c', h1, h2.trans hk⟩
  refine rg_bind (rg_keep ((lasting_in v).and lastP) (fun _ _ g => ⟨g.2, g.1.1.1, _, g.1.1.2, rfl⟩)
    (rg_allocLoose (fun h X g w hw => ?_) fun _ _ g => g.1.2)) fun m => ?_
  · rcases List.mem_singleton.1 hw with rfl
    exact in_ref.2 g.1.1.1
  refine rg_bind (rg_keep ((lasting_in v).and lastP) (fun _ _ g => g.2)
    (rg_allocLoose (fun h X g w hw => ?_) fun _ _ g => g.1.2)) fun d => ?_
  · rcases List.mem_cons.1 hw with rfl | hw
    · exact in_atom _
    · rcases List.mem_singleton.1 hw with rfl
      exact in_ref.2 g.1.1.1
  refine rg_bind (rg_keep (lasting_at p) (fun _ _ g => g.2.2.1)
    (rg_modifyLoose (fun h X g => ⟨g.2.2.1, ?_⟩) (fun h X g xs y hy => .inr ?_) fun _ _ g => g.1.2))
    fun _ => rg_ret fun _ _ g => ⟨g.2, g.1⟩
  · obtain ⟨⟨k, xs⟩, h1, h2⟩ := g.2.2.2
    cases h2
    exact ⟨_, xs, h1⟩
  · rcases List.mem_cons.1 hy with rfl | hy
    · exact in_ref.2 g.1.1.1
    · rcases List.mem_singleton.1 hy with rfl
      exact g.2.1

theorem rg_onConflict {p : Nat} :
    Rg (fun h X => ((X p ∧ ∃ k xs, h[p]? = some ⟨.lib k, xs⟩) ∧ X l) ∧
      Loose h X true { a with pos := a.pos.tail }) (hOnConflict T p l a) fun _ _ _ => True := by
  unfold hOnConflict
  split
  · exact rg_raise
  split
  · rename_i s rest hp
    have lastP : Lasting fun h X => (X p ∧ ∃ k xs, h[p]? = some ⟨.lib k, xs⟩) ∧ X l := by
      rintro h X h' X' st ⟨⟨hp, k, xs, hc⟩, hl⟩
      obtain ⟨⟨k', ys⟩, h1, h2⟩ := st.cls p _ hc
      cases h2
      exact ⟨⟨st.sub p hp, k, ys, h1⟩, st.sub l hl⟩
    rw [hp]
    refine rg_bind (rg_keep lastP (fun _ _ g => g.1)
      (rg_mkRef (deep := true) (a := { a with pos := rest }) fun h X g => ⟨in_atom _, g.2⟩)) fun r => ?_
    refine rg_bind (rg_keep (lasting_at l) (fun _ _ g => g.2.2)
      (rg_modifyLoose (fun h X g => g.2.1) (fun h X g xs y hy => ?_) fun _ _ g => g.1.2)) fun _ => ?_
    · rcases List.mem_or_eq_of_mem_set hy with hy | rfl
      · exact .inl hy
      · exact .inr (in_ref.2 g.1.1)
    · exact rg_pre (fun _ _ _ g => ⟨g.2, g.1⟩) (rg_values hT ht)
  · exact rg_raise

end

theorem own_in {h : Heap} {X : Nat → Prop} {q p : Nat} (hc : Closed h X) (hq : X q) (o : Own h q p) :
    X p := by
  induction o with
  | self => exact hq
  | attr _ hc' hi _ ih => exact hc _ _ _ ih hc' (List.mem_of_getElem? hi)
  | item _ hc' _ hb _ _ ih => exact hc _ _ _ ih hc' hb

section
variable {T : Runtime} (hT : Gentle T) (ht : Tidy T)
include hT ht

theorem rg_joinTable (arg : Val) :
    Rg (fun h X => Loose h X false { pos := [arg] }) (hJoinTable T arg) fun _ X t => X t := by
  intro h X hc g
  have bad : ∃ X', Step h X (andThen (T.str arg) (fun _ => (raise .invalidArgument : HM Nat)) h).1 X' ∧
      ∀ a, (andThen (T.str arg) (fun _ => (raise .invalidArgument : HM Nat)) h).2 = .ok a → X' a :=
    rg_andThen (G := fun _ _ => True) (Q := fun _ _ _ => True) (Q' := fun _ X t => X t)
      (rg_quiet (hT.str arg) (ht.str arg)) (fun _ => rg_raise) h X hc trivial
  unfold hJoinTable
  dsimp only
  split
  · exact rg_mkTable (G := fun _ _ => True) (fun _ _ _ => ⟨.inl (in_atom _), .inl (in_atom _)⟩) h X hc trivial
  · rename_i p
    split
    · rename_i n al hp
      exact rg_mkTable (G := fun h X => Fine h X n ∧ Fine h X al) (fun _ _ g => g) h X hc
        ⟨g.item p _ n (by simp) hp (.inl rfl) (by simp), g.item p _ al (by simp) hp (.inl rfl) (by simp)⟩
    · rename_i n al hp
      exact rg_mkTable (G := fun h X => Fine h X n ∧ Fine h X al) (fun _ _ g => g) h X hc
        ⟨g.item p _ n (by simp) hp (.inr rfl) (by simp), g.item p _ al (by simp) hp (.inr rfl) (by simp)⟩
    · rename_i n al hp
      have last : Lasting fun h X => Fine h X n ∧ Fine h X al := (lasting_fine n).and (lasting_fine al)
      refine rg_andThen (G := fun h X => (Fine h X n ∧ Fine h X al) ∧ ∃ c, h[p]? = some c ∧ c.cls ≠ .list)
        (rg_keep last (fun _ _ g => g.1) (rg_modify (fun h X g => .inr g.2) fun h X g _ xs y hy => by cases hy))
        (fun _ => rg_mkTable fun _ _ g => g.2) h X hc
        ⟨⟨g.entry p _ n (by simp) hp (by simp), g.entry p _ al (by simp) hp (by simp)⟩, _, hp, by simp⟩
    · exact bad
  · exact bad

theorem rg_join {js : Nat} (type : JoinType) (arg : Val) :
    Rg (fun h X => X js ∧ Loose h X false { pos := [arg] }) (hJoin T js type arg)
      fun _ _ _ => True := by
  refine rg_bind (rg_keep (lasting_at js) (fun _ _ g => g.1)
    (rg_pre (fun _ _ _ g => g.2) (rg_joinTable hT ht arg))) fun t => ?_
  refine rg_bind (rg_keep ((lasting_at js).and (lasting_at t)) (fun _ _ g => ⟨g.2, g.1⟩) rg_newPart)
    fun r => ?_
  obtain ⟨ons, l⟩ := r
  refine rg_bind (rg_keep (lasting_at js) (fun _ _ g => g.2.1) (rg_alloc fun h X g v hv => ?_)) fun j => ?_
  · simp only [List.mem_cons, List.not_mem_nil, or_false] at hv
    rcases hv with rfl | rfl | rfl
    · exact in_atom _
    · exact in_ref.2 g.2.2
    · exact in_ref.2 g.1.1
  refine rg_modify (fun h X g => .inl g.2) fun h X g _ xs y hy => ?_
  rcases List.mem_append.1 hy with hy | hy
  · exact .inl hy
  · rcases List.mem_singleton.1 hy with rfl
    exact .inr (in_ref.2 g.1)

omit hT ht in
theorem rg_offset {p : Nat} {v : Val} : Rg (fun _ X => X p) (hOffset p v) fun _ _ _ => True := by
  refine rg_bind rg_read fun _ => rg_bind rg_read fun o => ?_
  split
  · exact rg_bind rg_ofR fun i => rg_setAttr fun h X g => ⟨g, in_atom _⟩
  · exact rg_setAttr fun h X g => ⟨g, in_atom _⟩

omit hT ht in
theorem rg_limit {p : Nat} {v off : Val} : Rg (fun _ X => X p) (hLimit p v off) fun _ _ _ => True := by
  refine rg_bind rg_read fun _ => rg_bind rg_read fun o => ?_
  split
  · exact rg_bind (rg_same (lasting_at p) (rg_setAttr fun h X g => ⟨g, in_atom _⟩)) fun _ =>
      rg_setAttr fun h X g => ⟨g, in_atom _⟩
  · refine rg_bind rg_ofR fun i => ?_
    refine rg_bind (rg_same (lasting_at p) (rg_setAttr fun h X g => ⟨g, in_atom _⟩)) fun _ => ?_
    refine rg_bind rg_read fun f => ?_
    split
    · exact rg_ret fun _ _ _ => trivial
    · exact rg_offset

omit hT ht in
theorem setKey_mem {k : Str} {v y : Val} : ∀ (xs : List Val), y ∈ setKey k v xs → y ∈ xs ∨ y = v := by
  intro xs
  fun_induction setKey k v xs with
  | case1 =>
    intro hy
    simp only [List.mem_cons] at hy ⊢
    tauto
  | case2 =>
    intro hy
    simp only [List.mem_cons] at hy ⊢
    tauto
  | case3 => exact .inl

variable {h : Heap} {X : Nat → Prop} (hc : Closed h X) {q : Nat} (hq : X q)

omit hT ht in
theorem run {G : Heap → (Nat → Prop) → Prop} {m : HM Unit} {Q : Heap → (Nat → Prop) → Unit → Prop}
    (hc : Closed h X) (hm : Rg G m Q) (g : G h X) : ∃ X', Step h X (m h).1 X' :=
  have ⟨X', s, _⟩ := hm h X hc g
  ⟨X', s⟩

omit hT ht in
include hc hq in
theorem onPart_region {s : Slot} {f : Nat → HM Unit}
    (hf : ∀ p, Own h q p → X p → ∃ X', Step h X (f p h).1 X') :
    ∃ X', Step h X (onPart q s f h).1 X' := by
  unfold onPart
  split
  · exact ⟨X, .refl hc⟩
  · rename_i p e
    exact hf p (own_part e) (own_in hc hq (own_part e))

omit hT ht in
include hc hq in
theorem onList_region {s : Slot} {f : Nat → HM Unit}
    (hf : ∀ l, X l → ∃ X', Step h X (f l h).1 X') : ∃ X', Step h X (onList q s f h).1 X' := by
  refine onPart_region hc hq fun p o hp => ?_
  split
  · exact ⟨X, .refl hc⟩
  · rename_i l e
    exact hf l (own_in hc hq (own_list o e).1)

omit hT ht in
include hc hq in
theorem option_region {p : Nat} {key value : Str} (o : Own h q p) :
    ∃ X', Step h X (hOption p key value h).1 X' := by
  unfold hOption
  split
  · exact ⟨X, .refl hc⟩
  · rename_i d e
    refine run (G := fun _ X => X d) hc (rg_modify (fun _ _ g => .inl g) fun h X g _ xs y hy => ?_)
      (own_in hc hq (own_kept o e))
    rcases setKey_mem xs hy with hy | rfl
    · exact .inl hy
    · exact .inr (in_atom _)

include hc hq in
theorem onDuplicate_region (cx : Ctx) (a : HArgs) (l1 : Loose h X true a)
    (l2 : Loose h X true { a with pos := a.pos.tail }) :
    ∃ X', Step h X (hOnDuplicate T cx q a h).1 X' := by
  unfold hOnDuplicate
  split
  · exact ⟨X, .refl hc⟩
  have seq : ∀ (m n : HM Unit), (∀ g, (n g).1 = g) → (∃ X', Step h X (m h).1 X') →
      ∃ X', Step h X ((m >>= fun _ => n) h).1 X' := by
    intro m n hn hm
    show ∃ X', Step h X (andThen m (fun _ => n) h).1 X'
    unfold andThen
    rcases e : m h with ⟨h1, _ | a⟩
    · rw [e] at hm; exact hm
    · rw [e] at hm
      show ∃ X', Step h X (n h1).1 X'
      rw [hn h1]
      exact hm
  cases hb : cx.backend <;>
    simp only [Backend.supportsOnDuplicateKeyUpdate, Backend.supportsOnConflictDoUpdate,
      Backend.supportsReplaceInto]
  · exact ⟨X, .refl hc⟩
  · exact seq _ _ (fun _ => rfl)
      (onList_region hc hq fun l hl => run hc (rg_values hT ht) ⟨hl, l1⟩)
  · refine (?_ : ∃ X', Step h X ((onPart q .conflict
      (fun p => onList q .conflict fun l => hOnConflict T p l a) >>= fun _ => ret ()) h).1 X')
    refine seq _ _ (fun _ => rfl) ?_
    unfold onPart
    split
    · exact ⟨X, .refl hc⟩
    rename_i p ep
    unfold onList onPart
    simp only [ep]
    split
    · exact ⟨X, .refl hc⟩
    rename_i l el
    have o := own_part ep
    refine run hc (rg_onConflict hT ht) ⟨⟨⟨own_in hc hq o, ?_⟩, own_in hc hq (own_list o el).1⟩, l2⟩
    unfold listAt keptAt at el
    cases hp : h[p]? with
    | none => rw [hp] at el; cases el
    | some c =>
      rw [hp] at el
      obtain ⟨k, xs⟩ := c
      cases k with
      | lib k => exact ⟨k, xs, rfl⟩
      | _ => cases el
  · refine (?_ : ∃ X', Step h X ((if !a.pos.isEmpty || !a.kw.isEmpty then raise .exception
      else onPart q .keyword fun p => hSetAttr p 0 (.atom (.bool true)) : HM Unit) h).1 X')
    split
    · exact ⟨X, .refl hc⟩
    · exact onPart_region hc hq fun p o hp =>
        run (G := fun _ X => X p) hc (rg_setAttr fun _ _ g => ⟨g, in_atom _⟩) hp

include hc hq in
theorem call_region (cx : Ctx) (call : HCall) (hg : ∀ a ∈ HCall.given call, Tight h X a)
    (hs : ∀ v, call = .separator v → In X v) (hb : ∀ a, X a → a < h.length) :
    ∃ X', Step h X (hCall T cx q call h).1 X' := by
  have loose : ∀ a ∈ HCall.given call, ∀ d, Loose h X d a := fun a ha d => tight_loose (hg a ha) d
  have attr : ∀ {p i : Nat} {v : Atom}, X p → ∃ X', Step h X (hSetAttr p i (.atom v) h).1 X' := fun hp =>
    run (G := fun _ X => X _) hc (rg_setAttr fun _ _ g => ⟨g, in_atom _⟩) hp
  have tuple : ∀ {l : Nat} {t al : Val}, X l → Loose h X false { pos := [t, al] } →
      ∃ X', Step h X (andThen (alloc .tuple [t, al]) (fun p => hTables T l { pos := [.ref p] }) h).1 X' := by
    intro l t al hl g
    have s : Step h X (h ++ [⟨.tuple, [t, al]⟩]) X := by
      refine ⟨by simp, ?_, fun _ => id, fun _ _ => id, ?_, ?_⟩
      · intro a c b ha hc' hm
        rw [List.getElem?_append_left (hb a ha)] at hc'
        exact hc a c b ha hc' hm
      · intro p xs hp _
        rw [List.getElem?_append_left (lt_of_some hp)]
        exact hp
      · intro p c hp
        exact ⟨c, by rw [List.getElem?_append_left (lt_of_some hp)]; exact hp, rfl⟩
    have at_ : (h ++ [⟨.tuple, [t, al]⟩] : Heap)[h.length]? = some ⟨.tuple, [t, al]⟩ := by simp
    have g' : Loose (h ++ [⟨.tuple, [t, al]⟩]) X false { pos := [.ref h.length] } := by
      refine ⟨?_, ?_, (by rintro ⟨⟩), ?_, (by rintro _ _ ⟨⟩)⟩
      · intro v hv
        rcases List.mem_singleton.1 hv with rfl
        exact .inr (.inl ⟨_, _, rfl, at_, .inr rfl⟩)
      · intro r c v hr hc' _ hv
        have : r = h.length := by simpa using hr
        subst this
        rw [at_] at hc'
        cases hc'
        exact lasting_fine v _ _ _ _ s (g.pos v hv)
      · intro d xs v hd hc' _
        have : d = h.length := by simpa using hd
        subst this
        rw [at_] at hc'
        cases hc'
    obtain ⟨X', s', -⟩ := rg_tables hT ht (h ++ [⟨.tuple, [t, al]⟩]) X s.closed ⟨hl, g'⟩
    exact ⟨X', s.trans s'⟩
  unfold hCall
  split
  · exact ⟨X, .refl hc⟩
  split
  · exact onList_region hc hq fun l hl => run hc (rg_columns hT ht) ⟨hl, loose _ (by simp [HCall.given]) _⟩
  · exact onList_region hc hq fun l hl => run hc (rg_tables hT ht) ⟨hl, loose _ (by simp [HCall.given]) _⟩
  · exact onList_region hc hq fun l hl => tuple hl (loose _ (by simp [HCall.given]) _)
  · exact onList_region hc hq fun l hl => run hc (rg_where hT ht _) ⟨hl, hg _ (by simp [HCall.given])⟩
  · exact onList_region hc hq fun l hl => run hc (rg_orders hT ht cx) ⟨hl, loose _ (by simp [HCall.given]) _⟩
  · exact onList_region hc hq fun l hl => run hc (rg_orders hT ht cx) ⟨hl, loose _ (by simp [HCall.given]) _⟩
  · exact onList_region hc hq fun l hl => run hc (rg_orders hT ht cx) ⟨hl, loose _ (by simp [HCall.given]) _⟩
  · exact onPart_region hc hq fun p _ hp => run hc rg_limit hp
  · exact onPart_region hc hq fun p _ hp => run hc rg_offset hp
  · rename_i v _
    refine onPart_region hc hq fun p _ hp => run (G := fun h X => X p ∧ Fine h X v) hc
      (rg_bind (rg_check (by decide) (by decide) (by decide) fun _ _ g => g.2) fun _ =>
        rg_setAttr fun _ _ g => ⟨g.2.1, g.1⟩) ⟨hp, ?_⟩
    exact (loose _ (by simp only [HCall.given, List.mem_singleton]; rfl) true).pos v (by simp)
  · exact onPart_region hc hq fun p o _ => option_region hc hq o
  · exact onPart_region hc hq fun p _ hp => attr hp
  · exact onList_region hc hq fun l hl => run hc (rg_tables hT ht) ⟨hl, loose _ (by simp [HCall.given]) _⟩
  · split
    · exact ⟨X, .refl hc⟩
    · exact onList_region hc hq fun l hl => run hc (rg_rows hT ht) ⟨hl, loose _ (by simp [HCall.given]) _⟩
  · exact onDuplicate_region hT ht hc hq cx _ (loose _ (by simp [HCall.given]) _)
      (loose _ (by simp [HCall.given]) _)
  · exact onList_region hc hq fun l hl => run hc (rg_tables hT ht) ⟨hl, loose _ (by simp [HCall.given]) _⟩
  · exact onList_region hc hq fun l hl => run hc (rg_values hT ht) ⟨hl, loose _ (by simp [HCall.given]) _⟩
  · exact attr hq
  · exact attr hq
  · exact onList_region hc hq fun l hl => run hc (rg_tables hT ht) ⟨hl, loose _ (by simp [HCall.given]) _⟩
  · exact onList_region hc hq fun l hl => run hc (rg_tables hT ht) ⟨hl, loose _ (by simp [HCall.given]) _⟩
  · exact onList_region hc hq fun l hl => tuple hl (loose _ (by simp [HCall.given]) _)
  · split
    · exact ⟨X, .refl hc⟩
    · rename_i l e
      exact run hc (rg_where hT ht _) ⟨own_in hc hq (own_list .self e).1, hg _ (by simp [HCall.given])⟩
  · exact attr hq
  · rename_i v _
    exact run (G := fun _ X => X q ∧ In X v) hc (rg_setAttr fun _ _ g => g) ⟨hq, hs v rfl⟩
  · exact run (G := fun _ X => X q) hc (rg_bind (rg_str hT ht (lasting_at q) _) fun _ =>
      rg_setAttr fun _ _ g => ⟨g, in_atom _⟩) hq
  · exact onList_region hc hq fun l hl => run hc (rg_where hT ht _) ⟨hl, hg _ (by simp [HCall.given])⟩
  · split
    · exact ⟨X, .refl hc⟩
    split
    · exact ⟨X, .refl hc⟩
    refine onPart_region hc hq fun p o _ => ?_
    unfold hTablesJoin
    split
    · exact ⟨X, .refl hc⟩
    split
    · exact ⟨X, .refl hc⟩
    split
    · exact ⟨X, .refl hc⟩
    rename_i ht' _ _ hjs
    exact run hc (rg_join hT ht _ _) ⟨own_in hc hq (own_joins (own_lastTable o ht') hjs).1,
      loose _ (by simp [HCall.given]) _⟩
  · split
    · exact ⟨X, .refl hc⟩
    refine onPart_region hc hq fun p o _ => ?_
    unfold hTablesOn
    split
    · exact ⟨X, .refl hc⟩
    split
    · exact ⟨X, .refl hc⟩
    rename_i l e
    exact run hc (rg_where hT ht _) ⟨own_in hc hq (own_lastOns o e), hg _ (by simp [HCall.given])⟩
  · split
    · exact ⟨X, .refl hc⟩
    · exact onPart_region hc hq fun p o _ => option_region hc hq o
  · exact run (G := fun _ _ => True) hc (rg_andThen (rg_quiet (hT.str _) (ht.str _)) fun _ =>
      rg_ret (Q := fun _ _ _ => True) fun _ _ _ => trivial) trivial
  · exact run (G := fun _ _ => True) hc (rg_andThen (rg_quiet (hT.eq _ _) (ht.eq _ _)) fun _ =>
      rg_ret (Q := fun _ _ _ => True) fun _ _ _ => trivial) trivial
  · exact ⟨X, .refl hc⟩

end

theorem look_eq {h h' : Heap} {X : Nat → Prop} (hX : ∀ a : Nat, X a → h'[a]? = h[a]?) (hc : Closed h X) :
    ∀ n v, In X v → look h' n v = look h n v := by
  intro n
  induction n with
  | zero => intro v _; cases v <;> rfl
  | succ n ih =>
    intro v hv
    cases v with
    | atom a => rfl
    | ref a =>
      have ha := in_ref.1 hv
      simp only [look, hX a ha]
      cases e : h[a]? with
      | none => rfl
      | some c =>
        simp only
        congr 1
        apply List.map_congr_left
        intro x hx
        exact ih x fun b hb => hc a c b ha e (hb ▸ hx)

theorem reach_in {h : Heap} {X : Nat → Prop} {q p : Nat} (hc : Closed h X) (hq : X q)
    (r : Reach h q p) : X p := by
  induction r with
  | self => exact hq
  | next _ hc' hb ih => exact hc _ _ _ ih hc' hb

theorem reach_cons {h : Heap} {a b p : Nat} {c : Cell} (hc : h[a]? = some c) (hb : Val.ref b ∈ c.fields)
    (r : Reach h b p) : Reach h a p := by
  induction r with
  | self => exact .next .self hc hb
  | next _ hc' hb' ih => exact .next ih hc' hb'

end SqlPuzzle.RegionFacts
