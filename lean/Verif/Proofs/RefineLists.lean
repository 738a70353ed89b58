import Verif.Proofs.RefineArgs

/-! Lists of parts in memory change as the lists of the functional model. -/

namespace SqlPuzzle.Refine
open SqlPuzzle SqlPuzzle.Spec

/-- The result of a call that raises `e`, or of one that does not. -/
def res : Option Err → R Unit
  | none => .ok ()
  | some e => .error e

theorem run_ok {α β : Type} {x : HM α} {f : α → HM β} {h h' : Heap} {a : α} (e : x h = (h', .ok a)) :
    (x >>= f) h = f a h' := by
  show HM.andThen x f h = _
  unfold HM.andThen
  rw [e]

theorem run_error {α β : Type} {x : HM α} {f : α → HM β} {h h' : Heap} {er : Err} (e : x h = (h', .error er)) :
    (x >>= f) h = (h', .error er) := by
  show HM.andThen x f h = _
  unfold HM.andThen
  rw [e]

/-- Objects may have been created, and only those in `A` have been changed. -/
structure Step (A : Nat → Prop) (h h' : Heap) : Prop where
  grows : h.length ≤ h'.length
  same : ∀ (p : Nat) c, h[p]? = some c → ¬ A p → h'[p]? = some c

theorem Step.rfl {A h} : Step A h h := ⟨Nat.le_refl _, fun _ _ h _ => h⟩

theorem Step.trans {A h1 h2 h3} (a : Step A h1 h2) (b : Step A h2 h3) : Step A h1 h3 :=
  ⟨Nat.le_trans a.grows b.grows, fun p c h hA => b.same p c (a.same p c h hA) hA⟩

theorem Step.weaken {A B : Nat → Prop} {h h'} (a : Step A h h') (hAB : ∀ p, A p → B p) : Step B h h' :=
  ⟨a.grows, fun p c h hB => a.same p c h fun hA => hB (hAB p hA)⟩

theorem Step.append {A h} (ext : List Cell) : Step A h (h ++ ext) :=
  ⟨by simp, fun p c h _ => by
    obtain ⟨hl, _⟩ := List.getElem?_eq_some_iff.mp h
    rwa [List.getElem?_append_left hl]⟩

theorem Step.set {A : Nat → Prop} {h : Heap} {p : Nat} {c : Cell} (hA : A p) : Step A h (h.set p c) :=
  ⟨by simp, fun q d hq hn => by
    have hne : p ≠ q := fun e => hn (e ▸ hA)
    rw [List.getElem?_set_ne hne]
    exact hq⟩

/-- The memory `m` together with objects created since `h0`. -/
def plus (m : Mem) (h0 h : Heap) : Mem := fun p c => m p c ∨ (h0.length ≤ p ∧ h[p]? = some c)

theorem sub_plus {m h0 h} : Sub m (plus m h0 h) := fun _ _ h => .inl h

theorem plus_append {m h0 h} (ext : List Cell) : Sub (plus m h0 h) (plus m h0 (h ++ ext)) := by
  rintro p c (h | ⟨h1, h2⟩)
  · exact .inl h
  · refine .inr ⟨h1, ?_⟩
    obtain ⟨hl, _⟩ := List.getElem?_eq_some_iff.mp h2
    rwa [List.getElem?_append_left hl]

theorem plus_set {m h0 h} {l : Nat} (hl : l < h0.length) (c : Cell) :
    Sub (plus m h0 h) (plus m h0 (h.set l c)) := by
  rintro p d (h | ⟨h1, h2⟩)
  · exact .inl h
  · refine .inr ⟨h1, ?_⟩
    rw [List.getElem?_set_ne (by omega)]
    exact h2

theorem plus_cells {m h0 h} {A : Nat → Prop} (hm : Sub m (cells h0)) (hA : ∀ p c, m p c → ¬ A p)
    (s : Step A h0 h) : Sub (plus m h0 h) (cells h) := by
  rintro p c (hp | ⟨_, hp⟩)
  · exact s.same p c (hm p c hp) (hA p c hp)
  · exact hp

theorem is_mono {m m' : Mem} (h : Sub m m') {v x} (s : Is m v x) : Is m' v x := shows_mono h s
theorem are_mono {m m' : Mem} (h : Sub m m') {v x} (s : Are m v x) : Are m' v x := shows_mono h s

/-! ### A list of parts -/

/-- At `l` there is the list of the things `as`; since `h0` only it has changed. -/
structure ListAt {α : Type} (f : α → Thing) (m : Mem) (h0 : Heap) (l : Nat) (sep : Val) (h : Heap)
    (as : List α) : Prop where
  step : Step (· = l) h0 h
  list : ∃ xs, h[l]? = some ⟨.lib .listOfParts, sep :: xs⟩ ∧ Are (plus m h0 h) xs (as.map f)

section
variable {α : Type} {f : α → Thing} {m : Mem} {h0 : Heap} {l : Nat} {sep : Val}

theorem ListAt.append {h as} (s : ListAt f m h0 l sep h as) (ext : List Cell) :
    ListAt f m h0 l sep (h ++ ext) as := by
  obtain ⟨xs, hx, ha⟩ := s.list
  refine ⟨s.step.trans (.append ext), xs, ?_, are_mono (plus_append ext) ha⟩
  obtain ⟨hl, _⟩ := List.getElem?_eq_some_iff.mp hx
  rwa [List.getElem?_append_left hl]

variable (hl0 : l < h0.length)
include hl0

theorem push_sim {h : Heap} {as : List α} (s : ListAt f m h0 l sep h as) {v : Val} {a : α}
    (hv : Is (plus m h0 h) v (f a)) :
    ∃ h', hPush l v h = (h', .ok ()) ∧ ListAt f m h0 l sep h' (as ++ [a]) := by
  obtain ⟨xs, hx, ha⟩ := s.list
  have hl := Nat.lt_of_lt_of_le hl0 s.step.grows
  refine ⟨h.set l ⟨.lib .listOfParts, sep :: (xs ++ [v])⟩, ?_, s.step.trans (.set rfl), xs ++ [v], ?_, ?_⟩
  · unfold hPush HM.modify
    simp only [hx, List.cons_append]
  · rw [List.getElem?_set_self hl]
  · rw [List.map_append]
    exact are_append (are_mono (plus_set hl0 _) ha) (.cons (is_mono (plus_set hl0 _) hv) .nil)

variable {T : Runtime} (hm : Sub m (cells h0)) (hl : ∀ c, ¬ m l c)
include hm hl

omit hl0 in
theorem ListAt.cells {h : Heap} {as : List α} (s : ListAt f m h0 l sep h as) :
    Sub (plus m h0 h) (cells h) := plus_cells hm (fun _ c hp e => hl c (by simp only [← e]; exact hp)) s.step

omit hl0 hm hl in
theorem some_sim {h : Heap} {eq : α → α → R Bool}
    (he : ∀ a b x y, Is (Spec.cells h) a (f x) → Is (Spec.cells h) b (f y) → T.eq a b h = (h, eq x y))
    {v : Val} {a : α} (hv : Is (Spec.cells h) v (f a)) {xs : List Val} {as : List α}
    (hx : Are (Spec.cells h) xs (as.map f)) :
    HM.some? (fun x => T.eq x v) xs h = (h, anyR (fun x => eq x a) as) := by
  rw [are_map] at hx
  induction hx with
  | nil => rfl
  | @cons x b xs bs h1 _ ih =>
    unfold HM.some? anyR HM.andThen
    rw [he _ _ _ _ h1 hv]
    cases eq b a with
    | error e => rfl
    | ok r =>
      cases r
      · show HM.some? _ xs h = _
        rw [ih]
        show _ = (h, orR (.ok false) _)
        unfold orR
        rfl
      · rfl

theorem appendUnique_sim {eq : α → α → R Bool}
    (he : ∀ h a b x y, Is (Spec.cells h) a (f x) → Is (Spec.cells h) b (f y) → T.eq a b h = (h, eq x y))
    {h : Heap} {as : List α} (s : ListAt f m h0 l sep h as) {v : Val} {a : α}
    (hv : Is (plus m h0 h) v (f a)) :
    ∃ h', hAppendUnique T l v h = (h', res (appendUnique eq as a).2) ∧
      ListAt f m h0 l sep h' (appendUnique eq as a).1 := by
  obtain ⟨xs, hx, ha⟩ := s.list
  have hc := s.cells hm hl
  have h1 : hItems l h = (h, .ok xs) := by
    simp only [hItems, HM.reads, cellAt, hx]
    rfl
  unfold hAppendUnique
  rw [run_ok h1]
  have h2 := some_sim (he h) (is_mono hc hv) (are_mono hc ha)
  unfold appendUnique
  revert h2
  cases anyR (fun q => eq q a) as with
  | error e => intro h2; rw [run_error h2]; exact ⟨h, rfl, s⟩
  | ok b =>
    intro h2
    rw [run_ok h2]
    cases b with
    | true => exact ⟨h, rfl, s⟩
    | false => exact push_sim hl0 s hv

end

/-! ### Loops -/

theorem each_sim {σ α β : Type} {Inv : Heap → σ → Prop} {r : α → β → Prop} {f : α → HM Unit}
    {g : σ → β → Upd σ}
    (hf : ∀ a b, r a b → ∀ h s, Inv h s → ∃ h', f a h = (h', res (g s b).2) ∧ Inv h' (g s b).1)
    {xs : List α} {ys : List β} (h2 : List.Forall₂ r xs ys) : ∀ h s, Inv h s →
    ∃ h', HM.each f xs h = (h', res (forUpd g s ys).2) ∧ Inv h' (forUpd g s ys).1 := by
  induction h2 with
  | nil => exact fun h s hi => ⟨h, rfl, hi⟩
  | @cons a b xs ys hab _ ih =>
    intro h s hi
    obtain ⟨h1, e1, i1⟩ := hf a b hab h s hi
    unfold HM.each forUpd HM.andThen
    rw [e1]
    revert e1 i1
    generalize g s b = u
    obtain ⟨s1, o⟩ := u
    intro _ i1
    cases o with
    | some e => exact ⟨h1, rfl, i1⟩
    | none => exact ih h1 s1 i1

end SqlPuzzle.Refine
