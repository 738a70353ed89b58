import Verif.Proofs.Entries
import Verif.Proofs.Accumulate
import Verif.Spec.Batches

/-!
Loops over entries, cut into pieces.
-/

namespace SqlPuzzle

open Spec

theorem oneByOne_forUpd {σ ω α : Type} {step : σ → ω → Upd σ} {f : σ → α → Upd σ} {os : List ω}
    {xss : List (List α)} (h : List.Forall₂ (fun o xs => ∀ s, step s o = forUpd f s xs) os xss)
    (s : σ) : OneByOne step s os (forUpd f s xss.flatten).1 (forUpd f s xss.flatten).2 := by
  have key : ∀ (xs ys : List α) (s : σ), forUpd f s (xs ++ ys) =
      match forUpd f s xs with
      | (s', none) => forUpd f s' ys
      | (s', some e) => (s', some e) := by
    intro xs
    induction xs with
    | nil => intro ys s; rfl
    | cons x xs ih =>
      intro ys s
      simp only [List.cons_append, forUpd]
      cases f s x with
      | mk s' r => cases r with
        | none => exact ih ys s'
        | some e => rfl
  induction h generalizing s with
  | nil => exact .done s
  | @cons o xs os xss h1 _ ih =>
    rw [List.flatten_cons, key]
    cases h2 : forUpd f s xs with
    | mk s' r =>
      rw [← h1] at h2
      cases r with
      | none => exact .next h2 (ih s')
      | some e => exact .raise os h2

/-- Calls that change one part of an object. -/
theorem oneByOne_part {σ τ ω α : Type} {step : σ → ω → Upd σ} {g : τ → α → Upd τ} {put : τ → σ}
    {mk : α → ω} (h : ∀ a r, step (put r) (mk a) = (g r a).map put) {as : List α} {r r' : τ}
    {e : Option Err} (hr : OneByOne g r as r' e) :
    OneByOne step (put r) (as.map mk) (put r') e := by
  induction hr with
  | done s => exact .done _
  | next h1 _ ih =>
    refine .next ?_ ih
    rw [h, h1]; rfl
  | raise os h1 =>
    refine .raise _ ?_
    rw [h, h1]; rfl

theorem oneByOne_unmap {σ ω α : Type} {step : σ → ω → Upd σ} {f : α → ω} {as : List α} {s s' : σ}
    {e : Option Err} (h : OneByOne step s (as.map f) s' e) :
    OneByOne (fun s a => step s (f a)) s as s' e := by
  induction as generalizing s with
  | nil => cases h; exact .done _
  | cons a as ih =>
    cases h with
    | next h1 h2 => exact .next h1 (ih h2)
    | raise _ h1 => exact .raise _ h1

theorem rows2_flatten (pss : List (List (Obj × Obj))) :
    rows2 pss.flatten = (pss.map rows2).flatten := by
  unfold rows2
  rw [List.map_flatten]

theorem pieces {σ : Type} {g : σ → Args → Upd σ} {f : σ → List Obj → Upd σ}
    {G : Args → List (Obj × Obj) → Prop} {a : Args} {bs : List Args}
    {pss : List (List (Obj × Obj))} (ha : G a pss.flatten) (hb : List.Forall₂ G bs pss)
    (hg : ∀ b ps, b ∈ a :: bs → G b ps → ∀ s, g s b = forUpd f s (rows2 ps)) (s : σ) :
    OneByOne g s bs (g s a).1 (g s a).2 := by
  rw [hg a _ (by simp) ha, rows2_flatten]
  refine oneByOne_forUpd ?_ s
  rw [List.forall₂_map_right_iff]
  have hm : ∀ b ∈ bs, b ∈ a :: bs := fun b h => List.mem_cons_of_mem _ h
  clear ha
  induction hb with
  | nil => exact .nil
  | @cons b ps bs pss h1 h2 ih =>
    refine .cons (fun s => hg _ _ (by simp) h1 s) (ih (fun c ps hc => hg c ps ?_) fun c hc => by simp [hc])
    rcases List.mem_cons.mp hc with rfl | hc
    · simp
    · simp [hc]

variable {cx : Ctx} {S : Sem}

theorem condsWhere_calls {on : Bool} {a : Args} {bs : List Args} (h : PairsInCalls a bs)
    (hq : ∀ b ∈ a :: bs, NotOnlyQ b) (ps : List Cond) :
    OneByOne (condsWhere cx S on) ps bs (condsWhere cx S on ps a).1
      (condsWhere cx S on ps a).2 := by
  obtain ⟨pss, h1, h2⟩ := h
  refine pieces (f := fun ps b => withR ps (mkCond on (pairOf b).1 (pairOf b).2) fun c =>
      appendUnique (condEq cx S) ps c) h1 h2 (fun b ps hb hg s => ?_) ps
  obtain ⟨h3, h4⟩ := givesPairs_parse hg S
  unfold condsWhere
  rw [h4, givesPairs_custom hg, notAll_of (hq b hb), h3]
  rfl

theorem valuesSet_calls {a : Args} {bs : List Args} (h : PairsInCalls a bs) (vs : List Value) :
    OneByOne (valuesSet cx S) vs bs (valuesSet cx S vs a).1 (valuesSet cx S vs a).2 := by
  obtain ⟨pss, h1, h2⟩ := h
  refine pieces (f := fun vs b => withR vs (mkValue (pairOf b).1 (pairOf b).2) fun v =>
        appendUnique (valueEq cx S) vs v) h1 h2 (fun b ps hb hg s => ?_) vs
  obtain ⟨h3, h4⟩ := givesPairs_parse hg S
  unfold valuesSet
  rw [h4, givesPairs_custom hg, h3]
  rfl

theorem columnsAdd_calls {a : Args} {bs : List Args} (h : NamesInCalls a bs) (cs : List Column) :
    OneByOne (columnsAdd S) cs bs (columnsAdd S cs a).1 (columnsAdd S cs a).2 := by
  obtain ⟨pss, h1, h2⟩ := h
  refine pieces (f := fun cs b => withR cs (mkColumn (pairOf b).1 (pairOf b).2) fun c =>
      appendUnique (columnEq S) cs c) h1 h2 (fun b ps hb hg s => ?_) cs
  obtain ⟨h3, h4⟩ := givesNames_parse hg S
  unfold columnsAdd
  rw [h4, h3]
  rfl

theorem ordersAdd_calls {a : Args} {bs : List Args} (h : NamesInCalls a bs) (os : List Order) :
    OneByOne (ordersAdd cx S) os bs (ordersAdd cx S os a).1 (ordersAdd cx S os a).2 := by
  obtain ⟨pss, h1, h2⟩ := h
  refine pieces (f := fun os b => withR os (orderPut cx S os (pairOf b).1 (pairOf b).2) fun r =>
      (r, none)) h1 h2 (fun b ps hb hg s => ?_) os
  obtain ⟨h3, h4⟩ := givesNames_parse hg S
  unfold ordersAdd
  rw [h4, h3]
  rfl

theorem tablesSet_gives {a : Args} {ps : List (Obj × Obj)} (hg : GivesNames a ps)
    (ht : AllTrue a) (ts : List Table) : tablesSet cx S ts a =
      forUpd (fun ts b => withR ts (mkTable (pairOf b).1 (pairOf b).2) fun t =>
      appendUnique (tableEq cx S) ts t) ts (rows2 ps) := by
  obtain ⟨h3, h4⟩ := givesNames_parse hg S
  unfold tablesSet
  rw [h4, List.filter_eq_self.mpr ht]
  simp only [Bool.false_eq_true, if_false]
  rw [h3]
  rfl

theorem tablesSet_calls {a : Args} {bs : List Args} (h : NamesInCalls a bs)
    (ht : ∀ b ∈ a :: bs, AllTrue b) (ts : List Table) :
    OneByOne (tablesSet cx S) ts bs (tablesSet cx S ts a).1 (tablesSet cx S ts a).2 := by
  obtain ⟨pss, h1, h2⟩ := h
  exact pieces h1 h2 (fun b ps hb hg s => tablesSet_gives hg (ht b hb) s) ts

theorem updateLast_snoc {α : Type} (f : α → Upd α) (xs : List α) (x : α) :
    updateLast f (xs ++ [x]) = some (xs ++ [(f x).1], (f x).2) := by
  induction xs with
  | nil => rfl
  | cons y ys ih =>
    cases ys with
    | nil => rfl
    | cons z zs =>
      simp only [List.cons_append] at ih ⊢
      rw [updateLast, ih]
      rfl

theorem tablesOn_calls {a : Args} {bs : List Args} (h : PairsInCalls a bs)
    (hq : ∀ b ∈ a :: bs, NotOnlyQ b) (hne : bs ≠ []) (ts : List Table) :
    OneByOne (tablesOn cx S) ts bs (tablesOn cx S ts a).1 (tablesOn cx S ts a).2 := by
  have self : ∀ b ∈ a :: bs, kwSelf b = false := by
    obtain ⟨pss, h1, h2⟩ := h
    intro b hb
    rcases List.mem_cons.mp hb with rfl | hb
    · exact (givesPairs_parse h1 S).2
    · obtain ⟨i, hi, rfl⟩ := List.mem_iff_getElem.mp hb
      exact (givesPairs_parse (h2.get hi (h2.length_eq ▸ hi)) S).2
  -- no table or no join: every call raises at once
  have stop : (∀ b ∈ a :: bs, tablesOn cx S ts b = (ts, some .invalidQuery)) →
      OneByOne (tablesOn cx S) ts bs (tablesOn cx S ts a).1 (tablesOn cx S ts a).2 := by
    intro hs
    rw [hs a (by simp)]
    cases bs with
    | nil => exact absurd rfl hne
    | cons b bs => exact .raise _ (hs b (by simp))
  rcases List.eq_nil_or_concat ts with rfl | ⟨ts0, t, rfl⟩
  · refine stop fun b hb => ?_
    unfold tablesOn
    rw [self b hb]
    rfl
  rw [List.concat_eq_append] at stop ⊢
  obtain ⟨n, al, js⟩ := t
  rcases List.eq_nil_or_concat js with rfl | ⟨js0, j, rfl⟩
  · refine stop fun b hb => ?_
    unfold tablesOn
    rw [self b hb, updateLast_snoc]
    rfl
  rw [List.concat_eq_append]
  clear stop
  have run : ∀ b o, kwSelf b = false →
      tablesOn cx S (ts0 ++ [⟨n, al, js0 ++ [{ j with ons := o }]⟩]) b =
      (condsWhere cx S true o b).map (fun o => ts0 ++ [⟨n, al, js0 ++ [{ j with ons := o }]⟩]) := by
    intro b o hb
    unfold tablesOn
    rw [hb, updateLast_snoc]
    unfold tableOn
    simp only [updateLast_snoc]
    rfl
  have main := condsWhere_calls (cx := cx) (S := S) (on := true) h hq j.ons
  have ha := run a j.ons (self a (by simp))
  rw [ha]
  have key : ∀ {ps r e} {cs : List Args}, (∀ c ∈ cs, c ∈ a :: bs) →
      OneByOne (condsWhere cx S true) ps cs r e →
      OneByOne (tablesOn cx S) (ts0 ++ [⟨n, al, js0 ++ [{ j with ons := ps }]⟩]) cs
        (ts0 ++ [⟨n, al, js0 ++ [{ j with ons := r }]⟩]) e := by
    intro ps r e cs hc hr
    induction hr with
    | done s => exact .done _
    | next h1 _ ih =>
      refine .next ?_ (ih fun c h => hc c (List.mem_cons_of_mem _ h))
      rw [run _ _ (self _ (hc _ (by simp))), h1]; rfl
    | raise os h1 =>
      refine .raise _ ?_
      rw [run _ _ (self _ (hc _ (by simp))), h1]; rfl
  exact key (fun c h => List.mem_cons_of_mem _ h) main

end SqlPuzzle
