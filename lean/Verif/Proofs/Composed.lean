import Verif.Proofs.Accumulate
import Verif.Spec.Composed

/-!
What the columns and keys of a query are after any history of calls, whatever they are made of.
-/

namespace SqlPuzzle

open Spec

theorem KeptBy.map {α β : Type} {f : α → β} {same : β → β → Prop} {given kept : List α}
    (h : KeptBy (fun a b => same (f a) (f b)) given kept) : KeptBy same (given.map f) (kept.map f) := by
  induction h with
  | nil => exact .nil
  | old _ hk hs ih => rw [List.map_append]; exact .old ih (List.mem_map_of_mem hk) hs
  | new _ hn ih =>
    rw [List.map_append, List.map_append]
    refine .new ih fun k hk => ?_
    obtain ⟨a, ha, rfl⟩ := List.mem_map.mp hk
    exact hn a ha

theorem forUpd_none {σ α : Type} {f : σ → α → Upd σ} {s s' : σ} {x : α} {xs : List α}
    (h : forUpd f s (x :: xs) = (s', none)) : ∃ s1, f s x = (s1, none) ∧ forUpd f s1 xs = (s', none) := by
  unfold forUpd at h
  split at h
  · next s1 e => exact ⟨s1, e, h⟩
  · cases h

theorem withR_none {σ α : Type} {s s' : σ} {r : R α} {f : α → Upd σ} (h : withR s r f = (s', none)) :
    ∃ a, r = .ok a ∧ f a = (s', none) := by
  unfold withR at h
  split at h
  · cases h
  · exact ⟨_, rfl, h⟩

theorem appendUnique_kept {α : Type} {eq : α → α → R Bool} {given ps ps' : List α} {p : α}
    (h : KeptBy (fun a b => eq a b = .ok true) given ps) (e : appendUnique eq ps p = (ps', none)) :
    KeptBy (fun a b => eq a b = .ok true) (given ++ [p]) ps' := by
  unfold appendUnique at e
  split at e
  · cases e
  · next e1 =>
    cases e
    obtain ⟨k, hk, e2⟩ := anyR_true_mem e1
    exact .old h hk e2
  · next e1 =>
    cases e
    refine .new h fun k hk e2 => ?_
    rw [anyR_false.mp e1 k hk] at e2
    cases e2

/-- A column of a name and an alias. -/
def columnOf (p : Obj × Obj) : Column := ⟨p.1, p.2⟩

/-- Columns with equal names and aliases. -/
abbrev ColumnsAgree (cx : Ctx) (n : Nat) (a b : Column) : Prop := columnEq (sem cx n) a b = .ok true

/-- The columns of a call. -/
theorem columnsAdd_kept {cx : Ctx} {n : Nat} {a : Args} {ps : List (Obj × Obj)} (ha : GivesNames a ps)
    {given : List (Obj × Obj)} {cs cs' : List Column} (h : KeptBy (ColumnsAgree cx n) (given.map columnOf) cs)
    (e : columnsAdd (sem cx n) cs a = (cs', none)) :
    KeptBy (ColumnsAgree cx n) ((given ++ ps).map columnOf) cs' := by
  obtain ⟨h3, h4⟩ := givesNames_parse ha (sem cx n)
  unfold columnsAdd at e
  rw [h4, h3] at e
  simp only [Bool.false_eq_true, if_false] at e
  obtain ⟨_, ⟨⟩, e0⟩ := withR_none e
  clear h3 h4 ha e
  have e := e0
  clear e0
  induction ps generalizing given cs with
  | nil =>
    cases e
    rw [List.append_nil]
    exact h
  | cons p ps ih =>
    obtain ⟨cs1, e1, e2⟩ := forUpd_none e
    obtain ⟨c, e3, e4⟩ := withR_none e1
    have hc : c = columnOf p := by
      simp only [mkColumn, bind_ok] at e3
      obtain ⟨_, _, _, _, e3⟩ := e3
      cases e3
      rfl
    subst hc
    have := ih (given := given ++ [p]) (by
      rw [List.map_append]
      exact appendUnique_kept h e4) e2
    rwa [List.append_assoc] at this

/-- Orders as uses. -/
abbrev orderUse (o : Order) : Use := (o.col, o.desc)

/-- What `Orders.order` does for one entry. -/
theorem orderPut_keys {cx : Ctx} {n : Nat} {c s : Obj} {d : Bool} (hd : SortDirection cx s d) {os os' : List Order}
    (e : orderPut cx (sem cx n) os c s = .ok os') :
    (∃ front o back, os = front ++ o :: back ∧ (∀ x ∈ front, ¬ TakenEqual cx n x.col c) ∧ TakenEqual cx n o.col c ∧
      os' = front ++ ⟨o.col, d⟩ :: back) ∨
    ((∀ x ∈ os, ¬ TakenEqual cx n x.col c) ∧ os' = os ++ [⟨c, d⟩]) := by
  have hd := (orderSort_iff cx s d).mpr hd
  induction os generalizing os' with
  | nil =>
    simp only [orderPut, bind_ok] at e
    obtain ⟨o, e1, e2⟩ := e
    cases e2
    simp only [mkOrder, bind_ok, hd] at e1
    obtain ⟨_, _, _, ⟨⟩, e1⟩ := e1
    cases e1
    exact .inr ⟨by simp, rfl⟩
  | cons o os ih =>
    simp only [orderPut, bind_ok] at e
    obtain ⟨b, e1, e⟩ := e
    cases b with
    | true =>
      simp only [if_true, bind_ok, hd] at e
      obtain ⟨_, ⟨⟩, e⟩ := e
      cases e
      exact .inl ⟨[], o, os, rfl, by simp, e1, rfl⟩
    | false =>
      simp only [Bool.false_eq_true, if_false, bind_ok] at e
      obtain ⟨r, e2, e⟩ := e
      cases e
      have hne : ¬ TakenEqual cx n o.col c := by
        unfold TakenEqual
        rw [e1]
        simp
      rcases ih e2 with ⟨front, o', back, rfl, h1, h2, rfl⟩ | ⟨h1, rfl⟩
      · exact .inl ⟨o :: front, o', back, rfl, by simpa using ⟨hne, h1⟩, h2, rfl⟩
      · exact .inr ⟨by simpa using ⟨hne, h1⟩, rfl⟩

theorem ordersAdd_keys {cx : Ctx} {n : Nat} {a : Args} {us : List Use} (ha : GivesKeys cx a us) {given : List Use}
    {os os' : List Order} (h : KeysBy (TakenEqual cx n) given (os.map orderUse))
    (e : ordersAdd cx (sem cx n) os a = (os', none)) :
    KeysBy (TakenEqual cx n) (given ++ us) (os'.map orderUse) := by
  obtain ⟨ps, ha, hu⟩ := ha
  obtain ⟨h3, h4⟩ := givesNames_parse ha (sem cx n)
  unfold ordersAdd at e
  rw [h4, h3] at e
  simp only [Bool.false_eq_true, if_false] at e
  obtain ⟨_, ⟨⟩, e0⟩ := withR_none e
  clear h3 h4 ha e
  have e := e0
  clear e0
  induction hu generalizing given os with
  | nil =>
    cases e
    rw [List.append_nil]
    exact h
  | @cons p u ps us hp _ ih =>
    obtain ⟨os1, e1, e2⟩ := forUpd_none e
    obtain ⟨r, e3, e4⟩ := withR_none e1
    obtain ⟨rfl, _⟩ := Prod.mk.inj e4
    obtain ⟨c, d⟩ := u
    obtain ⟨hc, hd⟩ := hp
    have hc : c = p.1 := hc
    subst hc
    have e3 : orderPut cx (sem cx n) os p.1 p.2 = .ok r := e3
    have := ih (given := given ++ [(p.1, d)]) (os := r) ?_ e2
    · rwa [List.append_assoc] at this
    · rcases orderPut_keys hd e3 with ⟨front, o, back, rfl, h1, h2, rfl⟩ | ⟨h1, rfl⟩
      · simp only [List.map_append, List.map_cons] at h ⊢
        refine .old h ?_ h2
        intro u hu
        obtain ⟨x, hx, rfl⟩ := List.mem_map.mp hu
        exact h1 x hx
      · simp only [List.map_append, List.map_cons, List.map_nil] at h ⊢
        refine .new h ?_
        intro u hu
        obtain ⟨x, hx, rfl⟩ := List.mem_map.mp hu
        exact h1 x hx

/-- An invariant of a history none of whose calls raises, which grows with what the calls give. -/
theorem history_grows {σ ω α : Type} {step : σ → ω → Upd σ} {Gives : ω → List α → Prop} {P : List α → σ → Prop}
    (hs : ∀ s o cs g, Gives o cs → (step s o).2 = none → P g s → P (g ++ cs) (step s o).1) :
    ∀ {ops : List ω} {uses : List (List α)}, List.Forall₂ Gives ops uses → ∀ (s : σ) (g : List α),
      NoneRaise step s ops → P g s → P (g ++ uses.flatten) (runOps step s ops)
  | _, _, .nil, s, g, _, h => by simpa using h
  | _, _, .cons (a := o) (b := cs) (l₁ := ops) ho hr, s, g, hn, h => by
    have := history_grows hs hr (step s o).1 (g ++ cs) (fun b o' a e => hn (o :: b) o' a (by rw [e]; rfl))
      (hs s o cs g ho (hn [] o ops rfl) h)
    rwa [List.append_assoc] at this

private theorem str_same (cx : Ctx) (S : Sem) (q : Select) :
    (selectStr cx S q).1.columns = q.columns ∧ (selectStr cx S q).1.orderBy = q.orderBy ∧
    (selectStr cx S q).1.groupBy = q.groupBy := by
  unfold selectStr
  split
  · exact ⟨rfl, rfl, rfl⟩
  · exact ⟨rfl, rfl, rfl⟩

theorem columns_history {cx : Ctx} {n : Nat} {ops : List SelectOp} {cols : List (List (Obj × Obj))}
    (h : List.Forall₂ ColumnNames ops cols) (hn : NoneRaise (selectStep cx (sem cx n)) {} ops) :
    KeptBy (EqualColumns cx n) cols.flatten
      ((runOps (selectStep cx (sem cx n)) {} ops).columns.map fun c => (c.name, c.alias)) := by
  have := history_grows (step := selectStep cx (sem cx n)) (Gives := ColumnNames)
    (P := fun g q => KeptBy (ColumnsAgree cx n) (g.map columnOf) q.columns) (fun q op ps g hg hok hk => ?_) h {} [] hn .nil
  · rw [List.nil_append] at this
    have hm := KeptBy.map (f := fun c : Column => (c.name, c.alias)) (same := EqualColumns cx n)
      (given := cols.flatten.map columnOf) (kept := (runOps (selectStep cx (sem cx n)) {} ops).columns) (by
        have hsame : (fun a b : Column => EqualColumns cx n (a.name, a.alias) (b.name, b.alias)) = ColumnsAgree cx n := by
          funext a b
          exact propext andR_true.symm
        rw [hsame]
        exact this)
    rw [List.map_map] at hm
    rwa [show ((fun c : Column => (c.name, c.alias)) ∘ columnOf) = id from rfl, List.map_id] at hm
  · cases op with
    | columns a =>
      exact columnsAdd_kept hg hk (Prod.ext (y := (_, _)) rfl hok)
    | str =>
      rw [show ps = [] from hg, List.append_nil]
      show KeptBy _ _ (selectStr cx (sem cx n) q).1.columns
      rw [(str_same cx (sem cx n) q).1]
      exact hk
    | _ =>
      rw [show ps = [] from hg, List.append_nil]
      exact hk

theorem orders_history {cx : Ctx} {n : Nat} {ops : List SelectOp} {uses : List (List Use)}
    (h : List.Forall₂ (OrderGives cx) ops uses) (hn : NoneRaise (selectStep cx (sem cx n)) {} ops) :
    KeysBy (TakenEqual cx n) uses.flatten ((runOps (selectStep cx (sem cx n)) {} ops).orderBy.map orderUse) := by
  refine history_grows (step := selectStep cx (sem cx n)) (Gives := OrderGives cx)
    (P := fun g q => KeysBy (TakenEqual cx n) g (q.orderBy.map orderUse)) (fun q op ps g hg hok hk => ?_) h {} [] hn .nil
  cases op with
  | orderBy a => exact ordersAdd_keys hg hk (Prod.ext (y := (_, _)) rfl hok)
  | str =>
    rw [show ps = [] from hg, List.append_nil]
    show KeysBy _ _ ((selectStr cx (sem cx n) q).1.orderBy.map orderUse)
    rw [(str_same cx (sem cx n) q).2.1]
    exact hk
  | _ =>
    rw [show ps = [] from hg, List.append_nil]
    exact hk

theorem groups_history {cx : Ctx} {n : Nat} {ops : List SelectOp} {uses : List (List Use)}
    (h : List.Forall₂ (GroupGives cx) ops uses) (hn : NoneRaise (selectStep cx (sem cx n)) {} ops) :
    KeysBy (TakenEqual cx n) uses.flatten ((runOps (selectStep cx (sem cx n)) {} ops).groupBy.map orderUse) := by
  refine history_grows (step := selectStep cx (sem cx n)) (Gives := GroupGives cx)
    (P := fun g q => KeysBy (TakenEqual cx n) g (q.groupBy.map orderUse)) (fun q op ps g hg hok hk => ?_) h {} [] hn .nil
  cases op with
  | groupBy a => exact ordersAdd_keys hg hk (Prod.ext (y := (_, _)) rfl hok)
  | str =>
    rw [show ps = [] from hg, List.append_nil]
    show KeysBy _ _ ((selectStr cx (sem cx n) q).1.groupBy.map orderUse)
    rw [(str_same cx (sem cx n) q).2.2]
    exact hk
  | _ =>
    rw [show ps = [] from hg, List.append_nil]
    exact hk

end SqlPuzzle
