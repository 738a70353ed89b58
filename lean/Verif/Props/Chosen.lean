import Verif.Props.NestedAnswers
import Verif.Proofs.Accumulate
import Verif.Spec.Chosen

/-!
C76: the rows chosen are those in which every condition given holds, whatever the conditions are made of.
-/

namespace SqlPuzzle

open Spec

private def cx0 : Ctx := ⟨.sql, ⟨id, id, fun _ => true, fun _ => [], fun _ => []⟩⟩

/-! ### One call -/

private theorem forall₂_right {α β : Type} {r : α → β → Prop} {as : List α} {bs : List β} (h : List.Forall₂ r as bs)
    {b : β} (hb : b ∈ bs) : ∃ a ∈ as, r a b := by
  induction h with
  | nil => cases hb
  | cons h _ ih =>
    rcases List.mem_cons.mp hb with rfl | hb
    · exact ⟨_, by simp, h⟩
    · obtain ⟨a, ha, hr⟩ := ih hb
      exact ⟨a, List.mem_cons_of_mem _ ha, hr⟩

private theorem gives_custom {a : Args} {cs : List Cond} (h : GivesConditions a cs) :
    kwSelf a = false ∧ ((∃ o, customArg a = some o ∧ cs = [.item o]) ∨ (customArg a = none ∧
      (((!a.pos.isEmpty && a.pos.all Obj.isConds) = true ∧ cs = a.pos.map .item) ∨
       ((!a.pos.isEmpty && a.pos.all Obj.isConds) = false ∧
        ∃ ps, GivesPairs a ps ∧ cs = ps.map fun p => condOf p.1 p.2)))) := by
  cases h with
  | @object o ho => exact ⟨rfl, .inl ⟨o, by simp [customArg, ho], rfl⟩⟩
  | @objects o o' os h =>
    refine ⟨rfl, .inr ⟨rfl, .inl ⟨?_, rfl⟩⟩⟩
    rw [Bool.and_eq_true]
    exact ⟨rfl, List.all_eq_true.mpr fun x hx => isConds_iff.mpr (h x hx)⟩
  | pairs hg hq hk =>
    rename_i ps
    exact ⟨(givesPairs_parse hg (sem cx0 0)).2, .inr ⟨givesPairs_custom hg, .inr ⟨notAll_of hq, ps, hg, rfl⟩⟩⟩

private theorem call_from {cx : Ctx} {S : Sem} {a : Args} {cs : List Cond} (h : GivesConditions a cs)
    (ps : List Cond) : ∀ c ∈ (condsWhere cx S false ps a).1, c ∈ ps ∨ c ∈ cs := by
  obtain ⟨h1, ⟨o, h2, rfl⟩ | ⟨h2, ⟨h3, rfl⟩ | ⟨h3, qs, hg, rfl⟩⟩⟩ := gives_custom h
  · unfold condsWhere
    rw [h1, h2]
    intro c hc
    exact List.mem_append.mp hc
  · unfold condsWhere
    rw [h1, h2, h3]
    intro c hc
    obtain ⟨new, bs, e1, e2, e3⟩ := addAll_extends (eq := condEq cx S) (mk := fun o => .ok (.item o : Cond)) (ps := ps)
      (bs := a.pos) (Prod.ext rfl rfl)
    have hc : c ∈ ps ++ new := by rw [← e1]; exact hc
    refine (List.mem_append.mp hc).imp_right fun hc => ?_
    obtain ⟨b, hb, hbc⟩ := forall₂_right e3 hc
    injection hbc with hbc
    exact List.mem_map.mpr ⟨b, e2.subset hb, hbc⟩
  · unfold condsWhere
    rw [h1, h2, h3, (givesPairs_parse hg S).1]
    intro c hc
    obtain ⟨new, bs, e1, e2, e3⟩ := addAll_extends (eq := condEq cx S)
      (mk := fun b => mkCond false (pairOf b).1 (pairOf b).2) (ps := ps)
      (bs := qs.map fun p => [p.1, p.2]) (Prod.ext rfl rfl)
    have hc : c ∈ ps ++ new := by rw [← e1]; exact hc
    refine (List.mem_append.mp hc).imp_right fun hc => ?_
    obtain ⟨b, hb, hbc⟩ := forall₂_right e3 hc
    obtain ⟨p, hp, rfl⟩ := List.mem_map.mp (e2.subset hb)
    exact List.mem_map.mpr ⟨p, hp, (mkCond_condOf hbc).symm⟩

private theorem call_all {cx : Ctx} {n : Nat} {a : Args} {cs : List Cond} (h : GivesConditions a cs)
    {ps : List Cond} (hok : (condsWhere cx (sem cx n) false ps a).2 = none) :
    ∀ c ∈ cs, ∃ c' ∈ (condsWhere cx (sem cx n) false ps a).1, c' = c ∨
      (sem cx (n + 1)).eq (.conds [c']) (.conds [c]) = .ok true := by
  intro c hc
  obtain ⟨h1, ⟨o, h2, rfl⟩ | ⟨h2, ⟨h3, rfl⟩ | ⟨h3, qs, hg, rfl⟩⟩⟩ := gives_custom h
  · unfold condsWhere
    rw [h1, h2]
    exact ⟨c, List.mem_append_right _ hc, .inl rfl⟩
  · have e : condsWhere cx (sem cx n) false ps a =
        addAll (condEq cx (sem cx n)) (fun o => .ok (.item o : Cond)) ps a.pos := by
      unfold condsWhere
      rw [h1, h2, h3]
      rfl
    obtain ⟨o, ho, rfl⟩ := List.mem_map.mp hc
    obtain ⟨c, hc, c', hc', hr⟩ := addAll_represented (Prod.ext rfl (e ▸ hok)) o ho
    injection hc with hc
    subst hc
    exact ⟨c', by rw [e]; exact hc', by rwa [eq_single]⟩
  · obtain ⟨p, hp, rfl⟩ := List.mem_map.mp hc
    exact condsWhere_represented cx n hg h3 (Prod.ext rfl hok) hp

/-! ### Histories -/

section
variable {σ ω : Type} {step : σ → ω → Upd σ} {f : σ → List Cond} {Gives : ω → List Cond → Prop}

theorem history_from (hs : ∀ s o cs, Gives o cs → ∀ c ∈ f (step s o).1, c ∈ f s ∨ c ∈ cs) :
    ∀ {ops : List ω} {uses : List (List Cond)}, List.Forall₂ Gives ops uses → ∀ s,
      ∀ c ∈ f (runOps step s ops), c ∈ f s ∨ c ∈ uses.flatten
  | _, _, .nil, s, c, hc => .inl hc
  | _, _, .cons (a := o) (b := cs) h hr, s, c, hc => by
    rcases history_from hs hr (step s o).1 c hc with h1 | h1
    · exact (hs s o cs h c h1).imp_right fun h2 => by simp [h2]
    · exact .inr (by simp only [List.flatten_cons, List.mem_append]; exact .inr h1)

theorem history_all {Same : Cond → Cond → Prop} (hk : ∀ s o, f s <+: f (step s o).1)
    (ha : ∀ s o cs, Gives o cs → (step s o).2 = none → ∀ c ∈ cs, ∃ c' ∈ f (step s o).1, c' = c ∨ Same c' c) :
    ∀ {ops : List ω} {uses : List (List Cond)}, List.Forall₂ Gives ops uses → ∀ s, NoneRaise step s ops →
      ∀ c ∈ uses.flatten, ∃ c' ∈ f (runOps step s ops), c' = c ∨ Same c' c
  | _, _, .nil, _, _, _, hc => by cases hc
  | _, _, .cons (a := o) (b := cs) (l₁ := ops) h hr, s, hn, c, hc => by
    simp only [List.flatten_cons, List.mem_append] at hc
    rcases hc with hc | hc
    · obtain ⟨c', h1, h2⟩ := ha s o cs h (hn [] o ops rfl) c hc
      exact ⟨c', (runOps_prefix hk (step s o).1 ops).subset h1, h2⟩
    · refine history_all hk ha hr (step s o).1 (fun b o' a e => ?_) c hc
      exact hn (o :: b) o' a (by rw [e]; rfl)

end

private theorem where_from (cx : Ctx) (n : Nat) (q : Select) (op : SelectOp) (cs : List Cond) (h : WhereGives op cs) :
    ∀ c ∈ (selectStep cx (sem cx n) q op).1.where_, c ∈ q.where_ ∨ c ∈ cs := by
  intro c hc
  cases op with
  | where_ a => exact call_from h q.where_ c hc
  | str =>
    have e : (selectStr cx (sem cx n) q).1.where_ = q.where_ := by
      unfold selectStr
      split <;> rfl
    exact .inl (e ▸ hc)
  | _ => exact .inl hc

private theorem where_all (cx : Ctx) (n : Nat) (q : Select) (op : SelectOp) (cs : List Cond) (h : WhereGives op cs)
    (hok : (selectStep cx (sem cx n) q op).2 = none) :
    ∀ c ∈ cs, ∃ c' ∈ (selectStep cx (sem cx n) q op).1.where_, c' = c ∨
      (sem cx (n + 1)).eq (.conds [c']) (.conds [c]) = .ok true := by
  intro c hc
  cases op with
  | where_ a => exact call_all h (ps := q.where_) hok c hc
  | _ => rw [show cs = [] from h] at hc; cases hc

theorem having_from (cx : Ctx) (n : Nat) (q : Select) (op : SelectOp) (cs : List Cond) (h : HavingGives op cs) :
    ∀ c ∈ (selectStep cx (sem cx n) q op).1.having, c ∈ q.having ∨ c ∈ cs := by
  intro c hc
  cases op with
  | having a => exact call_from h q.having c hc
  | str =>
    have e : (selectStr cx (sem cx n) q).1.having = q.having := by
      unfold selectStr
      split <;> rfl
    exact .inl (e ▸ hc)
  | _ => exact .inl hc

theorem having_all (cx : Ctx) (n : Nat) (q : Select) (op : SelectOp) (cs : List Cond) (h : HavingGives op cs)
    (hok : (selectStep cx (sem cx n) q op).2 = none) :
    ∀ c ∈ cs, ∃ c' ∈ (selectStep cx (sem cx n) q op).1.having, c' = c ∨
      (sem cx (n + 1)).eq (.conds [c']) (.conds [c]) = .ok true := by
  intro c hc
  cases op with
  | having a => exact call_all h (ps := q.having) hok c hc
  | _ => rw [show cs = [] from h] at hc; cases hc

private theorem update_from (cx : Ctx) (n : Nat) (q : Update) (op : UpdateOp) (cs : List Cond) (h : UpdateGives op cs) :
    ∀ c ∈ (updateStep cx (sem cx n) q op).1.where_, c ∈ q.where_ ∨ c ∈ cs := by
  intro c hc
  cases op with
  | where_ a => exact call_from h q.where_ c hc
  | str =>
    have e : (updateStr cx (sem cx n) q).1.where_ = q.where_ := by
      unfold updateStr
      split <;> rfl
    exact .inl (e ▸ hc)
  | _ => exact .inl hc

private theorem update_all (cx : Ctx) (n : Nat) (q : Update) (op : UpdateOp) (cs : List Cond) (h : UpdateGives op cs)
    (hok : (updateStep cx (sem cx n) q op).2 = none) :
    ∀ c ∈ cs, ∃ c' ∈ (updateStep cx (sem cx n) q op).1.where_, c' = c ∨
      (sem cx (n + 1)).eq (.conds [c']) (.conds [c]) = .ok true := by
  intro c hc
  cases op with
  | where_ a => exact call_all h (ps := q.where_) hok c hc
  | _ => rw [show cs = [] from h] at hc; cases hc

private theorem delete_from (cx : Ctx) (n : Nat) (q : Delete) (op : DeleteOp) (cs : List Cond) (h : DeleteGives op cs) :
    ∀ c ∈ (deleteStep cx (sem cx n) q op).1.where_, c ∈ q.where_ ∨ c ∈ cs := by
  intro c hc
  cases op with
  | where_ a => exact call_from h q.where_ c hc
  | str =>
    have e : (deleteStr cx (sem cx n) q).1.where_ = q.where_ := by
      unfold deleteStr
      split
      · rfl
      · simp only; split <;> rfl
    exact .inl (e ▸ hc)
  | _ => exact .inl hc

private theorem delete_all (cx : Ctx) (n : Nat) (q : Delete) (op : DeleteOp) (cs : List Cond) (h : DeleteGives op cs)
    (hok : (deleteStep cx (sem cx n) q op).2 = none) :
    ∀ c ∈ cs, ∃ c' ∈ (deleteStep cx (sem cx n) q op).1.where_, c' = c ∨
      (sem cx (n + 1)).eq (.conds [c']) (.conds [c]) = .ok true := by
  intro c hc
  cases op with
  | where_ a => exact call_all h (ps := q.where_) hok c hc
  | _ => rw [show cs = [] from h] at hc; cases hc

section
variable {cx : Ctx} {d : Dialect} {V : Type} {sv : Server V} {holds : Tuple V → Obj → Tri}

private theorem all_iff {n : Nat} {kept given : List Cond} (h1 : ∀ c ∈ kept, c ∈ given)
    (h2 : ∀ c ∈ given, ∃ c' ∈ kept, c' = c ∨ (sem cx (n + 1)).eq (.conds [c']) (.conds [c]) = .ok true)
    (hs : EqualsAgree cx n holds given) (row : Tuple V) : allHold holds kept row = allHold holds given row := by
  unfold allHold
  congr 1
  refine propext ⟨fun h c hc => ?_, fun h c hc => h c (h1 c hc)⟩
  obtain ⟨c', hc', rfl | he⟩ := h2 c hc
  · exact h c' hc'
  · rw [← hs c' (h1 c' hc') c hc he row]
    exact h c' hc'

/-- C76. For every history of calls on a SELECT none of which raises: the server chooses exactly the rows in which all
conditions given to `where` hold, whatever they are made of. -/
theorem C76_select (hf : Fits cx d) (hh : ConditionsSeen cx d sv holds) {n m : Nat} {ops : List SelectOp}
    {uses : List (List Cond)} (hg : List.Forall₂ WhereGives ops uses)
    (hn : NoneRaise (selectStep cx (sem cx n)) {} ops) (hs : EqualsAgree cx n holds uses.flatten) {t : Str}
    (h : NoRaw cx.backend.quote .stmt (.select (runOps (selectStep cx (sem cx n)) {} ops)))
    (e : (sem cx m).str (.select (runOps (selectStep cx (sem cx n)) {} ops)) = .ok t) (row : Tuple V) :
    chooses sv selectClauses (lex d t) row = allHold holds uses.flatten row := by
  rw [C74_where_select hf hh h e]
  refine all_iff (n := n) (fun c hc => ?_) ?_ hs row
  · exact (history_from (f := SelectS.where_) (where_from cx n) hg {} c hc).resolve_left (by simp)
  · exact history_all (f := SelectS.where_) (fun q o => (select_keeps cx _ q [o]).1) (where_all cx n) hg {} hn

/-- C76. Also when calls raise: a row in which all conditions given to `where` hold, those of failing calls included,
is chosen; nothing else is asked of it. -/
theorem C76_select_failing (hf : Fits cx d) (hh : ConditionsSeen cx d sv holds) {n m : Nat} {ops : List SelectOp}
    {uses : List (List Cond)} (hg : List.Forall₂ WhereGives ops uses) {t : Str}
    (h : NoRaw cx.backend.quote .stmt (.select (runOps (selectStep cx (sem cx n)) {} ops)))
    (e : (sem cx m).str (.select (runOps (selectStep cx (sem cx n)) {} ops)) = .ok t) (row : Tuple V)
    (hr : ∀ c ∈ uses.flatten, holds row (.conds [c]) = .t) : chooses sv selectClauses (lex d t) row = true := by
  rw [C74_where_select hf hh h e]
  refine decide_eq_true fun c hc => hr c ?_
  exact (history_from (f := SelectS.where_) (where_from cx n) hg {} c hc).resolve_left (by simp)

/-- C76. And each condition of a call of `where` that does not raise is asked of every row, whatever the
other calls are and
whether they raise. -/
theorem C76_select_each (hf : Fits cx d) (hh : ConditionsSeen cx d sv holds) {n m : Nat} {before after : List SelectOp}
    {op : SelectOp} {cs : List Cond} {q : Select} (hg : WhereGives op cs)
    (hn : (selectStep cx (sem cx n) (runOps (selectStep cx (sem cx n)) q before) op).2 = none) {t : Str}
    (h : NoRaw cx.backend.quote .stmt (.select (runOps (selectStep cx (sem cx n)) q (before ++ op :: after))))
    (e : (sem cx m).str (.select (runOps (selectStep cx (sem cx n)) q (before ++ op :: after))) = .ok t)
    (row : Tuple V) (hr : chooses sv selectClauses (lex d t) row = true) {c : Cond} (hc : c ∈ cs) :
    ∃ c', (c' = c ∨ (sem cx (n + 1)).eq (.conds [c']) (.conds [c]) = .ok true) ∧ holds row (.conds [c']) = .t := by
  rw [C74_where_select hf hh h e] at hr
  obtain ⟨c', h1, h2⟩ := where_all cx n _ op cs hg hn c hc
  refine ⟨c', h2, of_decide_eq_true hr c' ?_⟩
  rw [runOps_append, runOps_cons]
  exact (runOps_prefix (f := SelectS.where_) (fun q o => (select_keeps cx _ q [o]).1) _ after).subset h1

/-- C76. For every history of calls on a SELECT none of which raises: the server keeps exactly the groups in which all
conditions given to `having` hold, whatever they are made of. -/
theorem C76_having (hf : Fits cx d) (hh : ConditionsSeen cx d sv holds) {n m : Nat} {ops : List SelectOp}
    {uses : List (List Cond)} (hg : List.Forall₂ HavingGives ops uses)
    (hn : NoneRaise (selectStep cx (sem cx n)) {} ops) (hs : EqualsAgree cx n holds uses.flatten) {t : Str}
    (h : NoRaw cx.backend.quote .stmt (.select (runOps (selectStep cx (sem cx n)) {} ops)))
    (e : (sem cx m).str (.select (runOps (selectStep cx (sem cx n)) {} ops)) = .ok t) (row : Tuple V) :
    keepsGroup sv (lex d t) row = allHold holds uses.flatten row := by
  rw [C74_having hf hh h e]
  refine all_iff (n := n) (fun c hc => ?_) ?_ hs row
  · exact (history_from (f := SelectS.having) (having_from cx n) hg {} c hc).resolve_left (by simp)
  · exact history_all (f := SelectS.having) (fun q o => (select_keeps cx _ q [o]).2) (having_all cx n) hg {} hn

/-- C76. Also when calls raise: a group in which all conditions given to `having` hold, those of failing calls included,
is kept; nothing else is asked of it. -/
theorem C76_having_failing (hf : Fits cx d) (hh : ConditionsSeen cx d sv holds) {n m : Nat} {ops : List SelectOp}
    {uses : List (List Cond)} (hg : List.Forall₂ HavingGives ops uses) {t : Str}
    (h : NoRaw cx.backend.quote .stmt (.select (runOps (selectStep cx (sem cx n)) {} ops)))
    (e : (sem cx m).str (.select (runOps (selectStep cx (sem cx n)) {} ops)) = .ok t) (row : Tuple V)
    (hr : ∀ c ∈ uses.flatten, holds row (.conds [c]) = .t) : keepsGroup sv (lex d t) row = true := by
  rw [C74_having hf hh h e]
  refine decide_eq_true fun c hc => hr c ?_
  exact (history_from (f := SelectS.having) (having_from cx n) hg {} c hc).resolve_left (by simp)

/-- C76. And each condition of a call of `having` that does not raise is asked of every group, whatever the
other calls are and
whether they raise. -/
theorem C76_having_each (hf : Fits cx d) (hh : ConditionsSeen cx d sv holds) {n m : Nat} {before after : List SelectOp}
    {op : SelectOp} {cs : List Cond} {q : Select} (hg : HavingGives op cs)
    (hn : (selectStep cx (sem cx n) (runOps (selectStep cx (sem cx n)) q before) op).2 = none) {t : Str}
    (h : NoRaw cx.backend.quote .stmt (.select (runOps (selectStep cx (sem cx n)) q (before ++ op :: after))))
    (e : (sem cx m).str (.select (runOps (selectStep cx (sem cx n)) q (before ++ op :: after))) = .ok t)
    (row : Tuple V) (hr : keepsGroup sv (lex d t) row = true) {c : Cond} (hc : c ∈ cs) :
    ∃ c', (c' = c ∨ (sem cx (n + 1)).eq (.conds [c']) (.conds [c]) = .ok true) ∧ holds row (.conds [c']) = .t := by
  rw [C74_having hf hh h e] at hr
  obtain ⟨c', h1, h2⟩ := having_all cx n _ op cs hg hn c hc
  refine ⟨c', h2, of_decide_eq_true hr c' ?_⟩
  rw [runOps_append, runOps_cons]
  exact (runOps_prefix (f := SelectS.having) (fun q o => (select_keeps cx _ q [o]).2) _ after).subset h1

/-- C76. For every history of calls on a UPDATE none of which raises: the server chooses exactly the rows in which all
conditions given to `where` hold, whatever they are made of. -/
theorem C76_update (hf : Fits cx d) (hh : ConditionsSeen cx d sv holds) {n m : Nat} {ops : List UpdateOp}
    {uses : List (List Cond)} (hg : List.Forall₂ UpdateGives ops uses)
    (hn : NoneRaise (updateStep cx (sem cx n)) {} ops) (hs : EqualsAgree cx n holds uses.flatten) {t : Str}
    (h : NoRaw cx.backend.quote .stmt (.update (runOps (updateStep cx (sem cx n)) {} ops)))
    (e : (sem cx m).str (.update (runOps (updateStep cx (sem cx n)) {} ops)) = .ok t) (row : Tuple V) :
    chooses sv updateClauses (lex d t) row = allHold holds uses.flatten row := by
  rw [C74_where_update hf hh h e]
  refine all_iff (n := n) (fun c hc => ?_) ?_ hs row
  · exact (history_from (f := UpdateS.where_) (update_from cx n) hg {} c hc).resolve_left (by simp)
  · exact history_all (f := UpdateS.where_) (fun q o => C20_update_keeps cx _ q [o]) (update_all cx n) hg {} hn

/-- C76. Also when calls raise: a row in which all conditions given to `where` hold, those of failing calls included,
is chosen; nothing else is asked of it. -/
theorem C76_update_failing (hf : Fits cx d) (hh : ConditionsSeen cx d sv holds) {n m : Nat} {ops : List UpdateOp}
    {uses : List (List Cond)} (hg : List.Forall₂ UpdateGives ops uses) {t : Str}
    (h : NoRaw cx.backend.quote .stmt (.update (runOps (updateStep cx (sem cx n)) {} ops)))
    (e : (sem cx m).str (.update (runOps (updateStep cx (sem cx n)) {} ops)) = .ok t) (row : Tuple V)
    (hr : ∀ c ∈ uses.flatten, holds row (.conds [c]) = .t) : chooses sv updateClauses (lex d t) row = true := by
  rw [C74_where_update hf hh h e]
  refine decide_eq_true fun c hc => hr c ?_
  exact (history_from (f := UpdateS.where_) (update_from cx n) hg {} c hc).resolve_left (by simp)

/-- C76. And each condition of a call of `where` that does not raise is asked of every row, whatever the
other calls are and
whether they raise. -/
theorem C76_update_each (hf : Fits cx d) (hh : ConditionsSeen cx d sv holds) {n m : Nat} {before after : List UpdateOp}
    {op : UpdateOp} {cs : List Cond} {q : Update} (hg : UpdateGives op cs)
    (hn : (updateStep cx (sem cx n) (runOps (updateStep cx (sem cx n)) q before) op).2 = none) {t : Str}
    (h : NoRaw cx.backend.quote .stmt (.update (runOps (updateStep cx (sem cx n)) q (before ++ op :: after))))
    (e : (sem cx m).str (.update (runOps (updateStep cx (sem cx n)) q (before ++ op :: after))) = .ok t)
    (row : Tuple V) (hr : chooses sv updateClauses (lex d t) row = true) {c : Cond} (hc : c ∈ cs) :
    ∃ c', (c' = c ∨ (sem cx (n + 1)).eq (.conds [c']) (.conds [c]) = .ok true) ∧ holds row (.conds [c']) = .t := by
  rw [C74_where_update hf hh h e] at hr
  obtain ⟨c', h1, h2⟩ := update_all cx n _ op cs hg hn c hc
  refine ⟨c', h2, of_decide_eq_true hr c' ?_⟩
  rw [runOps_append, runOps_cons]
  exact (runOps_prefix (f := UpdateS.where_) (fun q o => C20_update_keeps cx _ q [o]) _ after).subset h1

/-- C76. For every history of calls on a DELETE none of which raises: the server chooses exactly the rows in which all
conditions given to `where` hold, whatever they are made of. -/
theorem C76_delete (hf : Fits cx d) (hh : ConditionsSeen cx d sv holds) {n m : Nat} {ops : List DeleteOp}
    {uses : List (List Cond)} (hg : List.Forall₂ DeleteGives ops uses)
    (hn : NoneRaise (deleteStep cx (sem cx n)) {} ops) (hs : EqualsAgree cx n holds uses.flatten) {t : Str}
    (h : NoRaw cx.backend.quote .stmt (.delete (runOps (deleteStep cx (sem cx n)) {} ops)))
    (e : (sem cx m).str (.delete (runOps (deleteStep cx (sem cx n)) {} ops)) = .ok t) (row : Tuple V) :
    chooses sv deleteClauses (lex d t) row = allHold holds uses.flatten row := by
  rw [C74_where_delete hf hh h e]
  refine all_iff (n := n) (fun c hc => ?_) ?_ hs row
  · exact (history_from (f := DeleteS.where_) (delete_from cx n) hg {} c hc).resolve_left (by simp)
  · exact history_all (f := DeleteS.where_) (fun q o => C20_delete_keeps cx _ q [o]) (delete_all cx n) hg {} hn

/-- C76. Also when calls raise: a row in which all conditions given to `where` hold, those of failing calls included,
is chosen; nothing else is asked of it. -/
theorem C76_delete_failing (hf : Fits cx d) (hh : ConditionsSeen cx d sv holds) {n m : Nat} {ops : List DeleteOp}
    {uses : List (List Cond)} (hg : List.Forall₂ DeleteGives ops uses) {t : Str}
    (h : NoRaw cx.backend.quote .stmt (.delete (runOps (deleteStep cx (sem cx n)) {} ops)))
    (e : (sem cx m).str (.delete (runOps (deleteStep cx (sem cx n)) {} ops)) = .ok t) (row : Tuple V)
    (hr : ∀ c ∈ uses.flatten, holds row (.conds [c]) = .t) : chooses sv deleteClauses (lex d t) row = true := by
  rw [C74_where_delete hf hh h e]
  refine decide_eq_true fun c hc => hr c ?_
  exact (history_from (f := DeleteS.where_) (delete_from cx n) hg {} c hc).resolve_left (by simp)

/-- C76. And each condition of a call of `where` that does not raise is asked of every row, whatever the
other calls are and
whether they raise. -/
theorem C76_delete_each (hf : Fits cx d) (hh : ConditionsSeen cx d sv holds) {n m : Nat} {before after : List DeleteOp}
    {op : DeleteOp} {cs : List Cond} {q : Delete} (hg : DeleteGives op cs)
    (hn : (deleteStep cx (sem cx n) (runOps (deleteStep cx (sem cx n)) q before) op).2 = none) {t : Str}
    (h : NoRaw cx.backend.quote .stmt (.delete (runOps (deleteStep cx (sem cx n)) q (before ++ op :: after))))
    (e : (sem cx m).str (.delete (runOps (deleteStep cx (sem cx n)) q (before ++ op :: after))) = .ok t)
    (row : Tuple V) (hr : chooses sv deleteClauses (lex d t) row = true) {c : Cond} (hc : c ∈ cs) :
    ∃ c', (c' = c ∨ (sem cx (n + 1)).eq (.conds [c']) (.conds [c]) = .ok true) ∧ holds row (.conds [c']) = .t := by
  rw [C74_where_delete hf hh h e] at hr
  obtain ⟨c', h1, h2⟩ := delete_all cx n _ op cs hg hn c hc
  refine ⟨c', h2, of_decide_eq_true hr c' ?_⟩
  rw [runOps_append, runOps_cons]
  exact (runOps_prefix (f := DeleteS.where_) (fun q o => C20_delete_keeps cx _ q [o]) _ after).subset h1

end

/-! ### Examples -/

private theorem noneRaise_nil {σ ω : Type} (step : σ → ω → Upd σ) (s : σ) : NoneRaise step s [] := by
  intro b o a e
  cases b <;> cases e

private theorem noneRaise_cons {σ ω : Type} {step : σ → ω → Upd σ} {s : σ} {o : ω} {ops : List ω}
    (h : (step s o).2 = none) (hr : NoneRaise step (step s o).1 ops) : NoneRaise step s (o :: ops) := by
  intro b o' a e
  cases b with
  | nil => cases e; exact h
  | cons b0 b => cases e; exact hr b o' a rfl

/-- `Q(a=1) | Q(b='x')`. -/
private def either0 : Obj := .cofc (.conds [.cond false (.str L!"a") .eq (.int 1)])
  (.conds [.cond false (.str L!"b") .eq (.str L!"x")]) .or

/-- `q.from_('t').where(either).where(c=[3, 4]).where(either, Q(d=2))`. -/
private def history0 : List SelectOp :=
  [.columns { pos := [.str L!"a"] }, .from_ { pos := [.str L!"t"] }, .where_ { pos := [either0] },
    .where_ { kw := [(L!"c", .list [.int 3, .int 4])] },
    .where_ { pos := [either0, .conds [.cond false (.str L!"d") .eq (.int 2)]] }]

private def uses0 : List (List Cond) :=
  [[], [], [.item either0], [condOf (.str L!"c") (.list [.int 3, .int 4])],
    [.item either0, .item (.conds [.cond false (.str L!"d") .eq (.int 2)])]]

example : List.Forall₂ WhereGives history0 uses0 := by
  refine .cons rfl (.cons rfl (.cons (.object rfl) (.cons ?_ (.cons (.objects ?_) .nil))))
  · exact .pairs (.usual (ps := []) (qs := [_]) .nothing
      ⟨[(L!"c", .list [.int 3, .int 4])], .refl _, List.pairwise_singleton _ _, rfl⟩ (by unfold KwFree; decide)) (by simp)
      (by simp)
  · intro x hx
    simp only [List.mem_cons, List.not_mem_nil, or_false] at hx
    rcases hx with rfl | rfl
    · exact .inr ⟨_, _, _, rfl⟩
    · exact .inl ⟨_, rfl⟩

example : NoneRaise (selectStep cx0 (sem cx0 8)) {} history0 := by
  iterate 5 refine noneRaise_cons rfl ?_
  exact noneRaise_nil _ _

example : NoRaw cx0.backend.quote .stmt (.select (runOps (selectStep cx0 (sem cx0 8)) {} history0)) ∧
    (sem cx0 8).str (.select (runOps (selectStep cx0 (sem cx0 8)) {} history0)) =
      .ok L!"SELECT \"a\" FROM \"t\" WHERE (\"a\" = 1 OR \"b\" = 'x') AND \"c\" IN (3, 4) AND \"d\" = 2" :=
  ⟨⟨8, by decide +kernel⟩, by decide +kernel⟩

/-- Of these conditions only equal ones are taken for equal. -/
example {R : Type} (holds : R → Obj → Tri) : EqualsAgree cx0 8 holds uses0.flatten := by
  intro c hc c' hc' e row
  simp only [uses0, List.flatten_cons, List.flatten_nil, List.nil_append, List.cons_append, List.append_nil,
    List.mem_cons, List.not_mem_nil, or_false] at hc hc'
  have no : ∀ a b : Obj, (sem cx0 9).eq a b = .ok false → (sem cx0 (8 + 1)).eq a b = .ok true →
      holds row a = holds row b := fun a b h1 h2 => by rw [h1] at h2; cases h2
  rcases hc with rfl | rfl | rfl | rfl <;> rcases hc' with rfl | rfl | rfl | rfl <;>
    first
    | rfl
    | exact no _ _ (by decide +kernel) e

/-- In an UPDATE and a DELETE. -/
example : List.Forall₂ UpdateGives [.table (.str L!"t"), .where_ { pos := [either0] }] [[], [.item either0]] ∧
    List.Forall₂ DeleteGives [.from_ { pos := [.str L!"t"] }, .where_ { pos := [either0] }] [[], [.item either0]] ∧
    List.Forall₂ HavingGives [.columns { pos := [.str L!"a"] }, .having { pos := [either0] }] [[], [.item either0]] :=
  ⟨.cons rfl (.cons (.object rfl) .nil), .cons rfl (.cons (.object rfl) .nil), .cons rfl (.cons (.object rfl) .nil)⟩

end SqlPuzzle
