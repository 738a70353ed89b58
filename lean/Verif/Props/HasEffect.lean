import Verif.Model.HasCalls
import Verif.Proofs.Rendering
import Verif.Proofs.Statement

/-!
C63: `has()` only asks.
-/

namespace SqlPuzzle

open Spec

private def cx0 : Ctx := ⟨.sql, ⟨id, id, Char.isAlphanum, fun _ => [], fun _ => []⟩⟩

/-- C63, full statement: a call of `has()` changes nothing that the calls after it do. -/
def C63_claim : Prop :=
  ∀ (cx : Ctx) (n : Nat) (q : Select) (name : Str) (v : Obj) (after : List SelectOp),
    (sem cx (n + 1)).str (.select
        (runOps (selectStep cx (sem cx n)) (selectHasStep cx (sem cx n) q name v).1 after)) =
      (sem cx (n + 1)).str (.select (runOps (selectStep cx (sem cx n)) q after))

/-- `from_('a').join('b').left_join('b')`. -/
private def joined : Select :=
  { tables := [⟨.str L!"a", .none,
      [⟨.inner, .str L!"b", .none, []⟩, ⟨.left, .str L!"b", .none, []⟩]⟩] }

/-- C63 is false: `has('tables', 'b')` merges the two joins, so that a later `on(x='y')` gives the
condition to the join that is left, instead of to the second one. -/
theorem C63_refuted : ¬C63_claim := by
  intro h
  have := h cx0 3 joined L!"tables" (.str L!"b") [.on { kw := [(L!"x", .str L!"y")] }]
  revert this
  decide +kernel

/-- The two texts of the counterexample. -/
example :
    (sem cx0 4).str (.select (runOps (selectStep cx0 (sem cx0 3)) joined
      [.on { kw := [(L!"x", .str L!"y")] }])) =
      .ok L!"SELECT * FROM \"a\" JOIN \"b\" LEFT JOIN \"b\" ON \"x\" = \"y\"" ∧
    (sem cx0 4).str (.select (runOps (selectStep cx0 (sem cx0 3))
      (selectHasStep cx0 (sem cx0 3) joined L!"tables" (.str L!"b")).1
      [.on { kw := [(L!"x", .str L!"y")] }])) =
      .ok L!"SELECT * FROM \"a\" JOIN \"b\" ON \"x\" = \"y\"" ∧
    (selectHasStep cx0 (sem cx0 3) joined L!"tables" (.str L!"b")).2 = .ok true := by
  decide +kernel

private theorem afterHas_cases (cx : Ctx) (S : Sem) (ts : List Table) (v : Obj) :
    tablesAfterHas cx S ts v = ts ∨ tablesAfterHas cx S ts v = (strTables cx S ts).1 := by
  unfold tablesAfterHas
  split
  · exact .inl rfl
  · split
    · split
      · exact .inl rfl
      · exact .inr rfl
    · exact .inl rfl

private theorem afterHas_text (cx : Ctx) (S : Sem) (keyword : Str) (ts : List Table) (v : Obj) :
    tablesText cx S keyword (tablesAfterHas cx S ts v) = tablesText cx S keyword ts ∧
    (tablesAfterHas cx S ts v).isEmpty = ts.isEmpty := by
  rcases afterHas_cases cx S ts v with h | h
  · rw [h]; exact ⟨rfl, rfl⟩
  · rw [h]; exact strTables_text cx S keyword ts

/-- C63, what holds, SELECT: after `has()` the query renders as before, same text or same exception,
and `has()` answers every question as before. -/
theorem C63_select_partial (cx : Ctx) (n : Nat) (q : Select) (name : Str) (v : Obj) :
    (sem cx (n + 1)).str (.select (selectHasStep cx (sem cx n) q name v).1) =
      (sem cx (n + 1)).str (.select q) ∧
    ∀ name' v', selectHas cx (sem cx n) (selectHasStep cx (sem cx n) q name v).1 name' v' =
      selectHas cx (sem cx n) q name' v' := by
  unfold selectHasStep
  by_cases hn : name = L!"tables"
  · simp only [hn, if_true]
    obtain ⟨h1, h2⟩ := afterHas_text cx (sem cx n) L!"FROM" q.tables v
    constructor
    · show selectText cx _ _ = selectText cx _ _
      unfold selectText
      simp only [h1, h2]
    · intro name' v'
      unfold selectHas selectHasBase selectPart
      simp only [h1, h2]
  · simp only [hn, if_false]
    simp

/-- C63, what holds, UPDATE. -/
theorem C63_update_partial (cx : Ctx) (n : Nat) (q : Update) (name : Str) (v : Obj) :
    (sem cx (n + 1)).str (.update (updateHasStep cx (sem cx n) q name v).1) =
      (sem cx (n + 1)).str (.update q) ∧
    ∀ name' v', updateHas cx (sem cx n) (updateHasStep cx (sem cx n) q name v).1 name' v' =
      updateHas cx (sem cx n) q name' v' := by
  unfold updateHasStep
  by_cases hn : name = L!"tables"
  · simp only [hn, if_true]
    obtain ⟨h1, h2⟩ := afterHas_text cx (sem cx n) [] q.tables v
    constructor
    · show updateText cx _ _ = updateText cx _ _
      unfold updateText
      simp only [h1, h2]
    · intro name' v'
      unfold updateHas updatePart
      simp only [h1, h2]
  · simp only [hn, if_false]
    simp

/-- C63, what holds, DELETE. -/
theorem C63_delete_partial (cx : Ctx) (n : Nat) (q : Delete) (name : Str) (v : Obj) :
    (sem cx (n + 1)).str (.delete (deleteHasStep cx (sem cx n) q name v).1) =
      (sem cx (n + 1)).str (.delete q) ∧
    ∀ name' v', deleteHas cx (sem cx n) (deleteHasStep cx (sem cx n) q name v).1 name' v' =
      deleteHas cx (sem cx n) q name' v' := by
  unfold deleteHasStep
  obtain ⟨h1, h2⟩ := afterHas_text cx (sem cx n) [] q.tables v
  obtain ⟨h3, h4⟩ := afterHas_text cx (sem cx n) [] q.references v
  by_cases hn : name = L!"tables"
  · simp only [hn, if_true]
    constructor
    · show deleteText cx _ _ = deleteText cx _ _
      unfold deleteText
      simp only [h1, h2]
    · intro name' v'
      unfold deleteHas deletePart
      simp only [h1, h2]
  · by_cases hr : name = L!"references"
    · simp only [hr, if_true, show ¬(L!"references" = L!"tables") by decide, if_false]
      constructor
      · show deleteText cx _ _ = deleteText cx _ _
        unfold deleteText
        simp only [h3, h4]
      · intro name' v'
        unfold deleteHas deletePart
        simp only [h3, h4]
    · simp only [hn, hr, if_false]
      simp

/-- C63, what holds, INSERT and REPLACE. -/
theorem C63_insert_partial (cx : Ctx) (n : Nat) (q : Insert) (name : Str) (v : Obj) :
    (sem cx (n + 1)).str (.insert (insertHasStep cx (sem cx n) q name v).1) =
      (sem cx (n + 1)).str (.insert q) ∧
    ∀ name' v', insertHas cx (sem cx n) (insertHasStep cx (sem cx n) q name v).1 name' v' =
      insertHas cx (sem cx n) q name' v' := by
  unfold insertHasStep
  by_cases hn : name = L!"tables"
  · simp only [hn, if_true]
    obtain ⟨h1, h2⟩ := afterHas_text cx (sem cx n) [] q.tables v
    constructor
    · show insertText cx _ _ = insertText cx _ _
      unfold insertText
      simp only [h1, h2]
    · intro name' v'
      unfold insertHas insertPart
      simp only [h1, h2]
  · simp only [hn, if_false]
    simp

/-- C63, what holds: `has()` does not matter if no later call concerns tables or joins. -/
theorem C63_other_clauses_partial (cx : Ctx) (n : Nat) (q : Select) (name : Str) (v : Obj)
    (after : List SelectOp) (h : ∀ op ∈ after, op.onTables = false) :
    (sem cx (n + 1)).str (.select
        (runOps (selectStep cx (sem cx n)) (selectHasStep cx (sem cx n) q name v).1 after)) =
      (sem cx (n + 1)).str (.select (runOps (selectStep cx (sem cx n)) q after)) := by
  have h0 : UpToStr cx (sem cx n) (selectHasStep cx (sem cx n) q name v).1 q := by
    unfold selectHasStep
    by_cases hn : name = L!"tables"
    · simp only [hn, if_true]
      rcases afterHas_cases cx (sem cx n) q.tables v with h | h
      · rw [h]; exact .inl rfl
      · rw [h]; exact .inr (.inr rfl)
    · simp only [hn, if_false]
      exact .inl rfl
  have main : ∀ (ops : List SelectOp), (∀ op ∈ ops, op.onTables = false) → ∀ q q' : Select,
      UpToStr cx (sem cx n) q q' → UpToStr cx (sem cx n) (runOps (selectStep cx (sem cx n)) q ops)
        (runOps (selectStep cx (sem cx n)) q' ops) := by
    intro ops
    induction ops with
    | nil => intro _ q q' h; exact h
    | cons op ops ih =>
      intro ho q q' hq
      exact ih (fun o h => ho o (by simp [h])) _ _ (upToStr_step cx _ hq (ho op (by simp)))
  exact upToStr_text cx n (main after h _ _ h0)

example : ∃ op : SelectOp, op.onTables = false ∧
    (selectHasStep cx0 (sem cx0 3) joined L!"tables" (.str L!"b")).1.tables.map
      (fun t => t.joins.length) = [1] ∧
    (sem cx0 4).str (.select (runOps (selectStep cx0 (sem cx0 3)) joined [op])) =
      .ok L!"SELECT * FROM \"a\" JOIN \"b\" WHERE \"x\" = 1" :=
  ⟨.where_ { kw := [(L!"x", .int 1)] }, rfl, by decide +kernel, by decide +kernel⟩

/-- C63, what holds: `has()` changes nothing at all unless it is `has('tables', value)` with a value,
or, on a DELETE, `has('references', value)`, and a table has two joins of the same table with the
same condition. -/
theorem C63_unchanged_partial (cx : Ctx) (n : Nat) (name : Str) (v : Obj) :
    (∀ q : Select, name ≠ L!"tables" ∨ v.truthy = false ∨
        (∀ t ∈ q.tables, t.joins.Pairwise (JoinsDiffer cx n)) →
      (selectHasStep cx (sem cx n) q name v).1 = q) ∧
    (∀ q : Update, name ≠ L!"tables" ∨ v.truthy = false ∨
        (∀ t ∈ q.tables, t.joins.Pairwise (JoinsDiffer cx n)) →
      (updateHasStep cx (sem cx n) q name v).1 = q) ∧
    (∀ q : Delete, (name ≠ L!"tables" ∧ name ≠ L!"references") ∨ v.truthy = false ∨
        (∀ t ∈ q.tables ++ q.references, t.joins.Pairwise (JoinsDiffer cx n)) →
      (deleteHasStep cx (sem cx n) q name v).1 = q) ∧
    (∀ q : Insert, name ≠ L!"tables" ∨ v.truthy = false ∨
        (∀ t ∈ q.tables, t.joins.Pairwise (JoinsDiffer cx n)) →
      (insertHasStep cx (sem cx n) q name v).1 = q) := by
  have key : ∀ ts : List Table, (v.truthy = false ∨
      ∀ t ∈ ts, t.joins.Pairwise (JoinsDiffer cx n)) → tablesAfterHas cx (sem cx n) ts v = ts := by
    intro ts h
    rcases h with h | h
    · unfold tablesAfterHas
      rw [h]
      simp
    · rcases afterHas_cases cx (sem cx n) ts v with h1 | h1
      · exact h1
      · rw [h1]
        exact strTables_distinct cx (sem cx n) fun t ht =>
          (h t ht).imp fun hd => (sameJoin_false cx n).mpr hd
  refine ⟨fun q h => ?_, fun q h => ?_, fun q h => ?_, fun q h => ?_⟩
  · unfold selectHasStep
    by_cases hn : name = L!"tables"
    · simp only [hn, if_true, key q.tables (h.resolve_left fun h => h hn)]
    · simp only [hn, if_false]
  · unfold updateHasStep
    by_cases hn : name = L!"tables"
    · simp only [hn, if_true, key q.tables (h.resolve_left fun h => h hn)]
    · simp only [hn, if_false]
  · unfold deleteHasStep
    have hs : ∀ ts : List Table, (∀ t ∈ ts, t ∈ q.tables ++ q.references) →
        (name = L!"tables" ∨ name = L!"references") → tablesAfterHas cx (sem cx n) ts v = ts := by
      intro ts hm hn
      refine key ts ?_
      rcases h with h | h | h
      · exact absurd hn (by tauto)
      · exact .inl h
      · exact .inr fun t ht => h t (hm t ht)
    by_cases hn : name = L!"tables"
    · simp only [hn, if_true, hs q.tables (fun t ht => by simp [ht]) (.inl hn)]
    · by_cases hr : name = L!"references"
      · simp only [hr, if_true, show ¬(L!"references" = L!"tables") by decide, if_false,
          hs q.references (fun t ht => by simp [ht]) (.inr hr)]
      · simp only [hn, hr, if_false]
  · unfold insertHasStep
    by_cases hn : name = L!"tables"
    · simp only [hn, if_true, key q.tables (h.resolve_left fun h => h hn)]
    · simp only [hn, if_false]

end SqlPuzzle
