import Verif.Proofs.Rendering
import Verif.Proofs.Statement

/-!
C28 (rendering is repeatable), C29 (rendering and later calls).

`str(query)` changes the query: every table replaces its joins by the merged ones.
-/

namespace SqlPuzzle

open Spec

private def cx0 : Ctx := ⟨.sql, ⟨id, id, fun _ => true, fun _ => [], fun _ => []⟩⟩

/-! ### C28 -/

/-- C28 for SELECT: after `str(query)` the query renders as before, same text or same exception. -/
theorem C28_select_partial (cx : Ctx) (n : Nat) (q : Select) :
    (sem cx (n + 1)).str (.select (selectStep cx (sem cx n) q .str).1) =
      (sem cx (n + 1)).str (.select q) := by
  show selectText cx (sem cx n) (selectStr cx (sem cx n) q).1 = selectText cx (sem cx n) q
  unfold selectStr
  split
  · rfl
  · obtain ⟨h1, h2⟩ := strTables_text cx (sem cx n) L!"FROM" q.tables
    unfold selectText
    simp only [h1, h2]

/-- C28 for INSERT. -/
theorem C28_insert_partial (cx : Ctx) (n : Nat) (q : Insert) :
    (sem cx (n + 1)).str (.insert (insertStep cx (sem cx n) q .str).1) =
      (sem cx (n + 1)).str (.insert q) := by
  show insertText cx (sem cx n) (insertStr cx (sem cx n) q).1 = insertText cx (sem cx n) q
  unfold insertStr
  split
  · rfl
  · obtain ⟨h1, h2⟩ := strTables_text cx (sem cx n) [] q.tables
    unfold insertText
    simp only [h1, h2]

/-- C28 for UPDATE. -/
theorem C28_update_partial (cx : Ctx) (n : Nat) (q : Update) :
    (sem cx (n + 1)).str (.update (updateStep cx (sem cx n) q .str).1) =
      (sem cx (n + 1)).str (.update q) := by
  show updateText cx (sem cx n) (updateStr cx (sem cx n) q).1 = updateText cx (sem cx n) q
  unfold updateStr
  split
  · rfl
  · obtain ⟨h1, h2⟩ := strTables_text cx (sem cx n) [] q.tables
    unfold updateText
    simp only [h1, h2]

/-- C28 for DELETE. -/
theorem C28_delete_partial (cx : Ctx) (n : Nat) (q : Delete) :
    (sem cx (n + 1)).str (.delete (deleteStep cx (sem cx n) q .str).1) =
      (sem cx (n + 1)).str (.delete q) := by
  show deleteText cx (sem cx n) (deleteStr cx (sem cx n) q).1 = deleteText cx (sem cx n) q
  obtain ⟨h1, h2⟩ := strTables_text cx (sem cx n) [] q.tables
  obtain ⟨h3, h4⟩ := strTables_text cx (sem cx n) [] q.references
  unfold deleteStr
  split
  · rfl
  · simp only
    split
    · unfold deleteText
      simp only [h3, h4]
    · unfold deleteText
      simp only [h1, h2, h3, h4]

/-- C28: also any number of times. -/
theorem C28_repeat_partial (cx : Ctx) (n k : Nat) (q : Select) :
    (sem cx (n + 1)).str (.select (runOps (selectStep cx (sem cx n)) q (List.replicate k .str))) =
      (sem cx (n + 1)).str (.select q) := by
  induction k generalizing q with
  | zero => rfl
  | succ k ih => rw [List.replicate_succ, runOps_cons, ih, C28_select_partial]

/-- Consistency of the model: the operation `str` raises what rendering raises. -/
theorem C28_same_exception (cx : Ctx) (n : Nat) (q : Select) :
    (selectStep cx (sem cx n) q .str).2 = errOf ((sem cx (n + 1)).str (.select q)) := by
  show (selectStr cx (sem cx n) q).2 = errOf (selectText cx (sem cx n) q)
  generalize sem cx n = S
  have hl : clause q.limit.isSet (.ok (limitText q.limit)) =
      .ok (if q.limit.isSet then ' ' :: limitText q.limit else []) := by
    unfold clause; split <;> rfl
  have hf : clause q.forUpdate (.ok L!"FOR UPDATE") =
      .ok (if q.forUpdate then ' ' :: L!"FOR UPDATE" else []) := by
    unfold clause; split <;> rfl
  have ho : clause (!q.opts.words.isEmpty) (.ok (optionsText q.opts.words)) =
      .ok (if !q.opts.words.isEmpty then ' ' :: optionsText q.opts.words else []) := by
    unfold clause; split <;> rfl
  have ht : (strTables cx S q.tables).2 =
      errOf (clause (!q.tables.isEmpty) (tablesText cx S L!"FROM" q.tables)) := by
    rw [(strTables_spec cx S q.tables).2]
    unfold clause tablesText partsText
    cases h : q.tables with
    | nil => rfl
    | cons t ts =>
      simp only [List.isEmpty_cons, Bool.not_false, if_true, Bool.false_eq_true, if_false]
      cases mapR (tableText cx S) (t :: ts) <;> rfl
  unfold selectStr selectText
  simp only [hl, hf, ho, ht, ok_bind]
  cases clause true (columnsText cx S q.columns) with
  | error e => rfl
  | ok a =>
    cases clause (!q.groupBy.isEmpty) (ordersText cx S L!"GROUP BY" q.groupBy) with
    | error e => rfl
    | ok b =>
      cases clause (!q.having.isEmpty) (condsText cx S L!"HAVING" q.having) with
      | error e => rfl
      | ok c =>
        cases clause q.outfile.file.isSome (outfileText cx S q.outfile) with
        | error e => rfl
        | ok d =>
          cases clause (!q.orderBy.isEmpty) (ordersText cx S L!"ORDER BY" q.orderBy) with
          | error e => rfl
          | ok f =>
            cases clause (!q.tables.isEmpty) (tablesText cx S L!"FROM" q.tables) with
            | error e => rfl
            | ok g =>
              cases clause (!q.where_.isEmpty) (condsText cx S L!"WHERE" q.where_) <;> rfl

/-- A query whose rendering does change its state. -/
private def joined : Select := { tables := [⟨.str L!"a", .none,
  [⟨.left, .str L!"b", .none, []⟩, ⟨.inner, .str L!"b", .none, []⟩]⟩] }

example : (selectStep cx0 (sem cx0 2) joined .str).1.tables.map (fun t => t.joins.length) = [1] ∧
    (sem cx0 3).str (.select joined) = .ok L!"SELECT * FROM \"a\" JOIN \"b\"" := by decide

/-! ### C29 -/

/-- C29, full statement: `str(query)` anywhere in a history does not matter. -/
def C29_claim : Prop :=
  ∀ (cx : Ctx) (n : Nat) (q : Select) (before after : List SelectOp),
    (sem cx (n + 1)).str (.select (runOps (selectStep cx (sem cx n)) q (before ++ .str :: after))) =
      (sem cx (n + 1)).str (.select (runOps (selectStep cx (sem cx n)) q (before ++ after)))

/-- C29 is false: `from_('a').join('b').left_join('b')`, then `on(x='y')`.  Rendered in between, the
two joins are one when `on` is called. -/
theorem C29_refuted : ¬C29_claim := by
  intro h
  have := h cx0 3 {} [.from_ { pos := [.str L!"a"] }, .join .inner (.str L!"b"),
    .join .left (.str L!"b")] [.on { kw := [(L!"x", .str L!"y")] }]
  revert this
  decide

/-- C29, what holds: `str(query)` does not matter if no later call concerns tables or joins. -/
theorem C29_other_clauses_partial (cx : Ctx) (n : Nat) (q : Select)
    (before after : List SelectOp) (h : ∀ op ∈ after, op.onTables = false) :
    (sem cx (n + 1)).str (.select (runOps (selectStep cx (sem cx n)) q (before ++ .str :: after))) =
      (sem cx (n + 1)).str (.select (runOps (selectStep cx (sem cx n)) q (before ++ after))) := by
  rw [runOps_append, runOps_append, runOps_cons]
  generalize runOps (selectStep cx (sem cx n)) q before = p
  have h0 : UpToStr cx (sem cx n) (selectStep cx (sem cx n) p .str).1 p := by
    show UpToStr cx (sem cx n) (selectStr cx (sem cx n) p).1 p
    unfold selectStr
    split
    · exact .inl rfl
    · exact .inr (.inr rfl)
  have main : ∀ (ops : List SelectOp), (∀ op ∈ ops, op.onTables = false) → ∀ q q' : Select,
      UpToStr cx (sem cx n) q q' → UpToStr cx (sem cx n) (runOps (selectStep cx (sem cx n)) q ops)
        (runOps (selectStep cx (sem cx n)) q' ops) := by
    intro ops
    induction ops with
    | nil => intro _ q q' h; exact h
    | cons op ops ih =>
      intro ho q q' hq
      exact ih (fun o h => ho o (by simp [h])) _ _ (upToStr_step cx _ hq (ho op (by simp)))
  exact upToStr_text cx n (main after h _ _ h0)

/-- C29, what holds: `str(query)` changes nothing at all at a point where no table has two joins of
the same table with the same condition. -/
theorem C29_distinct_joins_partial (cx : Ctx) (n : Nat) (q : Select)
    (before after : List SelectOp)
    (h : ∀ t ∈ (runOps (selectStep cx (sem cx n)) q before).tables,
      t.joins.Pairwise (JoinsDiffer cx n)) :
    runOps (selectStep cx (sem cx n)) q (before ++ .str :: after) =
      runOps (selectStep cx (sem cx n)) q (before ++ after) := by
  rw [runOps_append, runOps_append, runOps_cons]
  generalize runOps (selectStep cx (sem cx n)) q before = p at h
  suffices hs : (selectStep cx (sem cx n) p .str).1 = p by rw [hs]
  have h1 := strTables_distinct cx (sem cx n) fun t ht =>
    (h t ht).imp fun hd => (sameJoin_false cx n).mpr hd
  rcases selectStr_tables cx (sem cx n) p with h2 | h2
  · exact h2
  · rw [h1] at h2; exact h2

example : ∀ t ∈ (runOps (selectStep cx0 (sem cx0 3)) {} [.from_ { pos := [.str L!"a"] },
    .join .inner (.str L!"b"), .join .left (.str L!"c")]).tables,
    t.joins.Pairwise (JoinsDiffer cx0 3) := by
  intro t ht
  have ht : t ∈ [⟨.str L!"a", .none,
    [⟨.inner, .str L!"b", .none, []⟩, ⟨.left, .str L!"c", .none, []⟩]⟩] := ht
  rw [List.mem_singleton.mp ht]
  refine .cons ?_ (.cons (by simp) .nil)
  intro b hb
  rw [List.mem_singleton.mp hb]
  exact .inl rfl

end SqlPuzzle
