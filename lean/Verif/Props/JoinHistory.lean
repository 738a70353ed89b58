import Verif.Proofs.JoinHistory

/-!
C62 (each join and each ON condition belongs to the table and the join it was given after).
-/

namespace SqlPuzzle

open Spec

/-- C62 for SELECT. Whatever the other calls are and however the arguments are written, if the
listed tables differ, and the joined ones too in case the query is rendered in between, the tables
are those listed, in order; each has the joins given after it and before the next table; each join
has the conditions given after it and before the next join, without repetitions. -/
theorem C62_select (cx : Ctx) (n : Nat) (ops : List SelectOp) (es : List TableEvent)
    (h : List.Forall₂ (SelectEvent cx) ops es) (hd : (listedTables es).Nodup)
    (hr : .rendered ∈ es → DistinctJoins es) (q : Select) (hq : q.tables = []) :
    (runOps (selectStep cx (sem cx (n + 2))) q ops).tables = tablesGiven es := by
  refine JoinHistory.history_tables (f := fun q : Select => q.tables) cx n ?_ h hd hr hq
  intro q op e he
  cases he with
  | from_ h => exact ⟨_, .set h, rfl⟩
  | fromTable h =>
    refine ⟨_, .set (a := { pos := [.tuple [_, _]] }) ⟨fromTable_names, by simp, ?_⟩, rfl⟩
    intro p hp
    cases List.mem_singleton.mp hp
    exact h
  | join h => exact ⟨_, .join h, rfl⟩
  | on h => exact ⟨_, .on h, rfl⟩
  | str =>
    simp only [selectStep, selectStr]
    split
    · exact ⟨_, .unrendered, rfl⟩
    · exact ⟨_, .str, rfl⟩
  | other h => exact ⟨_, .other, by cases op <;> first | exact h.elim | rfl⟩

/-- C62 for UPDATE. -/
theorem C62_update (cx : Ctx) (n : Nat) (ops : List UpdateOp) (es : List TableEvent)
    (h : List.Forall₂ (UpdateEvent cx) ops es) (hd : (listedTables es).Nodup)
    (hr : .rendered ∈ es → DistinctJoins es) (q : Update) (hq : q.tables = []) :
    (runOps (updateStep cx (sem cx (n + 2))) q ops).tables = tablesGiven es := by
  refine JoinHistory.history_tables (f := fun q : Update => q.tables) cx n ?_ h hd hr hq
  intro q op e he
  cases he with
  | table h => exact ⟨_, .set h, rfl⟩
  | join h => exact ⟨_, .join h, rfl⟩
  | leftJoin h => exact ⟨_, .join h, rfl⟩
  | rightJoin h => exact ⟨_, .join h, rfl⟩
  | on h => exact ⟨_, .on h, rfl⟩
  | str =>
    simp only [updateStep, updateStr]
    split
    · exact ⟨_, .unrendered, rfl⟩
    · exact ⟨_, .str, rfl⟩
  | other h => exact ⟨_, .other, by cases op <;> first | exact h.elim | rfl⟩

/-- C62 for DELETE: the tables after FROM. -/
theorem C62_delete (cx : Ctx) (n : Nat) (ops : List DeleteOp) (es : List TableEvent)
    (h : List.Forall₂ (DeleteEvent cx) ops es) (hd : (listedTables es).Nodup)
    (hr : .rendered ∈ es → DistinctJoins es) (q : Delete) (hq : q.references = []) :
    (runOps (deleteStep cx (sem cx (n + 2))) q ops).references = tablesGiven es := by
  refine JoinHistory.history_tables (f := fun q : Delete => q.references) cx n ?_ h hd hr hq
  intro q op e he
  cases he with
  | from_ h => exact ⟨_, .set h, rfl⟩
  | fromTable h =>
    refine ⟨_, .set (a := { pos := [.tuple [_, _]] }) ⟨fromTable_names, by simp, ?_⟩, rfl⟩
    intro p hp
    cases List.mem_singleton.mp hp
    exact h
  | join h => exact ⟨_, .join h, rfl⟩
  | leftJoin h => exact ⟨_, .join h, rfl⟩
  | rightJoin h => exact ⟨_, .join h, rfl⟩
  | on h => exact ⟨_, .on h, rfl⟩
  | str =>
    simp only [deleteStep, deleteStr]
    split
    · exact ⟨_, .unrendered, rfl⟩
    · split
      · exact ⟨_, .str, rfl⟩
      · exact ⟨_, .str, rfl⟩
  | other h => exact ⟨_, .other, by cases op <;> first | exact h.elim | rfl⟩

/-- C62. No condition is lost: in the final query there is the join that was made, and its
conditions all hold in a row exactly if all conditions given after it, before the next join or
table, do.  Any notion of truth will do that does not tell a condition from its mirror image. -/
theorem C62_conditions (cx : Ctx) (n : Nat) (ops : List SelectOp) (es es' : List TableEvent)
    (ty : JoinType) (name al : Obj)
    (h : List.Forall₂ (SelectEvent cx) ops (es ++ .join ty name al :: es'))
    (hd : (listedTables (es ++ .join ty name al :: es')).Nodup)
    (hr : .rendered ∈ es ++ .join ty name al :: es' →
      DistinctJoins (es ++ .join ty name al :: es'))
    (ht : listedTables es ≠ []) (truth : Cond → Prop)
    (hm : ∀ a b, mirror a = some b → (truth a ↔ truth b)) :
    ∃ t ∈ (runOps (selectStep cx (sem cx (n + 2))) {} ops).tables, ∃ j ∈ t.joins,
      j.type = ty ∧ j.name = name ∧ j.alias = al ∧
      ((∀ c ∈ j.ons, truth c) ↔ ∀ c ∈ onsUntilJoin (untilTable es'), truth c) := by
  rw [C62_select cx n ops _ h hd hr {} rfl]
  clear h hd hr
  exact JoinHistory.join_kept ht hm

section
private def cx0 : Ctx := ⟨.sql, ⟨id, id, fun _ => true, fun _ => [], fun _ => []⟩⟩

/-- `select_from('a', 'b').join('c').on('c.x', 'b.x').where(…).on('b.x', 'c.x')`
`.left_join(('d', 'e')).from_('f')`, rendered before `from_('f')`. -/
private def ops0 : List SelectOp :=
  [.from_ { pos := [.str L!"a", .str L!"b"] }, .join .inner (.str L!"c"),
    .on { pos := [.str L!"c.x", .str L!"b.x"] }, .where_ { pos := [.str L!"x", .int 1] },
    .on { pos := [.str L!"b.x", .str L!"c.x"] }, .join .left (.tuple [.str L!"d", .str L!"e"]),
    .str, .from_ { pos := [.str L!"f"] }]

private def es0 : List TableEvent :=
  [.tables [(.str L!"a", .none), (.str L!"b", .none)], .join .inner (.str L!"c") .none,
    .on [(.str L!"c.x", .str L!"b.x")], .other, .on [(.str L!"b.x", .str L!"c.x")],
    .join .left (.str L!"d") (.str L!"e"), .rendered, .tables [(.str L!"f", .none)]]

private theorem ops0_events : List.Forall₂ (SelectEvent cx0) ops0 es0 := by
  have tab : ∀ s : Str, s ≠ [] → ExactTable (.str s, .none) := fun s h => ⟨⟨s, h, rfl⟩, .inl rfl⟩
  refine .cons (.from_ ⟨.usual (ps := [(.str L!"a", .none), (.str L!"b", .none)])
      (by rintro _ ⟨⟩) (.cons (.name (by rintro _ ⟨⟩)) (.cons (.name (by rintro _ ⟨⟩)) .nil))
      ⟨[], .nil, .nil, rfl⟩ (by simp [KwFree]), by simp, ?_⟩)
    (.cons (.join ⟨.name _, .inl ⟨_, rfl⟩, .inl rfl, by simp⟩)
    (.cons (.on ⟨.usual (.direct _ (by rintro _ ⟨⟩)) ⟨[], .nil, .nil, rfl⟩ (by simp [KwFree]), ?_⟩)
    (.cons (.other trivial)
    (.cons (.on ⟨.usual (.direct _ (by rintro _ ⟨⟩)) ⟨[], .nil, .nil, rfl⟩ (by simp [KwFree]), ?_⟩)
    (.cons (.join ⟨.tuple _ _, .inl ⟨_, rfl⟩, .inr (.inl ⟨_, rfl⟩), by simp⟩)
    (.cons .str
    (.cons (.from_ ⟨.usual (ps := [(.str L!"f", .none)]) (by rintro _ ⟨⟩) (.cons (.name (by rintro _ ⟨⟩)) .nil)
      ⟨[], .nil, .nil, rfl⟩ (by simp [KwFree]), by simp, ?_⟩) .nil)))))))
  · intro p hp
    simp only [List.mem_cons, List.not_mem_nil, or_false] at hp
    rcases hp with rfl | rfl <;> exact tab _ (by decide)
  · intro p hp
    cases List.mem_singleton.mp hp
    exact ⟨⟨_, rfl⟩, trivial⟩
  · intro p hp
    cases List.mem_singleton.mp hp
    exact ⟨⟨_, rfl⟩, trivial⟩
  · intro p hp
    cases List.mem_singleton.mp hp
    exact tab _ (by decide)

example : (listedTables es0).Nodup ∧ DistinctJoins es0 := by
  refine ⟨by simp [listedTables, es0], by simp [joinedTables, es0], ?_⟩
  intro p hp
  simp only [es0, joinedTables, List.mem_cons, List.not_mem_nil, or_false] at hp
  rcases hp with rfl | rfl
  · exact ⟨⟨_, by decide, rfl⟩, .inl rfl⟩
  · exact ⟨⟨_, by decide, rfl⟩, .inr ⟨_, rfl⟩⟩

example : (runOps (selectStep cx0 (sem cx0 2)) {} ops0).tables =
    [⟨.str L!"a", .none, []⟩,
      ⟨.str L!"b", .none,
        [⟨.inner, .str L!"c", .none, [.cond true (.str L!"c.x") .eq (.str L!"b.x")]⟩,
        ⟨.left, .str L!"d", .str L!"e", []⟩]⟩,
      ⟨.str L!"f", .none, []⟩] := rfl

/-- The listed tables must differ: a table that has joins is not recognised when it is listed
again (C21), so that `select_from('a').join('b').from_('a').on('x', 'y')` has no join for the condition. -/
example : selectStep cx0 (sem cx0 2) (runOps (selectStep cx0 (sem cx0 2)) {}
      [.from_ { pos := [.str L!"a"] }, .join .inner (.str L!"b"), .from_ { pos := [.str L!"a"] }])
    (.on { pos := [.str L!"x", .str L!"y"] }) =
      ({ tables := [⟨.str L!"a", .none, [⟨.inner, .str L!"b", .none, []⟩]⟩,
        ⟨.str L!"a", .none, []⟩] }, some .invalidQuery) := rfl
end

end SqlPuzzle
