import Mathlib.Logic.Relation
import Verif.Proofs.Touch

/-!
C28 and C29 for queries inside queries.  Rendering a query also merges the joins of the queries
inside it, and a query keeps the objects it was given, so rendering an inner query changes the
outer one.
-/

namespace SqlPuzzle

open Spec Touch

private def cx0 : Ctx := ⟨.sql, ⟨id, id, fun _ => true, fun _ => [], fun _ => []⟩⟩

/-- C28, full statement: whichever of the queries in an object were rendered, the object renders as
before. -/
def C28_claim : Prop :=
  ∀ (cx : Ctx) (n : Nat) (o o' : Obj), Touched cx n o o' → (sem cx n).str o' = (sem cx n).str o

/-- `from_('a').join('u').join('u')`. -/
private def twice : Select :=
  { tables := [⟨.str L!"a", .none,
      [⟨.inner, .str L!"u", .none, []⟩, ⟨.inner, .str L!"u", .none, []⟩]⟩] }

/-- `from_('a').join('u')`. -/
private def once : Select :=
  { tables := [⟨.str L!"a", .none, [⟨.inner, .str L!"u", .none, []⟩]⟩] }

/-- `from_('t').join((sub, 's')).join((once, 's'))`. -/
private def outer (sub : Select) : Select :=
  { tables := [⟨.str L!"t", .none,
      [⟨.inner, .select sub, .str L!"s", []⟩, ⟨.inner, .select once, .str L!"s", []⟩]⟩] }

/-- The query is what these calls build. -/
example : runOps (selectStep cx0 (sem cx0 4)) {}
    [.from_ { pos := [.str L!"t"] }, .join .inner (.tuple [.select twice, .str L!"s"]),
     .join .inner (.tuple [.select once, .str L!"s"])] = outer twice ∧
    runOps (selectStep cx0 (sem cx0 4)) {}
      [.from_ { pos := [.str L!"a"] }, .join .inner (.str L!"u"), .join .inner (.str L!"u")] =
        twice := ⟨rfl, rfl⟩

/-- C28 is false: `str(sub)` merges the two joins of `sub`, which makes it equal to the other joined
query, so that the outer query has one join less than before.  The same happens when the outer
query is rendered twice, because the first rendering renders `sub`. -/
theorem C28_refuted : ¬C28_claim := by
  intro h
  have := h cx0 5 (.select (outer twice)) (.select (outer (selectStep cx0 (sem cx0 3) twice .str).1))
    (.inr (.select _ _ (touchSelect_self cx0 4 _ (p := outer twice) (.cons
      ⟨.inl rfl, .inl rfl, .inl (.cons
        ⟨rfl, .inr ⟨rfl, .inr (.select _ _ (touchSelect_self cx0 3 _ (p := twice)
          (touchTables_str cx0 3 (sem cx0 3) twice.tables)))⟩, .inl rfl, .nil⟩
        (.cons (touchJoin_self cx0 4 _) .nil))⟩ .nil))))
  revert this
  decide +kernel

/-- The two texts of the counterexample. -/
example :
    (sem cx0 5).str (.select (outer twice)) = .ok (L!"SELECT * FROM \"t\" " ++
      L!"JOIN (SELECT * FROM \"a\" JOIN \"u\") AS \"s\" " ++
      L!"JOIN (SELECT * FROM \"a\" JOIN \"u\") AS \"s\"") ∧
    (sem cx0 5).str (.select (outer (selectStep cx0 (sem cx0 3) twice .str).1)) =
      .ok L!"SELECT * FROM \"t\" JOIN (SELECT * FROM \"a\" JOIN \"u\") AS \"s\"" := by
  decide +kernel

/-- C28, what holds: if no join involves a query, an object renders as before, same text or same
exception, after any number of renderings of itself and of the queries in it, complete or not. -/
theorem C28_nested_partial (cx : Ctx) (n : Nat) (o o' : Obj) (ho : NoQueryInJoins o)
    (h : Relation.ReflTransGen (Touched cx n) o o') :
    (sem cx n).str o' = (sem cx n).str o := by
  suffices hs : NoQueryInJoins o' ∧ (sem cx n).str o' = (sem cx n).str o from hs.2
  induction h with
  | refl => exact ⟨ho, rfl⟩
  | tail _ h ih => exact ⟨touched_keeps cx n ih.1 h, (touched_text cx n ih.1 h).symm.trans ih.2⟩

/-- `where(x=sub)`. -/
private def holder (sub : Select) : Select :=
  { tables := [⟨.str L!"t", .none, []⟩], where_ := [.cond false (.str L!"x") .eq (.select sub)] }

/-- Not vacuous: a query with a subquery whose joins do get merged. -/
example : NoQueryInJoins (.select (holder twice)) ∧
    Touched cx0 5 (.select (holder twice))
      (.select (holder (selectStep cx0 (sem cx0 3) twice .str).1)) ∧
    (selectStep cx0 (sem cx0 3) twice .str).1.tables.map (fun t => t.joins.length) = [1] ∧
    (sem cx0 5).str (.select (holder twice)) =
      .ok L!"SELECT * FROM \"t\" WHERE \"x\" = (SELECT * FROM \"a\" JOIN \"u\")" := by
  have plain : ∀ o : Obj, parts o = [] → isAnyQuery o = false → NoQueryInJoins o ∧ QueryFree o := by
    intro o hp hq
    refine ⟨.mk ?_ (by simp [hp]), .mk hq (by simp [hp])⟩
    intro j hj
    cases o <;> first | (cases hq; done) | cases hj
  have sub : NoQueryInJoins (.select twice) := by
    refine .mk ?_ ?_
    · intro j hj y hy
      simp only [joinsOf, twice, List.flatMap_cons, List.flatMap_nil, List.append_nil,
        List.mem_cons, List.not_mem_nil, or_false, or_self] at hj
      subst hj
      simp only [joinParts, List.flatMap_nil, List.append_nil, List.mem_cons, List.not_mem_nil,
        or_false] at hy
      rcases hy with rfl | rfl <;> exact (plain _ rfl rfl).2
    · intro y hy
      have hy : y ∈ [Obj.str L!"a", .none, .str L!"u", .none, .str L!"u", .none] := hy
      simp only [List.mem_cons, List.not_mem_nil, or_false] at hy
      rcases hy with rfl | rfl | rfl | rfl | rfl | rfl <;> exact (plain _ rfl rfl).1
  refine ⟨?_, ?_, by decide +kernel, by decide +kernel⟩
  · refine .mk ?_ ?_
    · intro j hj
      exact nomatch hj
    · intro y hy
      have hy : y ∈ [Obj.str L!"t", .none, .str L!"x", .select twice] := hy
      simp only [List.mem_cons, List.not_mem_nil, or_false] at hy
      rcases hy with rfl | rfl | rfl | rfl
      · exact (plain _ rfl rfl).1
      · exact (plain _ rfl rfl).1
      · exact (plain _ rfl rfl).1
      · exact sub
  · refine .inr (.select _ _ ?_)
    have h := touchSelect_self cx0 4 (sem cx0 4) (p := holder twice)
      (forall₂_self (touchTable_self cx0 4 (sem cx0 4)) _)
    exact { h with
      where_ := .cons (.cond _ _ _ _ _ _ (.inl rfl) (.sql _ _ rfl
        (.inr (.select _ _ (touchSelect_self cx0 3 _ (p := twice)
          (touchTables_str cx0 3 (sem cx0 3) twice.tables)))))) .nil }

/-- The operation `str` is one of the ways in which a query is touched. -/
theorem C28_str_touches (cx : Ctx) (n : Nat) (q : Select) (i : Insert) (u : Update) (d : Delete) :
    Touched cx (n + 1) (.select q) (.select (selectStep cx (sem cx n) q .str).1) ∧
    Touched cx (n + 1) (.insert i) (.insert (insertStep cx (sem cx n) i .str).1) ∧
    Touched cx (n + 1) (.update u) (.update (updateStep cx (sem cx n) u .str).1) ∧
    Touched cx (n + 1) (.delete d) (.delete (deleteStep cx (sem cx n) d .str).1) := by
  refine ⟨?_, ?_, ?_, ?_⟩
  · show Touched cx (n + 1) (.select q) (.select (selectStr cx (sem cx n) q).1)
    unfold selectStr
    split
    · exact .inl rfl
    · exact .inr (.select _ _ (touchSelect_self cx n _ (touchTables_str cx n _ _)))
  · show Touched cx (n + 1) (.insert i) (.insert (insertStr cx (sem cx n) i).1)
    unfold insertStr
    split
    · exact .inl rfl
    · exact .inr (.insert _ _ ⟨rfl, rfl, touchTables_str cx n _ _,
        forall₂_self (forall₂_self (touchValue_self cx n)) _, forall₂_self (touchValue_self cx n) _,
        rfl, forall₂_self (touchValue_self cx n) _⟩)
  · show Touched cx (n + 1) (.update u) (.update (updateStr cx (sem cx n) u).1)
    unfold updateStr
    split
    · exact .inl rfl
    · exact .inr (.update _ _ ⟨rfl, touchTables_str cx n _ _, forall₂_self (touchValue_self cx n) _,
        forall₂_self (touchCond_self cx n) _, rfl⟩)
  · show Touched cx (n + 1) (.delete d) (.delete (deleteStr cx (sem cx n) d).1)
    unfold deleteStr
    split
    · exact .inl rfl
    · simp only
      split
      · exact .inr (.delete _ _ ⟨rfl, forall₂_self (touchTable_self cx n _) _,
          touchTables_str cx n _ _, forall₂_self (touchCond_self cx n) _, rfl⟩)
      · exact .inr (.delete _ _ ⟨rfl, touchTables_str cx n _ _, touchTables_str cx n _ _,
          forall₂_self (touchCond_self cx n) _, rfl⟩)

/-! ### C29 -/

/-- C29 for calls that concern no table: rendering an inner query in between does not matter. -/
def C29_nested_claim : Prop :=
  ∀ (cx : Ctx) (n : Nat) (q q' : Select) (after : List SelectOp),
    (∀ op ∈ after, op.onTables = false) → Touched cx (n + 1) (.select q) (.select q') →
    (sem cx (n + 1)).str (.select (runOps (selectStep cx (sem cx n)) q' after)) =
      (sem cx (n + 1)).str (.select (runOps (selectStep cx (sem cx n)) q after))

/-- It is false: `where(x=sub)`, then `str(sub)`, then `where(x=once)`.  After `str(sub)` the two
conditions are equal, and the second one is left out. -/
theorem C29_nested_refuted : ¬C29_nested_claim := by
  intro h
  have := h cx0 4 (holder twice) (holder (selectStep cx0 (sem cx0 3) twice .str).1)
    [.where_ { kw := [(L!"x", .select once)] }] (by simp [SelectOp.onTables])
    (.inr (.select _ _ (by
      have h := touchSelect_self cx0 4 (sem cx0 4) (p := holder twice)
        (forall₂_self (touchTable_self cx0 4 (sem cx0 4)) _)
      exact { h with
        where_ := .cons (.cond _ _ _ _ _ _ (.inl rfl) (.sql _ _ rfl
          (.inr (.select _ _ (touchSelect_self cx0 3 _ (p := twice)
            (touchTables_str cx0 3 (sem cx0 3) twice.tables)))))) .nil })))
  revert this
  decide +kernel

end SqlPuzzle
