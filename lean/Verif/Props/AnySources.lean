import Verif.Proofs.AnySources
import Verif.Props.Composed
import Verif.Props.ComposedChanges

/-!
C78 and C79, with the sources: whatever tables are listed and joined, and whatever conditions joins have, the rows that a
server starts from are those of the tables given, combined as given.
-/

namespace SqlPuzzle

open Spec

private def cx0 : Ctx := ⟨.sql, ⟨id, id, fun _ => true, fun _ => [], fun _ => []⟩⟩

section
variable {cx : Ctx} {d : Dialect} {ref lit : Obj → List Tok} {V : Type} {sv : Server V} {src : Sources V}
  {holds : Tuple V → Obj → Tri}

private theorem given_kept {n : Nat} {ts gs : List Table} (h : List.Forall₂ (TableFor cx n) ts gs) (hne : gs ≠ []) :
    ts ≠ [] := by
  rintro rfl
  cases h
  exact hne rfl

/-- C78, the sources. Any calls on a SELECT, none of which raises: tables listed by `from_` and `from_table`, joined by the
five join methods, conditions given to `on`, in any order and notation, and texts made in between.  Tables may be names and
queries, with or without an alias; conditions may be pairs and Q objects; no two tables, and no two joins of one table, are
taken for equal.  Then the server starts from the tables given: each is read as what the library writes for it alone, is
known by its alias, and is combined with its joins in the order given, each by its kind and all the conditions given to it,
and by no others. -/
theorem C78_sources (hf : Fits cx d) (hr : RefsSeen cx d ref) (hh : ConditionsSeen cx d sv holds) {n m : Nat}
    {ops : List SelectOp} (hn : NoneRaise (selectStep cx (sem cx n)) {} ops)
    {calls : List SourceCall} (h0 : List.Forall₂ SelectSources ops calls) (hne : sourcesGiven calls ≠ [])
    (hd : SourcesDiffer cx (sourcesGiven calls)) (ho : EqualOnsAgree cx n holds (sourcesGiven calls)) {t : Str}
    (h : NoRaw cx.backend.quote .stmt (.select (runOps (selectStep cx (sem cx n)) {} ops)))
    (e : (sem cx m).str (.select (runOps (selectStep cx (sem cx n)) {} ops)) = .ok t) :
    fromRows sv src (clauseBody selectClauses L!"FROM" (lex d t)) = sourcesWritten src ref holds (sourcesGiven calls) := by
  have k := sources_history (tables := fun q : Select => q.tables) select_effect h0 {} [] hn .nil hd
  generalize runOps (selectStep cx (sem cx n)) {} ops = q at *
  cases m with
  | zero => cases e
  | succ m =>
    have k1 : (selectStep cx (sem cx m) q .str).1.tables = q.tables := by
      simp only [selectStep, selectStr]
      split
      · rfl
      · exact str_for k hd
    rw [C74_tables hf hr hh h (given_kept k hne) e, k1]
    exact sources_same k ho

/-- C79, the sources of an UPDATE, as for a SELECT. -/
theorem C79_update_sources (hf : Fits cx d) (hr : RefsSeen cx d ref) (hh : ConditionsSeen cx d sv holds) {n m : Nat}
    {ops : List UpdateOp} (hn : NoneRaise (updateStep cx (sem cx n)) {} ops)
    {calls : List SourceCall} (h0 : List.Forall₂ UpdateSources ops calls) (hne : sourcesGiven calls ≠ [])
    (hd : SourcesDiffer cx (sourcesGiven calls)) (ho : EqualOnsAgree cx n holds (sourcesGiven calls)) {t : Str}
    (h : NoRaw cx.backend.quote .stmt (.update (runOps (updateStep cx (sem cx n)) {} ops)))
    (e : (sem cx m).str (.update (runOps (updateStep cx (sem cx n)) {} ops)) = .ok t) :
    fromRows sv src (updatedTable (lex d t)) = sourcesWritten src ref holds (sourcesGiven calls) := by
  have k := sources_history (tables := fun q : Update => q.tables) update_effect h0 {} [] hn .nil hd
  generalize runOps (updateStep cx (sem cx n)) {} ops = q at *
  cases m with
  | zero => cases e
  | succ m =>
    have k1 : (updateStep cx (sem cx m) q .str).1.tables = q.tables := by
      simp only [updateStep, updateStr]
      split
      · rfl
      · exact str_for k hd
    rw [C74_update_tables hf hr hh h (given_kept k hne) e, k1]
    exact sources_same k ho

/-- C79, the sources of a DELETE, as for a SELECT. -/
theorem C79_delete_sources (hf : Fits cx d) (hr : RefsSeen cx d ref) (hh : ConditionsSeen cx d sv holds) {n m : Nat}
    {ops : List DeleteOp} (hn : NoneRaise (deleteStep cx (sem cx n)) {} ops)
    {calls : List SourceCall} (h0 : List.Forall₂ DeleteSources ops calls) (hne : sourcesGiven calls ≠ [])
    (hd : SourcesDiffer cx (sourcesGiven calls)) (ho : EqualOnsAgree cx n holds (sourcesGiven calls)) {t : Str}
    (h : NoRaw cx.backend.quote .stmt (.delete (runOps (deleteStep cx (sem cx n)) {} ops)))
    (e : (sem cx m).str (.delete (runOps (deleteStep cx (sem cx n)) {} ops)) = .ok t) :
    fromRows sv src (clauseBody deleteClauses L!"FROM" (lex d t)) = sourcesWritten src ref holds (sourcesGiven calls) := by
  have k := sources_history (tables := fun q : Delete => q.references) delete_effect h0 {} [] hn .nil hd
  generalize runOps (deleteStep cx (sem cx n)) {} ops = q at *
  cases m with
  | zero => cases e
  | succ m =>
    have k1 : (deleteStep cx (sem cx m) q .str).1.references = q.references := by
      simp only [deleteStep, deleteStr]
      split
      · rfl
      · split <;> exact str_for k hd
    rw [C74_delete_tables hf hr hh h (given_kept k hne) e, k1]
    exact sources_same k ho

/-- C78 in full: what the server answers after any calls on a SELECT, whatever the sources, columns, keys and conditions
are made of. -/
theorem C78_everything (hf : Fits cx d) (hr : RefsSeen cx d ref) (hh : ConditionsSeen cx d sv holds) (sort : Sorter V)
    (gr : Grouper V) {n m : Nat} {ops : List SelectOp} (hk : ∀ op ∈ ops, NoFile op)
    (hn : NoneRaise (selectStep cx (sem cx n)) {} ops)
    {calls : List SourceCall} (h0 : List.Forall₂ SelectSources ops calls) (hne : sourcesGiven calls ≠ [])
    (hd : SourcesDiffer cx (sourcesGiven calls)) (hoe : EqualOnsAgree cx n holds (sourcesGiven calls))
    {cols : List (List (Obj × Obj))} (h1 : List.Forall₂ ColumnNames ops cols)
    {conds : List (List Cond)} (h2 : List.Forall₂ WhereGives ops conds) (h2e : EqualsAgree cx n holds conds.flatten)
    {havings : List (List Cond)} (h3 : List.Forall₂ HavingGives ops havings)
    (h3e : EqualsAgree cx n holds havings.flatten)
    {orders : List (List Use)} (h4 : List.Forall₂ (OrderGives cx) ops orders)
    {groups : List (List Use)} (h5 : List.Forall₂ (GroupGives cx) ops groups)
    (hl : ∀ i, latest saysLimit ops = some (some i) → 0 ≤ i)
    (ho : ∀ i, latest saysOffset ops = some (some i) → 0 ≤ i) {t : Str}
    (h : NoRaw cx.backend.quote .stmt (.select (runOps (selectStep cx (sem cx n)) {} ops)))
    (e : (sem cx m).str (.select (runOps (selectStep cx (sem cx n)) {} ops)) = .ok t) :
    ∃ (shown : List (Obj × Obj)) (keys by_ : List Use),
      KeptBy (EqualColumns cx n) cols.flatten shown ∧ KeysBy (TakenEqual cx n) orders.flatten keys ∧
      KeysBy (TakenEqual cx n) groups.flatten by_ ∧
      groupedAnswer sv sort gr (lex d t) (fromRows sv src) =
        some (answerComposed sort gr ref holds shown keys by_ conds.flatten havings.flatten
          ((latest saysMerge ops).getD false) ((latest saysLimit ops).getD none) ((latest saysOffset ops).getD none)
          (sourcesWritten src ref holds (sourcesGiven calls))) := by
  obtain ⟨shown, keys, by_, r1, r2, r3, r4⟩ := C78_answer hf hr hh sort gr hk hn h1 h2 h2e h3 h3e h4 h5 hl ho h e
  refine ⟨shown, keys, by_, r1, r2, r3, ?_⟩
  rw [r4, C78_sources (src := src) hf hr hh hn h0 hne hd hoe h e]

/-- C79 for UPDATE in full: which combined rows of the tables given are changed, and how. -/
theorem C79_update_everything (hf : Fits cx d) (hr : RefsSeen cx d ref) (hv : LiteralsSeen cx d lit)
    (hh : ConditionsSeen cx d sv holds) (ch : Changer V) {n m : Nat} {ops : List UpdateOp}
    (hn : NoneRaise (updateStep cx (sem cx n)) {} ops)
    {calls : List SourceCall} (h0 : List.Forall₂ UpdateSources ops calls) (hl : sourcesGiven calls ≠ [])
    (hd : SourcesDiffer cx (sourcesGiven calls)) (hoe : EqualOnsAgree cx n holds (sourcesGiven calls))
    {sets : List (List (Obj × Obj))} (h1 : List.Forall₂ SetPairs ops sets) (hne : sets.flatten ≠ [])
    {conds : List (List Cond)} (h2 : List.Forall₂ UpdateGives ops conds) (h2e : EqualsAgree cx n holds conds.flatten)
    {t : Str} (h : NoRaw cx.backend.quote .stmt (.update (runOps (updateStep cx (sem cx n)) {} ops)))
    (e : (sem cx m).str (.update (runOps (updateStep cx (sem cx n)) {} ops)) = .ok t) :
    ∃ kept, KeptBy (EqualColumns cx n) sets.flatten kept ∧
      carryOutUpdates sv src ch (lex d t) = ch.update
        ((sourcesWritten src ref holds (sourcesGiven calls)).filter (allHold holds conds.flatten))
        (kept.map fun p => (ref p.1, sv.literal (lit p.2))) := by
  obtain ⟨kept, r1, r2⟩ := C79_update hf hr hv hh ch hn h1 hne h2 h2e h e
  exact ⟨kept, r1, by rw [r2, C79_update_sources (src := src) hf hr hh hn h0 hl hd hoe h e]⟩

/-- C79 for DELETE in full: which combined rows of the tables given are deleted, and from which tables. -/
theorem C79_delete_everything (hf : Fits cx d) (hr : RefsSeen cx d ref) (hh : ConditionsSeen cx d sv holds)
    (ch : Changer V) {n m : Nat} {ops : List DeleteOp} (hn : NoneRaise (deleteStep cx (sem cx (n + 1))) {} ops)
    {calls : List SourceCall} (h0 : List.Forall₂ DeleteSources ops calls) (hl : sourcesGiven calls ≠ [])
    (hd : SourcesDiffer cx (sourcesGiven calls)) (hoe : EqualOnsAgree cx (n + 1) holds (sourcesGiven calls))
    {targets : List (List (Obj × Obj))} (h1 : List.Forall₂ TargetNames ops targets)
    (h1e : ∀ ps ∈ targets, ∀ p ∈ ps, ExactTable p)
    {conds : List (List Cond)} (h2 : List.Forall₂ DeleteGives ops conds)
    (h2e : EqualsAgree cx (n + 1) holds conds.flatten)
    {t : Str} (h : NoRaw cx.backend.quote .stmt (.delete (runOps (deleteStep cx (sem cx (n + 1))) {} ops)))
    (e : (sem cx m).str (.delete (runOps (deleteStep cx (sem cx (n + 1))) {} ops)) = .ok t) :
    ∃ kept, FirstUses targets.flatten kept ∧
      carryOutDeletes sv src ch (lex d t) = ch.delete
        ((sourcesWritten src ref holds (sourcesGiven calls)).filter (allHold holds conds.flatten))
        (kept.map fun p => withAlias ref p.1 p.2) := by
  obtain ⟨kept, r1, r2⟩ := C79_delete hf hr hh ch hn h1 h1e h2 h2e h e
  exact ⟨kept, r1, by rw [r2, C79_delete_sources (src := src) hf hr hh hn h0 hl hd hoe h e]⟩

end

/-! ### The hypotheses are met -/

/-- `SELECT "k", COUNT(*) AS "n" FROM "t" GROUP BY "k"`. -/
private def counts : Select :=
  { columns := [⟨.str L!"k", .none⟩, ⟨.func .count false (.str L!"*"), .str L!"n"⟩], tables := [⟨.str L!"t", .none, []⟩],
    groupBy := [⟨.str L!"k", false⟩] }

/-- `SELECT MAX("b") AS "b" FROM "v"`. -/
private def top : Select :=
  { columns := [⟨.func .max false (.str L!"b"), .str L!"b"⟩], tables := [⟨.str L!"v", .none, []⟩] }

/-- `Q(k=1) | Q(n=2)` and `Q(k=3)`. -/
private def choice : Obj := .cofc (.conds [.cond false (.str L!"k") .eq (.int 1)])
  (.conds [.cond false (.str L!"n") .eq (.int 2)]) .or
private def only : Obj := .conds [.cond false (.str L!"k") .eq (.int 3)]

/-- Queries as tables and as joined tables, conditions of every kind, one of them twice, a text made in between. -/
private def history2 : List SelectOp :=
  [.fromTable (.select counts) (.str L!"u"), .join .left (.tuple [.select top, .str L!"g"]), .on { pos := [choice] },
    .str, .on { pos := [.str L!"g.b", .str L!"u.n"] }, .on { pos := [.str L!"g.b", .str L!"u.n"] },
    .join .inner (.str L!"w"), .on { pos := [choice, only] }, .where_ { pos := [choice] }, .from_ { pos := [.str L!"z"] }]

private def calls2 : List SourceCall :=
  [.tables [(.select counts, .str L!"u")], .join .left (.select top) (.str L!"g"), .on [.item choice], .other,
    .on [joinCondOf (.str L!"g.b") (.str L!"u.n")], .on [joinCondOf (.str L!"g.b") (.str L!"u.n")],
    .join .inner (.str L!"w") .none, .on [.item choice, .item only], .other, .tables [(.str L!"z", .none)]]

private def text2 : Str :=
  L!"SELECT * FROM (SELECT \"k\", COUNT(*) AS \"n\" FROM \"t\" GROUP BY \"k\") AS \"u\" LEFT JOIN " ++
  L!"(SELECT MAX(\"b\") AS \"b\" FROM \"v\") AS \"g\" ON (\"k\" = 1 OR \"n\" = 2) AND \"g\".\"b\" = \"u\".\"n\" " ++
  L!"JOIN \"w\" ON (\"k\" = 1 OR \"n\" = 2) AND \"k\" = 3, \"z\" WHERE (\"k\" = 1 OR \"n\" = 2)"

private def sources2 : List Table :=
  [⟨.select counts, .str L!"u",
      [⟨.left, .select top, .str L!"g", [.item choice, joinCondOf (.str L!"g.b") (.str L!"u.n"),
        joinCondOf (.str L!"g.b") (.str L!"u.n")]⟩,
       ⟨.inner, .str L!"w", .none, [.item choice, .item only]⟩]⟩,
    ⟨.str L!"z", .none, []⟩]

example : (sem cx0 8).str (.select (runOps (selectStep cx0 (sem cx0 8)) {} history2)) = .ok text2 := by decide +kernel

example : sourcesGiven calls2 = sources2 := rfl

private theorem noneRaise_nil {σ ω : Type} (step : σ → ω → Upd σ) (s : σ) : NoneRaise step s [] := by
  intro b o a e
  cases b <;> cases e

private theorem noneRaise_cons {σ ω : Type} {step : σ → ω → Upd σ} {s : σ} {o : ω} {ops : List ω}
    (h : (step s o).2 = none) (hr : NoneRaise step (step s o).1 ops) : NoneRaise step s (o :: ops) := by
  intro b o' a e
  cases b with
  | nil => cases e; exact h
  | cons b0 b => cases e; exact hr b o' a rfl

example : NoneRaise (selectStep cx0 (sem cx0 8)) {} history2 := by
  iterate 10 refine noneRaise_cons rfl ?_
  exact noneRaise_nil _ _

example : NoRaw cx0.backend.quote .stmt (.select (runOps (selectStep cx0 (sem cx0 8)) {} history2)) :=
  ⟨8, by decide +kernel⟩

private theorem pair2 : GivesJoinConditions { pos := [.str L!"g.b", .str L!"u.n"] }
    [joinCondOf (.str L!"g.b") (.str L!"u.n")] :=
  .pairs (.usual (ps := [(.str L!"g.b", .str L!"u.n")]) (.direct _ (by rintro _ ⟨⟩)) ⟨[], .nil, .nil, rfl⟩
      (by simp [KwFree])) (by simp [IsCondition]) (by simp)

example : List.Forall₂ SelectSources history2 calls2 := by
  refine .cons .fromTable (.cons (.join (.tuple _ _)) (.cons (.on (.object rfl)) (.cons .str (.cons (.on pair2)
    (.cons (.on pair2) (.cons (.join (.name _)) (.cons (.on (.objects ?_)) (.cons (.other trivial)
    (.cons (.from_ ⟨?_, ?_⟩) .nil)))))))))
  · intro x hx
    simp only [List.mem_cons, List.not_mem_nil, or_false] at hx
    rcases hx with rfl | rfl
    · exact isConds_iff.mp rfl
    · exact isConds_iff.mp rfl
  · exact .usual (ps := [(.str L!"z", .none)]) (by rintro _ ⟨⟩) (.cons (.name (by rintro _ ⟨⟩)) .nil)
      ⟨[], .nil, .nil, rfl⟩ (by simp [KwFree])
  · simp [Obj.truthy]

private theorem not_equal2 {cx : Ctx} {p p' : Obj × Obj} {k : Nat}
    (h : (sem cx k).eq p.1 p'.1 = .ok false ∨ (sem cx k).eq p.2 p'.2 = .ok false) : NotTakenEqual cx p p' := by
  intro n hn
  have no : ∀ {a b : Obj}, (sem cx k).eq a b = .ok false → (sem cx n).eq a b = .ok true → False := by
    intro a b h1 h2
    have e1 := ((sem_le cx (le_max_left k n)).eq a b).ok h1
    have e2 := ((sem_le cx (le_max_right k n)).eq a b).ok h2
    rw [e1] at e2
    cases e2
  rcases h with h | h
  · exact no h hn.1
  · exact no h hn.2

example : SourcesDiffer cx0 sources2 := by
  constructor
  · refine .cons ?_ (.cons (by simp) .nil)
    intro p hp
    rw [List.mem_singleton.mp hp]
    exact not_equal2 (k := 8) (.inr (by decide +kernel))
  · intro t ht
    simp only [sources2, List.mem_cons, List.not_mem_nil, or_false] at ht
    rcases ht with rfl | rfl
    · refine .cons ?_ (.cons (by simp) .nil)
      intro p hp
      rw [List.mem_singleton.mp hp]
      exact not_equal2 (k := 8) (.inr (by decide +kernel))
    · exact .nil

/-- Of these conditions only equal ones are taken for equal. -/
example {V : Type} (holds : Tuple V → Obj → Tri) : EqualOnsAgree cx0 8 holds sources2 := by
  have no : ∀ (row : Tuple V) (a b : Obj), (sem cx0 9).eq a b = .ok false → (sem cx0 (8 + 1)).eq a b = .ok true →
      holds row a = holds row b := fun row a b h1 h2 => by rw [h1] at h2; cases h2
  intro t ht j hj c hc c' hc' e row
  simp only [sources2, List.mem_cons, List.not_mem_nil, or_false] at ht
  rcases ht with rfl | rfl
  · simp only [List.mem_cons, List.not_mem_nil, or_false] at hj
    rcases hj with rfl | rfl
    · simp only [List.mem_cons, List.not_mem_nil, or_false] at hc hc'
      rcases hc with rfl | rfl | rfl <;> rcases hc' with rfl | rfl | rfl <;>
        first
        | rfl
        | exact no _ _ _ (by decide +kernel) e
    · simp only [List.mem_cons, List.not_mem_nil, or_false] at hc hc'
      rcases hc with rfl | rfl <;> rcases hc' with rfl | rfl <;>
        first
        | rfl
        | exact no _ _ _ (by decide +kernel) e
  · cases hj

private def update2 : List UpdateOp :=
  [.table (.str L!"t"), .leftJoin (.tuple [.select top, .str L!"g"]), .on { pos := [choice] }, .set { kw := [(L!"a", .int 1)] },
    .where_ { pos := [choice] }]

example : List.Forall₂ UpdateSources update2 [.tables [(.str L!"t", .none)], .join .left (.select top) (.str L!"g"),
    .on [.item choice], .other, .other] := by
  refine .cons (.table ⟨?_, ?_⟩) (.cons (.leftJoin (.tuple _ _)) (.cons (.on (.object rfl)) (.cons (.other trivial)
    (.cons (.other trivial) .nil))))
  · exact .usual (ps := [(.str L!"t", .none)]) (by rintro _ ⟨⟩) (.cons (.name (by rintro _ ⟨⟩)) .nil)
      ⟨[], .nil, .nil, rfl⟩ (by simp [KwFree])
  · simp [Obj.truthy]

example : (sem cx0 8).str (.update (runOps (updateStep cx0 (sem cx0 8)) {} update2)) = .ok
    (L!"UPDATE \"t\" LEFT JOIN (SELECT MAX(\"b\") AS \"b\" FROM \"v\") AS \"g\" ON (\"k\" = 1 OR \"n\" = 2) " ++
      L!"SET \"a\" = 1 WHERE (\"k\" = 1 OR \"n\" = 2)") := by decide +kernel

private def delete2 : List DeleteOp :=
  [.delete [.str L!"t"], .fromTable (.str L!"t") .none, .rightJoin (.list [.select top, .str L!"g"]), .on { pos := [only] },
    .where_ { pos := [choice] }]

example : List.Forall₂ DeleteSources delete2 [.other, .tables [(.str L!"t", .none)],
    .join .right (.select top) (.str L!"g"), .on [.item only], .other] :=
  .cons (.other trivial) (.cons .fromTable (.cons (.rightJoin (.list _ _)) (.cons (.on (.object rfl)) (.cons (.other trivial)
    .nil))))

example : (sem cx0 8).str (.delete (runOps (deleteStep cx0 (sem cx0 8)) {} delete2)) = .ok
    (L!"DELETE \"t\" FROM \"t\" RIGHT JOIN (SELECT MAX(\"b\") AS \"b\" FROM \"v\") AS \"g\" ON \"k\" = 3 " ++
      L!"WHERE (\"k\" = 1 OR \"n\" = 2)") := by decide +kernel

end SqlPuzzle
