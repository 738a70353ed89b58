import Verif.Proofs.ComposedChanges
import Verif.Props.Changes
import Verif.Props.Chosen
import Verif.Props.NestedAnswers

/-!
C79: what any calls on an UPDATE or DELETE tell the server to change, whatever values and conditions are made of.
-/

namespace SqlPuzzle

open Spec

private def cx0 : Ctx := ⟨.sql, ⟨id, id, fun _ => true, fun _ => [], fun _ => []⟩⟩

section
variable {cx : Ctx} {d : Dialect} {ref lit : Obj → List Tok} {V : Type} {sv : Server V} {src : Sources V}
  {holds : Tuple V → Obj → Tri}

/-- C79. Any calls on an UPDATE, none of which raises, in any order and notation; values and the operands of conditions may
be queries, functions and what else the library accepts, to any depth, but not custom SQL.  The server is told to change
those combined rows of the tables in which every condition given to `where` holds, and no others; and is told each
assignment given, in order, without those `==` takes for equal to one that is kept. -/
theorem C79_update (hf : Fits cx d) (hr : RefsSeen cx d ref) (hv : LiteralsSeen cx d lit)
    (hh : ConditionsSeen cx d sv holds) (ch : Changer V) {n m : Nat} {ops : List UpdateOp}
    (hn : NoneRaise (updateStep cx (sem cx n)) {} ops)
    {sets : List (List (Obj × Obj))} (h1 : List.Forall₂ SetPairs ops sets) (hne : sets.flatten ≠ [])
    {conds : List (List Cond)} (h2 : List.Forall₂ UpdateGives ops conds) (h2e : EqualsAgree cx n holds conds.flatten)
    {t : Str} (h : NoRaw cx.backend.quote .stmt (.update (runOps (updateStep cx (sem cx n)) {} ops)))
    (e : (sem cx m).str (.update (runOps (updateStep cx (sem cx n)) {} ops)) = .ok t) :
    ∃ kept, KeptBy (EqualColumns cx n) sets.flatten kept ∧
      ∀ src : Sources V, carryOutUpdates sv src ch (lex d t) = ch.update
        ((fromRows sv src (updatedTable (lex d t))).filter (allHold holds conds.flatten))
        (kept.map fun p => (ref p.1, sv.literal (lit p.2))) := by
  obtain ⟨kept, k1, k2⟩ := values_history h1 hn
  have w := fun row => C76_update hf hh h2 hn h2e h e row
  refine ⟨kept, k2, fun src => ?_⟩
  generalize runOps (updateStep cx (sem cx n)) {} ops = q at *
  unfold carryOutUpdates rowsUpdated
  rw [funext w]
  congr 1
  rw [assignments_written hf hr hv h (by rw [k1]; simpa using KeptBy.ne_nil k2 hne) e, k1]
  unfold assignmentsWritten
  rw [List.filterMap_map]
  exact List.filterMap_eq_map' (f := fun p : Obj × Obj => (ref p.1, sv.literal (lit p.2))) ▸ rfl

/-- C79 for UPDATE, if the tables are listed and joined by name (C71). -/
theorem C79_update_named (hf : Fits cx d) (hr : RefsSeen cx d ref) (hv : LiteralsSeen cx d lit)
    (hh : ConditionsSeen cx d sv holds) (ch : Changer V) {column : Str → List Tok} (hc : NamesSeen cx d column)
    (hm : MirrorsAgree sv) {n m : Nat} {ops : List UpdateOp} (hn : NoneRaise (updateStep cx (sem cx (n + 2))) {} ops)
    {es : List TableEvent} (h0 : List.Forall₂ (UpdateEvent cx) ops es) (hl : listedTables es ≠ [])
    (hd : (listedTables es).Nodup) (hj : DistinctJoins es)
    {sets : List (List (Obj × Obj))} (h1 : List.Forall₂ SetPairs ops sets) (hne : sets.flatten ≠ [])
    {conds : List (List Cond)} (h2 : List.Forall₂ UpdateGives ops conds)
    (h2e : EqualsAgree cx (n + 2) holds conds.flatten)
    {t : Str} (h : NoRaw cx.backend.quote .stmt (.update (runOps (updateStep cx (sem cx (n + 2))) {} ops)))
    (e : (sem cx m).str (.update (runOps (updateStep cx (sem cx (n + 2))) {} ops)) = .ok t) :
    ∃ kept, KeptBy (EqualColumns cx (n + 2)) sets.flatten kept ∧
      carryOutUpdates sv src ch (lex d t) = ch.update
        ((sourcesSeen src column holds (tablesAsked es)).filter (allHold holds conds.flatten))
        (kept.map fun p => (ref p.1, sv.literal (lit p.2))) := by
  obtain ⟨kept, r1, r2⟩ := C79_update hf hr hv hh ch hn h1 hne h2 h2e h e
  exact ⟨kept, r1, by rw [r2, C71_update_partial (src := src) hf hc hh hm h0 hl hd hj h e]⟩

/-- C79. Any calls on a DELETE, none of which raises; the tables whose rows are to be deleted are given by name, with or
without an alias, everything else is as for an UPDATE.  The server is told to delete what makes up those combined rows of
the tables in which every condition given to `where` holds, and no others, from the tables named, each once. -/
theorem C79_delete (hf : Fits cx d) (hr : RefsSeen cx d ref) (hh : ConditionsSeen cx d sv holds) (ch : Changer V)
    {n m : Nat} {ops : List DeleteOp} (hn : NoneRaise (deleteStep cx (sem cx (n + 1))) {} ops)
    {targets : List (List (Obj × Obj))} (h1 : List.Forall₂ TargetNames ops targets)
    (h1e : ∀ ps ∈ targets, ∀ p ∈ ps, ExactTable p)
    {conds : List (List Cond)} (h2 : List.Forall₂ DeleteGives ops conds)
    (h2e : EqualsAgree cx (n + 1) holds conds.flatten)
    {t : Str} (h : NoRaw cx.backend.quote .stmt (.delete (runOps (deleteStep cx (sem cx (n + 1))) {} ops)))
    (e : (sem cx m).str (.delete (runOps (deleteStep cx (sem cx (n + 1))) {} ops)) = .ok t) :
    ∃ kept, FirstUses targets.flatten kept ∧
      ∀ src : Sources V, carryOutDeletes sv src ch (lex d t) = ch.delete
        ((fromRows sv src (clauseBody deleteClauses L!"FROM" (lex d t))).filter (allHold holds conds.flatten))
        (kept.map fun p => withAlias ref p.1 p.2) := by
  have k1 := targets_kept cx n h1 h1e
  have w := fun row => C76_delete hf hh h2 hn h2e h e row
  generalize runOps (deleteStep cx (sem cx (n + 1))) {} ops = q at *
  have k3 : FirstUses targets.flatten (q.tables.map fun t => (t.name, t.alias)) := by
    have := k1.map_on (g := fun t : Table => (t.name, t.alias)) (by
      intro a ha b hb e
      obtain ⟨p, _, rfl⟩ := List.mem_map.mp ha
      obtain ⟨p', _, rfl⟩ := List.mem_map.mp hb
      have e : p = p' := e
      rw [e])
    rw [List.map_map] at this
    have e : ((fun t : Table => (t.name, t.alias)) ∘ fun p : Obj × Obj => (⟨p.1, p.2, []⟩ : Table)) = id := rfl
    rwa [e, List.map_id] at this
  refine ⟨_, k3, fun src => ?_⟩
  have hj : ∀ b ∈ q.tables, b.joins = [] := by
    intro b hb
    obtain ⟨p, _, rfl⟩ := List.mem_map.mp ((k1.mem_iff b).mp hb)
    rfl
  unfold carryOutDeletes rowsDeleted
  rw [funext w, C74_delete_targets hf hr h hj e, List.map_map]
  rfl

/-- C79 for DELETE, if the tables after FROM are listed and joined by name (C71). -/
theorem C79_delete_named (hf : Fits cx d) (hr : RefsSeen cx d ref) (hh : ConditionsSeen cx d sv holds) (ch : Changer V)
    {column : Str → List Tok} (hc : NamesSeen cx d column) (hm : MirrorsAgree sv)
    {n m : Nat} {ops : List DeleteOp} (hn : NoneRaise (deleteStep cx (sem cx (n + 2))) {} ops)
    {es : List TableEvent} (h0 : List.Forall₂ (DeleteEvent cx) ops es) (hl : listedTables es ≠ [])
    (hd : (listedTables es).Nodup) (hj : DistinctJoins es)
    {targets : List (List (Obj × Obj))} (h1 : List.Forall₂ TargetNames ops targets)
    (h1e : ∀ ps ∈ targets, ∀ p ∈ ps, ExactTable p)
    {conds : List (List Cond)} (h2 : List.Forall₂ DeleteGives ops conds)
    (h2e : EqualsAgree cx (n + 2) holds conds.flatten)
    {t : Str} (h : NoRaw cx.backend.quote .stmt (.delete (runOps (deleteStep cx (sem cx (n + 2))) {} ops)))
    (e : (sem cx m).str (.delete (runOps (deleteStep cx (sem cx (n + 2))) {} ops)) = .ok t) :
    ∃ kept, FirstUses targets.flatten kept ∧
      carryOutDeletes sv src ch (lex d t) = ch.delete
        ((sourcesSeen src column holds (tablesAsked es)).filter (allHold holds conds.flatten))
        (kept.map fun p => withAlias ref p.1 p.2) := by
  obtain ⟨kept, r1, r2⟩ := C79_delete (n := n + 1) hf hr hh ch hn h1 h1e h2 h2e h e
  exact ⟨kept, r1, by rw [r2, C71_delete_partial (src := src) hf hc hh hm h0 hl hd hj h e]⟩

end

/-! ### The hypotheses are met -/

private theorem noneRaise_nil {σ ω : Type} (step : σ → ω → Upd σ) (s : σ) : NoneRaise step s [] := by
  intro b o a e
  cases b <;> cases e

private theorem noneRaise_cons {σ ω : Type} {step : σ → ω → Upd σ} {s : σ} {o : ω} {ops : List ω}
    (h : (step s o).2 = none) (hr : NoneRaise step (step s o).1 ops) : NoneRaise step s (o :: ops) := by
  intro b o' a e
  cases b with
  | nil => cases e; exact h
  | cons b0 b => cases e; exact hr b o' a rfl

/-- `SELECT MAX("b") FROM "v"`. -/
private def most : Select :=
  { columns := [⟨.func .max false (.str L!"b"), .none⟩], tables := [⟨.str L!"v", .none, []⟩] }

/-- `Q(k=1) | Q(n=(SELECT ...))`. -/
private def either2 : Obj := .cofc (.conds [.cond false (.str L!"k") .eq (.int 1)])
  (.conds [.cond false (.str L!"n") .eq (.select most)]) .or

/-- `update('t').set('a', SELECT ...).set('b', 'x').set('b', 'x').where(Q | Q).where('n', GT(2))`. -/
private def update2 : List UpdateOp :=
  [.table (.str L!"t"), .set { pos := [.str L!"a", .select most] }, .set { pos := [.str L!"b", .str L!"x"] },
    .set { pos := [.str L!"b", .str L!"x"] }, .where_ { pos := [either2] },
    .where_ { pos := [.str L!"n", .rel .gt (.int 2)] }]

private def conds2 : List (List Cond) :=
  [[], [], [], [], [.item either2], [condOf (.str L!"n") (.rel .gt (.int 2))]]

private def text2 : Str :=
  L!"UPDATE \"t\" SET \"a\" = (SELECT MAX(\"b\") FROM \"v\"), \"b\" = 'x' " ++
  L!"WHERE (\"k\" = 1 OR \"n\" = (SELECT MAX(\"b\") FROM \"v\")) AND \"n\" > 2"

private theorem given2 : GivesConditions { pos := [.str L!"n", .rel .gt (.int 2)] }
    [condOf (.str L!"n") (.rel .gt (.int 2))] :=
  .pairs (.usual (ps := [(.str L!"n", .rel .gt (.int 2))]) (.direct _ (by rintro _ ⟨⟩)) ⟨[], .nil, .nil, rfl⟩
    (by simp [KwFree])) (by simp [IsCondition]) (by simp)

private theorem set2 (s : Str) (x : Obj) :
    SetPairs (.set { pos := [.str s, x] }) [(.str s, x)] :=
  .usual (ps := [(.str s, x)]) (.direct _ (by rintro _ ⟨⟩)) ⟨[], .nil, .nil, rfl⟩ (by simp [KwFree])

private theorem named2 (s : Str) (h : s ≠ []) : ListsTables { pos := [.str s] } [(.str s, .none)] := by
  refine ⟨.usual (ps := [(.str s, .none)]) (by rintro _ ⟨⟩) (.cons (.name (by rintro _ ⟨⟩)) .nil)
    ⟨[], .nil, .nil, rfl⟩ (by simp [KwFree]), by simp, ?_⟩
  intro p hp
  cases List.mem_singleton.mp hp
  exact ⟨⟨_, h, rfl⟩, .inl rfl⟩

example : NoneRaise (updateStep cx0 (sem cx0 8)) {} update2 ∧
    List.Forall₂ (UpdateEvent cx0) update2 [.tables [(.str L!"t", .none)], .other, .other, .other, .other, .other] ∧
    List.Forall₂ SetPairs update2
      [[], [(.str L!"a", .select most)], [(.str L!"b", .str L!"x")], [(.str L!"b", .str L!"x")], [], []] ∧
    List.Forall₂ UpdateGives update2 conds2 ∧
    NoRaw cx0.backend.quote .stmt (.update (runOps (updateStep cx0 (sem cx0 8)) {} update2)) ∧
    (sem cx0 9).str (.update (runOps (updateStep cx0 (sem cx0 8)) {} update2)) = .ok text2 := by
  refine ⟨?_, .cons (.table (named2 _ (by decide))) (.cons (.other trivial) (.cons (.other trivial) (.cons (.other trivial)
      (.cons (.other trivial) (.cons (.other trivial) .nil))))),
    .cons rfl (.cons (set2 _ _) (.cons (set2 _ _) (.cons (set2 _ _)
      (.cons rfl (.cons rfl .nil))))),
    .cons rfl (.cons rfl (.cons rfl (.cons rfl (.cons (.object rfl) (.cons given2 .nil))))),
    ⟨8, by decide +kernel⟩, by decide +kernel⟩
  iterate 6 refine noneRaise_cons rfl ?_
  exact noneRaise_nil _ _

/-- Of these conditions only equal ones are taken for equal. -/
example {R : Type} (holds : R → Obj → Tri) : EqualsAgree cx0 8 holds conds2.flatten := by
  intro c hc c' hc' e row
  simp only [conds2, List.flatten_cons, List.flatten_nil, List.nil_append, List.cons_append, List.append_nil,
    List.mem_cons, List.not_mem_nil, or_false] at hc hc'
  have no : ∀ a b : Obj, (sem cx0 9).eq a b = .ok false → (sem cx0 (8 + 1)).eq a b = .ok true →
      holds row a = holds row b := fun a b h1 h2 => by rw [h1] at h2; cases h2
  rcases hc with rfl | rfl <;> rcases hc' with rfl | rfl <;>
    first
    | rfl
    | exact no _ _ (by decide +kernel) e

/-- `delete('t').from_('t').where(Q | Q).where('n', GT(2))`. -/
private def delete2 : List DeleteOp :=
  [.delete [.str L!"t"], .from_ { pos := [.str L!"t"] }, .where_ { pos := [either2] },
    .where_ { pos := [.str L!"n", .rel .gt (.int 2)] }]

example : NoneRaise (deleteStep cx0 (sem cx0 8)) {} delete2 ∧
    List.Forall₂ (DeleteEvent cx0) delete2 [.other, .tables [(.str L!"t", .none)], .other, .other] ∧
    List.Forall₂ TargetNames delete2 [[(.str L!"t", .none)], [], [], []] ∧ ExactTable (.str L!"t", .none) ∧
    List.Forall₂ DeleteGives delete2
      [[], [], [.item either2], [condOf (.str L!"n") (.rel .gt (.int 2))]] ∧
    NoRaw cx0.backend.quote .stmt (.delete (runOps (deleteStep cx0 (sem cx0 8)) {} delete2)) ∧
    (sem cx0 9).str (.delete (runOps (deleteStep cx0 (sem cx0 8)) {} delete2)) =
      .ok (L!"DELETE \"t\" FROM \"t\" WHERE (\"k\" = 1 OR \"n\" = (SELECT MAX(\"b\") FROM \"v\")) AND \"n\" > 2") := by
  refine ⟨?_, .cons (.other trivial) (.cons (.from_ (named2 _ (by decide))) (.cons (.other trivial)
      (.cons (.other trivial) .nil))),
    .cons ⟨(named2 L!"t" (by decide)).1, by simp⟩ (.cons rfl (.cons rfl (.cons rfl .nil))), ⟨⟨_, by decide, rfl⟩, .inl rfl⟩,
    .cons rfl (.cons rfl (.cons (.object rfl) (.cons given2 .nil))), ⟨8, by decide +kernel⟩, by decide +kernel⟩
  iterate 4 refine noneRaise_cons rfl ?_
  exact noneRaise_nil _ _

end SqlPuzzle
