import Verif.Proofs.Accumulate

/-!
C20: conditions accumulate.  C21: columns, tables and assignments accumulate.  C22: ORDER BY and
GROUP BY are insertion-ordered maps.
-/

namespace SqlPuzzle

open Spec

private def cx0 : Ctx := ⟨.sql, ⟨id, id, fun _ => true, fun _ => [], fun _ => []⟩⟩

section
variable (cx : Ctx) (S : Sem)

/-- C20. Whatever calls are made on a SELECT afterwards, also calls that raise, the conditions it
has stay, unchanged and in their places. -/
theorem C20_select_keeps (q : Select) (ops : List SelectOp) :
    q.where_ <+: (runOps (selectStep cx S) q ops).where_ ∧
    q.having <+: (runOps (selectStep cx S) q ops).having :=
  select_keeps cx S q ops

/-- C20 for UPDATE. -/
theorem C20_update_keeps (q : Update) (ops : List UpdateOp) :
    q.where_ <+: (runOps (updateStep cx S) q ops).where_ := by
  refine runOps_prefix (f := UpdateS.where_) (fun q op => ?_) q ops
  cases op with
  | where_ a => exact condsWhere_prefix cx S false q.where_ a
  | str =>
    show q.where_ <+: (updateStr cx S q).1.where_
    unfold updateStr; split <;> exact List.prefix_refl _
  | _ => exact List.prefix_refl _

/-- C20 for DELETE. -/
theorem C20_delete_keeps (q : Delete) (ops : List DeleteOp) :
    q.where_ <+: (runOps (deleteStep cx S) q ops).where_ := by
  refine runOps_prefix (f := DeleteS.where_) (fun q op => ?_) q ops
  cases op with
  | where_ a => exact condsWhere_prefix cx S false q.where_ a
  | str =>
    show q.where_ <+: (deleteStr cx S q).1.where_
    unfold deleteStr; split
    · exact List.prefix_refl _
    · simp only; split <;> exact List.prefix_refl _
  | _ => exact List.prefix_refl _

/-- C20. After a successful `where` every condition given is represented, by itself or by one that
is `==` to it, and stays so whatever calls follow, also calls that raise. -/
theorem C20_represented (n : Nat) (q q' : Select) (a : Args) (given : List (Obj × Obj))
    (hg : GivesPairs a given) (hq : a.pos ≠ [] → ∃ x ∈ a.pos, ¬IsCondition x)
    (h : selectStep cx (sem cx n) q (.where_ a) = (q', none)) (ops : List SelectOp)
    (p : Obj × Obj) (hp : p ∈ given) :
    ∃ c ∈ (runOps (selectStep cx (sem cx n)) q' ops).where_, c = condOf p.1 p.2 ∨
      (sem cx (n + 1)).eq (.conds [c]) (.conds [condOf p.1 p.2]) = .ok true := by
  simp only [selectStep, Upd.map, Prod.mk.injEq] at h
  obtain ⟨c, hc, h1⟩ := condsWhere_represented cx n hg (notAll_of hq) (Prod.ext rfl h.2) hp
  refine ⟨c, (select_keeps cx _ q' ops).1.subset ?_, h1⟩
  rw [← h.1]
  exact hc

/-- C20 for HAVING. -/
theorem C20_having_represented (n : Nat) (q q' : Select) (a : Args) (given : List (Obj × Obj))
    (hg : GivesPairs a given) (hq : a.pos ≠ [] → ∃ x ∈ a.pos, ¬IsCondition x)
    (h : selectStep cx (sem cx n) q (.having a) = (q', none)) (ops : List SelectOp)
    (p : Obj × Obj) (hp : p ∈ given) :
    ∃ c ∈ (runOps (selectStep cx (sem cx n)) q' ops).having, c = condOf p.1 p.2 ∨
      (sem cx (n + 1)).eq (.conds [c]) (.conds [condOf p.1 p.2]) = .ok true := by
  simp only [selectStep, Upd.map, Prod.mk.injEq] at h
  obtain ⟨c, hc, h1⟩ := condsWhere_represented cx n hg (notAll_of hq) (Prod.ext rfl h.2) hp
  refine ⟨c, (select_keeps cx _ q' ops).2.subset ?_, h1⟩
  rw [← h.1]
  exact hc

/-- C20 for UPDATE. -/
theorem C20_update_represented (n : Nat) (q q' : Update) (a : Args) (given : List (Obj × Obj))
    (hg : GivesPairs a given) (hq : a.pos ≠ [] → ∃ x ∈ a.pos, ¬IsCondition x)
    (h : updateStep cx (sem cx n) q (.where_ a) = (q', none)) (ops : List UpdateOp)
    (p : Obj × Obj) (hp : p ∈ given) :
    ∃ c ∈ (runOps (updateStep cx (sem cx n)) q' ops).where_, c = condOf p.1 p.2 ∨
      (sem cx (n + 1)).eq (.conds [c]) (.conds [condOf p.1 p.2]) = .ok true := by
  simp only [updateStep, Upd.map, Prod.mk.injEq] at h
  obtain ⟨c, hc, h1⟩ := condsWhere_represented cx n hg (notAll_of hq) (Prod.ext rfl h.2) hp
  refine ⟨c, (C20_update_keeps cx _ q' ops).subset ?_, h1⟩
  rw [← h.1]
  exact hc

/-- C20 for DELETE. -/
theorem C20_delete_represented (n : Nat) (q q' : Delete) (a : Args) (given : List (Obj × Obj))
    (hg : GivesPairs a given) (hq : a.pos ≠ [] → ∃ x ∈ a.pos, ¬IsCondition x)
    (h : deleteStep cx (sem cx n) q (.where_ a) = (q', none)) (ops : List DeleteOp)
    (p : Obj × Obj) (hp : p ∈ given) :
    ∃ c ∈ (runOps (deleteStep cx (sem cx n)) q' ops).where_, c = condOf p.1 p.2 ∨
      (sem cx (n + 1)).eq (.conds [c]) (.conds [condOf p.1 p.2]) = .ok true := by
  simp only [deleteStep, Upd.map, Prod.mk.injEq] at h
  obtain ⟨c, hc, h1⟩ := condsWhere_represented cx n hg (notAll_of hq) (Prod.ext rfl h.2) hp
  refine ⟨c, (C20_delete_keeps cx _ q' ops).subset ?_, h1⟩
  rw [← h.1]
  exact hc

/-- C20. A query object given alone, or several of them, are in the clause afterwards, whatever
calls follow. -/
theorem C20_object (q : Select) (o : Obj) (ho : o.isSql = true) (ops : List SelectOp) :
    .item o ∈ (runOps (selectStep cx S) (selectStep cx S q (.where_ { pos := [o] })).1 ops).where_ := by
  refine (C20_select_keeps cx S _ ops).1.subset ?_
  have : condsWhere cx S false q.where_ { pos := [o] } = (q.where_ ++ [.item o], none) := by
    simp [condsWhere, kwSelf, customArg, ho]
  simp [selectStep, Upd.map, this]

/-- C20, distinctness: as long as no SQL object is given alone to `where`, no two conditions of the
clause are `==`, whatever calls are made, in whatever order, also calls that raise. -/
theorem C20_distinct_partial (n : Nat) (ops : List SelectOp)
    (ho : ∀ o, SelectOp.where_ { pos := [o] } ∈ ops → o.isSql = false) :
    (runOps (selectStep cx (sem cx n)) {} ops).where_.Pairwise fun a b =>
      (sem cx (n + 1)).eq (.conds [a]) (.conds [b]) = .ok false := by
  simp only [eq_single]
  refine where_distinct cx (sem cx n) {} .nil ops fun a ha => ?_
  unfold customArg
  split
  · rename_i o h1 h2
    have : a = { pos := [o] } := by cases a; simp_all
    rw [this] at ha
    simp [ho o ha]
  · rfl

end

/-! ### Order of first use -/

/-- C20. After any calls whose conditions have exact comparisons, the WHERE clause of a SELECT has
exactly the conditions given, each once, in the order of first use. -/
theorem C20_first_use_partial (cx : Ctx) (n : Nat) (ops : List SelectOp)
    (uses : List (List (Obj × Obj))) (hg : List.Forall₂ WherePairs ops uses)
    (hp : ∀ ps ∈ uses, ∀ p ∈ ps, ExactCond p) :
    FirstUses (uses.flatten.map fun p => condOf p.1 p.2)
      (runOps (selectStep cx (sem cx (n + 2))) {} ops).where_ := by
  refine history_uses (f := SelectS.where_) (P := PlainCond) (E := ExactCond) (Gives := WherePairs)
    ?_ hg hp {} [] .nil (by simp)
  intro q op ps given h he hs hf
  have skip : ∀ q' : Select, q'.where_ = q.where_ → ps = [] →
      FirstUses (given ++ ps.map fun p => condOf p.1 p.2) q'.where_ ∧
        ∀ c ∈ q'.where_, PlainCond c := by
    rintro q' h2 rfl
    rw [h2, List.map_nil, List.append_nil]
    exact ⟨hf, hs⟩
  cases op with
  | where_ a => exact conds_step cx n h he hs hf
  | str =>
    refine skip _ ?_ h
    show (selectStr cx _ q).1.where_ = _
    unfold selectStr; split <;> rfl
  | _ => exact skip _ rfl h

/-- C20 for HAVING. -/
theorem C20_having_partial (cx : Ctx) (n : Nat) (ops : List SelectOp)
    (uses : List (List (Obj × Obj))) (hg : List.Forall₂ HavingPairs ops uses)
    (hp : ∀ ps ∈ uses, ∀ p ∈ ps, ExactCond p) :
    FirstUses (uses.flatten.map fun p => condOf p.1 p.2)
      (runOps (selectStep cx (sem cx (n + 2))) {} ops).having := by
  refine history_uses (f := SelectS.having) (P := PlainCond) (E := ExactCond) (Gives := HavingPairs)
    ?_ hg hp {} [] .nil (by simp)
  intro q op ps given h he hs hf
  have skip : ∀ q' : Select, q'.having = q.having → ps = [] →
      FirstUses (given ++ ps.map fun p => condOf p.1 p.2) q'.having ∧
        ∀ c ∈ q'.having, PlainCond c := by
    rintro q' h2 rfl
    rw [h2, List.map_nil, List.append_nil]
    exact ⟨hf, hs⟩
  cases op with
  | having a => exact conds_step cx n h he hs hf
  | str =>
    refine skip _ ?_ h
    show (selectStr cx _ q).1.having = _
    unfold selectStr; split <;> rfl
  | _ => exact skip _ rfl h

/-- C20 for UPDATE. -/
theorem C20_update_partial (cx : Ctx) (n : Nat) (ops : List UpdateOp)
    (uses : List (List (Obj × Obj))) (hg : List.Forall₂ UpdatePairs ops uses)
    (hp : ∀ ps ∈ uses, ∀ p ∈ ps, ExactCond p) :
    FirstUses (uses.flatten.map fun p => condOf p.1 p.2)
      (runOps (updateStep cx (sem cx (n + 2))) {} ops).where_ := by
  refine history_uses (f := UpdateS.where_) (P := PlainCond) (E := ExactCond) (Gives := UpdatePairs)
    ?_ hg hp {} [] .nil (by simp)
  intro q op ps given h he hs hf
  have skip : ∀ q' : Update, q'.where_ = q.where_ → ps = [] →
      FirstUses (given ++ ps.map fun p => condOf p.1 p.2) q'.where_ ∧
        ∀ c ∈ q'.where_, PlainCond c := by
    rintro q' h2 rfl
    rw [h2, List.map_nil, List.append_nil]
    exact ⟨hf, hs⟩
  cases op with
  | where_ a => exact conds_step cx n h he hs hf
  | str =>
    refine skip _ ?_ h
    show (updateStr cx _ q).1.where_ = _
    unfold updateStr; split <;> rfl
  | _ => exact skip _ rfl h

/-- C20 for DELETE. -/
theorem C20_delete_partial (cx : Ctx) (n : Nat) (ops : List DeleteOp)
    (uses : List (List (Obj × Obj))) (hg : List.Forall₂ DeletePairs ops uses)
    (hp : ∀ ps ∈ uses, ∀ p ∈ ps, ExactCond p) :
    FirstUses (uses.flatten.map fun p => condOf p.1 p.2)
      (runOps (deleteStep cx (sem cx (n + 2))) {} ops).where_ := by
  refine history_uses (f := DeleteS.where_) (P := PlainCond) (E := ExactCond) (Gives := DeletePairs)
    ?_ hg hp {} [] .nil (by simp)
  intro q op ps given h he hs hf
  have skip : ∀ q' : Delete, q'.where_ = q.where_ → ps = [] →
      FirstUses (given ++ ps.map fun p => condOf p.1 p.2) q'.where_ ∧
        ∀ c ∈ q'.where_, PlainCond c := by
    rintro q' h2 rfl
    rw [h2, List.map_nil, List.append_nil]
    exact ⟨hf, hs⟩
  cases op with
  | where_ a => exact conds_step cx n h he hs hf
  | str =>
    refine skip _ ?_ h
    show (deleteStr cx _ q).1.where_ = _
    unfold deleteStr; split
    · rfl
    · simp only; split <;> rfl
  | _ => exact skip _ rfl h

/-- Calls that meet the hypotheses: `where(b=1, a=[2])`, then a column, then `where('b', 1)`. -/
example : List.Forall₂ WherePairs
    [.where_ { kw := [(L!"b", .int 1), (L!"a", .list [.int 2])] }, .columns { pos := [.str L!"x"] },
      .where_ { pos := [.str L!"b", .int 1] }]
    [[(.str L!"a", .list [.int 2]), (.str L!"b", .int 1)], [], [(.str L!"b", .int 1)]] ∧
    ∀ ps ∈ [[(.str L!"a", .list [.int 2]), (.str L!"b", .int 1)], [],
      [((.str L!"b" : Obj), (.int 1 : Obj))]], ∀ p ∈ ps, ExactCond p := by
  refine ⟨.cons ?_ (.cons rfl (.cons ?_ .nil)), ?_⟩
  · exact .usual .nothing ⟨[(L!"a", .list [.int 2]), (L!"b", .int 1)], .swap .., by
      simp only [List.pairwise_cons, List.mem_singleton, forall_eq]
      exact ⟨.here _ _ (by decide), by simp⟩, rfl⟩ (by simp [KwFree])
  · exact .usual (ps := [(.str L!"b", .int 1)]) (.direct _ (by rintro _ ⟨⟩)) ⟨[], .nil, .nil, rfl⟩ (by simp [KwFree])
  · intro ps hps p hp
    simp only [List.mem_cons, List.not_mem_nil, or_false] at hps
    rcases hps with rfl | rfl | rfl
    · simp only [List.mem_cons, List.not_mem_nil, or_false] at hp
      rcases hp with rfl | rfl
      · refine ⟨⟨_, rfl⟩, ?_⟩
        intro x hx
        simp only [List.mem_singleton] at hx
        subst hx
        trivial
      · exact ⟨⟨_, rfl⟩, trivial⟩
    · cases hp
    · simp only [List.mem_singleton] at hp
      subst hp
      exact ⟨⟨_, rfl⟩, trivial⟩

/-- C20, full statement for two calls: the clause has exactly the conditions given, each once, in
the order of first use. -/
def C20_claim : Prop :=
  ∀ (cx : Ctx) (n : Nat) (q1 q2 : Select) (a1 a2 : Args) (ps1 ps2 : List (Obj × Obj)),
    GivesPairs a1 ps1 → GivesPairs a2 ps2 →
    selectStep cx (sem cx n) {} (.where_ a1) = (q1, none) →
    selectStep cx (sem cx n) q1 (.where_ a2) = (q2, none) →
    FirstUses ((ps1 ++ ps2).map fun p => condOf p.1 p.2) q2.where_

/-- C20 is false: `where(a=C('b')).where(a='b')` loses the second condition, because a custom SQL
text is equal to the string. -/
theorem C20_refuted : ¬C20_claim := by
  intro h
  have one : ∀ v : Obj, GivesPairs { kw := [(L!"a", v)] } [(.str L!"a", v)] := fun v =>
    .usual .nothing ⟨[(L!"a", v)], .refl _, by simp, rfl⟩ (by simp [KwFree])
  have h1 := h cx0 2 { where_ := [.cond false (.str L!"a") .eq (.custom L!"b")] }
    { where_ := [.cond false (.str L!"a") .eq (.custom L!"b")] }
    { kw := [(L!"a", .custom L!"b")] } { kw := [(L!"a", .str L!"b")] } _ _ (one _) (one _) rfl rfl
  have h2 := h1.mem_iff (condOf (.str L!"a") (.str L!"b"))
  have h3 := h2.mpr (by simp)
  simp only [List.mem_singleton] at h3
  cases h3

/-- The statement of this history lacks the second condition. -/
theorem C20_refuted_statement :
    (sem cx0 6).str (.select (runOps (selectStep cx0 (sem cx0 4)) {}
      [.from_ { pos := [.str L!"t"] }, .where_ { kw := [(L!"a", .custom L!"b")] },
       .where_ { kw := [(L!"a", .str L!"b")] }])) =
      .ok L!"SELECT * FROM \"t\" WHERE \"a\" = b" := by decide

/-- C20 is also false for single query objects: `where(Q(a=1)).where(Q(a=1))` has the condition
twice. -/
theorem C20_refuted_repeated :
    (sem cx0 6).str (.select (runOps (selectStep cx0 (sem cx0 4)) {}
      [.from_ { pos := [.str L!"t"] },
       .where_ { pos := [.conds [.cond false (.str L!"a") .eq (.int 1)]] },
       .where_ { pos := [.conds [.cond false (.str L!"a") .eq (.int 1)]] }])) =
      .ok L!"SELECT * FROM \"t\" WHERE \"a\" = 1 AND \"a\" = 1" := by decide

/-! ### C21: columns, tables, assignments -/

/-- C21. The columns of a SELECT stay, unchanged and in their places, whatever calls follow. -/
theorem C21_columns_keep (cx : Ctx) (S : Sem) (q : Select) (ops : List SelectOp) :
    q.columns <+: (runOps (selectStep cx S) q ops).columns := by
  refine runOps_prefix (f := SelectS.columns) (fun q op => ?_) q ops
  cases op with
  | columns a => exact columnsAdd_prefix S q.columns a
  | str =>
    show q.columns <+: (selectStr cx S q).1.columns
    unfold selectStr; split <;> exact List.prefix_refl _
  | _ => exact List.prefix_refl _

/-- C21. The assignments of an UPDATE stay, unchanged and in their places. -/
theorem C21_values_keep (cx : Ctx) (S : Sem) (q : Update) (ops : List UpdateOp) :
    q.values <+: (runOps (updateStep cx S) q ops).values := by
  refine runOps_prefix (f := UpdateS.values) (fun q op => ?_) q ops
  cases op with
  | set a => exact valuesSet_prefix cx S q.values a
  | str =>
    show q.values <+: (updateStr cx S q).1.values
    unfold updateStr; split <;> exact List.prefix_refl _
  | _ => exact List.prefix_refl _

/-- C21. The tables of a SELECT stay in their places with their names and aliases, whatever calls
follow; only their joins change. -/
theorem C21_tables_keep (cx : Ctx) (S : Sem) (q : Select) (ops : List SelectOp) :
    tableNames q.tables <+: tableNames (runOps (selectStep cx S) q ops).tables := by
  refine runOps_prefix (f := fun q : Select => tableNames q.tables) (fun q op => ?_) q ops
  cases op with
  | from_ a => exact (tablesSet_prefix cx S q.tables a).map _
  | fromTable t al => exact (tablesSet_prefix cx S q.tables _).map _
  | join ty arg =>
    show tableNames q.tables <+: tableNames (tablesJoin cx S q.tables ty arg).1
    rw [tablesJoin_names]; exact List.prefix_refl _
  | on a =>
    show tableNames q.tables <+: tableNames (tablesOn cx S q.tables a).1
    rw [tablesOn_names]; exact List.prefix_refl _
  | str =>
    show tableNames q.tables <+: tableNames (selectStr cx S q).1.tables
    unfold selectStr
    split
    · exact List.prefix_refl _
    · simp only [strTables_names]; exact List.prefix_refl _
  | _ => exact List.prefix_refl _

/-- C21 for columns. After any calls whose columns have exact comparisons, the column list has
exactly the columns given, each once, in the order of first use. -/
theorem C21_columns_partial (cx : Ctx) (n : Nat) (ops : List SelectOp)
    (uses : List (List (Obj × Obj))) (hg : List.Forall₂ ColumnNames ops uses)
    (hp : ∀ ps ∈ uses, ∀ p ∈ ps, ExactColumn p) :
    FirstUses uses.flatten
      ((runOps (selectStep cx (sem cx (n + 1))) {} ops).columns.map fun c => (c.name, c.alias)) := by
  have h := history_uses (f := SelectS.columns) (P := PlainColumn) (E := ExactColumn)
    (conv := fun p => (⟨p.1, p.2⟩ : Column)) (Gives := ColumnNames)
    (step := selectStep cx (sem cx (n + 1)))
    ?_ hg hp {} [] .nil (by simp)
  · have h2 := h.map_inj (g := fun c : Column => (c.name, c.alias)) fun a b e => by
      cases a; cases b; simp_all
    simpa [Function.comp_def] using h2
  intro q op ps given h he hs hf
  have skip : ∀ q' : Select, q'.columns = q.columns → ps = [] →
      FirstUses (given ++ ps.map fun p => (⟨p.1, p.2⟩ : Column)) q'.columns ∧
        ∀ c ∈ q'.columns, PlainColumn c := by
    rintro q' h2 rfl
    rw [h2, List.map_nil, List.append_nil]
    exact ⟨hf, hs⟩
  cases op with
  | columns a => exact columns_step cx n h he hs hf
  | str =>
    refine skip _ ?_ h
    show (selectStr cx _ q).1.columns = _
    unfold selectStr; split <;> rfl
  | _ => exact skip _ rfl h

/-- C21 for assignments. After any calls whose assignments have exact comparisons, the SET clause
of an UPDATE has exactly the assignments given, each once, in the order of first use. -/
theorem C21_values_partial (cx : Ctx) (n : Nat) (ops : List UpdateOp)
    (uses : List (List (Obj × Obj))) (hg : List.Forall₂ SetPairs ops uses)
    (hp : ∀ ps ∈ uses, ∀ p ∈ ps, ExactAssignment p) :
    FirstUses (uses.flatten.map fun p => (.value p.1 p.2 : Value))
      (runOps (updateStep cx (sem cx (n + 1))) {} ops).values := by
  refine history_uses (f := UpdateS.values) (P := PlainValue) (E := ExactAssignment)
    (Gives := SetPairs) ?_ hg hp {} [] .nil (by simp)
  intro q op ps given h he hs hf
  have skip : ∀ q' : Update, q'.values = q.values → ps = [] →
      FirstUses (given ++ ps.map fun p => (.value p.1 p.2 : Value)) q'.values ∧
        ∀ c ∈ q'.values, PlainValue c := by
    rintro q' h2 rfl
    rw [h2, List.map_nil, List.append_nil]
    exact ⟨hf, hs⟩
  cases op with
  | set a => exact values_step cx n h he hs hf
  | str =>
    refine skip _ ?_ h
    show (updateStr cx _ q).1.values = _
    unfold updateStr; split <;> rfl
  | _ => exact skip _ rfl h

/-- C21 for tables. After any calls without joins that name tables, the table list has exactly the
tables given, each once, in the order of first use. -/
theorem C21_tables_partial (cx : Ctx) (n : Nat) (ops : List SelectOp)
    (uses : List (List (Obj × Obj))) (hg : List.Forall₂ TableNames ops uses)
    (hp : ∀ ps ∈ uses, ∀ p ∈ ps, ExactTable p) :
    FirstUses uses.flatten
      (tableNames (runOps (selectStep cx (sem cx (n + 1))) {} ops).tables) := by
  have h := history_uses (f := SelectS.tables) (P := PlainTable) (E := ExactTable)
    (conv := fun p => (⟨p.1, p.2, []⟩ : Table)) (Gives := TableNames)
    (step := selectStep cx (sem cx (n + 1)))
    ?_ hg hp {} [] .nil (by simp)
  · have h2 := h.map_on (g := fun t : Table => (t.name, t.alias)) fun a ha b hb e => by
      have joins : ∀ t ∈ [] ++ uses.flatten.map fun p => (⟨p.1, p.2, []⟩ : Table), t.joins = [] := by
        intro t ht
        simp only [List.nil_append, List.mem_map] at ht
        obtain ⟨p, _, rfl⟩ := ht
        rfl
      have h3 := joins a ha
      have h4 := joins b hb
      cases a; cases b; simp_all
    simpa [Function.comp_def, tableNames] using h2
  intro q op ps given h he hs hf
  have skip : ∀ q' : Select, q'.tables = q.tables → ps = [] →
      FirstUses (given ++ ps.map fun p => (⟨p.1, p.2, []⟩ : Table)) q'.tables ∧
        ∀ c ∈ q'.tables, PlainTable c := by
    rintro q' h2 rfl
    rw [h2, List.map_nil, List.append_nil]
    exact ⟨hf, hs⟩
  cases op with
  | from_ a => exact tables_step cx n h.2 h.1 he hs hf
  | fromTable t al =>
    obtain rfl : ps = [(t, al)] := h
    exact tables_step cx n fromTable_names (by simp) he hs hf
  | join ty arg => exact h.elim
  | on a => exact h.elim
  | str =>
    refine skip _ ?_ h
    show (selectStr cx _ q).1.tables = _
    unfold selectStr; split
    · rfl
    · exact strTables_plain cx _ hs
  | _ => exact skip _ rfl h

/-- Calls that meet the hypotheses of `C21_columns_partial`. -/
example : List.Forall₂ ColumnNames
    [.columns { pos := [.str L!"b", .tuple [.str L!"a", .str L!"x"]] }, .str]
    [[(.str L!"b", .none), (.str L!"a", .str L!"x")], []] := by
  refine .cons ?_ (.cons rfl .nil)
  exact .usual (ps := [(.str L!"b", .none), (.str L!"a", .str L!"x")]) (by rintro _ ⟨⟩)
    (.cons (.name (by rintro _ ⟨⟩)) (.cons (.pair (.two (.tuple _))) .nil))
    ⟨[], .nil, .nil, rfl⟩ (by simp [KwFree])

/-- Calls that meet the hypotheses of `C21_tables_partial` and of `C21_values_partial`. -/
example : List.Forall₂ TableNames
    [.from_ { kw := [(L!"t", .str L!"x")] }, .str] [[(.str L!"t", .str L!"x")], []] ∧
    List.Forall₂ SetPairs [.set { kw := [(L!"t", .int 1)] }] [[(.str L!"t", .int 1)]] :=
  ⟨.cons ⟨by simp, .usual (ps := []) (by simp) .nil ⟨[(L!"t", .str L!"x")], .refl _, by simp, rfl⟩
      (by simp [KwFree])⟩ (.cons rfl .nil),
    .cons (.usual .nothing ⟨[(L!"t", .int 1)], .refl _, by simp, rfl⟩ (by simp [KwFree])) .nil⟩

/-- C21, full statement for columns and two calls: the list has exactly the columns given, each
once, in the order of first use. -/
def C21_claim : Prop :=
  ∀ (cx : Ctx) (n : Nat) (q1 q2 : Select) (a1 a2 : Args) (ps1 ps2 : List (Obj × Obj)),
    GivesNames a1 ps1 → GivesNames a2 ps2 →
    selectStep cx (sem cx n) {} (.columns a1) = (q1, none) →
    selectStep cx (sem cx n) q1 (.columns a2) = (q2, none) →
    FirstUses (ps1 ++ ps2) (q2.columns.map fun c => (c.name, c.alias))

/-- C21 is false: `select(C('a')).columns('a')` loses the column `a`, because a custom SQL text is
equal to the string. -/
theorem C21_refuted : ¬C21_claim := by
  intro h
  have one : ∀ v : Obj, (∀ xs, ¬IsSeq v xs) → (∀ kvs, v ≠ .dict kvs) →
      GivesNames { pos := [v] } [(v, .none)] := fun v h1 h2 =>
    .usual (ps := [(v, .none)]) (by simpa using h2) (.cons (.name h1) .nil)
      ⟨[], .nil, .nil, rfl⟩ (by simp [KwFree])
  have h1 := h cx0 2 { columns := [⟨.custom L!"a", .none⟩] } { columns := [⟨.custom L!"a", .none⟩] }
    { pos := [.custom L!"a"] } { pos := [.str L!"a"] } _ _ (one _ (by rintro _ ⟨⟩) (by simp))
    (one _ (by rintro _ ⟨⟩) (by simp)) rfl rfl
  have h2 := (h1.mem_iff (.str L!"a", .none)).mpr (by simp)
  simp at h2

/-- The statement of this history lacks the second column. -/
theorem C21_refuted_statement :
    (sem cx0 6).str (.select (runOps (selectStep cx0 (sem cx0 4)) {}
      [.columns { pos := [.custom L!"a"] }, .columns { pos := [.str L!"a"] },
       .from_ { pos := [.str L!"t"] }])) =
      .ok L!"SELECT a FROM \"t\"" := by decide

/-- C21 is also false for tables: a table that has been joined is not recognised any more and is
listed again. -/
theorem C21_refuted_tables :
    tableNames (runOps (selectStep cx0 (sem cx0 2)) {}
      [.from_ { pos := [.str L!"a"] }, .join .inner (.str L!"b"), .from_ { pos := [.str L!"a"] }]).tables =
      [(.str L!"a", .none), (.str L!"a", .none)] := rfl

/-! ### C22: order_by and group_by -/

/-- C22. After any calls with columns given by name or number, ORDER BY has every column once, in
the order of first use, with the direction of its last use. -/
theorem C22_order_by (cx : Ctx) (n : Nat) (ops : List SelectOp) (uss : List (List Use))
    (hg : List.Forall₂ (OrderUses cx) ops uss) :
    let os := (runOps (selectStep cx (sem cx (n + 1))) {} ops).orderBy
    FirstUses (uss.flatten.map Prod.fst) (os.map OrderS.col) ∧
      ∀ o ∈ os, LastValue uss.flatten o.col o.desc := by
  have h := history_orders (f := SelectS.orderBy) (Gives := OrderUses cx)
    (step := selectStep cx (sem cx (n + 1))) ?_ hg {} [] ⟨.nil, by simp, by simp⟩
  · exact ⟨h.first, h.last⟩
  intro q op us uses h1 h
  have skip : ∀ q' : Select, q'.orderBy = q.orderBy → us = [] →
      OrderMap (uses ++ us) q'.orderBy := by
    rintro q' h2 rfl
    rw [h2, List.append_nil]
    exact h
  cases op with
  | orderBy a =>
    obtain ⟨ps, h2, h3⟩ := h1
    exact orders_step cx n h2 h3 h
  | str =>
    refine skip _ ?_ h1
    show (selectStr cx _ q).1.orderBy = _
    unfold selectStr; split <;> rfl
  | _ => exact skip _ rfl h1

/-- The same for GROUP BY. -/
theorem C22_group_by (cx : Ctx) (n : Nat) (ops : List SelectOp) (uss : List (List Use))
    (hg : List.Forall₂ (GroupUses cx) ops uss) :
    let os := (runOps (selectStep cx (sem cx (n + 1))) {} ops).groupBy
    FirstUses (uss.flatten.map Prod.fst) (os.map OrderS.col) ∧
      ∀ o ∈ os, LastValue uss.flatten o.col o.desc := by
  have h := history_orders (f := SelectS.groupBy) (Gives := GroupUses cx)
    (step := selectStep cx (sem cx (n + 1))) ?_ hg {} [] ⟨.nil, by simp, by simp⟩
  · exact ⟨h.first, h.last⟩
  intro q op us uses h1 h
  have skip : ∀ q' : Select, q'.groupBy = q.groupBy → us = [] →
      OrderMap (uses ++ us) q'.groupBy := by
    rintro q' h2 rfl
    rw [h2, List.append_nil]
    exact h
  cases op with
  | groupBy a =>
    obtain ⟨ps, h2, h3⟩ := h1
    exact orders_step cx n h2 h3 h
  | str =>
    refine skip _ ?_ h1
    show (selectStr cx _ q).1.groupBy = _
    unfold selectStr; split <;> rfl
  | _ => exact skip _ rfl h1

/-- C22. Which directions are accepted: `order_by((column, v))` on a new query succeeds exactly if
`v` is a direction, and then it has the column with that direction. -/
theorem C22_direction (cx : Ctx) (n : Nat) (col : Str) (v : Obj) (q : Select) :
    selectStep cx (sem cx n) {} (.orderBy { pos := [.tuple [.str col, v]] }) = (q, none) ↔
      ∃ desc, SortDirection cx v desc ∧ q = { orderBy := [⟨.str col, desc⟩] } := by
  rw [order_single cx (sem cx n) col rfl]
  simp only [← orderSort_iff]
  cases orderSort cx v with
  | ok d =>
    constructor
    · rintro ⟨⟩
      exact ⟨d, rfl, rfl⟩
    · rintro ⟨_, ⟨⟩, rfl⟩
      rfl
  | error e =>
    constructor
    · intro h; cases h
    · rintro ⟨_, ⟨⟩, _⟩

/-- Calls that meet the hypotheses of `C22_order_by`. -/
example : List.Forall₂ (OrderUses cx0)
    [.orderBy { pos := [.str L!"b", .tuple [.str L!"a", .str L!"DESC"]] }]
    [[(.str L!"b", false), (.str L!"a", true)]] := by
  refine .cons ⟨[(.str L!"b", .none), (.str L!"a", .str L!"DESC")], ?_, ?_⟩ .nil
  · exact .usual (ps := [(.str L!"b", .none), (.str L!"a", .str L!"DESC")]) (by rintro _ ⟨⟩)
      (.cons (.name (by rintro _ ⟨⟩)) (.cons (.pair (.two (.tuple _))) .nil))
      ⟨[], .nil, .nil, rfl⟩ (by simp [KwFree])
  · exact .cons ⟨.inl ⟨_, rfl⟩, rfl, .inl ⟨rfl, rfl⟩⟩
      (.cons ⟨.inl ⟨_, rfl⟩, rfl, .inr ⟨_, rfl, .inr ⟨rfl, rfl⟩⟩⟩ .nil)

end SqlPuzzle
