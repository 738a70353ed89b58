import Verif.Proofs.Composed
import Verif.Props.Chosen
import Verif.Props.Groups
import Verif.Props.Written

/-!
C78: what a server answers after any calls on a SELECT, whatever the columns, keys and conditions are made of.
-/

namespace SqlPuzzle

open Spec

private def cx0 : Ctx := ⟨.sql, ⟨id, id, fun _ => true, fun _ => [], fun _ => []⟩⟩

section
variable {cx : Ctx} {d : Dialect} {ref : Obj → List Tok} {V : Type} {sv : Server V} {src : Sources V}
  {holds : Tuple V → Obj → Tri}

private theorem neg_latest {x : Option (Option Int)} (hx : ∀ i, x = some (some i) → 0 ≤ i) :
    ∀ i, x.getD none = some i → 0 ≤ i := by
  intro i hi
  cases x with
  | none => cases hi
  | some y => exact hx i (by rw [show y = some i from hi])

/-- C78. Any calls on a SELECT, none of which raises or writes to a file, in any order and notation; columns, keys, operands
of conditions and aliases may be names, numbers, functions and queries, to any depth, but not custom SQL.  The server
answers with what the calls ask for: of the rows of the sources those in which every condition given to `where` holds;
grouped by the columns given to `group_by`, with the groups in which every condition given to `having` holds; sorted by the
columns given to `order_by`, each in the direction given last; in the columns given; each of these only once; merged
if DISTINCT is in force; from the offset in force, and not more than the limit in force. -/
theorem C78_answer (hf : Fits cx d) (hr : RefsSeen cx d ref) (hh : ConditionsSeen cx d sv holds) (sort : Sorter V)
    (gr : Grouper V) {n m : Nat} {ops : List SelectOp} (hk : ∀ op ∈ ops, NoFile op)
    (hn : NoneRaise (selectStep cx (sem cx n)) {} ops)
    {cols : List (List (Obj × Obj))} (h1 : List.Forall₂ ColumnNames ops cols)
    {conds : List (List Cond)} (h2 : List.Forall₂ WhereGives ops conds) (h2e : EqualsAgree cx n holds conds.flatten)
    {havings : List (List Cond)} (h3 : List.Forall₂ HavingGives ops havings)
    (h3e : EqualsAgree cx n holds havings.flatten)
    {orders : List (List Use)} (h4 : List.Forall₂ (OrderGives cx) ops orders)
    {groups : List (List Use)} (h5 : List.Forall₂ (GroupGives cx) ops groups)
    (hl : ∀ i, latest saysLimit ops = some (some i) → 0 ≤ i)
    (ho : ∀ i, latest saysOffset ops = some (some i) → 0 ≤ i) {t : Str}
    (h : NoRaw cx.backend.quote .stmt (.select (runOps (selectStep cx (sem cx n)) {} ops)))
    (e : (sem cx m).str (.select (runOps (selectStep cx (sem cx n)) {} ops)) = .ok t) :
    ∃ (shown : List (Obj × Obj)) (keys by_ : List Use),
      KeptBy (EqualColumns cx n) cols.flatten shown ∧ KeysBy (TakenEqual cx n) orders.flatten keys ∧
      KeysBy (TakenEqual cx n) groups.flatten by_ ∧
      ∀ db : Database V, groupedAnswer sv sort gr (lex d t) db =
        some (answerComposed sort gr ref holds shown keys by_ conds.flatten havings.flatten
          ((latest saysMerge ops).getD false) ((latest saysLimit ops).getD none) ((latest saysOffset ops).getD none)
          (db (clauseBody selectClauses L!"FROM" (lex d t)))) := by
  have k1 := columns_history h1 hn
  have k4 := orders_history h4 hn
  have k5 := groups_history h5 hn
  have k6 := C25_latest cx (sem cx n) ops
  have k7 := merged_latest cx (sem cx n) ops
  have k8 := no_file (cx := cx) (sem cx n) hk {} rfl
  have w1 : allHold holds (runOps (selectStep cx (sem cx n)) {} ops).where_ = allHold holds conds.flatten :=
    funext fun row => (C74_where_select hf hh h e row).symm.trans (C76_select hf hh h2 hn h2e h e row)
  have w2 : allHold holds (runOps (selectStep cx (sem cx n)) {} ops).having = allHold holds havings.flatten :=
    funext fun row => (C74_having hf hh h e row).symm.trans (C76_having hf hh h3 hn h3e h e row)
  have w3 : (runOps (selectStep cx (sem cx n)) {} ops).having ≠ [] ↔ havings.flatten ≠ [] := by
    constructor
    · intro hne h0
      obtain ⟨c, hc⟩ := List.exists_mem_of_ne_nil _ hne
      have := (history_from (f := SelectS.having) (having_from cx n) h3 {} c hc).resolve_left (by simp)
      rw [h0] at this
      cases this
    · intro hne h0
      obtain ⟨c, hc⟩ := List.exists_mem_of_ne_nil _ hne
      obtain ⟨c', hc', _⟩ := history_all (f := SelectS.having) (fun q o => (select_keeps cx _ q [o]).2) (having_all cx n)
        h3 {} hn c hc
      rw [h0] at hc'
      cases hc'
  generalize runOps (selectStep cx (sem cx n)) {} ops = q at *
  refine ⟨_, _, _, k1, k4, k5, fun db => ?_⟩
  rw [answer_parts hf hr hh sort gr k8 (by rw [k6]; exact neg_latest hl) (by rw [k6]; exact neg_latest ho) h e]
  have c1 : columnsWritten ref q.columns = if (q.columns.map fun c => (c.name, c.alias)) = [] then [[.sym '*']]
      else (q.columns.map fun c => (c.name, c.alias)).map fun p => withAlias ref p.1 p.2 := by
    unfold columnsWritten
    simp only [List.map_eq_nil_iff, List.map_map]
    rfl
  have c2 : ∀ os : List Order, keysWritten ref os = (os.map orderUse).map fun u : Use => (ref u.1, u.2) := by
    intro os
    unfold keysWritten
    rw [List.map_map]
    rfl
  have c3 : (q.opts.duplicated = .distinct ∨ q.opts.duplicated = .distinctrow) ↔
      (latest saysMerge ops).getD false = true := by
    rw [← k7, Bool.or_eq_true, beq_iff_eq, beq_iff_eq]
  unfold answerWritten answerComposed
  simp only [c1, c2, c3, w1, w2, k6, w3, List.any_map, Function.comp_def, ne_eq, List.map_eq_nil_iff]

/-- C78 for tables listed and joined by name (C71). -/
theorem C78_named (hf : Fits cx d) (hr : RefsSeen cx d ref) (hh : ConditionsSeen cx d sv holds) (sort : Sorter V)
    (gr : Grouper V) {column : Str → List Tok} (hc : NamesSeen cx d column) (hm : MirrorsAgree sv) {n m : Nat}
    {ops : List SelectOp} (hk : ∀ op ∈ ops, NoFile op) (hn : NoneRaise (selectStep cx (sem cx (n + 2))) {} ops)
    {es : List TableEvent} (h0 : List.Forall₂ (SelectEvent cx) ops es) (hne : listedTables es ≠ [])
    (hd : (listedTables es).Nodup) (hj : DistinctJoins es)
    {cols : List (List (Obj × Obj))} (h1 : List.Forall₂ ColumnNames ops cols)
    {conds : List (List Cond)} (h2 : List.Forall₂ WhereGives ops conds)
    (h2e : EqualsAgree cx (n + 2) holds conds.flatten)
    {havings : List (List Cond)} (h3 : List.Forall₂ HavingGives ops havings)
    (h3e : EqualsAgree cx (n + 2) holds havings.flatten)
    {orders : List (List Use)} (h4 : List.Forall₂ (OrderGives cx) ops orders)
    {groups : List (List Use)} (h5 : List.Forall₂ (GroupGives cx) ops groups)
    (hl : ∀ i, latest saysLimit ops = some (some i) → 0 ≤ i)
    (ho : ∀ i, latest saysOffset ops = some (some i) → 0 ≤ i) {t : Str}
    (h : NoRaw cx.backend.quote .stmt (.select (runOps (selectStep cx (sem cx (n + 2))) {} ops)))
    (e : (sem cx m).str (.select (runOps (selectStep cx (sem cx (n + 2))) {} ops)) = .ok t) :
    ∃ (shown : List (Obj × Obj)) (keys by_ : List Use),
      KeptBy (EqualColumns cx (n + 2)) cols.flatten shown ∧ KeysBy (TakenEqual cx (n + 2)) orders.flatten keys ∧
      KeysBy (TakenEqual cx (n + 2)) groups.flatten by_ ∧
      groupedAnswer sv sort gr (lex d t) (fromRows sv src) =
        some (answerComposed sort gr ref holds shown keys by_ conds.flatten havings.flatten
          ((latest saysMerge ops).getD false) ((latest saysLimit ops).getD none) ((latest saysOffset ops).getD none)
          (sourcesSeen src column holds (tablesAsked es))) := by
  obtain ⟨shown, keys, by_, r1, r2, r3, r4⟩ := C78_answer hf hr hh sort gr hk hn h1 h2 h2e h3 h3e h4 h5 hl ho h e
  refine ⟨shown, keys, by_, r1, r2, r3, ?_⟩
  rw [r4, C71_select_partial (src := src) hf hc hh hm h0 hne hd hj h e]

private theorem tables_left (S : Sem) {ts : List Table} (ht : ∀ t ∈ ts, t.joins = []) {ops : List SelectOp}
    (hk : ∀ op ∈ ops, LeavesTables op) (q : Select) (hq : q.tables = ts) :
    (runOps (selectStep cx S) q ops).tables = ts := by
  induction ops generalizing q with
  | nil => exact hq
  | cons op ops ih =>
    refine ih (fun o ho => hk o (List.mem_cons_of_mem _ ho)) _ ?_
    have hop := hk op List.mem_cons_self
    cases op with
    | str =>
      show (selectStr cx S q).1.tables = ts
      unfold selectStr
      split
      · exact hq
      · rw [← hq] at ht ⊢
        exact RenderCalls.noJoins_str cx S ht
    | _ => first | exact hq | exact hop.elim

private theorem first_table {S : Sem} {x al : Obj} (h : (tablesSet cx S [] { pos := [.tuple [x, al]] }).2 = none) :
    (tablesSet cx S [] { pos := [.tuple [x, al]] }).1 = [⟨x, al, []⟩] := by
  have hp : parseArgs S nameOpts { pos := [Obj.tuple [x, al]].filter Obj.truthy } = .ok [[x, al]] := rfl
  have hs : tablesSet cx S [] { pos := [.tuple [x, al]] } =
      withR [] (mkTable x al) fun t => appendUnique (tableEq cx S) [] t := by
    unfold tablesSet
    rw [if_neg (by simp [kwSelf]), hp]
    simp only [withR, forUpd, pairOf]
    split <;> (rename_i heq; exact heq.symm)
  rw [hs] at h ⊢
  cases hm : mkTable x al with
  | error err => rw [hm] at h; cases h
  | ok t =>
    unfold mkTable at hm
    obtain ⟨_, _, hm⟩ := bind_ok.mp hm
    obtain ⟨_, _, hm⟩ := bind_ok.mp hm
    cases hm
    rfl

/-- C78. The rows of the sources, if a single table is given, which may be a query or a union: the server takes the rows
of that table, known by its alias, or by itself if it has none. -/
theorem C78_one_table (hf : Fits cx d) (hr : RefsSeen cx d ref) (hh : ConditionsSeen cx d sv holds) {n m : Nat}
    {before after : List SelectOp} {x al : Obj} (hb : ∀ op ∈ before, LeavesTables op)
    (ha : ∀ op ∈ after, LeavesTables op)
    (hn : NoneRaise (selectStep cx (sem cx n)) {} (before ++ .fromTable x al :: after)) {t : Str}
    (h : NoRaw cx.backend.quote .stmt (.select (runOps (selectStep cx (sem cx n)) {} (before ++ .fromTable x al :: after))))
    (e : (sem cx m).str (.select (runOps (selectStep cx (sem cx n)) {} (before ++ .fromTable x al :: after))) = .ok t) :
    fromRows sv src (clauseBody selectClauses L!"FROM" (lex d t)) =
      src.product [src.table (ref x) (if al.truthy then ref al else ref x)] := by
  have h0 := tables_left (cx := cx) (sem cx n) (ts := []) (by simp) hb {} rfl
  have hok := hn before (.fromTable x al) after rfl
  have h1 : (selectStep cx (sem cx n) (runOps (selectStep cx (sem cx n)) {} before) (.fromTable x al)).1.tables =
      [⟨x, al, []⟩] := by
    simp only [selectStep, Upd.map, h0] at hok ⊢
    exact first_table hok
  have h2 := tables_left (cx := cx) (sem cx n) (ts := [⟨x, al, []⟩]) (by simp) ha _ h1
  have h3 : (runOps (selectStep cx (sem cx n)) {} (before ++ .fromTable x al :: after)).tables = [⟨x, al, []⟩] := by
    rw [runOps_append, runOps_cons]
    exact h2
  generalize runOps (selectStep cx (sem cx n)) {} (before ++ .fromTable x al :: after) = q at *
  cases m with
  | zero => cases e
  | succ m =>
    have h4 : (selectStep cx (sem cx m) q .str).1.tables = [⟨x, al, []⟩] :=
      tables_left (cx := cx) (sem cx m) (ts := [⟨x, al, []⟩]) (by simp) (ops := [.str]) (by simp [LeavesTables]) q h3
    rw [C74_tables hf hr hh h (by rw [h3]; simp) e, h4]
    rfl

/-- C78. If that table is a query, its rows are the answer to that query, which C78 describes in turn. -/
theorem C78_inside (hf : Fits cx d) (hr : RefsSeen cx d ref) {sort : Sorter V} {gr : Grouper V}
    {name : List Tok → Option (List (List (Cell V))) → List (Tuple V)} (ha : AnswersInside sv sort gr src name)
    {q : Select} {n : Nat} {t : Str} (h : NoRaw cx.backend.quote .query (.select q))
    (e : (sem cx n).str (.select q) = .ok t) (label : List Tok) :
    src.table (ref (.select q)) label = name label (groupedAnswer sv sort gr (lex d t) (fromRows sv src)) := by
  rw [C74_query_as_column hf hr h e]
  exact ha _ _

end

/-! ### The hypotheses are met -/

/-- `SELECT "k", COUNT(*) AS "n" FROM "t" GROUP BY "k"`. -/
private def perKind : Select :=
  { columns := [⟨.str L!"k", .none⟩, ⟨.func .count false (.str L!"*"), .str L!"n"⟩], tables := [⟨.str L!"t", .none, []⟩],
    groupBy := [⟨.str L!"k", false⟩] }

/-- `SELECT MAX("b") FROM "v"`. -/
private def greatest : Select :=
  { columns := [⟨.func .max false (.str L!"b"), .none⟩], tables := [⟨.str L!"v", .none, []⟩] }

/-- `Q(a=1) | Q(b='x')`. -/
private def either1 : Obj := .cofc (.conds [.cond false (.str L!"k") .eq (.int 1)])
  (.conds [.cond false (.str L!"n") .eq (.select greatest)]) .or

private def before1 : List SelectOp := [.columns { pos := [.str L!"k", .tuple [.select greatest, .str L!"m"], .str L!"k"] }]

private def after1 : List SelectOp :=
  [.where_ { pos := [either1] }, .where_ { pos := [.str L!"n", .rel .gt (.int 2)] },
    .groupBy { pos := [.str L!"k", .select greatest] }, .having { pos := [either1] },
    .orderBy { pos := [.select greatest, .str L!"k"] }, .orderBy { pos := [.tuple [.str L!"k", .str L!"DESC"]] },
    .option .distinct (.bool true), .limit (.int 10) (.int 5)]

/-- Columns, a table, conditions and keys that contain queries. -/
private def history1 : List SelectOp := before1 ++ .fromTable (.select perKind) (.str L!"u") :: after1

private def text1 : Str :=
  L!"SELECT DISTINCT \"k\", (SELECT MAX(\"b\") FROM \"v\") AS \"m\" FROM (SELECT \"k\", COUNT(*) AS \"n\" FROM \"t\" " ++
  L!"GROUP BY \"k\") AS \"u\" WHERE (\"k\" = 1 OR \"n\" = (SELECT MAX(\"b\") FROM \"v\")) AND \"n\" > 2 GROUP BY " ++
  L!"\"k\", (SELECT MAX(\"b\") FROM \"v\") HAVING (\"k\" = 1 OR \"n\" = (SELECT MAX(\"b\") FROM \"v\")) ORDER BY " ++
  L!"(SELECT MAX(\"b\") FROM \"v\"), \"k\" DESC LIMIT 10 OFFSET 5"

private def cols1 : List (List (Obj × Obj)) :=
  [[(.str L!"k", .none), (.select greatest, .str L!"m"), (.str L!"k", .none)], [], [], [], [], [], [], [], [], []]

private def conds1 : List (List Cond) :=
  [[], [], [.item either1], [condOf (.str L!"n") (.rel .gt (.int 2))], [], [], [], [], [], []]

private def havings1 : List (List Cond) := [[], [], [], [], [], [.item either1], [], [], [], []]

private def orders1 : List (List Use) :=
  [[], [], [], [], [], [], [(.select greatest, false), (.str L!"k", false)], [(.str L!"k", true)], [], []]

private def groups1 : List (List Use) :=
  [[], [], [], [], [(.str L!"k", false), (.select greatest, false)], [], [], [], [], []]

example : (sem cx0 8).str (.select (runOps (selectStep cx0 (sem cx0 8)) {} history1)) = .ok text1 := by decide +kernel

example : (∀ op ∈ history1, NoFile op) ∧ (∀ op ∈ before1, LeavesTables op) ∧ (∀ op ∈ after1, LeavesTables op) ∧
    latest saysLimit history1 = some (some 10) ∧ latest saysOffset history1 = some (some 5) ∧
    latest saysMerge history1 = some true ∧
    NoRaw cx0.backend.quote .stmt (.select (runOps (selectStep cx0 (sem cx0 8)) {} history1)) ∧
    NoRaw cx0.backend.quote .query (.select perKind) := by
  refine ⟨?_, ?_, ?_, rfl, rfl, rfl, ⟨8, by decide +kernel⟩, ⟨8, by decide +kernel⟩⟩
  all_goals
    intro op hop
    simp only [history1, before1, after1, List.mem_append, List.mem_cons, List.not_mem_nil, or_false] at hop
    rcases hop with rfl | rfl | rfl | rfl | rfl | rfl | rfl | rfl | rfl | rfl <;> trivial

private theorem noneRaise_nil {σ ω : Type} (step : σ → ω → Upd σ) (s : σ) : NoneRaise step s [] := by
  intro b o a e
  cases b <;> cases e

private theorem noneRaise_cons {σ ω : Type} {step : σ → ω → Upd σ} {s : σ} {o : ω} {ops : List ω}
    (h : (step s o).2 = none) (hr : NoneRaise step (step s o).1 ops) : NoneRaise step s (o :: ops) := by
  intro b o' a e
  cases b with
  | nil => cases e; exact h
  | cons b0 b => cases e; exact hr b o' a rfl

example : NoneRaise (selectStep cx0 (sem cx0 8)) {} history1 := by
  iterate 10 refine noneRaise_cons rfl ?_
  exact noneRaise_nil _ _

example : List.Forall₂ ColumnNames history1 cols1 ∧ List.Forall₂ WhereGives history1 conds1 ∧
    List.Forall₂ HavingGives history1 havings1 := by
  refine ⟨.cons ?_ (.cons rfl (.cons rfl (.cons rfl (.cons rfl (.cons rfl (.cons rfl (.cons rfl (.cons rfl
      (.cons rfl .nil))))))))),
    .cons rfl (.cons rfl (.cons (.object rfl) (.cons ?_ (.cons rfl (.cons rfl (.cons rfl (.cons rfl (.cons rfl
      (.cons rfl .nil))))))))),
    .cons rfl (.cons rfl (.cons rfl (.cons rfl (.cons rfl (.cons (.object rfl) (.cons rfl (.cons rfl (.cons rfl
      (.cons rfl .nil)))))))))⟩
  · exact .usual (ps := [(.str L!"k", .none), (.select greatest, .str L!"m"), (.str L!"k", .none)]) (by rintro _ ⟨⟩)
      (.cons (.name (by rintro _ ⟨⟩)) (.cons (.pair (.two (.tuple _))) (.cons (.name (by rintro _ ⟨⟩)) .nil)))
      ⟨[], .nil, .nil, rfl⟩ (by simp [KwFree])
  · exact .pairs (.usual (ps := [(.str L!"n", .rel .gt (.int 2))]) (.direct _ (by rintro _ ⟨⟩)) ⟨[], .nil, .nil, rfl⟩
      (by simp [KwFree])) (by simp [IsCondition]) (by simp)

example : List.Forall₂ (OrderGives cx0) history1 orders1 ∧ List.Forall₂ (GroupGives cx0) history1 groups1 := by
  refine ⟨.cons rfl (.cons rfl (.cons rfl (.cons rfl (.cons rfl (.cons rfl (.cons ?_ (.cons ?_ (.cons rfl
      (.cons rfl .nil))))))))),
    .cons rfl (.cons rfl (.cons rfl (.cons rfl (.cons ?_ (.cons rfl (.cons rfl (.cons rfl (.cons rfl
      (.cons rfl .nil)))))))))⟩
  · exact ⟨[(.select greatest, .none), (.str L!"k", .none)],
      .usual (ps := [(.select greatest, .none), (.str L!"k", .none)]) (by rintro _ ⟨⟩)
        (.cons (.name (by rintro _ ⟨⟩)) (.cons (.name (by rintro _ ⟨⟩)) .nil)) ⟨[], .nil, .nil, rfl⟩ (by simp [KwFree]),
      .cons ⟨rfl, .inl ⟨rfl, rfl⟩⟩ (.cons ⟨rfl, .inl ⟨rfl, rfl⟩⟩ .nil)⟩
  · exact ⟨[(.str L!"k", .str L!"DESC")],
      .usual (ps := [(.str L!"k", .str L!"DESC")]) (by rintro _ ⟨⟩)
        (.cons (.pair (.two (.tuple _))) .nil) ⟨[], .nil, .nil, rfl⟩ (by simp [KwFree]),
      .cons ⟨rfl, .inr ⟨_, rfl, .inr ⟨rfl, rfl⟩⟩⟩ .nil⟩
  · exact ⟨[(.str L!"k", .none), (.select greatest, .none)],
      .usual (ps := [(.str L!"k", .none), (.select greatest, .none)]) (by rintro _ ⟨⟩)
        (.cons (.name (by rintro _ ⟨⟩)) (.cons (.name (by rintro _ ⟨⟩)) .nil)) ⟨[], .nil, .nil, rfl⟩ (by simp [KwFree]),
      .cons ⟨rfl, .inl ⟨rfl, rfl⟩⟩ (.cons ⟨rfl, .inl ⟨rfl, rfl⟩⟩ .nil)⟩

/-- Of these conditions only equal ones are taken for equal. -/
example {R : Type} (holds : R → Obj → Tri) : EqualsAgree cx0 8 holds conds1.flatten ∧
    EqualsAgree cx0 8 holds havings1.flatten := by
  have no : ∀ (row : R) (a b : Obj), (sem cx0 9).eq a b = .ok false → (sem cx0 (8 + 1)).eq a b = .ok true →
      holds row a = holds row b := fun row a b h1 h2 => by rw [h1] at h2; cases h2
  constructor <;> intro c hc c' hc' e row <;>
    simp only [conds1, havings1, List.flatten_cons, List.flatten_nil, List.nil_append, List.cons_append, List.append_nil,
      List.mem_cons, List.not_mem_nil, or_false] at hc hc'
  · rcases hc with rfl | rfl <;> rcases hc' with rfl | rfl <;>
      first
      | rfl
      | exact no _ _ _ (by decide +kernel) e
  · rw [hc, hc']

/-- The columns and keys that these calls leave. -/
example : KeptBy (EqualColumns cx0 8) cols1.flatten [(.str L!"k", .none), (.select greatest, .str L!"m")] ∧
    KeysBy (TakenEqual cx0 8) orders1.flatten [(.select greatest, false), (.str L!"k", true)] := by
  constructor
  · refine KeptBy.old (α := Obj × Obj) (given := [(.str L!"k", .none), (.select greatest, .str L!"m")]) (k := (.str L!"k", .none)) ?_
      List.mem_cons_self ⟨by unfold TakenEqual; decide +kernel, by unfold TakenEqual; decide +kernel⟩
    refine KeptBy.new (α := Obj × Obj) (given := [(.str L!"k", .none)]) (kept := [(.str L!"k", .none)]) ?_ ?_
    · exact .new (given := []) (kept := []) .nil (by simp)
    · intro k hk h
      rw [List.mem_singleton.mp hk] at h
      exact absurd h.2 (by unfold TakenEqual; decide +kernel)
  · refine .old (given := [(.select greatest, false), (.str L!"k", false)]) (front := [(.select greatest, false)])
      (back := []) (c := .str L!"k") (d := false) ?_ ?_ (by unfold TakenEqual; decide +kernel)
    · refine .new (given := [(.select greatest, false)]) (kept := [(.select greatest, false)]) ?_ ?_
      · exact .new (given := []) (kept := []) .nil (by simp)
      · intro k hk h
        rw [List.mem_singleton.mp hk] at h
        exact absurd h (by unfold TakenEqual; decide +kernel)
    · intro k hk h
      rw [List.mem_singleton.mp hk] at h
      exact absurd h (by unfold TakenEqual; decide +kernel)

end SqlPuzzle
