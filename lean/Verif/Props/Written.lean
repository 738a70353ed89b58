import Verif.Proofs.Written
import Verif.Props.Sources
import Verif.Props.Groups
import Verif.Proofs.Changes

/-!
C74: every part of a statement reaches the server as what it is on its own, also where queries are parts of queries.
-/

namespace SqlPuzzle

open Spec

private def cx0 : Ctx := ⟨.sql, ⟨id, id, fun _ => true, fun _ => [], fun _ => []⟩⟩

section
variable {cx : Ctx} {d : Dialect} {ref lit : Obj → List Tok} {V : Type} {sv : Server V} {src : Sources V}
  {holds : Tuple V → Obj → Tri}

/-! ### Queries as parts -/

private theorem paren_read (hf : Fits cx d) {o : Obj} {n : Nat} {u : Str} (h : NoRaw cx.backend.quote .query o)
    (e : (sem cx n).str o = .ok u) : lex d ('(' :: (u ++ [')'])) = enclosed (lex d u) := by
  obtain ⟨N, hs, r⟩ := read_noRaw hf h e
  have e' := ((sem_le cx (Nat.le_max_right N n)).str o).ok e
  have hs' := safe_le (Nat.le_max_left N n) hs
  rw [(rt_paren hf.known (rt_main hf _ hs' e')).reads.lex, r _ (Nat.le_max_left N n)]
  simp [paren, enclosed]

/-- C74. A query in the place of a column or table is read as that query between parentheses. -/
theorem C74_query_as_column (hf : Fits cx d) (hr : RefsSeen cx d ref) {q : Select} {n : Nat} {u : Str}
    (h : NoRaw cx.backend.quote .query (.select q)) (e : (sem cx n).str (.select q) = .ok u) :
    ref (.select q) = enclosed (lex d u) := by
  rw [← paren_read hf h e]
  refine hr _ (n + 1) _ ?_
  show parenText (sem cx n) (.select q) = _
  unfold parenText
  rw [e]
  rfl

/-- C74. A union in the place of a column or table is read as that union between parentheses. -/
theorem C74_union_as_column (hf : Fits cx d) (hr : RefsSeen cx d ref) {a b : Obj} {all : Bool} {n : Nat} {u : Str}
    (h : NoRaw cx.backend.quote .query (.union a b all)) (e : (sem cx n).str (.union a b all) = .ok u) :
    ref (.union a b all) = enclosed (lex d u) := by
  rw [← paren_read hf h e]
  refine hr _ (n + 1) _ ?_
  show parenText (sem cx n) (.union a b all) = _
  unfold parenText
  rw [e]
  rfl

/-- C74. A query in the place of a value is read as that query between parentheses. -/
theorem C74_query_as_value (hf : Fits cx d) (hl : LiteralsSeen cx d lit) {q : Select} {n : Nat} {u : Str}
    (h : NoRaw cx.backend.quote .query (.select q)) (e : (sem cx n).str (.select q) = .ok u) :
    lit (.select q) = enclosed (lex d u) := by
  rw [← paren_read hf h e]
  refine hl _ (n + 1) _ ?_
  show parenText (sem cx n) (.select q) = _
  unfold parenText
  rw [e]
  rfl

/-- C74. A union in the place of a value is read as that union between parentheses. -/
theorem C74_union_as_value (hf : Fits cx d) (hl : LiteralsSeen cx d lit) {a b : Obj} {all : Bool} {n : Nat} {u : Str}
    (h : NoRaw cx.backend.quote .query (.union a b all)) (e : (sem cx n).str (.union a b all) = .ok u) :
    lit (.union a b all) = enclosed (lex d u) := by
  rw [← paren_read hf h e]
  refine hl _ (n + 1) _ ?_
  show parenText (sem cx n) (.union a b all) = _
  unfold parenText
  rw [e]
  rfl

/-! ### The parts -/

private theorem ref_toks (hf : Fits cx d) (hr : RefsSeen cx d ref) {m : Nat} {o : Obj}
    (h : safeRef cx.backend.quote (Safe cx.backend.quote m) o) (e : ∃ u, sqlRefText cx (sem cx m) o = .ok u) :
    refToksOf cx (toks cx d m) o = ref o := by
  obtain ⟨u, e⟩ := e
  rw [hr o (m + 1) u e, (rt_ref hf (inner_sem hf m) h e).reads.lex]

private theorem lit_toks (hf : Fits cx d) (hl : LiteralsSeen cx d lit) {m : Nat} {v : Obj}
    (h : safeVal cx.backend.quote (Safe cx.backend.quote m) v) (e : ∃ u, sqlValueText cx (sem cx m) v = .ok u) :
    valToks cx d (toks cx d m) v = lit v := by
  obtain ⟨u, e⟩ := e
  rw [hl v (m + 1) u e, (rt_val hf (inner_sem hf m) h e).reads.lex]

private theorem each {α : Type} {f : α → R Str} {xs : List α} {ts : List Str} {x : α}
    (e : mapR f xs = .ok ts) (hx : x ∈ xs) : ∃ t, f x = .ok t := by
  have := mapR_ok_iff.mp e
  clear e
  induction this with
  | nil => cases hx
  | cons h1 _ ih =>
    rcases List.mem_cons.mp hx with rfl | hx
    · exact ⟨_, h1⟩
    · exact ih hx

private theorem parts_each {α : Type} {f : α → R Str} {kw sep dflt : Str} {xs : List α} {u : Str}
    (e : partsText kw sep dflt f xs = .ok u) {x : α} (hx : x ∈ xs) : ∃ t, f x = .ok t := by
  unfold partsText at e
  have hne : xs.isEmpty = false := by cases xs <;> simp_all
  rw [hne] at e
  simp only [Bool.false_eq_true, if_false, bind_ok] at e
  obtain ⟨ts, e1, _⟩ := e
  exact each e1 hx

private theorem aliased_ok {S : Sem} {n a : Obj} {u : Str} (e : aliasedText cx S n a = .ok u) :
    (∃ x, sqlRefText cx S n = .ok x) ∧ (a.truthy = true → ∃ x, sqlRefText cx S a = .ok x) := by
  unfold aliasedText at e
  cases ha : a.truthy with
  | false =>
    rw [if_neg (by simp [ha])] at e
    exact ⟨⟨_, e⟩, by simp⟩
  | true =>
    rw [if_pos ha, bind_ok] at e
    obtain ⟨x, e1, e⟩ := e
    rw [bind_ok] at e
    obtain ⟨y, e2, e⟩ := e
    exact ⟨⟨x, e1⟩, fun _ => ⟨y, e2⟩⟩

private theorem aliased_toks (hf : Fits cx d) (hr : RefsSeen cx d ref) {m : Nat} {n a : Obj}
    (h : safeAliased cx.backend.quote (Safe cx.backend.quote m) n a) {u : Str}
    (e : aliasedText cx (sem cx m) n a = .ok u) :
    aliasedToks cx (toks cx d m) n a = withAlias ref n a := by
  obtain ⟨e1, e2⟩ := aliased_ok e
  unfold aliasedToks withAlias
  rw [ref_toks hf hr h.1 e1]
  cases ha : a.truthy with
  | false => simp [optToks]
  | true => rw [ref_toks hf hr (h.2 ha) (e2 ha)]; rfl

private theorem table_rows (hf : Fits cx d) (hr : RefsSeen cx d ref) {m : Nat} {n a : Obj}
    (h : safeAliased cx.backend.quote (Safe cx.backend.quote m) n a) {u : Str}
    (e : aliasedText cx (sem cx m) n a = .ok u) :
    tableRows src (aliasedToks cx (toks cx d m) n a) = tableWritten src ref n a := by
  obtain ⟨e1, e2⟩ := aliased_ok e
  unfold tableRows tableWritten
  rw [aliased_pieces (phrases_sem cx d m) h, aliased_toks hf hr h e]
  unfold withAlias
  rw [ref_toks hf hr h.1 e1]
  cases ha : a.truthy with
  | false => rfl
  | true => rw [ref_toks hf hr (h.2 ha) (e2 ha)]; rfl

/-- C74 for the columns of a SELECT: the server reads each of them, in order, as what the library writes for it alone,
with its alias. -/
theorem C74_columns (hf : Fits cx d) (hr : RefsSeen cx d ref) {q : Select} {n : Nat} {t : Str}
    (h : NoRaw cx.backend.quote .stmt (.select q)) (e : (sem cx n).str (.select q) = .ok t) :
    selectedColumns (lex d t) =
      if q.columns = [] then [[.sym '*']] else q.columns.map fun c => withAlias ref c.name c.alias := by
  obtain ⟨m, hs, he, r⟩ := stmt_level hf h e
  have hs : safeSelect cx.backend.quote (Safe cx.backend.quote m) q := hs
  have he : selectText cx (sem cx m) q = .ok t := he
  have ih := phrases_sem cx d m
  have hsel : clauseBody selectClauses L!"SELECT" (selectToks cx (sem cx m) d (toks cx d m) q) =
      words (sortBy strLe q.opts.words) ++ columnsToks cx (toks cx d m) q.columns :=
    select_part ih hs (o := some _) (.head _)
  have hwords : ∀ u ∈ sortBy strLe q.opts.words, u ∈ selectWords :=
    fun u hu => words_mem q.opts ((sortBy_perm strLe q.opts.words).mem_iff.mp hu)
  have hhead : ∀ w ∈ selectWords, (columnsToks cx (toks cx d m) q.columns).head? ≠ some (.word w) :=
    fun w hw => columns_first ih hs.1 ((by decide : ∀ w ∈ selectWords, w ∉ exprWords) w hw)
  unfold selectedColumns
  rw [r]
  show pieces _ ((clauseBody _ _ (selectToks cx (sem cx m) d (toks cx d m) q)).dropWhile _) = _
  rw [hsel, (dropWhile_words hwords hhead).2]
  by_cases hc : q.columns = []
  · rw [if_pos hc, hc]; rfl
  · rw [if_neg hc, columns_items ih hc hs.1]
    refine List.map_congr_left fun c hm => ?_
    unfold selectText at he
    simp only [bind_ok] at he
    obtain ⟨x, hx, _⟩ := he
    obtain ⟨u, hu⟩ := clause_text_ok hx rfl
    obtain ⟨w, hw⟩ := parts_each hu hm
    exact aliased_toks hf hr (hs.1 c hm) hw

private theorem keys_toks (hf : Fits cx d) (hr : RefsSeen cx d ref) {m : Nat} {os : List Order} (hne : os ≠ [])
    (hs : ∀ o ∈ os, safeRef cx.backend.quote (Safe cx.backend.quote m) o.col) {kw u : Str}
    (e : ordersText cx (sem cx m) kw os = .ok u) :
    (pieces (.sym ',') (commas (os.map (orderToks cx (toks cx d m))))).map readKey =
      os.map fun o => (ref o.col, o.desc) := by
  have ih := phrases_sem cx d m
  rw [orders_items ih hne hs, List.map_map]
  refine List.map_congr_left fun o hm => ?_
  obtain ⟨w, hw⟩ := parts_each e hm
  unfold orderText at hw
  rw [bind_ok] at hw
  obtain ⟨x, hx, _⟩ := hw
  show readKey (orderToks cx (toks cx d m) o) = _
  rw [readKey_item ih (hs o hm), ref_toks hf hr (hs o hm) ⟨x, hx⟩]

/-- C74 for ORDER BY: each key, in order, with its direction. -/
theorem C74_order_by (hf : Fits cx d) (hr : RefsSeen cx d ref) {q : Select} {n : Nat} {t : Str}
    (h : NoRaw cx.backend.quote .stmt (.select q)) (e : (sem cx n).str (.select q) = .ok t) :
    readKeys (lex d t) = q.orderBy.map fun o => (ref o.col, o.desc) := by
  obtain ⟨m, hs, he, r⟩ := stmt_level hf h e
  have hs : safeSelect cx.backend.quote (Safe cx.backend.quote m) q := hs
  have he : selectText cx (sem cx m) q = .ok t := he
  have ih := phrases_sem cx d m
  have part : clauseBody selectClauses L!"ORDER" (selectToks cx (sem cx m) d (toks cx d m) q) =
      (present (!q.orderBy.isEmpty) (.word L!"BY" :: commas (q.orderBy.map (orderToks cx (toks cx d m))))).getD [] :=
    select_part ih hs (.tail _ (.tail _ (.tail _ (.tail _ (.tail _ (.head _))))))
  unfold readKeys
  rw [r]
  show (match clauseBody selectClauses L!"ORDER" (selectToks cx (sem cx m) d (toks cx d m) q) with
    | .word w :: r => if w = L!"BY" then (pieces (.sym ',') r).map readKey else []
    | _ => []) = _
  rw [part]
  by_cases hc : q.orderBy = []
  · rw [hc]; rfl
  · have hb : (!q.orderBy.isEmpty) = true := by simpa using hc
    unfold selectText at he
    simp only [bind_ok] at he
    obtain ⟨_, _, _, _, _, _, _, _, _, _, x, hx, _⟩ := he
    obtain ⟨u, hu⟩ := clause_text_ok hx hb
    rw [hb]
    exact keys_toks hf hr hc hs.2.2.2.2.2.1 hu

/-- C74 for GROUP BY: each key, in order, with its direction. -/
theorem C74_group_by (hf : Fits cx d) (hr : RefsSeen cx d ref) {q : Select} {n : Nat} {t : Str}
    (h : NoRaw cx.backend.quote .stmt (.select q)) (e : (sem cx n).str (.select q) = .ok t) :
    groupKeys (lex d t) = q.groupBy.map fun o => (ref o.col, o.desc) := by
  obtain ⟨m, hs, he, r⟩ := stmt_level hf h e
  have hs : safeSelect cx.backend.quote (Safe cx.backend.quote m) q := hs
  have he : selectText cx (sem cx m) q = .ok t := he
  have ih := phrases_sem cx d m
  have part : clauseBody selectClauses L!"GROUP" (selectToks cx (sem cx m) d (toks cx d m) q) =
      (present (!q.groupBy.isEmpty) (.word L!"BY" :: commas (q.groupBy.map (orderToks cx (toks cx d m))))).getD [] :=
    select_part ih hs (.tail _ (.tail _ (.tail _ (.head _))))
  unfold groupKeys
  rw [r]
  show (match clauseBody selectClauses L!"GROUP" (selectToks cx (sem cx m) d (toks cx d m) q) with
    | .word w :: r => if w = L!"BY" then (pieces (.sym ',') r).map readKey else []
    | _ => []) = _
  rw [part]
  by_cases hc : q.groupBy = []
  · rw [hc]; rfl
  · have hb : (!q.groupBy.isEmpty) = true := by simpa using hc
    unfold selectText at he
    simp only [bind_ok] at he
    obtain ⟨_, _, x, hx, _⟩ := he
    obtain ⟨u, hu⟩ := clause_text_ok hx hb
    rw [hb]
    exact keys_toks hf hr hc hs.2.2.2.1 hu

private theorem all_true (vs : List Tri) : Tri.all vs = .t ↔ ∀ v ∈ vs, v = .t := by
  induction vs with
  | nil => exact ⟨fun _ => by simp, fun _ => rfl⟩
  | cons v vs ih =>
    have e : Tri.all (v :: vs) = v.and (Tri.all vs) := rfl
    rw [e, List.forall_mem_cons, ← ih]
    cases v <;> cases Tri.all vs <;> decide

private theorem table_ok {S : Sem} {t : Table} {u : Str} (e : tableText cx S t = .ok u) :
    minimizeJoins cx S t.joins = .ok (keptJoins cx S t) ∧ (∃ x, aliasedText cx S t.name t.alias = .ok x) ∧
    ∀ j ∈ keptJoins cx S t, ∃ x, joinText cx S j = .ok x := by
  unfold tableText at e
  rw [bind_ok] at e
  obtain ⟨x, e1, e⟩ := e
  cases hj : t.joins.isEmpty with
  | true =>
    have hj : t.joins = [] := by simpa using hj
    have hk : keptJoins cx S t = [] := by unfold keptJoins; rw [hj]; rfl
    rw [hk, hj]
    exact ⟨rfl, ⟨x, e1⟩, by simp⟩
  | false =>
    rw [if_neg (by simp [hj]), bind_ok] at e
    obtain ⟨js, e2, e⟩ := e
    rw [bind_ok] at e
    obtain ⟨ts, e3, e⟩ := e
    have hk : keptJoins cx S t = js := by unfold keptJoins; rw [e2]
    rw [hk]
    exact ⟨e2, ⟨x, e1⟩, fun j hj => each e3 hj⟩

private theorem strTables_kept {S : Sem} {ts : List Table} (e : ∀ t ∈ ts, ∃ u, tableText cx S t = .ok u) :
    (strTables cx S ts).1 = ts.map fun t => { t with joins := keptJoins cx S t } := by
  induction ts with
  | nil => rfl
  | cons t ts ih =>
    obtain ⟨u, hu⟩ := e t (by simp)
    have h1 : strTable cx S t = ({ t with joins := keptJoins cx S t }, none) := by
      obtain ⟨k1, ⟨x, k2⟩, k3⟩ := table_ok hu
      unfold strTable
      rw [k2]
      dsimp only
      cases hj : t.joins.isEmpty with
      | true =>
        have hj : t.joins = [] := by simpa using hj
        have hk : keptJoins cx S t = [] := by unfold keptJoins; rw [hj]; rfl
        rw [if_pos rfl, hk, ← hj]
      | false =>
        rw [if_neg (by simp), k1]
        dsimp only
        unfold tableText at hu
        rw [k2, ok_bind, if_neg (by simp [hj]), k1, ok_bind, bind_ok] at hu
        obtain ⟨us, hus, _⟩ := hu
        rw [hus]
    unfold strTables
    rw [h1]
    dsimp only
    rw [ih fun t ht => e t (by simp [ht]), List.map_cons]

private theorem kept_le {n m : Nat} (h : n ≤ m) {t : Table} {u : Str} (e : tableText cx (sem cx n) t = .ok u) :
    keptJoins cx (sem cx m) t = keptJoins cx (sem cx n) t := by
  have := (le_minimizeJoins (sem_le cx h) t.joins).ok (table_ok e).1
  conv => lhs; unfold keptJoins
  rw [this]

private theorem from_written (hf : Fits cx d) (hr : RefsSeen cx d ref) (hh : ConditionsSeen cx d sv holds) {m : Nat}
    {ts : List Table} (hne : ts ≠ [])
    (hs : ∀ t ∈ ts, safeTable cx.backend.quote (Safe cx.backend.quote m) t)
    (he : ∀ t ∈ ts, ∃ u, tableText cx (sem cx m) t = .ok u) :
    fromRows sv src (tablesToks cx (sem cx m) d (toks cx d m) [] ts) =
      sourcesWritten src ref holds (ts.map fun t => { t with joins := keptJoins cx (sem cx m) t }) := by
  have ih := phrases_sem cx d m
  have e : tablesToks cx (sem cx m) d (toks cx d m) [] ts =
      joinT [.sym ','] (ts.map (tableToks cx (sem cx m) d (toks cx d m))) := by
    unfold tablesToks
    have : ts.isEmpty = false := by simpa using hne
    rw [this]
    rfl
  have hsj : ∀ t ∈ ts, ∀ j ∈ keptJoins cx (sem cx m) t, safeJoin cx.backend.quote (Safe cx.backend.quote m) j := by
    intro t ht j hj
    obtain ⟨u, hu⟩ := he t ht
    obtain ⟨j0, h0, a1, a2, a3⟩ := minimizeJoins_mem cx (sem cx m) (table_ok hu).1 hj
    have h1 := (hs t ht).2 j0 h0
    unfold safeJoin at h1 ⊢
    rw [a1, a2, a3]
    exact h1
  unfold fromRows sourcesWritten
  rw [e, pieces_joinT (by simpa using hne) ?_ (by decide) (by decide), List.map_map, List.map_map]
  · congr 1
    refine List.map_congr_left fun t ht => ?_
    obtain ⟨u, hu⟩ := he t ht
    obtain ⟨_, ⟨x, hx⟩, hjs⟩ := table_ok hu
    show itemRows sv src (aliasedToks cx (toks cx d m) t.name t.alias ++
      ((keptJoins cx (sem cx m) t).map (joinToks cx d (toks cx d m))).flatten) = _
    rw [itemRows_table ih (hs t ht).1 (hsj t ht), table_rows hf hr (hs t ht).1 hx]
    refine List.foldl_ext _ _ _ fun rows j hj => ?_
    have hj' := hsj t ht j hj
    obtain ⟨v, hv⟩ := hjs j hj
    unfold joinText at hv
    rw [bind_ok] at hv
    obtain ⟨y, hy, hv⟩ := hv
    unfold joinRead joinWritten
    rw [table_rows hf hr hj'.1 hy]
    congr 1
    by_cases ho : j.ons = []
    · rw [if_pos ho]
      funext row
      simp [ho]
    · rw [if_neg ho]
      funext row
      congr 1
      have hcond : ∀ c ∈ j.ons, ∃ u, condText cx (sem cx m) c = .ok u := by
        have h1 : j.ons.isEmpty = false := by simpa using ho
        simp only [h1, Bool.false_eq_true, if_false, bind_ok] at hv
        obtain ⟨o, ho', _⟩ := hv
        exact conds_ok ho'
      rw [truth_parts ho hj'.2, all_true]
      simp only [List.mem_map, forall_exists_index, and_imp, forall_apply_eq_imp_iff₂]
      refine propext (forall₂_congr fun c hc' => ?_)
      rw [leaf_toks hf (hh row) (hj'.2 c hc') (hcond c hc')]
  · intro x hx
    obtain ⟨t, ht, rfl⟩ := List.mem_map.mp hx
    exact ((aliased_facts ih (hs t ht).1).1 _ (by decide)).append (whole_joins ih (hsj t ht))

/-- C74 for the tables of a SELECT. The tables are those the query has after `str(query)`, each with its joins (`str`
merges joins of the same table, C57). The server combines each table, in order, with its joins, in order: every table is
read as what the library writes for it alone and is known by its alias; every condition holds as it does alone. -/
theorem C74_tables (hf : Fits cx d) (hr : RefsSeen cx d ref) (hh : ConditionsSeen cx d sv holds) {q : Select} {n : Nat}
    {t : Str} (h : NoRaw cx.backend.quote .stmt (.select q)) (hne : q.tables ≠ [])
    (e : (sem cx (n + 1)).str (.select q) = .ok t) :
    fromRows sv src (clauseBody selectClauses L!"FROM" (lex d t)) =
      sourcesWritten src ref holds (selectStep cx (sem cx n) q .str).1.tables := by
  have texts : ∀ {k : Nat}, selectText cx (sem cx k) q = .ok t → ∀ b ∈ q.tables, ∃ u, tableText cx (sem cx k) b = .ok u := by
    intro k he b hb
    unfold selectText at he
    simp only [bind_ok] at he
    obtain ⟨_, _, _, _, _, _, _, _, _, _, _, _, _, _, _, _, x, hx, _⟩ := he
    obtain ⟨u, hu⟩ := clause_text_ok hx (by simpa using hne)
    exact parts_each hu hb
  obtain ⟨N, hs, r⟩ := read_noRaw hf h e
  have hs : safeSelect cx.backend.quote (Safe cx.backend.quote (max N n)) q :=
    safe_le (n := max N n + 1) (by omega) hs
  have he : selectText cx (sem cx (max N n)) q = .ok t := ((sem_le cx (by omega : n + 1 ≤ max N n + 1)).str _).ok e
  have e : selectText cx (sem cx n) q = .ok t := e
  have hr' := r (max N n + 1) (by omega)
  generalize hm : max N n = m at hs he hr'
  have hstep : (selectStep cx (sem cx n) q .str).1.tables =
      q.tables.map fun b => { b with joins := keptJoins cx (sem cx m) b } := by
    have h1 : (selectStep cx (sem cx n) q .str).1.tables = (strTables cx (sem cx n) q.tables).1 := by
      have e0 := e
      unfold selectText at e0
      simp only [bind_ok] at e0
      obtain ⟨_, h1, _, h2, _, h3, _, h4, _, _, _, h6, _⟩ := e0
      show (selectStr cx (sem cx n) q).1.tables = _
      unfold selectStr
      rw [h1, h2, h3, h4, h6]
      rfl
    rw [h1, strTables_kept (texts e)]
    refine List.map_congr_left fun b hb => ?_
    obtain ⟨u, hu⟩ := texts e b hb
    rw [kept_le (m := m) (by omega) hu]
  rw [hr', hstep]
  have hp := select_part (S := sem cx m) (d := d) (phrases_sem cx d m) hs (.tail _ (.head _))
  have hb : (!q.tables.isEmpty) = true := by simpa using hne
  refine (congrArg _ (hp.trans ?_)).trans (from_written hf hr hh hne hs.2.1 (texts he))
  rw [hb]
  rfl

/-- C74 for the assignments of an UPDATE: each, in order, sets the column given to the value given. -/
theorem C74_assignments (hf : Fits cx d) (hr : RefsSeen cx d ref) (hl : LiteralsSeen cx d lit) {q : Update} {n : Nat}
    {t : Str} (h : NoRaw cx.backend.quote .stmt (.update q)) (hne : q.values ≠ [])
    (e : (sem cx n).str (.update q) = .ok t) :
    (pieces (.sym ',') (clauseBody updateClauses L!"SET" (lex d t))).map (pieces (.op L!"=")) =
      q.values.map (assignmentWritten ref lit) := by
  obtain ⟨m, hs, he, r⟩ := stmt_level hf h e
  have hs : safeUpdate cx.backend.quote (Safe cx.backend.quote m) q := hs
  have he : updateText cx (sem cx m) q = .ok t := he
  have ih := phrases_sem cx d m
  rw [r]
  show (pieces _ (clauseBody _ _ (updateToks cx (sem cx m) d (toks cx d m) q))).map _ = _
  rw [set_update ih hs, pieces_assigns ih hne hs.2.1, List.map_map]
  refine List.map_congr_left fun v hv => ?_
  have hsv := hs.2.1 v hv
  cases v with
  | item o => exact hsv.elim
  | value c x =>
    unfold updateText at he
    split at he
    · cases he
    simp only [bind_ok] at he
    obtain ⟨_, _, _, _, y, hy, _⟩ := he
    obtain ⟨u, hu⟩ := clause_text_ok hy (by simpa using hne)
    obtain ⟨w, hw⟩ := parts_each hu hv
    simp only [valueText, bind_ok] at hw
    obtain ⟨a, ha, b, hb, _⟩ := hw
    show pieces _ (assignToks cx d (toks cx d m) (.value c x)) = [ref c, lit x]
    rw [pieces_assign ih hsv, ref_toks hf hr hsv.1 ⟨a, ha⟩, lit_toks hf hl hsv.2 ⟨b, hb⟩]

private theorem cond_level (hf : Fits cx d) {c : Cond} {n : Nat} {u : Str}
    (h : NoRaw cx.backend.quote .cond (.conds [c])) (e : (sem cx n).str (.conds [c]) = .ok u) :
    ∃ m, safeCond cx.backend.quote (Safe cx.backend.quote m) c ∧ condText cx (sem cx m) c = .ok u ∧
      lex d u = condToks cx d (toks cx d m) c := by
  obtain ⟨N, hs, _⟩ := read_noRaw hf h e
  have hs : Safe cx.backend.quote (max N n + 1) .cond (.conds [c]) := safe_le (by omega) hs
  have e : (sem cx (max N n + 1)).str (.conds [c]) = .ok u := ((sem_le cx (by omega)).str _).ok e
  have hs : safeCond cx.backend.quote (Safe cx.backend.quote (max N n)) c := hs.2 c (by simp)
  have e : condsText cx (sem cx (max N n)) [] [c] = .ok u := e
  simp only [condsText, partsText, mapR, List.isEmpty_cons, Bool.false_eq_true, if_false, bind_ok] at e
  obtain ⟨ts, ⟨x, hx, _, ⟨⟩, ⟨⟩⟩, ⟨⟩⟩ := e
  exact ⟨_, hs, hx, (rt_cond hf (inner_sem hf _) hs hx).reads.lex⟩

/-- C74 for a comparison: the column, the relation and the value. The value may be anything, also a query or a union.
With IN and NOT IN it is anything but a list, a string or a dictionary, whose items are written one by one (C19). -/
theorem C74_condition (hf : Fits cx d) (hr : RefsSeen cx d ref) (hl : LiteralsSeen cx d lit) {on : Bool} {col v : Obj}
    {k : Rel} (hv : v.iterate = none ∨ k ≠ .in_ ∧ k ≠ .notIn) (ho : (on && v.isStr) = false) {n : Nat} {u : Str}
    (h : NoRaw cx.backend.quote .cond (.conds [.cond on col k v]))
    (e : (sem cx n).str (.conds [.cond on col k v]) = .ok u) :
    lex d u = ref col ++ (relationWords k ++ lit v) := by
  obtain ⟨m, hs, he, r⟩ := cond_level hf h e
  have key : condToks cx d (toks cx d m) (.cond on col k v) =
      plainCondToks cx (toks cx d m) col k (valToks cx d (toks cx d m)) v ∧
      condText cx (sem cx m) (.cond on col k v) = plainCondText cx (sem cx m) col k (sqlValueText cx (sem cx m)) v ∧
      safeVal cx.backend.quote (Safe cx.backend.quote m) v := by
    have h2 := hs.2
    rcases hv with hv | ⟨hv1, hv2⟩
    · cases k <;> simp [condToks, condText, formatCond, inCondToks, inCondText, hv, ho] at h2 ⊢ <;> exact h2
    · cases k <;> simp [condToks, condText, formatCond, ho] at hv1 hv2 h2 ⊢ <;> exact h2
  obtain ⟨k1, k2, k3⟩ := key
  rw [k2] at he
  simp only [plainCondText, bind_ok] at he
  obtain ⟨a, ha, b, hb, _⟩ := he
  rw [r, k1]
  unfold plainCondToks
  rw [ref_toks hf hr hs.1 ⟨a, ha⟩, lit_toks hf hl k3 ⟨b, hb⟩]
  cases k <;> rfl

/-- C74 for a comparison of two columns, as given to `on`. -/
theorem C74_on_condition (hf : Fits cx d) (hr : RefsSeen cx d ref) {col : Obj} {s : Str} {k : Rel}
    (hk : k ≠ .in_ ∧ k ≠ .notIn) {n : Nat} {u : Str}
    (h : NoRaw cx.backend.quote .cond (.conds [.cond true col k (.str s)]))
    (e : (sem cx n).str (.conds [.cond true col k (.str s)]) = .ok u) :
    lex d u = ref col ++ (relationWords k ++ ref (.str s)) := by
  obtain ⟨m, hs, he, r⟩ := cond_level hf h e
  have key : condToks cx d (toks cx d m) (.cond true col k (.str s)) =
      plainCondToks cx (toks cx d m) col k (refToksOf cx (toks cx d m)) (.str s) ∧
      condText cx (sem cx m) (.cond true col k (.str s)) =
        plainCondText cx (sem cx m) col k (sqlRefText cx (sem cx m)) (.str s) ∧
      safeRef cx.backend.quote (Safe cx.backend.quote m) (.str s) := by
    have h2 := hs.2
    obtain ⟨hv1, hv2⟩ := hk
    cases k <;> simp [condToks, condText, formatCond, Obj.isStr] at hv1 hv2 h2 ⊢ <;> exact h2
  obtain ⟨k1, k2, k3⟩ := key
  rw [k2] at he
  simp only [plainCondText, bind_ok] at he
  obtain ⟨a, ha, b, hb, _⟩ := he
  rw [r, k1]
  unfold plainCondToks
  rw [ref_toks hf hr hs.1 ⟨a, ha⟩, ref_toks hf hr k3 ⟨b, hb⟩]
  cases k <;> rfl

/-! ### Conditions -/

private theorem hold_read (hf : Fits cx d) (hh : ConditionsSeen cx d sv holds) {m : Nat} {cs : List Cond}
    (hs : safeConds cx.backend.quote (Safe cx.backend.quote m) cs)
    (he : ∀ c ∈ cs, ∃ u, condText cx (sem cx m) c = .ok u) {body : List Tok}
    (h0 : cs = [] → body = []) (h1 : cs ≠ [] → body = conjToks cx d (toks cx d m) cs) (row : Tuple V) :
    (decide (body = []) || decide (truth (sv.predicate row) body = .t)) = allHold holds cs row := by
  unfold allHold
  by_cases hc : cs = []
  · rw [h0 hc, hc]
    simp
  · rw [h1 hc, decide_eq_false (conj_ne hc hs), Bool.false_or]
    congr 1
    rw [truth_parts hc hs, all_true]
    simp only [List.mem_map, forall_exists_index, and_imp, forall_apply_eq_imp_iff₂]
    refine propext (forall₂_congr fun c hc' => ?_)
    rw [leaf_toks hf (hh row) (hs c hc') (he c hc')]

/-- C74 for WHERE of a SELECT: a row is chosen iff each condition, whatever it is, is true of it as it is alone. -/
theorem C74_where_select (hf : Fits cx d) (hh : ConditionsSeen cx d sv holds) {q : Select} {n : Nat} {t : Str}
    (h : NoRaw cx.backend.quote .stmt (.select q)) (e : (sem cx n).str (.select q) = .ok t) (row : Tuple V) :
    chooses sv selectClauses (lex d t) row = allHold holds q.where_ row := by
  obtain ⟨m, hs, he, r⟩ := stmt_level hf h e
  have hs : safeSelect cx.backend.quote (Safe cx.backend.quote m) q := hs
  have he : selectText cx (sem cx m) q = .ok t := he
  have ih := phrases_sem cx d m
  unfold chooses
  rw [r]
  refine hold_read hf hh hs.2.2.1 ?_ (fun hw => ?_) (fun hw => where_select ih hs hw) row
  · intro c hc
    have hne : q.where_ ≠ [] := fun e => by rw [e] at hc; cases hc
    unfold selectText at he
    simp only [bind_ok] at he
    obtain ⟨_, _, _, _, _, _, _, _, _, _, _, _, _, _, _, _, _, _, x, hx, _⟩ := he
    obtain ⟨u, hu⟩ := clause_text_ok hx (by simpa using hne)
    exact conds_ok hu c hc
  · have := select_part (S := sem cx m) (d := d) ih hs (.tail _ (.tail _ (.head _)))
    refine this.trans ?_
    rw [hw]
    rfl

/-- C74 for HAVING: a group is kept iff each condition is true of it as it is alone. -/
theorem C74_having (hf : Fits cx d) (hh : ConditionsSeen cx d sv holds) {q : Select} {n : Nat} {t : Str}
    (h : NoRaw cx.backend.quote .stmt (.select q)) (e : (sem cx n).str (.select q) = .ok t) (row : Tuple V) :
    keepsGroup sv (lex d t) row = allHold holds q.having row := by
  obtain ⟨m, hs, he, r⟩ := stmt_level hf h e
  have hs : safeSelect cx.backend.quote (Safe cx.backend.quote m) q := hs
  have he : selectText cx (sem cx m) q = .ok t := he
  have ih := phrases_sem cx d m
  unfold keepsGroup
  rw [r]
  refine hold_read hf hh hs.2.2.2.2.1 ?_ (fun hw => ?_) (fun hw => having_select ih hs hw) row
  · intro c hc
    have hne : q.having ≠ [] := fun e => by rw [e] at hc; cases hc
    unfold selectText at he
    simp only [bind_ok] at he
    obtain ⟨_, _, _, _, x, hx, _⟩ := he
    obtain ⟨u, hu⟩ := clause_text_ok hx (by simpa using hne)
    exact conds_ok hu c hc
  · have := select_part (S := sem cx m) (d := d) ih hs (.tail _ (.tail _ (.tail _ (.tail _ (.head _)))))
    refine this.trans ?_
    rw [hw]
    rfl

/-- C74 for WHERE of an UPDATE. -/
theorem C74_where_update (hf : Fits cx d) (hh : ConditionsSeen cx d sv holds) {q : Update} {n : Nat} {t : Str}
    (h : NoRaw cx.backend.quote .stmt (.update q)) (e : (sem cx n).str (.update q) = .ok t) (row : Tuple V) :
    chooses sv updateClauses (lex d t) row = allHold holds q.where_ row := by
  obtain ⟨m, hs, he, r⟩ := stmt_level hf h e
  have hs : safeUpdate cx.backend.quote (Safe cx.backend.quote m) q := hs
  have he : updateText cx (sem cx m) q = .ok t := he
  have ih := phrases_sem cx d m
  unfold chooses
  rw [r]
  refine hold_read hf hh hs.2.2 ?_ (fun hw => nowhere_update ih hs hw) (fun hw => where_update ih hs hw) row
  intro c hc
  have hne : q.where_ ≠ [] := fun e => by rw [e] at hc; cases hc
  unfold updateText at he
  split at he
  · cases he
  simp only [bind_ok] at he
  obtain ⟨_, _, _, _, _, _, x, hx, _⟩ := he
  obtain ⟨u, hu⟩ := clause_text_ok hx (by simpa using hne)
  exact conds_ok hu c hc

/-- C74 for WHERE of a DELETE. -/
theorem C74_where_delete (hf : Fits cx d) (hh : ConditionsSeen cx d sv holds) {q : Delete} {n : Nat} {t : Str}
    (h : NoRaw cx.backend.quote .stmt (.delete q)) (e : (sem cx n).str (.delete q) = .ok t) (row : Tuple V) :
    chooses sv deleteClauses (lex d t) row = allHold holds q.where_ row := by
  obtain ⟨m, hs, he, r⟩ := stmt_level hf h e
  have hs : safeDelete cx.backend.quote (Safe cx.backend.quote m) q := hs
  have he : deleteText cx (sem cx m) q = .ok t := he
  have ih := phrases_sem cx d m
  unfold chooses
  rw [r]
  refine hold_read hf hh hs.2.2 ?_ (fun hw => nowhere_delete ih hs hw) (fun hw => where_delete ih hs hw) row
  intro c hc
  have hne : q.where_ ≠ [] := fun e => by rw [e] at hc; cases hc
  unfold deleteText at he
  split at he
  · cases he
  simp only [bind_ok] at he
  obtain ⟨_, _, _, _, _, _, x, hx, _⟩ := he
  obtain ⟨u, hu⟩ := clause_text_ok hx (by simpa using hne)
  exact conds_ok hu c hc

/-! ### The tables of UPDATE and DELETE -/

private theorem tables_first {S : Sem} {T : Obj → List Tok} {P : Kind → Obj → Prop} (ih : Phrases T P)
    {ts : List Table} (h : ∀ t ∈ ts, safeTable cx.backend.quote P t) {w : Str} (hw : w ∉ exprWords) {r : List Tok} :
    tablesToks cx S d T [] ts ≠ .word w :: r := by
  cases ts with
  | nil => simp [tablesToks, optToks]
  | cons t ts =>
    have hc := expr_word hw (g_ref ih (h t (by simp)).1.1)
    have h2 : ∃ r, tablesToks cx S d T [] (t :: ts) = refToksOf cx T t.name ++ r := by
      cases ts with
      | nil => exact ⟨_, by simp [tablesToks, optToks, commas, joinT, tableToks, aliasedToks, words]; rfl⟩
      | cons t' ts => exact ⟨_, by simp [tablesToks, optToks, commas, joinT, tableToks, aliasedToks, words]; rfl⟩
    obtain ⟨r', h2⟩ := h2
    rw [h2]
    intro e
    cases hx : refToksOf cx T t.name with
    | nil => exact absurd hx hc.2.1
    | cons x xs =>
      have h3 := hc.2.2.1
      rw [hx] at e h3
      injection e with e _
      exact h3 (by rw [e]; rfl)

/-- C74 for the tables of an UPDATE: the server combines the tables that the query has after `str(query)`. -/
theorem C74_update_tables (hf : Fits cx d) (hr : RefsSeen cx d ref) (hh : ConditionsSeen cx d sv holds) {q : Update}
    {n : Nat} {t : Str} (h : NoRaw cx.backend.quote .stmt (.update q)) (hne : q.tables ≠ [])
    (e : (sem cx (n + 1)).str (.update q) = .ok t) :
    fromRows sv src (updatedTable (lex d t)) =
      sourcesWritten src ref holds (updateStep cx (sem cx n) q .str).1.tables := by
  have texts : ∀ {k : Nat}, updateText cx (sem cx k) q = .ok t → ∀ b ∈ q.tables, ∃ u, tableText cx (sem cx k) b = .ok u := by
    intro k he b hb
    unfold updateText at he
    split at he
    · cases he
    simp only [bind_ok] at he
    obtain ⟨x, hx, _⟩ := he
    obtain ⟨u, hu⟩ := clause_text_ok hx (by simpa using hne)
    exact parts_each hu hb
  obtain ⟨N, hs, r⟩ := read_noRaw hf h e
  have hs : safeUpdate cx.backend.quote (Safe cx.backend.quote (max N n)) q :=
    safe_le (n := max N n + 1) (by omega) hs
  have he : updateText cx (sem cx (max N n)) q = .ok t := ((sem_le cx (by omega : n + 1 ≤ max N n + 1)).str _).ok e
  have e : updateText cx (sem cx n) q = .ok t := e
  have hr' := r (max N n + 1) (by omega)
  generalize hm : max N n = m at hs he hr'
  have ih := phrases_sem cx d m
  have hstep : (updateStep cx (sem cx n) q .str).1.tables =
      q.tables.map fun b => { b with joins := keptJoins cx (sem cx m) b } := by
    have h1 : (updateStep cx (sem cx n) q .str).1.tables = (strTables cx (sem cx n) q.tables).1 := by
      have e0 := e
      unfold updateText at e0
      split at e0
      · cases e0
      · next hb =>
        show (updateStr cx (sem cx n) q).1.tables = _
        unfold updateStr
        rw [if_neg hb]
    rw [h1, strTables_kept (texts e)]
    refine List.map_congr_left fun b hb => ?_
    obtain ⟨u, hu⟩ := texts e b hb
    rw [kept_le (m := m) (by omega) hu]
  rw [hr', hstep, ← from_written hf hr hh hne hs.1 (texts he)]
  congr 1
  show updatedTable (updateToks cx (sem cx m) d (toks cx d m) q) = _
  unfold updatedTable
  rw [table_update ih hs]
  cases q.ignore with
  | true => rfl
  | false =>
    show (match tablesToks cx (sem cx m) d (toks cx d m) [] q.tables with
      | .word w :: r => if w = L!"IGNORE" then r else .word w :: r
      | r => r) = _
    split
    · next w r' e' =>
      split
      · next hw => subst hw; exact absurd e' (tables_first ih hs.1 (by decide))
      · exact e'.symm
    · rfl

/-- C74 for the tables after FROM of a DELETE: the server combines those the query has after `str(query)`. -/
theorem C74_delete_tables (hf : Fits cx d) (hr : RefsSeen cx d ref) (hh : ConditionsSeen cx d sv holds) {q : Delete}
    {n : Nat} {t : Str} (h : NoRaw cx.backend.quote .stmt (.delete q)) (hne : q.references ≠ [])
    (e : (sem cx (n + 1)).str (.delete q) = .ok t) :
    fromRows sv src (clauseBody deleteClauses L!"FROM" (lex d t)) =
      sourcesWritten src ref holds (deleteStep cx (sem cx n) q .str).1.references := by
  have texts : ∀ {k : Nat}, deleteText cx (sem cx k) q = .ok t →
      ∀ b ∈ q.references, ∃ u, tableText cx (sem cx k) b = .ok u := by
    intro k he b hb
    unfold deleteText at he
    split at he
    · cases he
    simp only [bind_ok] at he
    obtain ⟨_, _, x, hx, _⟩ := he
    obtain ⟨u, hu⟩ := clause_text_ok hx (by simpa using hne)
    exact parts_each hu hb
  obtain ⟨N, hs, r⟩ := read_noRaw hf h e
  have hs : safeDelete cx.backend.quote (Safe cx.backend.quote (max N n)) q :=
    safe_le (n := max N n + 1) (by omega) hs
  have he : deleteText cx (sem cx (max N n)) q = .ok t := ((sem_le cx (by omega : n + 1 ≤ max N n + 1)).str _).ok e
  have e : deleteText cx (sem cx n) q = .ok t := e
  have hr' := r (max N n + 1) (by omega)
  generalize hm : max N n = m at hs he hr'
  have ih := phrases_sem cx d m
  have hstep : (deleteStep cx (sem cx n) q .str).1.references =
      q.references.map fun b => { b with joins := keptJoins cx (sem cx m) b } := by
    have h1 : (deleteStep cx (sem cx n) q .str).1.references = (strTables cx (sem cx n) q.references).1 := by
      have e0 := e
      unfold deleteText at e0
      split at e0
      · cases e0
      · next hb =>
        show (deleteStr cx (sem cx n) q).1.references = _
        unfold deleteStr
        rw [if_neg hb]
        dsimp only
        split <;> rfl
    rw [h1, strTables_kept (texts e)]
    refine List.map_congr_left fun b hb => ?_
    obtain ⟨u, hu⟩ := texts e b hb
    rw [kept_le (m := m) (by omega) hu]
  rw [hr', hstep, ← from_written hf hr hh hne hs.2.1 (texts he)]
  congr 1
  exact from_delete ih hs

/-- C74 for the tables named between DELETE and FROM: each is read as what the library writes for it alone. -/
theorem C74_delete_targets (hf : Fits cx d) (hr : RefsSeen cx d ref) {q : Delete} {n : Nat} {t : Str}
    (h : NoRaw cx.backend.quote .stmt (.delete q)) (hj : ∀ b ∈ q.tables, b.joins = [])
    (e : (sem cx n).str (.delete q) = .ok t) :
    targetTables (lex d t) = q.tables.map fun b => withAlias ref b.name b.alias := by
  obtain ⟨m, hs, he, r⟩ := stmt_level hf h e
  have hs : safeDelete cx.backend.quote (Safe cx.backend.quote m) q := hs
  have he : deleteText cx (sem cx m) q = .ok t := he
  have ih := phrases_sem cx d m
  have hbody : afterIgnore (clauseBody deleteClauses L!"DELETE" (lex d t)) =
      tablesToks cx (sem cx m) d (toks cx d m) [] q.tables := by
    rw [r]
    refine (congrArg afterIgnore (targets_delete (S := sem cx m) (d := d) ih hs)).trans ?_
    cases q.ignore with
    | true => rfl
    | false =>
      show afterIgnore (tablesToks cx (sem cx m) d (toks cx d m) [] q.tables) = _
      unfold afterIgnore
      split
      · next w r' e' =>
        split
        · next hw => subst hw; exact absurd e' (tables_first ih hs.1 (by decide))
        · exact e'.symm
      · rfl
  unfold targetTables
  rw [hbody]
  by_cases hne : q.tables = []
  · rw [hne]; rfl
  have hp : pieces (.sym ',') (tablesToks cx (sem cx m) d (toks cx d m) [] q.tables) =
      q.tables.map (tableToks cx (sem cx m) d (toks cx d m)) := by
    have e1 : tablesToks cx (sem cx m) d (toks cx d m) [] q.tables =
        joinT [.sym ','] (q.tables.map (tableToks cx (sem cx m) d (toks cx d m))) := by
      unfold tablesToks
      have : q.tables.isEmpty = false := by simpa using hne
      rw [this]
      rfl
    rw [e1]
    refine pieces_joinT (by simpa using hne) ?_ (by decide) (by decide)
    intro x hx
    obtain ⟨b, hb, rfl⟩ := List.mem_map.mp hx
    have hk : keptJoins cx (sem cx m) b = [] := by unfold keptJoins; rw [hj b hb]; rfl
    unfold tableToks
    rw [hk]
    simpa using (aliased_facts ih (hs.1 b hb).1).1 _ (by decide)
  have hfull : tablesToks cx (sem cx m) d (toks cx d m) [] q.tables ≠ [] := by
    intro e0
    rw [e0] at hp
    have hp : [[]] = q.tables.map (tableToks cx (sem cx m) d (toks cx d m)) := hp
    have hm : ([] : List Tok) ∈ q.tables.map (tableToks cx (sem cx m) d (toks cx d m)) := by rw [← hp]; simp
    obtain ⟨b, hb, eb⟩ := List.mem_map.mp hm
    have := (expr_word (w := L!"FROM") (by decide) (g_ref ih (hs.1 b hb).1.1)).2.1
    unfold tableToks aliasedToks at eb
    simp only [List.append_eq_nil_iff] at eb
    exact this eb.1.1
  rw [if_neg hfull, hp]
  refine List.map_congr_left fun b hb => ?_
  have hk : keptJoins cx (sem cx m) b = [] := by unfold keptJoins; rw [hj b hb]; rfl
  unfold tableToks
  rw [hk]
  simp only [List.map_nil, List.flatten_nil, List.append_nil]
  unfold deleteText at he
  split at he
  · cases he
  simp only [bind_ok] at he
  obtain ⟨_, _, _, _, x, hx, _⟩ := he
  obtain ⟨u, hu⟩ := clause_text_ok hx (by simpa using hne)
  obtain ⟨w, hw⟩ := parts_each hu hb
  obtain ⟨_, ⟨y, hy⟩, _⟩ := table_ok hw
  exact aliased_toks hf hr (hs.1 b hb).1 hy

/-! ### Answers -/

private theorem number_written {i : Option Int} (h : ∀ k, i = some k → 0 ≤ k) :
    (match (i.map intToks).getD [] with
      | [] => some none
      | [.num s] => (readNat s).map some
      | _ => none : Option (Option Nat)) = some (i.map Int.toNat) := by
  cases i with
  | none => rfl
  | some k =>
    cases k with
    | ofNat n =>
      show (readNat (natText n)).map some = _
      rw [readNat_natText]
      rfl
    | negSucc n => exact absurd (h _ rfl) (by simp)

private theorem merge_words (o : SelectOptions) :
    (L!"DISTINCT" ∈ o.words ∨ L!"DISTINCTROW" ∈ o.words) ↔ (o.duplicated = .distinct ∨ o.duplicated = .distinctrow) := by
  obtain ⟨c, dup, b1, b2, b3, b4, b5, b6⟩ := o
  cases dup <;> cases c <;> cases b1 <;> cases b2 <;> cases b3 <;> cases b4 <;> cases b5 <;> cases b6 <;> decide

theorem answer_parts (hf : Fits cx d) (hr : RefsSeen cx d ref) (hh : ConditionsSeen cx d sv holds)
    (sort : Sorter V) (gr : Grouper V) {q : Select} {n : Nat} {t : Str} (hfile : q.outfile.file = none)
    (hl : ∀ i, q.limit.limit = some i → 0 ≤ i) (hoff : ∀ i, q.limit.offset = some i → 0 ≤ i)
    (h : NoRaw cx.backend.quote .stmt (.select q)) (e : (sem cx n).str (.select q) = .ok t) (db : Database V) :
    groupedAnswer sv sort gr (lex d t) db = some (answerWritten sort gr ref holds q
      (db (clauseBody selectClauses L!"FROM" (lex d t)))) := by
  have hcols := C74_columns hf hr h e
  have hkeys := C74_order_by hf hr h e
  have hgrps := C74_group_by hf hr h e
  have hwhere : chooses sv selectClauses (lex d t) = allHold holds q.where_ := funext (C74_where_select hf hh h e)
  have hhaving : keepsGroup sv (lex d t) = allHold holds q.having := funext (C74_having hf hh h e)
  obtain ⟨m, hs, he, r⟩ := stmt_level hf h e
  have hs : safeSelect cx.backend.quote (Safe cx.backend.quote m) q := hs
  have ih := phrases_sem cx d m
  have part : ∀ {w : Str} {o : Option (List Tok)}, (w, o) ∈ selectParts cx (sem cx m) d (toks cx d m) q →
      clauseBody selectClauses w (lex d t) = o.getD [] := by
    intro w o hm
    rw [r]
    exact select_part ih hs hm
  have hinto : clauseBody selectClauses L!"INTO" (lex d t) = [] := by
    rw [part (w := L!"INTO") (o := none) (by simp [selectParts, hfile])]
    rfl
  have hlimit : rowNumber L!"LIMIT" (lex d t) = some (q.limit.limit.map Int.toNat) := by
    unfold rowNumber
    rw [part (.tail _ (.tail _ (.tail _ (.tail _ (.tail _ (.tail _ (.head _)))))))]
    exact number_written hl
  have hoffset : rowNumber L!"OFFSET" (lex d t) = some (q.limit.offset.map Int.toNat) := by
    unfold rowNumber
    rw [part (.tail _ (.tail _ (.tail _ (.tail _ (.tail _ (.tail _ (.tail _ (.head _))))))))]
    exact number_written hoff
  have hgroup : clauseBody selectClauses L!"GROUP" (lex d t) ≠ [] ↔ q.groupBy ≠ [] := by
    rw [part (.tail _ (.tail _ (.tail _ (.head _))))]
    cases q.groupBy <;> simp [present]
  have hhas : clauseBody selectClauses L!"HAVING" (lex d t) ≠ [] ↔ q.having ≠ [] := by
    rw [part (.tail _ (.tail _ (.tail _ (.tail _ (.head _)))))]
    cases hx : q.having with
    | nil => simp [present]
    | cons c cs =>
      have := conj_ne (cx := cx) (d := d) (m := m) (ps := c :: cs) (by simp) (by rw [← hx]; exact hs.2.2.2.2.1)
      simpa [present] using this
  have hgrouped : isGrouped (lex d t) = decide (q.groupBy ≠ [] ∨ q.having ≠ [] ∨
      (columnsWritten ref q.columns).any isAggregate ∨ (keysWritten ref q.orderBy).any (fun k => isAggregate k.1)) := by
    unfold isGrouped
    rw [hcols, hkeys, Bool.eq_iff_iff]
    simp only [Bool.or_eq_true, decide_eq_true_eq, hgroup, hhas, or_assoc]
    rfl
  have hmerged : isMerged (lex d t) = decide (q.opts.duplicated = .distinct ∨ q.opts.duplicated = .distinctrow) := by
    have hwords : ∀ u ∈ sortBy strLe q.opts.words, u ∈ selectWords :=
      fun u hu => words_mem q.opts ((sortBy_perm strLe q.opts.words).mem_iff.mp hu)
    have hhead : ∀ w ∈ selectWords, (columnsToks cx (toks cx d m) q.columns).head? ≠ some (.word w) :=
      fun w hw => columns_first ih hs.1 ((by decide : ∀ w ∈ selectWords, w ∉ exprWords) w hw)
    unfold isMerged optionWords
    rw [part (o := some _) (.head _)]
    show (decide (_ ∈ List.takeWhile _ (words _ ++ columnsToks _ _ _)) ||
      decide (_ ∈ List.takeWhile _ (words _ ++ columnsToks _ _ _))) = _
    rw [(dropWhile_words hwords hhead).1, Bool.eq_iff_iff, decide_eq_true_eq, ← merge_words]
    have hmem : ∀ w : Str, Tok.word w ∈ words (sortBy strLe q.opts.words) ↔ w ∈ q.opts.words := by
      intro w
      unfold words
      rw [← (sortBy_perm strLe q.opts.words).mem_iff]
      constructor
      · intro hm
        obtain ⟨u, hu, eu⟩ := List.mem_map.mp hm
        cases eu
        exact hu
      · exact fun hm => List.mem_map_of_mem hm
    rw [Bool.or_eq_true, decide_eq_true_eq, decide_eq_true_eq, hmem, hmem]
  unfold groupedAnswer
  rw [hinto, hlimit, hoffset]
  dsimp only
  rw [hwhere, hhaving, hcols, hkeys, hgrps, hgrouped, hmerged]
  unfold answerWritten
  simp only [decide_eq_true_eq]
  rfl

/-- C75. A SELECT without custom SQL that does not write to a file; its columns, tables, keys, conditions and aliases may
be anything else, also queries. The server answers exactly what the parts of the query say (`answerWritten`), each of
them taken as what the library writes for it alone. -/
theorem C75_answer (hf : Fits cx d) (hr : RefsSeen cx d ref) (hh : ConditionsSeen cx d sv holds) (sort : Sorter V)
    (gr : Grouper V) {q : Select} {n : Nat} {t : Str} (hfile : q.outfile.file = none)
    (hl : ∀ i, q.limit.limit = some i → 0 ≤ i) (hoff : ∀ i, q.limit.offset = some i → 0 ≤ i)
    (h : NoRaw cx.backend.quote .stmt (.select q)) (hne : q.tables ≠ [])
    (e : (sem cx (n + 1)).str (.select q) = .ok t) :
    groupedAnswer sv sort gr (lex d t) (fromRows sv src) = some (answerWritten sort gr ref holds q
      (sourcesWritten src ref holds (selectStep cx (sem cx n) q .str).1.tables)) := by
  rw [answer_parts hf hr hh sort gr hfile hl hoff h e, C74_tables (src := src) hf hr hh h hne e]

/-- C75 for a SELECT without tables: the answer is made of what the server takes if nothing stands after FROM. -/
theorem C75_answer_without_tables (hf : Fits cx d) (hr : RefsSeen cx d ref) (hh : ConditionsSeen cx d sv holds)
    (sort : Sorter V) (gr : Grouper V) {q : Select} {n : Nat} {t : Str} (hfile : q.outfile.file = none)
    (hl : ∀ i, q.limit.limit = some i → 0 ≤ i) (hoff : ∀ i, q.limit.offset = some i → 0 ≤ i)
    (h : NoRaw cx.backend.quote .stmt (.select q)) (hne : q.tables = []) (e : (sem cx n).str (.select q) = .ok t)
    (db : Database V) :
    groupedAnswer sv sort gr (lex d t) db = some (answerWritten sort gr ref holds q (db [])) := by
  rw [answer_parts hf hr hh sort gr hfile hl hoff h e]
  obtain ⟨m, hs, he, r⟩ := stmt_level hf h e
  have hs : safeSelect cx.backend.quote (Safe cx.backend.quote m) q := hs
  have := select_part (S := sem cx m) (d := d) (phrases_sem cx d m) hs (.tail _ (.head _))
  rw [r]
  refine congrArg (fun x => some (answerWritten sort gr ref holds q (db x))) (this.trans ?_)
  rw [hne]
  rfl

/-! ### The hypotheses are met -/

private theorem same_text {o : Obj} {n m : Nat} {u w : Str} (e1 : (sem cx n).str o = .ok u)
    (e2 : (sem cx m).str o = .ok w) : u = w := by
  have h1 := ((sem_le cx (Nat.le_max_left n m)).str o).ok e1
  have h2 := ((sem_le cx (Nat.le_max_right n m)).str o).ok e2
  rw [h1] at h2
  injection h2

/-- There is what the server reads for every column and table. -/
theorem refs_exist (cx : Ctx) (d : Dialect) : ∃ ref, RefsSeen cx d ref := by
  classical
  refine ⟨fun o => if h : ∃ n u, (sem cx n).str (.sqlRef o) = .ok u then lex d h.choose_spec.choose else [], ?_⟩
  intro o n u e
  have h : ∃ n u, (sem cx n).str (.sqlRef o) = .ok u := ⟨n, u, e⟩
  simp only [dif_pos h]
  rw [same_text h.choose_spec.choose_spec e]

/-- There is what the server reads for every value. -/
theorem literals_exist (cx : Ctx) (d : Dialect) : ∃ lit, LiteralsSeen cx d lit := by
  classical
  refine ⟨fun o => if h : ∃ n u, (sem cx n).str (.sqlValue o) = .ok u then lex d h.choose_spec.choose else [], ?_⟩
  intro o n u e
  have h : ∃ n u, (sem cx n).str (.sqlValue o) = .ok u := ⟨n, u, e⟩
  simp only [dif_pos h]
  rw [same_text h.choose_spec.choose_spec e]

end

/-- `SELECT "a" FROM "t" WHERE "b" = 'it''s, AS, ('`. -/
private def inner0 : Select :=
  { columns := [⟨.str L!"a", .none⟩], tables := [⟨.str L!"t", .none, []⟩],
    where_ := [.cond false (.str L!"b") .eq (.str L!"it's, AS, (")] }

/-- The query above as a column, a table, an operand and a key, with a function and a join. -/
private def outer0 : Select :=
  { columns := [⟨.func .count false (.str L!"*"), .str L!"n"⟩, ⟨.select inner0, .str L!"m"⟩],
    tables := [⟨.select inner0, .str L!"u", [⟨.left, .str L!"v", .none, [.cond true (.str L!"v.id") .eq (.str L!"u.id")]⟩]⟩],
    where_ := [.cond false (.str L!"x") .in_ (.select inner0)], orderBy := [⟨.select inner0, true⟩] }

private def innerText0 : Str := L!"SELECT \"a\" FROM \"t\" WHERE \"b\" = 'it''s, AS, ('"

private def outerText0 : Str :=
  L!"SELECT COUNT(*) AS \"n\", (" ++ innerText0 ++ L!") AS \"m\" FROM (" ++ innerText0 ++
  L!") AS \"u\" LEFT JOIN \"v\" ON \"v\".\"id\" = \"u\".\"id\" WHERE \"x\" IN (" ++ innerText0 ++ L!") ORDER BY (" ++
  innerText0 ++ L!") DESC"

example : NoRaw cx0.backend.quote .stmt (.select outer0) ∧ NoRaw cx0.backend.quote .query (.select inner0) ∧
    (sem cx0 8).str (.select outer0) = .ok outerText0 ∧ (sem cx0 8).str (.select inner0) = .ok innerText0 :=
  ⟨⟨8, by decide +kernel⟩, ⟨6, by decide +kernel⟩, by decide +kernel, by decide +kernel⟩

/-- What a server reads in this statement. -/
example :
    let inside := lex standardDialect innerText0
    selectedColumns (lex standardDialect outerText0) =
      [[.word L!"COUNT", .sym '(', .sym '*', .sym ')', .word L!"AS", .ident L!"n"],
       enclosed inside ++ [.word L!"AS", .ident L!"m"]] ∧
    readKeys (lex standardDialect outerText0) = [(enclosed inside, true)] := by
  decide +kernel

/-- An UPDATE whose value is a query. -/
private def update0 : Update :=
  { tables := [⟨.str L!"t", .none, []⟩], values := [.value (.str L!"a") (.select inner0), .value (.str L!"b") (.int 2)],
    where_ := [.cond false (.str L!"id") .eq (.int 1)] }

example : NoRaw cx0.backend.quote .stmt (.update update0) ∧
    (sem cx0 8).str (.update update0) =
      .ok (L!"UPDATE \"t\" SET \"a\" = (" ++ innerText0 ++ L!"), \"b\" = 2 WHERE \"id\" = 1") :=
  ⟨⟨8, by decide +kernel⟩, by decide +kernel⟩

example : NoRaw cx0.backend.quote .cond (.conds [.cond false (.str L!"x") .in_ (.select inner0)]) ∧
    (sem cx0 8).str (.conds [.cond false (.str L!"x") .in_ (.select inner0)]) =
      .ok (L!"\"x\" IN (" ++ innerText0 ++ L!")") ∧
    NoRaw cx0.backend.quote .cond (.conds [.cond true (.str L!"v.id") .eq (.str L!"u.id")]) :=
  ⟨⟨8, by decide +kernel⟩, by decide +kernel, ⟨5, by decide +kernel⟩⟩

private def union0 : Obj := .union (.select inner0) (.select inner0) true

example : NoRaw cx0.backend.quote .query union0 ∧
    (sem cx0 8).str union0 = .ok (innerText0 ++ L!" UNION ALL " ++ innerText0) :=
  ⟨⟨8, by decide +kernel⟩, by decide +kernel⟩

end SqlPuzzle
