import Verif.Proofs.Sources
import Verif.Props.Answers
import Verif.Props.JoinHistory

/-!
C71: which tables a server combines, and how.
-/

namespace SqlPuzzle

open Spec JoinHistory

private def cx0 : Ctx := ⟨.sql, ⟨id, id, fun _ => true, fun _ => [], fun _ => []⟩⟩

section
variable {cx : Ctx} {d : Dialect} {V : Type} {sv : Server V} {src : Sources V} {column : Str → List Tok}
  {holds : Tuple V → Obj → Tri}

private theorem level_high (hf : Fits cx d) {o : Obj} {n : Nat} {t : Str}
    (h : NoRaw cx.backend.quote .stmt o) (e : (sem cx n).str o = .ok t) :
    ∃ m, Safe cx.backend.quote (m + 3) .stmt o ∧ (sem cx (m + 3)).str o = .ok t ∧ lex d t = toks cx d (m + 3) o := by
  obtain ⟨N, hs, r⟩ := read_noRaw hf h e
  refine ⟨max N n, safe_le (by omega) hs, ((sem_le cx (by omega)).str o).ok e, r _ (by omega)⟩

private theorem mapR_each {α : Type} {f : α → R Str} {xs : List α} {ts : List Str} {x : α}
    (e : mapR f xs = .ok ts) (hx : x ∈ xs) : ∃ t, f x = .ok t := by
  have := mapR_ok_iff.mp e
  clear e
  induction this with
  | nil => cases hx
  | cons h1 _ ih =>
    rcases List.mem_cons.mp hx with rfl | hx
    · exact ⟨_, h1⟩
    · exact ih hx

private theorem all_true (vs : List Tri) : Tri.all vs = .t ↔ ∀ v ∈ vs, v = .t := by
  induction vs with
  | nil => exact ⟨fun _ => by simp, fun _ => rfl⟩
  | cons v vs ih =>
    have e : Tri.all (v :: vs) = v.and (Tri.all vs) := rfl
    rw [e, List.forall_mem_cons, ← ih]
    cases v <;> cases Tri.all vs <;> decide

/-- What is known of the events of a statement. -/
private structure Named (es : List TableEvent) : Prop where
  tables : ∀ p ∈ listedTables es, ExactTable p
  joins : DistinctJoins es
  ons : ∀ ps, .on ps ∈ es → ∀ p ∈ ps, ExactCond p

private theorem kept_all {es : List TableEvent} (hE : Named es) {k : Nat} {t : Table} (ht : t ∈ tablesGiven es) :
    keptJoins cx (sem cx (k + 2)) t = t.joins := by
  obtain ⟨_, h2, h3⟩ := tablesGiven_mem ht
  have hj : (t.joins.map joinNamed).Nodup := hE.joins.1.sublist h2
  have hp : ∀ j ∈ t.joins, PlainJoin j := by
    intro j hj
    have hx := exactTable_scalar (hE.joins.2 (joinNamed j) (h2.subset (List.mem_map_of_mem hj)))
    refine ⟨hx.1, hx.2, fun c hc => ?_⟩
    obtain ⟨ps, h4, h5⟩ := h3 j hj c hc
    obtain ⟨p, hp, rfl⟩ := List.mem_map.mp h5
    exact (exactOn_mk (hE.ons ps h4 p hp)).2
  unfold keptJoins
  rw [minimizeJoins_plain cx k hp, mergedJoins_distinct hj]

private theorem named_rows (hf : Fits cx d) (hc : NamesSeen cx d column) {m : Nat} {n a : Obj} (hx : ExactTable (n, a))
    (hs : safeAliased cx.backend.quote (Safe cx.backend.quote m) n a) :
    tableRows src (aliasedToks cx (toks cx d m) n a) = tableSeen src column n a := by
  obtain ⟨⟨s, _, h1⟩, h2⟩ := hx
  refine tableRows_named ⟨s, h1⟩ h2 ?_
  rintro u (rfl | ⟨rfl, hu⟩)
  · exact column_toks hf hc hs.1
  · exact column_toks hf hc (hs.2 (by cases u <;> simp_all [Obj.truthy]))

/-- The tables that a server reads are those asked for. -/
private theorem from_seen (hf : Fits cx d) (hc : NamesSeen cx d column) (hh : ConditionsSeen cx d sv holds)
    (hm : MirrorsAgree sv) {k : Nat} {es : List TableEvent} (hne : listedTables es ≠ []) (hE : Named es)
    (hs : ∀ t ∈ tablesGiven es, safeTable cx.backend.quote (Safe cx.backend.quote (k + 2)) t) {kw u : Str}
    (he : tablesText cx (sem cx (k + 2)) kw (tablesGiven es) = .ok u) :
    fromRows sv src (tablesToks cx (sem cx (k + 2)) d (toks cx d (k + 2)) [] (tablesGiven es)) =
      sourcesSeen src column holds (tablesAsked es) := by
  have ih := phrases_sem cx d (k + 2)
  have hne' := tablesGiven_ne hne
  have htext : ∀ t ∈ tablesGiven es, ∃ u, tableText cx (sem cx (k + 2)) t = .ok u := by
    intro t ht
    unfold tablesText partsText at he
    have : (tablesGiven es).isEmpty = false := by simpa using hne'
    rw [this] at he
    simp only [Bool.false_eq_true, if_false, bind_ok] at he
    obtain ⟨ts, e1, _⟩ := he
    exact mapR_each e1 ht
  have et : ∀ t ∈ tablesGiven es, tableToks cx (sem cx (k + 2)) d (toks cx d (k + 2)) t =
      aliasedToks cx (toks cx d (k + 2)) t.name t.alias ++ (t.joins.map (joinToks cx d (toks cx d (k + 2)))).flatten := by
    intro t ht
    unfold tableToks
    rw [kept_all hE ht]
  have e : tablesToks cx (sem cx (k + 2)) d (toks cx d (k + 2)) [] (tablesGiven es) =
      joinT [.sym ','] ((tablesGiven es).map (tableToks cx (sem cx (k + 2)) d (toks cx d (k + 2)))) := by
    unfold tablesToks
    have : (tablesGiven es).isEmpty = false := by simpa using hne'
    rw [this]
    rfl
  rw [← sourcesSeen_given es fun t ht j hj a ha b row e => mirror_seen hf hh hm ((hs t ht).2 j hj |>.2 a ha) e row]
  unfold fromRows sourcesSeen
  rw [e, pieces_joinT (by simpa using hne') ?_ (by decide) (by decide), List.map_map]
  · congr 1
    refine List.map_congr_left fun t ht => ?_
    obtain ⟨h1, h2, _⟩ := tablesGiven_mem ht
    show itemRows sv src (tableToks cx (sem cx (k + 2)) d (toks cx d (k + 2)) t) = _
    rw [et t ht, itemRows_table ih (hs t ht).1 (hs t ht).2, named_rows hf hc (hE.tables _ h1) (hs t ht).1]
    unfold sourceSeen
    refine List.foldl_ext _ _ _ fun rows j hj => ?_
    have hsj := (hs t ht).2 j hj
    unfold joinRead joinSeen
    rw [named_rows hf hc (hE.joins.2 _ (h2.subset (List.mem_map_of_mem hj))) hsj.1]
    congr 1
    by_cases ho : j.ons = []
    · rw [if_pos ho]
      funext row
      simp [ho]
    · rw [if_neg ho]
      funext row
      congr 1
      have hcond : ∀ c ∈ j.ons, ∃ u, condText cx (sem cx (k + 2)) c = .ok u := by
        obtain ⟨u, hu⟩ := htext t ht
        unfold tableText at hu
        have h0 : t.joins.isEmpty = false := by
          cases hj' : t.joins with
          | nil => rw [hj'] at hj; cases hj
          | cons => rfl
        have hk : minimizeJoins cx (sem cx (k + 2)) t.joins = .ok t.joins := by
          have := kept_all (cx := cx) hE (k := k) ht
          unfold keptJoins at this
          split at this
          · next js hjs => rw [hjs, this]
          · rw [← this] at hj; cases hj
        simp only [h0, Bool.false_eq_true, if_false, bind_ok, hk] at hu
        obtain ⟨x, _, js, ⟨⟩, ts, e2, _⟩ := hu
        obtain ⟨v, hv⟩ := mapR_each e2 hj
        unfold joinText at hv
        have h1 : j.ons.isEmpty = false := by simpa using ho
        simp only [h1, Bool.false_eq_true, if_false, bind_ok] at hv
        obtain ⟨_, _, o, ho', _⟩ := hv
        exact conds_ok ho'
      rw [truth_parts ho hsj.2, all_true]
      simp only [List.mem_map, forall_exists_index, and_imp, forall_apply_eq_imp_iff₂]
      refine propext (forall₂_congr fun c hc' => ?_)
      rw [leaf_toks hf (hh row) (hsj.2 c hc') (hcond c hc')]
  · intro x hx
    obtain ⟨t, ht, rfl⟩ := List.mem_map.mp hx
    rw [et t ht]
    exact ((aliased_facts ih (hs t ht).1).1 _ (by decide)).append (whole_joins ih (hs t ht).2)

private theorem events_named {ω : Type} {Ev : ω → TableEvent → Prop} {ops : List ω} {es : List TableEvent}
    (h : List.Forall₂ Ev ops es)
    (ht : ∀ op ps, Ev op (.tables ps) → ∀ p ∈ ps, ExactTable p)
    (ho : ∀ op ps, Ev op (.on ps) → ∀ p ∈ ps, ExactCond p) (hj : DistinctJoins es) : Named es := by
  refine ⟨?_, hj, ?_⟩
  · clear hj
    induction h with
    | nil => intro p hp; cases hp
    | @cons op e ops es h _ ih =>
      intro p hp
      rw [listedTables_cons] at hp
      rcases List.mem_append.mp hp with hp | hp
      · cases e with
        | tables ps =>
          simp only [listedTables, List.append_nil] at hp
          exact ht op ps h p hp
        | _ => cases hp
      · exact ih p hp
  · clear hj
    induction h with
    | nil => intro ps hps; cases hps
    | @cons op e ops es h _ ih =>
      intro ps hps
      rcases List.mem_cons.mp hps with rfl | hps
      · exact ho op ps h
      · exact ih ps hps

private theorem one_table {t al : Obj} (h : ExactTable (t, al)) : ∀ p ∈ [(t, al)], ExactTable p := by
  intro p hp
  cases List.mem_singleton.mp hp
  exact h

theorem first_name {S : Sem} {T : Obj → List Tok} {P : Spec.Kind → Obj → Prop} {t : Table} {ts : List Table}
    {s w : Str} {r : List Tok} (hn : t.name = .str s) (hs : safeRef cx.backend.quote P t.name) :
    tablesToks cx S d T [] (t :: ts) ≠ .word w :: r := by
  intro e
  obtain ⟨n, a, js⟩ := t
  cases hn
  have h2 : ∃ r, tablesToks cx S d T [] (⟨.str s, a, js⟩ :: ts) = refToks (refParts cx.backend.quote s) ++ r := by
    cases ts with
    | nil => exact ⟨_, by simp [tablesToks, optToks, commas, joinT, tableToks, aliasedToks, refToksOf, words]; rfl⟩
    | cons t' ts => exact ⟨_, by simp [tablesToks, optToks, commas, joinT, tableToks, aliasedToks, refToksOf, words]; rfl⟩
  obtain ⟨r', h2⟩ := h2
  rw [h2] at e
  have hr := refToks_ne (refParts_ne hs.1 hs.2)
  cases hx : refToks (refParts cx.backend.quote s) with
  | nil => exact hr hx
  | cons t ts =>
    rw [hx] at e
    injection e with e1 e2
    rw [e1] at hx
    exact head_ref hx

/-- C71 for SELECT. The tables are listed and joined by name, each listed once and each joined once, in any order of
calls, among any others. Then the server combines the tables listed, in order, each joined, in order and in the way
asked for, with the tables joined after it, on the condition that all that was said in `on` after the join, before
the next one, is true. -/
theorem C71_select_partial (hf : Fits cx d) (hc : NamesSeen cx d column) (hh : ConditionsSeen cx d sv holds)
    (hm : MirrorsAgree sv) {n m : Nat} {ops : List SelectOp} {es : List TableEvent}
    (h : List.Forall₂ (SelectEvent cx) ops es) (hne : listedTables es ≠ []) (hd : (listedTables es).Nodup)
    (hj : DistinctJoins es) {t : Str}
    (hq : NoRaw cx.backend.quote .stmt (.select (runOps (selectStep cx (sem cx (n + 2))) {} ops)))
    (e : (sem cx m).str (.select (runOps (selectStep cx (sem cx (n + 2))) {} ops)) = .ok t) :
    fromRows sv src (clauseBody selectClauses L!"FROM" (lex d t)) = sourcesSeen src column holds (tablesAsked es) := by
  have ht := C62_select cx n ops es h hd (fun _ => hj) {} rfl
  generalize runOps (selectStep cx (sem cx (n + 2))) {} ops = q at *
  have hE : Named es := events_named h (fun op ps h => by
    cases h with
    | from_ h => exact h.2.2
    | fromTable h => exact one_table h) (fun op ps h => by cases h with | on h => exact h.2) hj
  obtain ⟨k, hs, he, r⟩ := level_high hf hq e
  have hs : safeSelect cx.backend.quote (Safe cx.backend.quote (k + 2)) q := hs
  have hb : (!q.tables.isEmpty) = true := by
    rw [ht]
    have := tablesGiven_ne hne
    cases hx : tablesGiven es <;> simp_all
  have he : selectText cx (sem cx (k + 2)) q = .ok t := he
  unfold selectText at he
  simp only [bind_ok] at he
  obtain ⟨_, _, _, _, _, _, _, _, _, _, _, _, _, _, _, _, x, hx, _⟩ := he
  obtain ⟨u, hu⟩ := clause_text_ok hx hb
  rw [r]
  have hp := select_part (S := sem cx (k + 2)) (d := d) (phrases_sem cx d (k + 2)) hs (.tail _ (.head _))
  refine (congrArg _ (hp.trans ?_)).trans (from_seen hf hc hh hm (k := k) hne hE ?_ (kw := L!"FROM") (u := u) ?_)
  · rw [hb]
    show tablesToks cx _ d _ [] q.tables = _
    rw [ht]
  · rw [← ht]; exact hs.2.1
  · rw [← ht]; exact hu

/-- C71 for the tables of an UPDATE. -/
theorem C71_update_partial (hf : Fits cx d) (hc : NamesSeen cx d column) (hh : ConditionsSeen cx d sv holds)
    (hm : MirrorsAgree sv) {n m : Nat} {ops : List UpdateOp} {es : List TableEvent}
    (h : List.Forall₂ (UpdateEvent cx) ops es) (hne : listedTables es ≠ []) (hd : (listedTables es).Nodup)
    (hj : DistinctJoins es) {t : Str}
    (hq : NoRaw cx.backend.quote .stmt (.update (runOps (updateStep cx (sem cx (n + 2))) {} ops)))
    (e : (sem cx m).str (.update (runOps (updateStep cx (sem cx (n + 2))) {} ops)) = .ok t) :
    fromRows sv src (updatedTable (lex d t)) = sourcesSeen src column holds (tablesAsked es) := by
  have ht := C62_update cx n ops es h hd (fun _ => hj) {} rfl
  generalize runOps (updateStep cx (sem cx (n + 2))) {} ops = q at *
  have hE : Named es := events_named h (fun op ps h => by cases h with | table h => exact h.2.2)
    (fun op ps h => by cases h with | on h => exact h.2) hj
  obtain ⟨k, hs, he, r⟩ := level_high hf hq e
  have hs : safeUpdate cx.backend.quote (Safe cx.backend.quote (k + 2)) q := hs
  have hb : (!q.tables.isEmpty) = true := by
    rw [ht]
    have := tablesGiven_ne hne
    cases hx : tablesGiven es <;> simp_all
  have he : updateText cx (sem cx (k + 2)) q = .ok t := he
  unfold updateText at he
  split at he
  · cases he
  simp only [bind_ok] at he
  obtain ⟨x, hx, _⟩ := he
  obtain ⟨u, hu⟩ := clause_text_ok hx hb
  have key := from_seen (src := src) hf hc hh hm (k := k) hne hE (by rw [← ht]; exact hs.1) (kw := []) (u := u)
    (by rw [← ht]; exact hu)
  rw [← ht] at key
  rw [r, ← key]
  congr 1
  unfold updatedTable
  have hu := table_update (S := sem cx (k + 2)) (d := d) (phrases_sem cx d (k + 2)) hs
  refine (congrArg (fun x : List Tok => match x with
    | .word w :: r => if w = L!"IGNORE" then r else .word w :: r
    | r => r) hu).trans ?_
  cases q.ignore with
  | true => rfl
  | false =>
    show (match tablesToks cx (sem cx (k + 2)) d (toks cx d (k + 2)) [] q.tables with
      | .word w :: r => if w = L!"IGNORE" then r else .word w :: r
      | r => r) = _
    split
    · rename_i w r' e'
      exfalso
      cases hts : q.tables with
      | nil => rw [hts] at hb; cases hb
      | cons t ts =>
        obtain ⟨⟨s, _, h1⟩, _⟩ := hE.tables _ (tablesGiven_mem (es := es) (t := t) (by rw [← ht, hts]; simp)).1
        have hsafe := (hs.1 t (by rw [hts]; simp)).1.1
        rw [hts] at e'
        exact first_name h1 hsafe e'
    · rfl

/-- C71 for the tables after FROM in a DELETE. -/
theorem C71_delete_partial (hf : Fits cx d) (hc : NamesSeen cx d column) (hh : ConditionsSeen cx d sv holds)
    (hm : MirrorsAgree sv) {n m : Nat} {ops : List DeleteOp} {es : List TableEvent}
    (h : List.Forall₂ (DeleteEvent cx) ops es) (hne : listedTables es ≠ []) (hd : (listedTables es).Nodup)
    (hj : DistinctJoins es) {t : Str}
    (hq : NoRaw cx.backend.quote .stmt (.delete (runOps (deleteStep cx (sem cx (n + 2))) {} ops)))
    (e : (sem cx m).str (.delete (runOps (deleteStep cx (sem cx (n + 2))) {} ops)) = .ok t) :
    fromRows sv src (clauseBody deleteClauses L!"FROM" (lex d t)) = sourcesSeen src column holds (tablesAsked es) := by
  have ht := C62_delete cx n ops es h hd (fun _ => hj) {} rfl
  generalize runOps (deleteStep cx (sem cx (n + 2))) {} ops = q at *
  have hE : Named es := events_named h (fun op ps h => by
    cases h with
    | from_ h => exact h.2.2
    | fromTable h => exact one_table h) (fun op ps h => by cases h with | on h => exact h.2) hj
  obtain ⟨k, hs, he, r⟩ := level_high hf hq e
  have hs : safeDelete cx.backend.quote (Safe cx.backend.quote (k + 2)) q := hs
  have hb : (!q.references.isEmpty) = true := by
    rw [ht]
    have := tablesGiven_ne hne
    cases hx : tablesGiven es <;> simp_all
  have he : deleteText cx (sem cx (k + 2)) q = .ok t := he
  unfold deleteText at he
  split at he
  · cases he
  simp only [bind_ok] at he
  obtain ⟨_, _, x, hx, _⟩ := he
  obtain ⟨u, hu⟩ := clause_text_ok hx hb
  rw [r]
  refine (congrArg _ ((from_delete (S := sem cx (k + 2)) (d := d) (phrases_sem cx d (k + 2)) hs).trans ?_)).trans
    (from_seen hf hc hh hm (k := k) hne hE ?_ (kw := []) (u := u) ?_)
  · rw [ht]
  · rw [← ht]; exact hs.2.1
  · rw [← ht]; exact hu

/-- C71 for the whole answer to a SELECT: tables listed and joined as above, among any calls of `columns`, `where`,
`order_by`, `limit`, `offset`, `for_update` and of the options other than `distinct`. The server answers with the rows
of the combined tables in which all the conditions of `where` are true, sorted, cut to the page and shown as in C69. -/
theorem C71_rows_partial (hf : Fits cx d) (hc : NamesSeen cx d column) (hh : ConditionsSeen cx d sv holds)
    (hm : MirrorsAgree sv) (sort : Sorter V) {n m : Nat} {ops : List SelectOp} (hk : ∀ op ∈ ops, KeepsAnswer op)
    {es : List TableEvent} (h0 : List.Forall₂ (SelectEvent cx) ops es) (hne : listedTables es ≠ [])
    (hd : (listedTables es).Nodup) (hj : DistinctJoins es) {cols conds : List (List (Obj × Obj))}
    {orders : List (List Use)}
    (h1 : List.Forall₂ ColumnNames ops cols) (h1e : ∀ ps ∈ cols, ∀ p ∈ ps, NamedColumn column p)
    (h2 : List.Forall₂ WherePairs ops conds) (h2e : ∀ ps ∈ conds, ∀ p ∈ ps, ExactCond p)
    (h3 : List.Forall₂ (OrderUses cx) ops orders) (h3e : ∀ us ∈ orders, ∀ u ∈ us, ∃ c, u.1 = .str c)
    (hl : ∀ i, latest saysLimit ops = some (some i) → 0 ≤ i)
    (ho : ∀ i, latest saysOffset ops = some (some i) → 0 ≤ i) {t : Str}
    (h : NoRaw cx.backend.quote .stmt (.select (runOps (selectStep cx (sem cx (n + 2))) {} ops)))
    (e : (sem cx m).str (.select (runOps (selectStep cx (sem cx (n + 2))) {} ops)) = .ok t) :
    ∃ (shown : List (Obj × Obj)) (keys : List Use),
      FirstUses cols.flatten shown ∧ FirstUses (orders.flatten.map Prod.fst) (keys.map Prod.fst) ∧
      (∀ k ∈ keys, LastValue orders.flatten k.1 k.2) ∧
      answerOf sv sort (lex d t) (fromRows sv src) = some ((pageOf (((latest saysLimit ops).getD none).map Int.toNat)
        ((((latest saysOffset ops).getD none).map Int.toNat).getD 0)
        (sort (keys.map fun k => (seenName column k.1, k.2))
          ((sourcesSeen src column holds (tablesAsked es)).filter fun row =>
          decide (Tri.all (conds.flatten.map fun p => holds row (.conds [condOf p.1 p.2])) = .t)))).map fun row =>
            if shown = [] then [.whole row] else shown.map (cellSeen column row)) := by
  obtain ⟨a1, a2, a3, a4⟩ := answer_from hf hc hh sort hk h1 h1e h2 h2e h3 h3e hl ho rfl h e (fromRows sv src)
  rw [C71_select_partial hf hc hh hm h0 hne hd hj h e] at a4
  generalize runOps (selectStep cx (sem cx (n + 2))) {} ops = q at *
  refine ⟨q.columns.map fun c => (c.name, c.alias), q.orderBy.map fun o => (o.col, o.desc), a1, ?_, ?_, ?_⟩
  · rw [List.map_map]; exact a2
  · intro k hk
    obtain ⟨o, ho, rfl⟩ := List.mem_map.mp hk
    exact a3 o ho
  · rw [a4, List.map_map]
    simp only [List.map_eq_nil_iff]
    rfl

end

/-- C71 in full for SELECT: the same table may also be joined several times. -/
def C71_claim : Prop :=
  ∀ (cx : Ctx) (d : Dialect) (V : Type) (sv : Server V) (src : Sources V) (column : Str → List Tok)
    (holds : Tuple V → Obj → Tri) (n m : Nat) (ops : List SelectOp) (es : List TableEvent) (t : Str),
    Fits cx d → NamesSeen cx d column → ConditionsSeen cx d sv holds → MirrorsAgree sv →
    List.Forall₂ (SelectEvent cx) ops es → listedTables es ≠ [] → (listedTables es).Nodup →
    (∀ p ∈ joinedTables es, ExactTable p) →
    NoRaw cx.backend.quote .stmt (.select (runOps (selectStep cx (sem cx (n + 2))) {} ops)) →
    (sem cx m).str (.select (runOps (selectStep cx (sem cx (n + 2))) {} ops)) = .ok t →
    fromRows sv src (clauseBody selectClauses L!"FROM" (lex d t)) = sourcesSeen src column holds (tablesAsked es)

/-- `from_('a').left_join('b').on('a.x', 'b.x').join('b').on('a.x', 'b.x')`. -/
private def twice : List SelectOp :=
  [.from_ { pos := [.str L!"a"] }, .join .left (.str L!"b"), .on { pos := [.str L!"a.x", .str L!"b.x"] },
    .join .inner (.str L!"b"), .on { pos := [.str L!"a.x", .str L!"b.x"] }]

private def twiceEvents : List TableEvent :=
  [.tables [(.str L!"a", .none)], .join .left (.str L!"b") .none, .on [(.str L!"a.x", .str L!"b.x")],
    .join .inner (.str L!"b") .none, .on [(.str L!"a.x", .str L!"b.x")]]

private theorem tableA (s : Str) (h : s ≠ []) : ListsTables { pos := [.str s] } [(.str s, .none)] := by
  refine ⟨.usual (ps := [(.str s, .none)]) (by rintro _ ⟨⟩) (.cons (.name (by rintro _ ⟨⟩)) .nil)
    ⟨[], .nil, .nil, rfl⟩ (by simp [KwFree]), by simp, ?_⟩
  intro p hp
  cases List.mem_singleton.mp hp
  exact ⟨⟨s, h, rfl⟩, .inl rfl⟩

private theorem onAB (s t : Str) : GivesOns { pos := [.str s, .str t] } [(.str s, .str t)] := by
  refine ⟨.usual (.direct _ (by rintro _ ⟨⟩)) ⟨[], .nil, .nil, rfl⟩ (by simp [KwFree]), ?_⟩
  intro p hp
  cases List.mem_singleton.mp hp
  exact ⟨⟨_, rfl⟩, trivial⟩

private theorem twice_events : List.Forall₂ (SelectEvent cx0) twice twiceEvents :=
  .cons (.from_ (tableA _ (by decide))) (.cons (.join ⟨.name _, .inl ⟨_, rfl⟩, .inl rfl, by simp⟩)
    (.cons (.on (onAB _ _)) (.cons (.join ⟨.name _, .inl ⟨_, rfl⟩, .inl rfl, by simp⟩) (.cons (.on (onAB _ _)) .nil))))

/-- A server that knows nothing of its predicates, and joins by adding a row. -/
private def unknowing : Server Unit := ⟨fun _ => (), fun _ _ => .u, fun _ => ()⟩
private def counting : Sources Unit :=
  ⟨fun _ _ => [], fun _ rows _ _ => rows ++ [fun _ => ()], List.flatten⟩

private theorem names_seen : NamesSeen cx0 standardDialect fun c => lex standardDialect (reference '"' c) := by
  intro c n u e
  cases n with
  | zero => cases e
  | succ n => cases e; rfl

/-- It is false: joins of one table with one condition are merged, the left join and the inner one into an inner
one. -/
theorem C71_refuted : ¬ C71_claim := by
  intro h
  obtain ⟨holds, hh⟩ : ∃ holds : Tuple Unit → Obj → Tri, ConditionsSeen cx0 standardDialect unknowing holds := by
    obtain ⟨leaf, hl⟩ := C36_leaf_exists cx0 standardDialect (fun _ => .u)
    exact ⟨fun _ => leaf, fun _ => hl⟩
  have := h cx0 standardDialect Unit unknowing counting (fun c => lex standardDialect (reference '"' c)) holds 2 6 twice
    twiceEvents L!"SELECT * FROM \"a\" JOIN \"b\" ON \"a\".\"x\" = \"b\".\"x\"" rfl
    names_seen hh (fun _ _ _ => ⟨rfl, rfl, rfl, rfl⟩) twice_events (by simp [twiceEvents, listedTables])
    (by simp [twiceEvents, listedTables])
    (by
      intro p hp
      simp only [twiceEvents, joinedTables, List.mem_cons, List.not_mem_nil, or_false] at hp
      rcases hp with rfl | rfl <;> exact ⟨⟨_, by decide, rfl⟩, .inl rfl⟩) ⟨6, by decide +kernel⟩ (by decide +kernel)
  have h1 : (fromRows unknowing counting (clauseBody selectClauses L!"FROM" (lex standardDialect
    L!"SELECT * FROM \"a\" JOIN \"b\" ON \"a\".\"x\" = \"b\".\"x\""))).length = 1 := by decide +kernel
  rw [this] at h1
  cases (show 2 = 1 from h1)

/-- A server that compares the values of two columns. -/
private def comparing : Server Nat :=
  ⟨fun _ => 0, fun row ts => match ts.dropWhile (· ≠ .op L!"=") with
    | _ :: b => if row (ts.takeWhile (· ≠ .op L!"=")) = row b then .t else .f
    | [] => .u, fun _ => 0⟩

private theorem ref_ops {w : Str} : ∀ ps : List Str, ∀ t ∈ refToks ps, t ≠ .op w
  | [], t, h => nomatch h
  | [p], t, h => by
    rw [List.mem_singleton.mp h]
    unfold segmentTok
    split <;> simp
  | p :: q :: ps, t, h => by
    rcases List.mem_cons.mp h with rfl | h
    · unfold segmentTok
      split <;> simp
    rcases List.mem_cons.mp h with rfl | h
    · simp
    · exact ref_ops (q :: ps) t h

/-- It agrees on mirror images. -/
example : MirrorsAgree comparing := by
  have other : ∀ (row : Tuple Nat) (a b : List Str) (w : Str), w ≠ L!"=" →
      comparing.predicate row (refToks a ++ .op w :: refToks b) = .u := by
    intro row a b w hw
    have : (refToks a ++ .op w :: refToks b).dropWhile (· ≠ .op L!"=") = [] := by
      rw [List.dropWhile_eq_nil_iff]
      intro t ht
      simp only [ne_eq, decide_eq_true_eq]
      rcases List.mem_append.mp ht with ht | ht
      · exact ref_ops _ t ht
      rcases List.mem_cons.mp ht with rfl | ht
      · simpa using hw
      · exact ref_ops _ t ht
    simp only [comparing, this]
  intro row a b
  refine ⟨?_, ?_, ?_, ?_⟩
  · have cut : ∀ a b : List Str, comparing.predicate row (refToks a ++ .op L!"=" :: refToks b) =
        if row (refToks a) = row (refToks b) then .t else .f := by
      intro a b
      have ha : ∀ t ∈ refToks a, decide (t ≠ .op L!"=") = true := fun t ht => by simpa using ref_ops a t ht
      simp only [comparing, List.dropWhile_append_of_pos ha, List.takeWhile_append_of_pos ha]
      simp
    rw [cut, cut]
    simp only [eq_comm]
  all_goals rw [other _ _ _ _ (by decide), other _ _ _ _ (by decide)]

/-- Calls that meet the hypotheses: `from_('a', 'b').join('c').on('c.x', 'b.x').where('y', 'v').on('b.x', 'c.x')` and
then `.left_join(('d', 'e')).order_by('y').limit(3)`. -/
private def joined : List SelectOp :=
  [.from_ { pos := [.str L!"a", .str L!"b"] }, .join .inner (.str L!"c"), .on { pos := [.str L!"c.x", .str L!"b.x"] },
   .where_ { pos := [.str L!"y", .str L!"v"] }, .on { pos := [.str L!"b.x", .str L!"c.x"] },
   .join .left (.tuple [.str L!"d", .str L!"e"]), .orderBy { pos := [.str L!"y"] }, .limit (.int 3) .none]

private def joinedEvents : List TableEvent :=
  [.tables [(.str L!"a", .none), (.str L!"b", .none)], .join .inner (.str L!"c") .none,
   .on [(.str L!"c.x", .str L!"b.x")], .other, .on [(.str L!"b.x", .str L!"c.x")],
   .join .left (.str L!"d") (.str L!"e"), .other, .other]

private def joinedText : Str :=
  L!"SELECT * FROM \"a\", \"b\" JOIN \"c\" ON \"c\".\"x\" = \"b\".\"x\" LEFT JOIN \"d\" AS \"e\" " ++
    L!"WHERE \"y\" = 'v' ORDER BY \"y\" LIMIT 3"

example : (∀ op ∈ joined, KeepsAnswer op) ∧ List.Forall₂ (SelectEvent cx0) joined joinedEvents ∧
    listedTables joinedEvents = [(.str L!"a", .none), (.str L!"b", .none)] ∧ DistinctJoins joinedEvents ∧
    List.Forall₂ ColumnNames joined [[], [], [], [], [], [], [], []] ∧
    List.Forall₂ WherePairs joined [[], [], [], [(.str L!"y", .str L!"v")], [], [], [], []] ∧
    ExactCond (.str L!"y", .str L!"v") ∧
    List.Forall₂ (OrderUses cx0) joined [[], [], [], [], [], [], [(.str L!"y", false)], []] ∧
    latest saysLimit joined = some (some 3) ∧ latest saysOffset joined = none ∧
    NoRaw '"' .stmt (.select (runOps (selectStep cx0 (sem cx0 4)) {} joined)) ∧
    (sem cx0 6).str (.select (runOps (selectStep cx0 (sem cx0 4)) {} joined)) = .ok joinedText := by
  refine ⟨?_, ?_, rfl, ⟨by simp [joinedEvents, joinedTables], ?_⟩, ?_, ?_, ⟨⟨_, rfl⟩, trivial⟩, ?_, rfl, rfl,
    ⟨6, by decide +kernel⟩, by decide +kernel⟩
  · intro op hop
    simp only [joined, List.mem_cons, List.not_mem_nil, or_false] at hop
    rcases hop with rfl | rfl | rfl | rfl | rfl | rfl | rfl | rfl <;> trivial
  · refine .cons (.from_ ⟨.usual (ps := [(.str L!"a", .none), (.str L!"b", .none)])
        (by rintro _ ⟨⟩) (.cons (.name (by rintro _ ⟨⟩)) (.cons (.name (by rintro _ ⟨⟩)) .nil))
        ⟨[], .nil, .nil, rfl⟩ (by simp [KwFree]), by simp, ?_⟩)
      (.cons (.join ⟨.name _, .inl ⟨_, rfl⟩, .inl rfl, by simp⟩) (.cons (.on (onAB _ _)) (.cons (.other trivial)
      (.cons (.on (onAB _ _)) (.cons (.join ⟨.tuple _ _, .inl ⟨_, rfl⟩, .inr (.inl ⟨_, rfl⟩), by simp⟩)
      (.cons (.other trivial) (.cons (.other trivial) .nil)))))))
    intro p hp
    simp only [List.mem_cons, List.not_mem_nil, or_false] at hp
    rcases hp with rfl | rfl <;> exact ⟨⟨_, by decide, rfl⟩, .inl rfl⟩
  · intro p hp
    simp only [joinedEvents, joinedTables, List.mem_cons, List.not_mem_nil, or_false] at hp
    rcases hp with rfl | rfl
    · exact ⟨⟨_, by decide, rfl⟩, .inl rfl⟩
    · exact ⟨⟨_, by decide, rfl⟩, .inr ⟨_, rfl⟩⟩
  · exact .cons rfl (.cons rfl (.cons rfl (.cons rfl (.cons rfl (.cons rfl (.cons rfl (.cons rfl .nil)))))))
  · exact .cons rfl (.cons rfl (.cons rfl (.cons (.usual (ps := [(.str L!"y", .str L!"v")])
      (.direct _ (by rintro _ ⟨⟩)) ⟨[], .nil, .nil, rfl⟩ (by simp [KwFree]))
      (.cons rfl (.cons rfl (.cons rfl (.cons rfl .nil)))))))
  · refine .cons rfl (.cons rfl (.cons rfl (.cons rfl (.cons rfl (.cons rfl (.cons ?_ (.cons rfl .nil)))))))
    exact ⟨[(.str L!"y", .none)], .usual (ps := [(.str L!"y", .none)]) (by rintro _ ⟨⟩)
      (.cons (.name (by rintro _ ⟨⟩)) .nil) ⟨[], .nil, .nil, rfl⟩ (by simp [KwFree]),
      .cons ⟨.inl ⟨_, rfl⟩, rfl, .inl ⟨rfl, rfl⟩⟩ .nil⟩

/-- What a server that counts rows reads in it: `a` has one row, `b` two, `c` and `d` one each for every row joined. -/
private def sizes : Sources Nat where
  table n l := if n = [.ident L!"b"] then [fun _ => 0, fun _ => 1] else if n = l then [fun _ => 2] else []
  join k xs ys _ := if k = [.word L!"LEFT"] then xs else xs.flatMap fun _ => ys
  product xs := xs.flatten

example : (fromRows comparing sizes (clauseBody selectClauses L!"FROM" (lex standardDialect joinedText))).map (· []) =
    [2, 2, 2] := by
  decide +kernel

example (holds : Tuple Nat → Obj → Tri) :
    (sourcesSeen sizes (fun c => lex standardDialect (reference '"' c)) holds (tablesAsked joinedEvents)).map (· []) =
      [2, 2, 2] := by
  rfl

/-- `update('a').left_join('b').on('a.x', 'b.x').set('y', 1).where('b.z', 'v')`. -/
private def updated : List UpdateOp :=
  [.table (.str L!"a"), .leftJoin (.str L!"b"), .on { pos := [.str L!"a.x", .str L!"b.x"] },
   .set { pos := [.str L!"y", .int 1] }, .where_ { pos := [.str L!"b.z", .str L!"v"] }]

/-- `delete_from('a').left_join('b').on('a.x', 'b.x').where('b.z', 'v')`. -/
private def deleted : List DeleteOp :=
  [.from_ { pos := [.str L!"a"] }, .leftJoin (.str L!"b"), .on { pos := [.str L!"a.x", .str L!"b.x"] },
   .where_ { pos := [.str L!"b.z", .str L!"v"] }]

example : List.Forall₂ (UpdateEvent cx0) updated
      [.tables [(.str L!"a", .none)], .join .left (.str L!"b") .none, .on [(.str L!"a.x", .str L!"b.x")], .other, .other] ∧
    NoRaw '"' .stmt (.update (runOps (updateStep cx0 (sem cx0 4)) {} updated)) ∧
    (sem cx0 6).str (.update (runOps (updateStep cx0 (sem cx0 4)) {} updated)) =
      .ok (L!"UPDATE \"a\" LEFT JOIN \"b\" ON \"a\".\"x\" = \"b\".\"x\" SET \"y\" = 1 WHERE \"b\".\"z\" = 'v'") :=
  ⟨.cons (.table (tableA _ (by decide))) (.cons (.leftJoin ⟨.name _, .inl ⟨_, rfl⟩, .inl rfl, by simp⟩)
    (.cons (.on (onAB _ _)) (.cons (.other trivial) (.cons (.other trivial) .nil)))),
    ⟨6, by decide +kernel⟩, by decide +kernel⟩

example : List.Forall₂ (DeleteEvent cx0) deleted
      [.tables [(.str L!"a", .none)], .join .left (.str L!"b") .none, .on [(.str L!"a.x", .str L!"b.x")], .other] ∧
    NoRaw '"' .stmt (.delete (runOps (deleteStep cx0 (sem cx0 4)) {} deleted)) ∧
    (sem cx0 6).str (.delete (runOps (deleteStep cx0 (sem cx0 4)) {} deleted)) =
      .ok (L!"DELETE FROM \"a\" LEFT JOIN \"b\" ON \"a\".\"x\" = \"b\".\"x\" WHERE \"b\".\"z\" = 'v'") :=
  ⟨.cons (.from_ (tableA _ (by decide))) (.cons (.leftJoin ⟨.name _, .inl ⟨_, rfl⟩, .inl rfl, by simp⟩)
    (.cons (.on (onAB _ _)) (.cons (.other trivial) .nil))), ⟨6, by decide +kernel⟩, by decide +kernel⟩

end SqlPuzzle
