import Verif.Proofs.AcceptedChanges
import Verif.Proofs.CallFacts
import Verif.Props.Accepted

/-!
C70 for UPDATE, DELETE and joins.
-/

namespace SqlPuzzle

open Spec

private def env0 : Env := ⟨id, id, fun _ => true, fun _ => [], fun _ => []⟩

section
variable {cx : Ctx} {d : Dialect}

/-! ### Joins -/

/-- A table has no full join unless the database has them. -/
private def Halves (cx : Ctx) (t : Table) : Prop :=
  cx.backend.supportsFullJoin = false → ∀ j ∈ t.joins, j.type ≠ .full

private theorem last_inv {α : Type} {P : α → Prop} {f : α → Upd α} {xs : List α} {r : Upd (List α)}
    (hx : ∀ x ∈ xs, P x) (hf : ∀ x ∈ xs, P (f x).1) (e : updateLast f xs = some r) : ∀ x ∈ r.1, P x := by
  obtain ⟨ys, y, rfl, rfl⟩ := updateLast_some e
  intro x hm
  rcases List.mem_append.mp hm with hm | hm
  · exact hx x (by simp [hm])
  · rw [List.mem_singleton.mp hm]; exact hf y (by simp)

private theorem halves_set {S : Sem} {ts : List Table} (a : Args) (h : ∀ t ∈ ts, Halves cx t) :
    ∀ t ∈ (tablesSet cx S ts a).1, Halves cx t := by
  unfold tablesSet
  split
  · exact h
  refine withR_inv (P := fun ts => ∀ t ∈ ts, Halves cx t) h fun bs _ => forUpd_inv (P := fun ts => ∀ t ∈ ts, Halves cx t) (fun ts b _ h => ?_) h
  refine withR_inv (P := fun ts => ∀ t ∈ ts, Halves cx t) h fun t ht => appendUnique_inv h ?_
  intro _ j hj
  rw [Calls.mkTable_ok ht] at hj
  cases hj

private theorem mkJoin_type {S : Sem} {ty : JoinType} {arg : Obj} {j : Join} (e : mkJoin S ty arg = .ok j) :
    j.type = ty := by
  have key : ∀ n al, (do let t ← mkTable n al; (.ok ⟨ty, t.name, t.alias, []⟩ : R Join)) = .ok j → j.type = ty := by
    intro n al e
    obtain ⟨t, _, e⟩ := bind_ok.mp e
    cases e
    rfl
  unfold mkJoin at e
  split at e
  · exact key _ _ e
  · exact key _ _ e
  · exact key _ _ e
  · cases e; rfl
  · split at e
    · obtain ⟨_, _, e⟩ := bind_ok.mp e
      cases e
    · cases e

private theorem halves_join {S : Sem} {ts : List Table} (ty : JoinType) (arg : Obj) (h : ∀ t ∈ ts, Halves cx t) :
    ∀ t ∈ (tablesJoin cx S ts ty arg).1, Halves cx t := by
  unfold tablesJoin
  split
  · exact h
  · next hg =>
    split
    · exact h
    · next r e =>
      refine last_inv h (fun t ht => ?_) e
      refine withR_inv (h t ht) fun j hj hs k hk => ?_
      rcases List.mem_append.mp hk with hk | hk
      · exact h t ht hs k hk
      · rw [List.mem_singleton.mp hk, mkJoin_type hj]
        rintro rfl
        rw [hs] at hg
        exact hg rfl

private theorem halves_on {S : Sem} {ts : List Table} (a : Args) (h : ∀ t ∈ ts, Halves cx t) :
    ∀ t ∈ (tablesOn cx S ts a).1, Halves cx t := by
  unfold tablesOn
  split
  · exact h
  split
  · exact h
  · next r e =>
    refine last_inv h (fun t ht => ?_) e
    unfold tableOn
    split
    · exact h t ht
    · next js e' hj =>
      intro hs
      exact last_inv (P := fun j : Join => j.type ≠ .full) (h t ht hs) (fun j hj => h t ht hs j hj) hj

private theorem halves_strTable {S : Sem} {t : Table} (h : Halves cx t) : Halves cx (strTable cx S t).1 := by
  unfold strTable
  split
  · exact h
  split
  · exact h
  split
  · exact h
  · next js e =>
    intro hs j hj
    rcases minimize_types e hj with h1 | ⟨j0, h0, h1⟩
    · rw [h1]; decide
    · rw [h1]; exact h hs j0 h0

private theorem halves_str {S : Sem} {ts : List Table} (h : ∀ t ∈ ts, Halves cx t) :
    ∀ t ∈ (strTables cx S ts).1, Halves cx t := by
  induction ts with
  | nil => exact h
  | cons t ts ih =>
    have h1 := halves_strTable (S := S) (h t (by simp))
    have h2 := ih fun x hx => h x (by simp [hx])
    unfold strTables
    split
    · next t' e he =>
      rw [he] at h1
      intro x hx
      rcases List.mem_cons.mp hx with rfl | hx
      · exact h1
      · exact h x (by simp [hx])
    · next t' he =>
      rw [he] at h1
      intro x hx
      rcases List.mem_cons.mp hx with rfl | hx
      · exact h1
      · exact h2 x hx

private theorem halves_run {S : Sem} (ops : List SelectOp) (q : Select) (h : ∀ t ∈ q.tables, Halves cx t) :
    ∀ t ∈ (runOps (selectStep cx S) q ops).tables, Halves cx t := by
  induction ops generalizing q with
  | nil => exact h
  | cons op ops ih =>
    refine ih _ ?_
    cases op with
    | from_ a => exact halves_set a h
    | fromTable t al => exact halves_set _ h
    | join ty arg => exact halves_join ty arg h
    | on a => exact halves_on a h
    | str =>
      show ∀ t ∈ (selectStr cx S q).1.tables, _
      have := halves_str (S := S) h
      unfold selectStr
      dsimp only
      split <;> first | exact h | exact this
    | _ => exact h

/-- C70 for joins: after any calls a SELECT has no `FULL JOIN` for a database that does not know it. -/
theorem C70_joins (hf : Fits cx d) (n k : Nat) (ops : List SelectOp) (t : Str)
    (h : NoRaw cx.backend.quote .stmt (.select (runOps (selectStep cx (sem cx k)) {} ops)))
    (e : (sem cx n).str (.select (runOps (selectStep cx (sem cx k)) {} ops)) = .ok t) :
    joinsAccepted cx.backend (lex d t) = true := by
  have hh := halves_run (cx := cx) (S := sem cx k) ops {} (by simp)
  generalize runOps (selectStep cx (sem cx k)) {} ops = q at *
  obtain ⟨m, hs, _, r⟩ := stmt_level hf h e
  have hs : safeSelect cx.backend.quote (Safe cx.backend.quote m) q := hs
  have ih := phrases_sem cx d m
  have hfrom : clauseBody selectClauses L!"FROM" (lex d t) = tablesToks cx (sem cx m) d (toks cx d m) [] q.tables := by
    rw [r]
    have hm : (L!"FROM", present (!q.tables.isEmpty) (tablesToks cx (sem cx m) d (toks cx d m) [] q.tables)) ∈
        selectParts cx (sem cx m) d (toks cx d m) q := .tail _ (.head _)
    refine (select_part ih hs hm).trans ?_
    cases ht : q.tables with
    | nil => rfl
    | cons a as => rfl
  have hno : cx.backend.supportsFullJoin = false →
      [Tok.word L!"FULL"] ∉ joinKinds (clauseBody selectClauses L!"FROM" (lex d t)) := by
    intro hb hm
    rw [hfrom, joinKinds_tables ih hs.2.1] at hm
    obtain ⟨t, ht, hm⟩ := List.mem_flatMap.mp hm
    obtain ⟨j, hj, hk⟩ := List.mem_map.mp hm
    have hfull : j.type = .full := by
      revert hk
      cases j.type <;> decide
    unfold keptJoins at hj
    split at hj
    · next js e =>
      rcases minimize_types e hj with h1 | ⟨j0, h0, h1⟩
      · rw [h1] at hfull; cases hfull
      · exact hh t ht hb j0 h0 (h1.symm.trans hfull)
    · cases hj
  unfold joinsAccepted
  cases hb : cx.backend with
  | sql => rfl
  | postgresql => rfl
  | mysql => simpa using hno (by rw [hb]; rfl)
  | sqlite => simpa using hno (by rw [hb]; rfl)

/-! ### UPDATE and DELETE -/

private theorem each_ok {α β : Type} {f : α → R β} {xs : List α} {ts : List β} {x : α}
    (e : mapR f xs = .ok ts) (hx : x ∈ xs) : ∃ t, f x = .ok t := by
  have := mapR_ok_iff.mp e
  clear e
  induction this with
  | nil => cases hx
  | cons h1 _ ih =>
    rcases List.mem_cons.mp hx with rfl | hx
    · exact ⟨_, h1⟩
    · exact ih hx

private theorem joins_ok {S : Sem} {ts : List Table} {u : Str}
    (e : clause (!ts.isEmpty) (tablesText cx S [] ts) = .ok u) :
    ∀ t ∈ ts, ∃ js, minimizeJoins cx S t.joins = .ok js := by
  intro t ht
  obtain ⟨v, e⟩ := clause_text_ok e (by cases ts with | nil => cases ht | cons => rfl)
  unfold tablesText partsText at e
  have hne : ts.isEmpty = false := by cases ts with | nil => cases ht | cons => rfl
  rw [hne] at e
  simp only [Bool.false_eq_true, if_false, bind_ok] at e
  obtain ⟨us, e, _⟩ := e
  obtain ⟨v, e⟩ := each_ok e ht
  unfold tableText at e
  obtain ⟨_, _, e⟩ := bind_ok.mp e
  by_cases hj : t.joins = []
  · rw [hj]; exact ⟨_, rfl⟩
  · rw [if_neg (by simpa using hj)] at e
    obtain ⟨js, e, _⟩ := bind_ok.mp e
    exact ⟨js, e⟩

private theorem update_ignore (S : Sem) (ops : List UpdateOp) :
    (runOps (updateStep cx S) {} ops).ignore = (latest updateSaysIgnore ops).getD false := by
  refine runOps_latest (step := updateStep cx S) (f := UpdateS.ignore) (tells := updateSaysIgnore) (fun q o => ?_) {} ops
  cases o with
  | str =>
    show (updateStr cx S q).1.ignore = q.ignore
    unfold updateStr; split <;> rfl
  | _ => rfl

private theorem delete_ignore (S : Sem) (ops : List DeleteOp) :
    (runOps (deleteStep cx S) {} ops).ignore = (latest deleteSaysIgnore ops).getD false := by
  refine runOps_latest (step := deleteStep cx S) (f := DeleteS.ignore) (tells := deleteSaysIgnore) (fun q o => ?_) {} ops
  cases o with
  | str =>
    show (deleteStr cx S q).1.ignore = q.ignore
    unfold deleteStr
    split
    · rfl
    · dsimp only; split <;> rfl
  | _ => rfl

/-- C70 for UPDATE: after any calls MySQL accepts the statement if a table is named; PostgreSQL and SQLite accept it
exactly if `ignore` is not in force and there is one table, joined with no other. -/
theorem C70_update_partial (hf : Fits cx d) (n k : Nat) (ops : List UpdateOp) (t : Str)
    (h : NoRaw cx.backend.quote .stmt (.update (runOps (updateStep cx (sem cx k)) {} ops)))
    (e : (sem cx n).str (.update (runOps (updateStep cx (sem cx k)) {} ops)) = .ok t) :
    let tables := (runOps (updateStep cx (sem cx k)) {} ops).tables
    updateAccepted cx.backend (lex d t) = true ↔
      (cx.backend = .mysql → tables ≠ []) ∧
      (cx.backend = .postgresql ∨ cx.backend = .sqlite →
        (latest updateSaysIgnore ops).getD false = false ∧ OneTable tables) := by
  dsimp only
  rw [← update_ignore (cx := cx) (sem cx k) ops]
  generalize runOps (updateStep cx (sem cx k)) {} ops = q at *
  obtain ⟨m, hs, he, r⟩ := stmt_level hf h e
  have hs : safeUpdate cx.backend.quote (Safe cx.backend.quote m) q := hs
  have ih := phrases_sem cx d m
  have he : updateText cx (sem cx m) q = .ok t := he
  have r : lex d t = updateToks cx (sem cx m) d (toks cx d m) q := r
  have hj : ∀ t ∈ q.tables, ∃ js, minimizeJoins cx (sem cx m) t.joins = .ok js := by
    unfold updateText at he
    split at he
    · cases he
    · obtain ⟨_, he, _⟩ := bind_ok.mp he
      exact joins_ok he
  have h1 : (lex d t).tail.head? = some (.word L!"IGNORE") ↔ q.ignore = true := by
    rw [r]
    exact ignore_head ih hs.1 q.ignore (by decide)
  have h2 : q.ignore = false → (onlyTable (clauseBody updateClauses L!"UPDATE" (lex d t)) = true ↔ OneTable q.tables) := by
    intro hi
    rw [r, table_update ih hs, hi]
    exact onlyTable_iff ih hs.1 hj
  have h3 : afterIgnore (clauseBody updateClauses L!"UPDATE" (lex d t)) = [] ↔ q.tables = [] := by
    rw [r, table_update ih hs, afterIgnore_tables ih hs.1, tablesToks_ne ih hs.1]
  generalize lex d t = ts at *
  have both : ((!(decide (ts.tail.head? = some (.word L!"IGNORE"))) &&
      onlyTable (clauseBody updateClauses L!"UPDATE" ts)) = true) ↔ (q.ignore = false ∧ OneTable q.tables) := by
    simp only [Bool.and_eq_true, Bool.not_eq_true', decide_eq_false_iff_not, h1, Bool.not_eq_true]
    exact and_congr_right fun hi => h2 hi
  unfold updateAccepted
  cases hb : cx.backend with
  | sql => simp
  | mysql => simpa using not_congr h3
  | postgresql => simpa using both
  | sqlite => simpa using both

private theorem alias_word {m : Nat} {ts : List Table} (hn : ∀ t ∈ ts, ∃ s, t.name = .str s) (ho : OneTable ts) :
    (tablesToks cx (sem cx m) d (toks cx d m) [] ts).contains (.word L!"AS") = false ↔
      ∀ t ∈ ts, t.alias.truthy = false := by
  obtain ⟨t, rfl, hj⟩ := ho
  obtain ⟨s, hs⟩ := hn t (by simp)
  have e1 : tablesToks cx (sem cx m) d (toks cx d m) [] [t] = aliasedToks cx (toks cx d m) t.name t.alias := by
    have : keptJoins cx (sem cx m) t = [] := (kept_nil ⟨[], by rw [hj]; rfl⟩).mpr hj
    show joinT [.sym ','] [tableToks cx (sem cx m) d (toks cx d m) t] = _
    unfold tableToks
    rw [this]
    simp [joinT]
  have e2 : Tok.word L!"AS" ∉ refToks (refParts cx.backend.quote s) := fun h => refToks_refTok _ _ h
  rw [e1, List.contains_eq_mem, decide_eq_false_iff_not]
  unfold aliasedToks
  rw [hs]
  simp only [List.mem_singleton, forall_eq, List.mem_append, not_or]
  show (_ ∉ refToks (refParts cx.backend.quote s) ∧ _) ↔ _
  cases t.alias.truthy with
  | true => simp [optToks, words]
  | false => simpa [optToks] using e2

/-- C70 for DELETE: after any calls PostgreSQL and SQLite accept the statement exactly if `ignore` is not in force, no
targets are named and there is one table, joined with no other.  MySQL accepts it if targets are named and there are
tables, or if there is one table without alias, joined with no other. -/
theorem C70_delete_partial (hf : Fits cx d) (n k : Nat) (ops : List DeleteOp) (t : Str)
    (h : NoRaw cx.backend.quote .stmt (.delete (runOps (deleteStep cx (sem cx k)) {} ops)))
    (hn : ∀ t ∈ (runOps (deleteStep cx (sem cx k)) {} ops).references, ∃ s, t.name = .str s)
    (e : (sem cx n).str (.delete (runOps (deleteStep cx (sem cx k)) {} ops)) = .ok t) :
    let targets := (runOps (deleteStep cx (sem cx k)) {} ops).tables
    let tables := (runOps (deleteStep cx (sem cx k)) {} ops).references
    deleteAccepted cx.backend (lex d t) = true ↔
      (cx.backend = .mysql → if targets = [] then OneTable tables ∧ ∀ t ∈ tables, t.alias.truthy = false
        else tables ≠ []) ∧
      (cx.backend = .postgresql ∨ cx.backend = .sqlite →
        (latest deleteSaysIgnore ops).getD false = false ∧ targets = [] ∧ OneTable tables) := by
  dsimp only
  rw [← delete_ignore (cx := cx) (sem cx k) ops]
  generalize runOps (deleteStep cx (sem cx k)) {} ops = q at *
  obtain ⟨m, hs, he, r⟩ := stmt_level hf h e
  have hs : safeDelete cx.backend.quote (Safe cx.backend.quote m) q := hs
  have ih := phrases_sem cx d m
  have he : deleteText cx (sem cx m) q = .ok t := he
  have r : lex d t = deleteToks cx (sem cx m) d (toks cx d m) q := r
  have hj : ∀ t ∈ q.references, ∃ js, minimizeJoins cx (sem cx m) t.joins = .ok js := by
    unfold deleteText at he
    split at he
    · cases he
    · obtain ⟨_, _, he⟩ := bind_ok.mp he
      obtain ⟨_, he, _⟩ := bind_ok.mp he
      exact joins_ok he
  have h1 : (lex d t).tail.head? = some (.word L!"IGNORE") ↔ q.ignore = true := by
    rw [r]
    exact ignore_head ih hs.1 q.ignore (by decide)
  have h2 : clauseBody deleteClauses L!"FROM" (lex d t) = tablesToks cx (sem cx m) d (toks cx d m) [] q.references := by
    rw [r, from_delete ih hs]
  have h3 : targetTables (lex d t) = [] ↔ q.tables = [] := by
    unfold targetTables
    rw [r, targets_delete ih hs, afterIgnore_tables ih hs.1, ← tablesToks_ne ih hs.1 (S := sem cx m) (d := d)]
    split
    · next h => simp [h]
    · next h => exact iff_of_false (splitAt_ne _ _ _) h
  have ho := onlyTable_iff (S := sem cx m) (d := d) ih hs.2.1 hj
  have hne := tablesToks_ne (S := sem cx m) (d := d) ih hs.2.1
  have has := fun ho => alias_word (cx := cx) (d := d) (m := m) hn ho
  unfold deleteAccepted
  rw [h2]
  generalize tablesToks cx (sem cx m) d (toks cx d m) [] q.references = rs at *
  generalize lex d t = ts at *
  have both : ((!(decide (ts.tail.head? = some (.word L!"IGNORE"))) && decide (targetTables ts = []) &&
      onlyTable rs) = true) ↔ (q.ignore = false ∧ q.tables = [] ∧ OneTable q.references) := by
    simp only [Bool.and_eq_true, Bool.not_eq_true', decide_eq_false_iff_not, decide_eq_true_iff, h1, h3, ho,
      Bool.not_eq_true, and_assoc]
  cases hb : cx.backend with
  | sql => simp
  | mysql =>
    by_cases ht : q.tables = []
    · simp only [h3.mpr ht, ht, if_true, Bool.and_eq_true, Bool.not_eq_true', ho, forall_const, reduceCtorEq, or_self,
        IsEmpty.forall_iff, and_true]
      exact and_congr_right has
    · simp only [mt h3.mp ht, ht, if_false, decide_eq_true_iff, ne_eq, hne, forall_const, reduceCtorEq, or_self,
        IsEmpty.forall_iff, and_true]
  | postgresql => simpa using both
  | sqlite => simpa using both

end

/-! ### The claim fails for UPDATE and DELETE as well -/

private def pg : Ctx := ⟨.postgresql, env0⟩
private def my : Ctx := ⟨.mysql, env0⟩
private def lite : Ctx := ⟨.sqlite, env0⟩

/-- `update('t').set(a=1).allow_update_all()` and more calls. -/
private def updated (ops : List UpdateOp) : List UpdateOp :=
  .table (.str L!"t") :: .set { kw := [(L!"a", .int 1)] } :: .allowUpdateAll :: ops

/-- `delete_from('t').allow_delete_all()` and more calls. -/
private def deleted (ops : List DeleteOp) : List DeleteOp :=
  .from_ { pos := [.str L!"t"] } :: .allowDeleteAll :: ops

/-- `update('t').set(a=1).allow_update_all().join('u').on('t.i', 'u.i')` on PostgreSQL has a join. -/
theorem C70_refuted_update : ¬ ∀ (cx : Ctx) (d : Dialect) (n : Nat) (ops : List UpdateOp) (t : Str), Fits cx d →
    NoRaw cx.backend.quote .stmt (.update (runOps (updateStep cx (sem cx n)) {} ops)) →
    (sem cx (n + 1)).str (.update (runOps (updateStep cx (sem cx n)) {} ops)) = .ok t →
    updateAccepted cx.backend (lex d t) = true := by
  intro h
  have := h pg standardDialect 4 (updated [.join (.str L!"u"), .on { pos := [.str L!"t.i", .str L!"u.i"] }])
    L!"UPDATE \"t\" JOIN \"u\" ON \"t\".\"i\" = \"u\".\"i\" SET \"a\" = 1" rfl ⟨6, by decide +kernel⟩ (by decide +kernel)
  revert this
  decide +kernel

/-- `delete_from('t').allow_delete_all().ignore()` on SQLite has the word `IGNORE`. -/
theorem C70_refuted_delete : ¬ ∀ (cx : Ctx) (d : Dialect) (n : Nat) (ops : List DeleteOp) (t : Str), Fits cx d →
    NoRaw cx.backend.quote .stmt (.delete (runOps (deleteStep cx (sem cx n)) {} ops)) →
    (sem cx (n + 1)).str (.delete (runOps (deleteStep cx (sem cx n)) {} ops)) = .ok t →
    deleteAccepted cx.backend (lex d t) = true := by
  intro h
  have := h lite standardDialect 4 (deleted [.ignore (.bool true)]) L!"DELETE IGNORE FROM \"t\"" rfl
    ⟨6, by decide +kernel⟩ (by decide +kernel)
  revert this
  decide +kernel

/-! ### Calls that meet the hypotheses, with both outcomes -/

example : NoRaw '"' .stmt (.update (runOps (updateStep pg (sem pg 4)) {} (updated [.ignore (.bool true),
      .ignore (.bool false)]))) ∧
    (sem pg 5).str (.update (runOps (updateStep pg (sem pg 4)) {} (updated [.ignore (.bool true),
      .ignore (.bool false)]))) = .ok L!"UPDATE \"t\" SET \"a\" = 1" ∧
    updateAccepted .postgresql (lex standardDialect L!"UPDATE \"t\" SET \"a\" = 1") = true ∧
    updateAccepted .postgresql (lex standardDialect L!"UPDATE IGNORE \"t\" SET \"a\" = 1") = false ∧
    updateAccepted .sqlite (lex standardDialect L!"UPDATE \"t\", \"u\" SET \"a\" = 1") = false ∧
    updateAccepted .mysql (lex mysqlDialect L!"UPDATE IGNORE `t`, `u` SET `a` = 1") = true ∧
    updateAccepted .mysql (lex mysqlDialect L!"UPDATE SET `a` = 1") = false :=
  ⟨⟨6, by decide +kernel⟩, by decide +kernel, by decide +kernel, by decide +kernel, by decide +kernel,
    by decide +kernel, by decide +kernel⟩

example : NoRaw '`' .stmt (.delete (runOps (deleteStep my (sem my 4)) {} (deleted [.delete [.str L!"t"],
      .join (.str L!"u"), .on { pos := [.str L!"t.i", .str L!"u.i"] }, .ignore (.bool true)]))) ∧
    (sem my 5).str (.delete (runOps (deleteStep my (sem my 4)) {} (deleted [.delete [.str L!"t"],
      .join (.str L!"u"), .on { pos := [.str L!"t.i", .str L!"u.i"] }, .ignore (.bool true)]))) =
      .ok L!"DELETE IGNORE `t` FROM `t` JOIN `u` ON `t`.`i` = `u`.`i`" ∧
    deleteAccepted .mysql (lex mysqlDialect L!"DELETE IGNORE `t` FROM `t` JOIN `u` ON `t`.`i` = `u`.`i`") = true ∧
    deleteAccepted .mysql (lex mysqlDialect L!"DELETE FROM `t` JOIN `u` ON `t`.`i` = `u`.`i`") = false ∧
    deleteAccepted .mysql (lex mysqlDialect L!"DELETE FROM `t` AS `u`") = false ∧
    deleteAccepted .postgresql (lex standardDialect L!"DELETE FROM \"t\" AS \"u\"") = true ∧
    deleteAccepted .postgresql (lex standardDialect L!"DELETE \"t\" FROM \"t\"") = false :=
  ⟨⟨6, by decide +kernel⟩, by decide +kernel, by decide +kernel, by decide +kernel, by decide +kernel,
    by decide +kernel, by decide +kernel⟩

example : ∀ t ∈ (runOps (deleteStep my (sem my 4)) {} (deleted [.delete [.str L!"t"],
      .join (.str L!"u"), .on { pos := [.str L!"t.i", .str L!"u.i"] }, .ignore (.bool true)])).references,
    ∃ s, t.name = .str s := by
  have : (runOps (deleteStep my (sem my 4)) {} (deleted [.delete [.str L!"t"],
      .join (.str L!"u"), .on { pos := [.str L!"t.i", .str L!"u.i"] }, .ignore (.bool true)])).references.map TableS.name =
      [.str L!"t"] := rfl
  intro t ht
  have hm := List.mem_map_of_mem (f := TableS.name) ht
  rw [this] at hm
  exact ⟨_, List.mem_singleton.mp hm⟩

/-- A full join is refused on SQLite, where the query goes on without it, and made on PostgreSQL. -/
example : NoRaw '"' .stmt (.select (runOps (selectStep lite (sem lite 4)) {} [.from_ { pos := [.str L!"t"] },
      .join .full (.str L!"u"), .join .left (.str L!"v")])) ∧
    (sem lite 5).str (.select (runOps (selectStep lite (sem lite 4)) {} [.from_ { pos := [.str L!"t"] },
      .join .full (.str L!"u"), .join .left (.str L!"v")])) = .ok L!"SELECT * FROM \"t\" LEFT JOIN \"v\"" ∧
    (sem pg 5).str (.select (runOps (selectStep pg (sem pg 4)) {} [.from_ { pos := [.str L!"t"] },
      .join .full (.str L!"u"), .join .left (.str L!"v")])) =
      .ok L!"SELECT * FROM \"t\" FULL JOIN \"u\" LEFT JOIN \"v\"" ∧
    joinsAccepted .sqlite (lex standardDialect L!"SELECT * FROM \"t\" FULL JOIN \"u\" LEFT JOIN \"v\"") = false ∧
    joinsAccepted .sqlite (lex standardDialect L!"SELECT * FROM \"t\" LEFT JOIN \"v\"") = true :=
  ⟨⟨6, by decide +kernel⟩, by decide +kernel, by decide +kernel, by decide +kernel, by decide +kernel⟩

end SqlPuzzle
