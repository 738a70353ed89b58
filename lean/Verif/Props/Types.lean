import Verif.Proofs.State
import Verif.Spec.Arguments

/-!
C15: argument types.
-/

namespace SqlPuzzle

open Spec

/-! ### What a query may contain -/

/-- A condition made of an accepted column and of an accepted value: the value itself, the items of
an iterable, or the relation object the user passed. -/
def CondFit : Cond → Prop
  | .cond _ col k v => Fit .condColumn col ∧ ∃ arg, Fit .condValue arg ∧
      (arg = .rel k v ∨ arg = v ∨ ∃ xs, arg.iterate = some xs ∧ v = .list xs)
  | .item o => o.isSql = true

def ColumnFit (c : Column) : Prop := Fit .column c.name ∧ Fit .alias c.alias

def OrderFit (o : Order) : Prop := Fit .orderColumn o.col

def ValueFit : Value → Prop
  | .value c v => Fit .setColumn c ∧ Fit .setValue v
  | .item o => o.isSql = true

def JoinFit (j : Join) : Prop := Fit .table j.name ∧ Fit .alias j.alias ∧ ∀ c ∈ j.ons, CondFit c

def TableFit (t : Table) : Prop :=
  Fit .table t.name ∧ Fit .alias t.alias ∧ ∀ j ∈ t.joins, JoinFit j

def OutfileFit (o : Outfile) : Prop :=
  ∀ f ∈ [o.file, o.fields, o.lines, o.enclosed], ∀ v, f = some v → Fit .outfile v

/-- Every argument stored in a SELECT has an accepted type. -/
def SelectFit (q : Select) : Prop :=
  (∀ c ∈ q.columns, ColumnFit c) ∧ (∀ t ∈ q.tables, TableFit t) ∧ (∀ c ∈ q.where_, CondFit c) ∧
  (∀ o ∈ q.groupBy, OrderFit o) ∧ (∀ c ∈ q.having, CondFit c) ∧ (∀ o ∈ q.orderBy, OrderFit o) ∧
  OutfileFit q.outfile

/-- Every argument stored in an INSERT has an accepted type. -/
def InsertFit (q : Insert) : Prop :=
  (∀ t ∈ q.tables, TableFit t) ∧ (∀ r ∈ q.rows, ∀ v ∈ r, ValueFit v) ∧
  (∀ v ∈ q.onDup, ValueFit v) ∧ (∀ v ∈ q.onConflict, ValueFit v)

/-- Every argument stored in an UPDATE has an accepted type. -/
def UpdateFit (q : Update) : Prop :=
  (∀ t ∈ q.tables, TableFit t) ∧ (∀ v ∈ q.values, ValueFit v) ∧ (∀ c ∈ q.where_, CondFit c)

/-- Every argument stored in a DELETE has an accepted type. -/
def DeleteFit (q : Delete) : Prop :=
  (∀ t ∈ q.tables, TableFit t) ∧ (∀ t ∈ q.references, TableFit t) ∧ (∀ c ∈ q.where_, CondFit c)

/-! ### The type checks -/

theorem check_str (v : Obj) : checkType [.str] v = .ok () ↔ Fit .table v := by
  cases v <;> simp [checkType, Obj.allowed, Obj.isInst, Obj.isBool, Obj.isSql, Fit, positionAccepts]

theorem check_alias (v : Obj) : checkType [.str, .none] v = .ok () ↔ Fit .alias v := by
  cases v <;> simp [checkType, Obj.allowed, Obj.isInst, Obj.isBool, Obj.isSql, Fit, positionAccepts]

theorem check_alias' (v : Obj) : checkType [.none, .str] v = .ok () ↔ Fit .alias v := by
  cases v <;> simp [checkType, Obj.allowed, Obj.isInst, Obj.isBool, Obj.isSql, Fit, positionAccepts]

theorem check_column (v : Obj) : checkType [.str, .int] v = .ok () ↔ Fit .column v := by
  cases v <;> simp [checkType, Obj.allowed, Obj.isInst, Obj.isBool, Obj.isSql, Fit, positionAccepts]

theorem check_int (v : Obj) : checkType [.none, .int] v = .ok () ↔ Fit .limit v := by
  cases v <;> simp [checkType, Obj.allowed, Obj.isInst, Obj.isBool, Obj.isSql, Fit, positionAccepts]

theorem check_cond (v : Obj) : checkType condTypes v = .ok () ↔ Fit .condValue v := by
  cases v <;> simp [checkType, condTypes, Obj.allowed, Obj.isInst, Obj.isBool, Obj.isSql, Fit,
    positionAccepts, Obj.isStr, Obj.isNone, isNumber, isSequence, isMoment]

theorem check_value (v : Obj) : checkType valueTypes v = .ok () ↔ Fit .setValue v := by
  cases v <;> simp [checkType, valueTypes, Obj.allowed, Obj.isInst, Obj.isBool, Obj.isSql, Fit,
    positionAccepts, Obj.isStr, Obj.isNone, isNumber, isMoment]

theorem checkType_error {ts : List PyType} {v : Obj} (h : checkType ts v ≠ .ok ()) :
    checkType ts v = .error .invalidArgument := by
  unfold checkType at *
  split
  · rename_i h1; rw [if_pos h1] at h; exact absurd rfl h
  · rfl

theorem fit_table_eq {v : Obj} : (Fit .condColumn v ↔ Fit .table v) ∧
    (Fit .setColumn v ↔ Fit .table v) ∧ (Fit .outfile v ↔ Fit .table v) ∧
    (Fit .orderColumn v ↔ Fit .column v) ∧ (Fit .offset v ↔ Fit .limit v) := by
  cases v <;> simp [Fit, positionAccepts]

theorem relValue_fit {k : Rel} {v w : Obj} (h : relValue k v = .ok w) :
    v = w ∨ ∃ xs, v.iterate = some xs ∧ w = .list xs := by
  have fin : ∀ u, (if u.allowed k.allowedTypes then .ok u else .error .invalidArgument : R Obj) =
      .ok w → u = w := by
    intro u hu
    split at hu
    · injection hu
    · cases hu
  have h1 := fin _ h
  split at h1
  · split at h1
    · rename_i xs hi; exact .inr ⟨xs, hi, h1.symm⟩
    · exact .inl h1
  · exact .inl h1

theorem mkCond_fit {on : Bool} {col v : Obj} {c : Cond} (h : mkCond on col v = .ok c) :
    CondFit c := by
  unfold mkCond at h
  obtain ⟨_, h1, h2⟩ := bind_ok.mp h
  obtain ⟨⟨k, w⟩, h3, h4⟩ := bind_ok.mp h2
  cases h4
  refine ⟨(fit_table_eq.1).mpr ((check_str _).mp h1), v, ?_⟩
  unfold condValue at h3
  obtain ⟨_, h5, h6⟩ := bind_ok.mp h3
  refine ⟨(check_cond _).mp h5, ?_⟩
  split at h6
  · cases h6; exact .inl rfl
  · rename_i v _
    obtain ⟨w', h7, h8⟩ := bind_ok.mp h6
    cases h8
    right
    exact relValue_fit h7

theorem mkColumn_fit {n a : Obj} {c : Column} (h : mkColumn n a = .ok c) : ColumnFit c := by
  unfold mkColumn at h
  obtain ⟨_, h1, h2⟩ := bind_ok.mp h
  obtain ⟨_, h3, h4⟩ := bind_ok.mp h2
  cases h4
  exact ⟨(check_column _).mp h1, (check_alias _).mp h3⟩

theorem mkTable_fit {n a : Obj} {t : Table} (h : mkTable n a = .ok t) :
    Fit .table t.name ∧ Fit .alias t.alias ∧ t.joins = [] := by
  unfold mkTable at h
  obtain ⟨_, h1, h2⟩ := bind_ok.mp h
  obtain ⟨_, h3, h4⟩ := bind_ok.mp h2
  cases h4
  exact ⟨(check_str _).mp h1, (check_alias' _).mp h3, rfl⟩

theorem mkValue_fit {c v : Obj} {p : Value} (h : mkValue c v = .ok p) : ValueFit p := by
  unfold mkValue at h
  obtain ⟨_, h1, h2⟩ := bind_ok.mp h
  obtain ⟨_, h3, h4⟩ := bind_ok.mp h2
  cases h4
  exact ⟨(fit_table_eq.2.1).mpr ((check_str _).mp h1), (check_value _).mp h3⟩

section
variable (cx : Ctx) (S : Sem)

theorem customArg_sql {a : Args} {o : Obj} (h : customArg a = some o) : o.isSql = true := by
  unfold customArg at h
  split at h
  · split at h
    · cases h; assumption
    · cases h
  · cases h

theorem isConds_isSql {o : Obj} (h : o.isConds = true) : o.isSql = true := by
  cases o <;> first | rfl | cases h

theorem condsWhere_fit {on : Bool} {ps : List Cond} (a : Args) (h : ∀ c ∈ ps, CondFit c) :
    ∀ c ∈ (condsWhere cx S on ps a).1, CondFit c := by
  unfold condsWhere
  split
  · exact h
  · split
    · rename_i o ho
      intro c hc
      rcases List.mem_append.mp hc with hc | hc
      · exact h c hc
      · rw [List.mem_singleton.mp hc]; exact customArg_sql ho
    · split
      · rename_i _ hall
        have hall : ∀ o ∈ a.pos, o.isConds = true := by
          simp only [Bool.and_eq_true, List.all_eq_true] at hall
          exact hall.2
        exact forUpd_inv (P := fun ps => ∀ c ∈ ps, CondFit c)
          (fun ps o ho hps => appendUnique_inv (P := CondFit) hps
            (show CondFit (.item o) from isConds_isSql (hall o ho))) h
      · refine withR_inv (P := fun ps => ∀ c ∈ ps, CondFit c) h fun bs _ => ?_
        refine forUpd_inv (P := fun ps => ∀ c ∈ ps, CondFit c) (fun ps b _ hps => ?_) h
        refine withR_inv (P := fun ps => ∀ c ∈ ps, CondFit c) hps fun c hc => ?_
        exact appendUnique_inv hps (mkCond_fit hc)

theorem columnsAdd_fit {cs : List Column} (a : Args) (h : ∀ c ∈ cs, ColumnFit c) :
    ∀ c ∈ (columnsAdd S cs a).1, ColumnFit c := by
  unfold columnsAdd
  split
  · exact h
  · refine withR_inv (P := fun ps => ∀ c ∈ ps, ColumnFit c) h fun bs _ => ?_
    refine forUpd_inv (P := fun ps => ∀ c ∈ ps, ColumnFit c) (fun ps b _ hps => ?_) h
    refine withR_inv (P := fun ps => ∀ c ∈ ps, ColumnFit c) hps fun c hc => ?_
    exact appendUnique_inv hps (mkColumn_fit hc)

theorem tablesSet_fit {ts : List Table} (a : Args) (h : ∀ c ∈ ts, TableFit c) :
    ∀ c ∈ (tablesSet cx S ts a).1, TableFit c := by
  unfold tablesSet
  split
  · exact h
  · refine withR_inv (P := fun ps => ∀ c ∈ ps, TableFit c) h fun bs _ => ?_
    refine forUpd_inv (P := fun ps => ∀ c ∈ ps, TableFit c) (fun ps b _ hps => ?_) h
    refine withR_inv (P := fun ps => ∀ c ∈ ps, TableFit c) hps fun c hc => ?_
    refine appendUnique_inv hps ?_
    obtain ⟨h1, h2, h3⟩ := mkTable_fit hc
    exact ⟨h1, h2, by rw [h3]; simp⟩

theorem orderPut_fit {os os' : List Order} {col sort : Obj} (h : ∀ o ∈ os, OrderFit o)
    (hr : orderPut cx S os col sort = .ok os') : ∀ o ∈ os', OrderFit o := by
  induction os generalizing os' with
  | nil =>
    unfold orderPut mkOrder at hr
    obtain ⟨o, h1, h2⟩ := bind_ok.mp hr
    cases h2
    obtain ⟨_, h3, h4⟩ := bind_ok.mp h1
    obtain ⟨_, h5, h6⟩ := bind_ok.mp h4
    cases h6
    intro o ho
    rw [List.mem_singleton.mp ho]
    exact (fit_table_eq.2.2.2.1).mpr ((check_column _).mp h3)
  | cons o os ih =>
    unfold orderPut at hr
    obtain ⟨b, h1, h2⟩ := bind_ok.mp hr
    cases b with
    | true =>
      obtain ⟨d, h3, h4⟩ := bind_ok.mp h2
      cases h4
      intro x hx
      rcases List.mem_cons.mp hx with rfl | hx
      · exact h o (by simp)
      · exact h x (by simp [hx])
    | false =>
      obtain ⟨r, h3, h4⟩ := bind_ok.mp h2
      cases h4
      intro x hx
      rcases List.mem_cons.mp hx with rfl | hx
      · exact h x (by simp)
      · exact ih (fun y hy => h y (by simp [hy])) h3 x hx

theorem ordersAdd_fit {os : List Order} (a : Args) (h : ∀ o ∈ os, OrderFit o) :
    ∀ o ∈ (ordersAdd cx S os a).1, OrderFit o := by
  unfold ordersAdd
  split
  · exact h
  · refine withR_inv (P := fun ps => ∀ c ∈ ps, OrderFit c) h fun bs _ => ?_
    refine forUpd_inv (P := fun ps => ∀ c ∈ ps, OrderFit c) (fun ps b _ hps => ?_) h
    exact withR_inv (P := fun ps => ∀ c ∈ ps, OrderFit c) hps fun c hc => orderPut_fit cx S hps hc

theorem valuesSet_fit {vs : List Value} (a : Args) (h : ∀ v ∈ vs, ValueFit v) :
    ∀ v ∈ (valuesSet cx S vs a).1, ValueFit v := by
  unfold valuesSet
  split
  · exact h
  · split
    · rename_i o ho
      intro c hc
      rcases List.mem_append.mp hc with hc | hc
      · exact h c hc
      · rw [List.mem_singleton.mp hc]; exact customArg_sql ho
    · refine withR_inv (P := fun ps => ∀ c ∈ ps, ValueFit c) h fun bs _ => ?_
      refine forUpd_inv (P := fun ps => ∀ c ∈ ps, ValueFit c) (fun ps b _ hps => ?_) h
      refine withR_inv (P := fun ps => ∀ c ∈ ps, ValueFit c) hps fun c hc => ?_
      exact appendUnique_inv hps (mkValue_fit hc)

theorem rowsAdd_fit {rows : List (List Value)} (a : Args) (h : ∀ r ∈ rows, ∀ v ∈ r, ValueFit v) :
    ∀ r ∈ (rowsAdd cx S rows a).1, ∀ v ∈ r, ValueFit v := by
  have hv := valuesSet_fit cx S (vs := []) a (by simp)
  unfold rowsAdd
  split
  · rename_i row h1
    rw [h1] at hv
    intro r hr
    rcases List.mem_append.mp hr with hr | hr
    · exact h r hr
    · rw [List.mem_singleton.mp hr]; exact hv
  · exact h

theorem mkJoin_fit {ty : JoinType} {arg : Obj} {j : Join} (h : mkJoin S ty arg = .ok j) :
    JoinFit j := by
  have pair : ∀ n a : Obj, (mkTable n a >>= fun t => (.ok ⟨ty, t.name, t.alias, []⟩ : R Join)) = .ok j →
      JoinFit j := by
    intro n a h
    obtain ⟨t, h1, h2⟩ := bind_ok.mp h
    cases h2
    obtain ⟨h3, h4, _⟩ := mkTable_fit h1
    exact ⟨h3, h4, by simp⟩
  unfold mkJoin at h
  split at h
  · exact pair _ _ h
  · exact pair _ _ h
  · exact pair _ _ h
  · cases h; exact ⟨.inr rfl, .inr rfl, by simp⟩
  · split at h
    · obtain ⟨t, _, h2⟩ := bind_ok.mp h
      cases h2
    · cases h

theorem tablesJoin_fit {ts : List Table} (ty : JoinType) (arg : Obj) (h : ∀ t ∈ ts, TableFit t) :
    ∀ t ∈ (tablesJoin cx S ts ty arg).1, TableFit t := by
  unfold tablesJoin
  split
  · exact h
  · split
    · exact h
    · rename_i r hr
      obtain ⟨ys, y, rfl, rfl⟩ := updateLast_some hr
      intro t ht
      rcases List.mem_append.mp ht with ht | ht
      · exact h t (by simp [ht])
      · rw [List.mem_singleton.mp ht]
        have hy : TableFit y := h y (by simp)
        refine withR_inv (P := TableFit) hy fun j hj => ⟨hy.1, hy.2.1, ?_⟩
        intro j' hj'
        rcases List.mem_append.mp hj' with hj' | hj'
        · exact hy.2.2 j' hj'
        · rw [List.mem_singleton.mp hj']; exact mkJoin_fit S hj

theorem tableOn_fit {t : Table} (a : Args) (h : TableFit t) : TableFit (tableOn cx S t a).1 := by
  unfold tableOn
  split
  · exact h
  · rename_i js e hr
    obtain ⟨ys, y, h1, h2⟩ := updateLast_some hr
    cases h2
    refine ⟨h.1, h.2.1, ?_⟩
    intro j hj
    have hm : ∀ j ∈ ys ++ [y], JoinFit j := by rw [← h1]; exact h.2.2
    rcases List.mem_append.mp hj with hj | hj
    · exact hm j (by simp [hj])
    · rw [List.mem_singleton.mp hj]
      have hy := hm y (by simp)
      exact ⟨hy.1, hy.2.1, condsWhere_fit cx S a hy.2.2⟩

theorem tablesOn_fit {ts : List Table} (a : Args) (h : ∀ t ∈ ts, TableFit t) :
    ∀ t ∈ (tablesOn cx S ts a).1, TableFit t := by
  unfold tablesOn
  split
  · exact h
  · split
    · exact h
    · rename_i r hr
      obtain ⟨ys, y, rfl, rfl⟩ := updateLast_some hr
      intro t ht
      rcases List.mem_append.mp ht with ht | ht
      · exact h t (by simp [ht])
      · rw [List.mem_singleton.mp ht]; exact tableOn_fit cx S a (h y (by simp))

theorem strTable_fit {t : Table} (h : TableFit t) : TableFit (strTable cx S t).1 := by
  unfold strTable
  split
  · exact h
  · split
    · exact h
    · split
      · exact h
      · rename_i js hj
        refine ⟨h.1, h.2.1, ?_⟩
        intro j hm
        obtain ⟨j0, h0, h1, h2, h3⟩ := minimizeJoins_mem cx S hj hm
        have := h.2.2 j0 h0
        unfold JoinFit
        rw [h1, h2, h3]
        exact this

theorem strTables_fit {ts : List Table} (h : ∀ t ∈ ts, TableFit t) :
    ∀ t ∈ (strTables cx S ts).1, TableFit t := by
  induction ts with
  | nil => exact h
  | cons t ts ih =>
    have h1 := strTable_fit cx S (h t (by simp))
    have h2 := ih fun x hx => h x (by simp [hx])
    unfold strTables
    split
    · rename_i t' e ht
      rw [ht] at h1
      intro x hx
      rcases List.mem_cons.mp hx with rfl | hx
      · exact h1
      · exact h x (by simp [hx])
    · rename_i t' ht
      rw [ht] at h1
      intro x hx
      rcases List.mem_cons.mp hx with rfl | hx
      · exact h1
      · exact h2 x hx

theorem outfileSet_fit {o : Outfile} (f : OutfileField) (v : Obj) (h : OutfileFit o) :
    OutfileFit (outfileSet o f v).1 := by
  unfold outfileSet
  refine withR_inv (P := OutfileFit) h fun _ hc => ?_
  have hv : Fit .outfile v := (fit_table_eq.2.2.1).mpr ((check_str _).mp hc)
  cases f <;> simp only [OutfileFit, List.forall_mem_cons] at h ⊢ <;>
    simp only [List.not_mem_nil, false_imp_iff, implies_true, and_true] at h ⊢ <;>
    simp only [Option.some.injEq, forall_eq'] <;> tauto

/-- C15. Whatever calls are made on a SELECT, with whatever arguments, in whatever order, also
calls that raise: only SQL objects and values of the accepted types get into the query. -/
theorem C15_select (q : Select) (hq : SelectFit q) (ops : List SelectOp) :
    SelectFit (runOps (selectStep cx S) q ops) := by
  refine runOps_inv (P := SelectFit) (fun q op h => ?_) q ops hq
  obtain ⟨h1, h2, h3, h4, h5, h6, h7⟩ := h
  cases op with
  | columns a => exact ⟨columnsAdd_fit S a h1, h2, h3, h4, h5, h6, h7⟩
  | from_ a => exact ⟨h1, tablesSet_fit cx S a h2, h3, h4, h5, h6, h7⟩
  | fromTable t al => exact ⟨h1, tablesSet_fit cx S _ h2, h3, h4, h5, h6, h7⟩
  | join ty arg => exact ⟨h1, tablesJoin_fit cx S ty arg h2, h3, h4, h5, h6, h7⟩
  | on a => exact ⟨h1, tablesOn_fit cx S a h2, h3, h4, h5, h6, h7⟩
  | where_ a => exact ⟨h1, h2, condsWhere_fit cx S a h3, h4, h5, h6, h7⟩
  | having a => exact ⟨h1, h2, h3, h4, condsWhere_fit cx S a h5, h6, h7⟩
  | groupBy a => exact ⟨h1, h2, h3, ordersAdd_fit cx S a h4, h5, h6, h7⟩
  | orderBy a => exact ⟨h1, h2, h3, h4, h5, ordersAdd_fit cx S a h6, h7⟩
  | limit l o => exact ⟨h1, h2, h3, h4, h5, h6, h7⟩
  | offset o => exact ⟨h1, h2, h3, h4, h5, h6, h7⟩
  | outfile f v => exact ⟨h1, h2, h3, h4, h5, h6, outfileSet_fit f v h7⟩
  | option k al => exact ⟨h1, h2, h3, h4, h5, h6, h7⟩
  | forUpdate al => exact ⟨h1, h2, h3, h4, h5, h6, h7⟩
  | str =>
    show SelectFit (selectStr cx S q).1
    unfold selectStr
    split
    · exact ⟨h1, h2, h3, h4, h5, h6, h7⟩
    · exact ⟨h1, strTables_fit cx S h2, h3, h4, h5, h6, h7⟩

theorem onConflictSet_fit {q : Insert} (a : Args) (h : InsertFit q) :
    InsertFit (onConflictSet cx S q a).1 := by
  obtain ⟨h1, h2, h3, h4⟩ := h
  unfold onConflictSet
  split
  · exact ⟨h1, h2, h3, h4⟩
  · split
    · exact ⟨h1, h2, h3, valuesSet_fit cx S _ h4⟩
    · exact ⟨h1, h2, h3, h4⟩

theorem onDuplicateKeyUpdate_fit {q : Insert} (a : Args) (h : InsertFit q) :
    InsertFit (onDuplicateKeyUpdate cx S q a).1 := by
  have hd : InsertFit ((valuesSet cx S q.onDup a).map fun r => { q with onDup := r }).1 :=
    ⟨h.1, h.2.1, valuesSet_fit cx S a h.2.2.1, h.2.2.2⟩
  unfold onDuplicateKeyUpdate
  split
  · exact h
  · have h1 : InsertFit (if cx.backend.supportsOnDuplicateKeyUpdate = true then
        (valuesSet cx S q.onDup a).map fun r => { q with onDup := r } else (q, none)).1 := by
      split
      · exact hd
      · exact h
    simp only
    split
    · rename_i q1 e he; rw [he] at h1; exact h1
    · rename_i q1 he
      rw [he] at h1
      have h2 : InsertFit (if cx.backend.supportsOnConflictDoUpdate = true then
          onConflictSet cx S q1 a else (q1, none)).1 := by
        split
        · exact onConflictSet_fit cx S a h1
        · exact h1
      split
      · rename_i q2 e he; rw [he] at h2; exact h2
      · rename_i q2 he
        rw [he] at h2
        split
        · split
          · exact h2
          · exact h2
        · exact h2

/-- C15 for INSERT. -/
theorem C15_insert (q : Insert) (hq : InsertFit q) (ops : List InsertOp) :
    InsertFit (runOps (insertStep cx S) q ops) := by
  refine runOps_inv (P := InsertFit) (fun q op h => ?_) q ops hq
  have h' := h
  obtain ⟨h1, h2, h3, h4⟩ := h
  cases op with
  | into t => exact ⟨tablesSet_fit cx S _ h1, h2, h3, h4⟩
  | values a =>
    show InsertFit (if kwSelf a = true then _ else _ : Upd Insert).1
    split
    · exact h'
    · exact ⟨h1, rowsAdd_fit cx S a h2, h3, h4⟩
  | onDuplicateKeyUpdate a => exact onDuplicateKeyUpdate_fit cx S a h'
  | ignore al => exact h'
  | str =>
    show InsertFit (insertStr cx S q).1
    unfold insertStr
    split
    · exact h'
    · exact ⟨strTables_fit cx S h1, h2, h3, h4⟩

/-- C15 for UPDATE. -/
theorem C15_update (q : Update) (hq : UpdateFit q) (ops : List UpdateOp) :
    UpdateFit (runOps (updateStep cx S) q ops) := by
  refine runOps_inv (P := UpdateFit) (fun q op h => ?_) q ops hq
  have h' := h
  obtain ⟨h1, h2, h3⟩ := h
  cases op with
  | allowUpdateAll => exact h'
  | forbidUpdateAll => exact h'
  | table t => exact ⟨tablesSet_fit cx S _ h1, h2, h3⟩
  | set a => exact ⟨h1, valuesSet_fit cx S a h2, h3⟩
  | where_ a => exact ⟨h1, h2, condsWhere_fit cx S a h3⟩
  | join arg => exact ⟨tablesJoin_fit cx S _ arg h1, h2, h3⟩
  | leftJoin arg => exact ⟨tablesJoin_fit cx S _ arg h1, h2, h3⟩
  | rightJoin arg => exact ⟨tablesJoin_fit cx S _ arg h1, h2, h3⟩
  | on a => exact ⟨tablesOn_fit cx S a h1, h2, h3⟩
  | ignore al => exact h'
  | str =>
    show UpdateFit (updateStr cx S q).1
    unfold updateStr
    split
    · exact h'
    · exact ⟨strTables_fit cx S h1, h2, h3⟩

/-- C15 for DELETE. -/
theorem C15_delete (q : Delete) (hq : DeleteFit q) (ops : List DeleteOp) :
    DeleteFit (runOps (deleteStep cx S) q ops) := by
  refine runOps_inv (P := DeleteFit) (fun q op h => ?_) q ops hq
  have h' := h
  obtain ⟨h1, h2, h3⟩ := h
  cases op with
  | allowDeleteAll => exact h'
  | forbidDeleteAll => exact h'
  | delete ts => exact ⟨tablesSet_fit cx S _ h1, h2, h3⟩
  | from_ a => exact ⟨h1, tablesSet_fit cx S a h2, h3⟩
  | fromTable t al => exact ⟨h1, tablesSet_fit cx S _ h2, h3⟩
  | join arg => exact ⟨h1, tablesJoin_fit cx S _ arg h2, h3⟩
  | leftJoin arg => exact ⟨h1, tablesJoin_fit cx S _ arg h2, h3⟩
  | rightJoin arg => exact ⟨h1, tablesJoin_fit cx S _ arg h2, h3⟩
  | on a => exact ⟨h1, tablesOn_fit cx S a h2, h3⟩
  | where_ a => exact ⟨h1, h2, condsWhere_fit cx S a h3⟩
  | ignore al => exact h'
  | str =>
    show DeleteFit (deleteStr cx S q).1
    unfold deleteStr
    split
    · exact h'
    · simp only
      split
      · exact ⟨h1, strTables_fit cx S h2, h3⟩
      · exact ⟨strTables_fit cx S h1, strTables_fit cx S h2, h3⟩

/-- The queries the API starts with contain nothing of a wrong type. -/
example : SelectFit {} ∧ InsertFit {} ∧ UpdateFit {} ∧ DeleteFit {} := by
  simp [SelectFit, InsertFit, UpdateFit, DeleteFit, OutfileFit]

/-! ### Refusal -/

theorem mkCond_refuses {on : Bool} {c v : Obj} (h : ¬(Fit .condColumn c ∧ Fit .condValue v)) :
    mkCond on c v = .error .invalidArgument := by
  unfold mkCond condValue
  by_cases h1 : checkType [.str] c = .ok ()
  · have h2 : ¬Fit .condValue v := fun h2 => h ⟨(fit_table_eq.1).mpr ((check_str c).mp h1), h2⟩
    rw [h1, checkType_error fun h3 => h2 ((check_cond v).mp h3)]
    rfl
  · rw [checkType_error h1]; rfl

/-- C15. A column or alias of a wrong type is refused and the query does not change. -/
theorem C15_column_refused (q : Select) (n al : Obj) (h : ¬(Fit .column n ∧ Fit .alias al)) :
    selectStep cx S q (.columns { pos := [.tuple [n, al]] }) = (q, some .invalidArgument) := by
  have h1 : mkColumn n al = .error .invalidArgument := by
    unfold mkColumn
    by_cases h1 : checkType [.str, .int] n = .ok ()
    · have h2 : ¬Fit .alias al := fun h2 => h ⟨(check_column n).mp h1, h2⟩
      rw [h1, checkType_error fun h3 => h2 ((check_alias al).mp h3)]
      rfl
    · rw [checkType_error h1]; rfl
  have h2 : parseArgs S nameOpts { pos := [.tuple [n, al]] } = .ok [[n, al]] := rfl
  simp only [selectStep, columnsAdd]
  rw [h2]
  simp [kwSelf, withR, forUpd, pairOf, h1, Upd.map]

/-- C15. A table or alias of a wrong type is refused and the query does not change. -/
theorem C15_table_refused (q : Select) (n al : Obj) (h : ¬(Fit .table n ∧ Fit .alias al)) :
    selectStep cx S q (.from_ { pos := [.tuple [n, al]] }) = (q, some .invalidArgument) ∧
    selectStep cx S q (.fromTable n al) = (q, some .invalidArgument) := by
  have h1 : mkTable n al = .error .invalidArgument := by
    unfold mkTable
    by_cases h1 : checkType [.str] n = .ok ()
    · have h2 : ¬Fit .alias al := fun h2 => h ⟨(check_str n).mp h1, h2⟩
      rw [h1, checkType_error fun h3 => h2 ((check_alias' al).mp h3)]
      rfl
    · rw [checkType_error h1]; rfl
  have h2 : parseArgs S nameOpts { pos := List.filter Obj.truthy [.tuple [n, al]] } =
      .ok [[n, al]] := rfl
  simp only [selectStep, tablesSet]
  rw [h2]
  simp [kwSelf, withR, forUpd, pairOf, h1, Upd.map]

/-- C15. A condition column or value of a wrong type is refused by `where`, `having` and the
`where` of UPDATE and DELETE, and the query does not change. -/
theorem C15_condition_refused (c v : Obj) (h : ¬(Fit .condColumn c ∧ Fit .condValue v)) :
    let a : Args := { pos := [.list [.tuple [c, v]]] }
    (∀ q, selectStep cx S q (.where_ a) = (q, some .invalidArgument)) ∧
    (∀ q, selectStep cx S q (.having a) = (q, some .invalidArgument)) ∧
    (∀ q, updateStep cx S q (.where_ a) = (q, some .invalidArgument)) ∧
    (∀ q, deleteStep cx S q (.where_ a) = (q, some .invalidArgument)) := by
  intro a
  have h1 : ∀ ps, condsWhere cx S false ps a = (ps, some .invalidArgument) := by
    intro ps
    have h2 : parseArgs S pairOpts a = .ok [[c, v]] := rfl
    have h3 : kwSelf a = false := rfl
    have h4 : customArg a = none := rfl
    have h5 : (!a.pos.isEmpty && a.pos.all Obj.isConds) = false := rfl
    simp only [condsWhere, h2, h3, h4, h5, withR, forUpd, pairOf, mkCond_refuses h,
      Bool.false_eq_true, if_false]
  refine ⟨?_, ?_, ?_, ?_⟩ <;> intro q
  · simp [selectStep, h1, Upd.map]
  · simp [selectStep, h1, Upd.map]
  · simp [updateStep, h1, Upd.map]
  · simp [deleteStep, h1, Upd.map]

/-- C15. A column or value of a wrong type is refused by `set` and `values`, and the query does not
change. -/
theorem C15_value_refused (c v : Obj) (h : ¬(Fit .setColumn c ∧ Fit .setValue v)) :
    let a : Args := { pos := [.list [.tuple [c, v]]] }
    (∀ q, updateStep cx S q (.set a) = (q, some .invalidArgument)) ∧
    (∀ q, insertStep cx S q (.values a) = (q, some .invalidArgument)) := by
  intro a
  have h0 : mkValue c v = .error .invalidArgument := by
    unfold mkValue
    by_cases h1 : checkType [.str] c = .ok ()
    · have h2 : ¬Fit .setValue v := fun h2 =>
        h ⟨(fit_table_eq.2.1).mpr ((check_str c).mp h1), h2⟩
      rw [h1, checkType_error fun h3 => h2 ((check_value v).mp h3)]
      rfl
    · rw [checkType_error h1]; rfl
  have h1 : ∀ ps, valuesSet cx S ps a = (ps, some .invalidArgument) := by
    intro ps
    have h2 : parseArgs S pairOpts a = .ok [[c, v]] := rfl
    have h3 : kwSelf a = false := rfl
    have h4 : customArg a = none := rfl
    simp only [valuesSet, h2, h3, h4, withR, forUpd, pairOf, h0, Bool.false_eq_true, if_false]
  refine ⟨?_, ?_⟩ <;> intro q
  · simp [updateStep, h1, Upd.map]
  · have h3 : kwSelf a = false := rfl
    simp [insertStep, rowsAdd, h1, Upd.map, h3]

/-- C15. A limit, offset or outfile option of a wrong type is refused and the query does not
change. -/
theorem C15_scalar_refused (q : Select) (v w : Obj) (f : OutfileField) :
    (¬Fit .limit v → selectStep cx S q (.limit v w) = (q, some .invalidArgument)) ∧
    (¬Fit .offset v → selectStep cx S q (.offset v) = (q, some .invalidArgument)) ∧
    (¬Fit .outfile v → selectStep cx S q (.outfile f v) = (q, some .invalidArgument)) := by
  refine ⟨fun h => ?_, fun h => ?_, fun h => ?_⟩
  · have := checkType_error fun h1 => h ((check_int v).mp h1)
    simp [selectStep, limitLimit, this, withR, Upd.map]
  · have := checkType_error fun h1 => h ((fit_table_eq.2.2.2.2).mpr ((check_int v).mp h1))
    simp [selectStep, limitOffset, this, withR, Upd.map]
  · have := checkType_error fun h1 => h ((fit_table_eq.2.2.1).mpr ((check_str v).mp h1))
    simp [selectStep, outfileSet, this, withR, Upd.map]

/-- C15. A new order column of a wrong type is refused, whatever columns (as names) are ordered
already. -/
theorem C15_order_refused (q : Select) (c d : Obj) (h : ¬Fit .orderColumn c)
    (hq : ∀ o ∈ q.orderBy, S.eq o.col c = .ok false) :
    selectStep cx S q (.orderBy { pos := [.tuple [c, d]] }) = (q, some .invalidArgument) := by
  have h1 : ∀ os : List Order, (∀ o ∈ os, S.eq o.col c = .ok false) →
      orderPut cx S os c d = .error .invalidArgument := by
    intro os
    induction os with
    | nil =>
      intro _
      have := checkType_error fun h1 => h ((fit_table_eq.2.2.2.1).mpr ((check_column c).mp h1))
      simp [orderPut, mkOrder, this]
    | cons o os ih =>
      intro ho
      unfold orderPut
      rw [ho o (by simp), ih fun x hx => ho x (by simp [hx])]
      rfl
  have h2 : parseArgs S nameOpts { pos := [.tuple [c, d]] } = .ok [[c, d]] := rfl
  simp only [selectStep, ordersAdd]
  rw [h2]
  simp [kwSelf, withR, forUpd, pairOf, h1 _ hq, Upd.map]

example : ¬Fit .column (.bool true) ∧ ¬Fit .condValue (.set [.int 1]) ∧ ¬Fit .setValue (.list []) ∧
    ¬Fit .limit (.str L!"10") ∧ Fit .column (.select {}) ∧ Fit .condValue (.gen []) := by decide

end

end SqlPuzzle
