import Verif.Proofs.Guards
import Verif.Proofs.Statement

/-!
C23, C24: a DELETE or UPDATE of everything needs a confirmation.
-/

namespace SqlPuzzle

open Spec

private def cx0 : Ctx := ⟨.sql, ⟨id, id, fun _ => true, fun _ => [], fun _ => []⟩⟩

/-- C23. After any history of calls on a new delete query that leaves it without condition,
rendering raises `ConfirmDeleteAllException` iff the last allow/forbid call was not
`allow_delete_all`; otherwise the text is that of the clauses. (It may still raise because a clause
does, see C44.) -/
theorem C23_confirm (cx : Ctx) (n : Nat) (q0 : Delete) (h0 : q0.allowAll = false)
    (ops : List DeleteOp) (q : Delete) (hq : q = runOps (deleteStep cx (sem cx n)) q0 ops)
    (hw : q.where_ = []) :
    (latest saysDeleteAll ops ≠ some true →
      (sem cx (n + 1)).str (.delete q) = .error .confirmDeleteAll) ∧
    (latest saysDeleteAll ops = some true →
      ∀ t, (sem cx (n + 1)).str (.delete q) = .ok t ↔ DeleteStatement cx n q t) := by
  have h1 := delete_allowAll cx (sem cx n) q0 ops
  rw [← hq, h0] at h1
  constructor
  · intro h2
    have h3 : q.allowAll = false := by
      rw [h1]
      cases h4 : latest saysDeleteAll ops with
      | none => rfl
      | some b => cases b with
        | false => rfl
        | true => exact absurd h4 h2
    show deleteText cx (sem cx n) q = _
    simp [deleteText, hw, h3]
  · intro h2
    have h3 : q.allowAll = true := by rw [h1, h2]; rfl
    exact fun t => deleteStatement_iff cx n (.inr h3)

/-- C23, as the user sees it: no `where` and no `allow_delete_all` anywhere in the history, in
whatever order the other calls come, means no statement. -/
theorem C23_no_accident (cx : Ctx) (n : Nat) (ts : List Obj) (a : Args) (q0 : Delete)
    (h0 : mkDelete cx (sem cx n) ts = .ok q0 ∨ mkDeleteFrom cx (sem cx n) a = .ok q0)
    (ops : List DeleteOp) (hw : ∀ a, DeleteOp.where_ a ∉ ops)
    (ha : DeleteOp.allowDeleteAll ∉ ops) :
    (sem cx (n + 1)).str (.delete (runOps (deleteStep cx (sem cx n)) q0 ops)) =
      .error .confirmDeleteAll := by
  obtain ⟨h1, h2⟩ := new_delete cx (sem cx n) h0
  refine (C23_confirm cx n q0 h1 ops _ rfl (delete_no_where cx _ q0 h2 ops hw)).1 fun h => ?_
  obtain ⟨b, op, c, rfl, h3, _⟩ := latest_eq_some.mp h
  cases op with
  | allowDeleteAll => exact ha (by simp)
  | _ => cases h3

/-- C23, full statement of the second half: a rendered delete query, deletion of everything not
being allowed last, has a WHERE clause with a condition. -/
def C23_claim : Prop :=
  ∀ (cx : Ctx) (n : Nat) (q0 : Delete) (ops : List DeleteOp) (t : Str), q0.allowAll = false →
    latest saysDeleteAll ops ≠ some true →
    (sem cx (n + 1)).str (.delete (runOps (deleteStep cx (sem cx n)) q0 ops)) = .ok t →
    ∃ pre condition, t = pre ++ L!" WHERE " ++ condition ∧ condition ≠ []

/-- C23 is false: `delete_from('t').where(Q())` renders as `DELETE FROM "t" WHERE`, which gets past
the guard. -/
theorem C23_refuted : ¬C23_claim := by
  intro h
  obtain ⟨pre, c, h1, _⟩ := h cx0 3 { references := [⟨.str L!"t", .none, []⟩] }
    [.where_ { pos := [.conds []] }] L!"DELETE FROM \"t\" WHERE" rfl (by simp [latest, saysDeleteAll]) (by decide)
  have : L!" WHERE " <:+: L!"DELETE FROM \"t\" WHERE" := ⟨pre, c, by rw [h1]⟩
  exact absurd (infix_at this) (by decide)

/-- C23, the rest of the second half: if the clause has a condition whose text is not blank (any
condition on a column is such), the statement ends in `WHERE` and a condition. -/
theorem C23_where_partial (cx : Ctx) (n : Nat) (q0 : Delete) (ops : List DeleteOp) (q : Delete)
    (hq : q = runOps (deleteStep cx (sem cx n)) q0 ops) (h0 : q0.allowAll = false) (t : Str)
    (h1 : latest saysDeleteAll ops ≠ some true) (ht : (sem cx (n + 1)).str (.delete q) = .ok t) :
    q.where_ ≠ [] ∧
    ((∃ c ∈ q.where_, ∀ u, (sem cx (n + 1)).str (.conds [c]) = .ok u → ∃ ch ∈ u, isWhite ch = false) →
      ∃ pre condition, t = pre ++ L!" WHERE " ++ condition ∧ condition ≠ []) := by
  have hne : q.where_ ≠ [] := by
    intro hw
    rw [(C23_confirm cx n q0 h0 ops q hq hw).1 h1] at ht
    cases ht
  refine ⟨hne, fun ⟨c, hc, hb⟩ => ?_⟩
  have ht : deleteText cx (sem cx n) q = .ok t := ht
  have he : q.where_.isEmpty = false := by simpa using hne
  unfold deleteText at ht
  rw [he] at ht
  simp only [Bool.false_and, Bool.false_eq_true, if_false, Bool.not_false] at ht
  obtain ⟨o, _, ht⟩ := bind_ok.mp ht
  obtain ⟨r, _, ht⟩ := bind_ok.mp ht
  obtain ⟨ta, _, ht⟩ := bind_ok.mp ht
  obtain ⟨w, hw, ht⟩ := bind_ok.mp ht
  simp only [clause, if_true] at hw
  obtain ⟨w', hw', hw⟩ := bind_ok.mp hw
  cases hw
  unfold condsText partsText at hw'
  rw [he] at hw'
  simp only [Bool.false_eq_true, if_false] at hw'
  obtain ⟨ts, hts, hw'⟩ := bind_ok.mp hw'
  cases hw'
  have hts := mapR_ok_iff.mp hts
  obtain ⟨u, hu, hcu⟩ : ∃ u ∈ ts, condText cx (sem cx n) c = .ok u := forall₂_mem hts hc
  obtain ⟨ch, hch, hs⟩ := hb u ((condText_iff cx n).mp hcu)
  obtain ⟨e, he1, he2⟩ := strip_tail (c := 'D')
    (pre := L!"ELETE" ++ o ++ ta ++ L!" FROM" ++ r ++ L!" WHERE ")
    (body := joinS L!" AND " ts) rfl ⟨ch, joinS_mem hu hch, isWhite_eq ▸ hs⟩
  refine ⟨L!"DELETE" ++ o ++ ta ++ L!" FROM" ++ r, e, ?_, he2⟩
  injection ht with ht
  rw [← ht]
  refine Eq.trans ?_ (he1.trans ?_) <;> simp

/-- C24. After any history of calls on a new update query that leaves it without condition,
rendering raises `ConfirmUpdateAllException` iff the last allow/forbid call was not
`allow_update_all`; otherwise the text is that of the clauses. -/
theorem C24_confirm (cx : Ctx) (n : Nat) (q0 : Update) (h0 : q0.allowAll = false)
    (ops : List UpdateOp) (q : Update) (hq : q = runOps (updateStep cx (sem cx n)) q0 ops)
    (hw : q.where_ = []) :
    (latest saysUpdateAll ops ≠ some true →
      (sem cx (n + 1)).str (.update q) = .error .confirmUpdateAll) ∧
    (latest saysUpdateAll ops = some true →
      ∀ t, (sem cx (n + 1)).str (.update q) = .ok t ↔ UpdateStatement cx n q t) := by
  have h1 := update_allowAll cx (sem cx n) q0 ops
  rw [← hq, h0] at h1
  constructor
  · intro h2
    have h3 : q.allowAll = false := by
      rw [h1]
      cases h4 : latest saysUpdateAll ops with
      | none => rfl
      | some b => cases b with
        | false => rfl
        | true => exact absurd h4 h2
    show updateText cx (sem cx n) q = _
    simp [updateText, hw, h3]
  · intro h2
    have h3 : q.allowAll = true := by rw [h1, h2]; rfl
    exact fun t => updateStatement_iff cx n (.inr h3)

/-- C24, as the user sees it: no `where` and no `allow_update_all` means no statement. -/
theorem C24_no_accident (cx : Ctx) (n : Nat) (t : Obj) (q0 : Update)
    (h0 : mkUpdate cx (sem cx n) t = .ok q0)
    (ops : List UpdateOp) (hw : ∀ a, UpdateOp.where_ a ∉ ops)
    (ha : UpdateOp.allowUpdateAll ∉ ops) :
    (sem cx (n + 1)).str (.update (runOps (updateStep cx (sem cx n)) q0 ops)) =
      .error .confirmUpdateAll := by
  obtain ⟨h1, h2⟩ := new_update cx (sem cx n) h0
  refine (C24_confirm cx n q0 h1 ops _ rfl (update_no_where cx _ q0 h2 ops hw)).1 fun h => ?_
  obtain ⟨b, op, c, rfl, h3, _⟩ := latest_eq_some.mp h
  cases op with
  | allowUpdateAll => exact ha (by simp)
  | _ => cases h3

/-- C24, full statement of the second half. -/
def C24_claim : Prop :=
  ∀ (cx : Ctx) (n : Nat) (q0 : Update) (ops : List UpdateOp) (t : Str), q0.allowAll = false →
    latest saysUpdateAll ops ≠ some true →
    (sem cx (n + 1)).str (.update (runOps (updateStep cx (sem cx n)) q0 ops)) = .ok t →
    ∃ pre condition, t = pre ++ L!" WHERE " ++ condition ∧ condition ≠ []

/-- C24 is false: `update('t').set(a=1).where(Q())` renders as `UPDATE "t" SET "a" = 1 WHERE`. -/
theorem C24_refuted : ¬C24_claim := by
  intro h
  obtain ⟨pre, c, h1, _⟩ := h cx0 3
    { tables := [⟨.str L!"t", .none, []⟩], values := [.value (.str L!"a") (.int 1)] }
    [.where_ { pos := [.conds []] }] L!"UPDATE \"t\" SET \"a\" = 1 WHERE" rfl
    (by simp [latest, saysUpdateAll]) (by decide)
  have : L!" WHERE " <:+: L!"UPDATE \"t\" SET \"a\" = 1 WHERE" := ⟨pre, c, by rw [h1]⟩
  exact absurd (infix_at this) (by decide)

/-- C24, the rest of the second half. -/
theorem C24_where_partial (cx : Ctx) (n : Nat) (q0 : Update) (ops : List UpdateOp) (q : Update)
    (hq : q = runOps (updateStep cx (sem cx n)) q0 ops) (h0 : q0.allowAll = false) (t : Str)
    (h1 : latest saysUpdateAll ops ≠ some true) (ht : (sem cx (n + 1)).str (.update q) = .ok t) :
    q.where_ ≠ [] ∧
    ((∃ c ∈ q.where_, ∀ u, (sem cx (n + 1)).str (.conds [c]) = .ok u → ∃ ch ∈ u, isWhite ch = false) →
      ∃ pre condition, t = pre ++ L!" WHERE " ++ condition ∧ condition ≠ []) := by
  have hne : q.where_ ≠ [] := by
    intro hw
    rw [(C24_confirm cx n q0 h0 ops q hq hw).1 h1] at ht
    cases ht
  refine ⟨hne, fun ⟨c, hc, hb⟩ => ?_⟩
  have ht : updateText cx (sem cx n) q = .ok t := ht
  have he : q.where_.isEmpty = false := by simpa using hne
  unfold updateText at ht
  rw [he] at ht
  simp only [Bool.false_and, Bool.false_eq_true, if_false, Bool.not_false] at ht
  obtain ⟨ta, _, ht⟩ := bind_ok.mp ht
  obtain ⟨o, _, ht⟩ := bind_ok.mp ht
  obtain ⟨v, _, ht⟩ := bind_ok.mp ht
  obtain ⟨w, hw, ht⟩ := bind_ok.mp ht
  simp only [clause, if_true] at hw
  obtain ⟨w', hw', hw⟩ := bind_ok.mp hw
  cases hw
  unfold condsText partsText at hw'
  rw [he] at hw'
  simp only [Bool.false_eq_true, if_false] at hw'
  obtain ⟨ts, hts, hw'⟩ := bind_ok.mp hw'
  cases hw'
  have hts := mapR_ok_iff.mp hts
  obtain ⟨u, hu, hcu⟩ : ∃ u ∈ ts, condText cx (sem cx n) c = .ok u := forall₂_mem hts hc
  obtain ⟨ch, hch, hs⟩ := hb u ((condText_iff cx n).mp hcu)
  obtain ⟨e, he1, he2⟩ := strip_tail (c := 'U')
    (pre := L!"PDATE" ++ o ++ ta ++ L!" SET" ++ v ++ L!" WHERE ")
    (body := joinS L!" AND " ts) rfl ⟨ch, joinS_mem hu hch, isWhite_eq ▸ hs⟩
  refine ⟨L!"UPDATE" ++ o ++ ta ++ L!" SET" ++ v, e, ?_, he2⟩
  injection ht with ht
  rw [← ht]
  refine Eq.trans ?_ (he1.trans ?_) <;> simp

/-- The hypotheses of the `_where_partial` theorems hold for every condition on a column. -/
theorem C23_column_condition {cx : Ctx} {n : Nat} {on : Bool} {c v : Obj} {k : Rel} :
    ∀ u, (sem cx (n + 1)).str (.conds [.cond on c k v]) = .ok u → ∃ ch ∈ u, isWhite ch = false :=
  fun _ h => isWhite_eq ▸ condText_nonblank ((condText_iff cx n).mpr h)

example : (sem cx0 3).str (.delete (runOps (deleteStep cx0 (sem cx0 2)) {}
    [.from_ { pos := [.str L!"t"] }, .allowDeleteAll, .forbidDeleteAll,
     .where_ { kw := [(L!"a", .int 1)] }])) = .ok L!"DELETE FROM \"t\" WHERE \"a\" = 1" := by decide

example : (sem cx0 3).str (.delete (runOps (deleteStep cx0 (sem cx0 2)) {}
    [.from_ { pos := [.str L!"t"] }, .forbidDeleteAll, .allowDeleteAll])) =
    .ok L!"DELETE FROM \"t\"" := by decide

end SqlPuzzle
