import Verif.Proofs.Minimize
import Verif.Proofs.Statement
import Verif.Proofs.Strip
import Verif.Spec.Settings

/-!
What `str(query)` does to the tables of a query.
-/

namespace SqlPuzzle

open Spec

section
variable (cx : Ctx) (S : Sem)

/-- Rendering a rendered table gives the same text and changes nothing more. -/
theorem strTable_spec (t : Table) :
    tableText cx S (strTable cx S t).1 = tableText cx S t ∧
    (strTable cx S t).2 = errOf (tableText cx S t) ∧
    (strTable cx S (strTable cx S t).1).1 = (strTable cx S t).1 := by
  unfold strTable tableText
  cases ha : aliasedText cx S t.name t.alias with
  | error e => simp [ha, errOf]
  | ok n =>
    by_cases hj : t.joins.isEmpty = true
    · simp [ha, hj, errOf]
    · cases hm : minimizeJoins cx S t.joins with
      | error e => simp [ha, hj, hm, errOf]
      | ok js =>
        have h1 : js.isEmpty = false := by
          have := minimizeJoins_ne_nil cx S hm (by simpa using hj)
          simpa using this
        have h2 := minimizeJoins_idem cx S hm
        simp only [ha, hj, h1, h2, ok_bind, Bool.false_eq_true, if_false]
        refine ⟨trivial, ?_, trivial⟩
        cases mapR (joinText cx S) js <;> rfl

theorem strTables_spec (ts : List Table) :
    List.Forall₂ (fun t' t => tableText cx S t' = tableText cx S t) (strTables cx S ts).1 ts ∧
    (strTables cx S ts).2 = errOf (mapR (tableText cx S) ts) := by
  induction ts with
  | nil => exact ⟨.nil, rfl⟩
  | cons t ts ih =>
    obtain ⟨h1, h2, _⟩ := strTable_spec cx S t
    cases hs : strTable cx S t with
    | mk t' e =>
      rw [hs] at h1 h2
      simp only at h1 h2
      rw [mapR_cons]
      cases e with
      | some e =>
        simp only [strTables, hs]
        refine ⟨.cons h1 (List.forall₂_same.mpr fun _ _ => rfl), ?_⟩
        cases ht : tableText cx S t with
        | error e' => rw [ht] at h2; exact h2
        | ok u => rw [ht] at h2; cases h2
      | none =>
        simp only [strTables, hs]
        refine ⟨.cons h1 ih.1, ?_⟩
        rw [ih.2]
        cases ht : tableText cx S t with
        | error e' => rw [ht] at h2; cases h2
        | ok u =>
          simp only [ok_bind]
          cases mapR (tableText cx S) ts <;> rfl

theorem mapR_forall₂ {α β : Type} {f : α → R β} {xs ys : List α}
    (h : List.Forall₂ (fun x y => f x = f y) xs ys) : mapR f xs = mapR f ys := by
  induction h with
  | nil => rfl
  | cons h1 _ ih => rw [mapR_cons, mapR_cons, h1, ih]

theorem strTables_text (keyword : Str) (ts : List Table) :
    tablesText cx S keyword (strTables cx S ts).1 = tablesText cx S keyword ts ∧
    (strTables cx S ts).1.isEmpty = ts.isEmpty := by
  have h := (strTables_spec cx S ts).1
  have hl := h.length_eq
  have he : (strTables cx S ts).1.isEmpty = ts.isEmpty := by
    cases h1 : (strTables cx S ts).1 <;> cases ts <;> simp_all
  refine ⟨?_, he⟩
  unfold tablesText partsText
  rw [he]
  have hm := mapR_forall₂ h
  rw [hm]

/-- Rendering the tables of a rendered clause changes nothing more. -/
theorem strTables_idem (ts : List Table) :
    (strTables cx S (strTables cx S ts).1).1 = (strTables cx S ts).1 := by
  induction ts with
  | nil => rfl
  | cons t ts ih =>
    obtain ⟨h1, h2, h3⟩ := strTable_spec cx S t
    obtain ⟨_, h4, _⟩ := strTable_spec cx S (strTable cx S t).1
    rw [h1, ← h2] at h4
    cases hs : strTable cx S t with
    | mk t' e =>
      rw [hs] at h3 h4
      simp only at h3 h4
      cases hs' : strTable cx S t' with
      | mk t'' e' =>
        rw [hs'] at h3 h4
        simp only at h3 h4
        subst h3 h4
        cases e' with
        | some e => simp only [strTables, hs, hs']
        | none => simp only [strTables, hs, hs', ih]

end

/-- Two states that differ at most by a rendering. -/
def UpToStr (cx : Ctx) (S : Sem) (q q' : Select) : Prop :=
  q' = q ∨ q' = { q with tables := (strTables cx S q.tables).1 } ∨
    q = { q' with tables := (strTables cx S q'.tables).1 }

theorem upToStr_step (cx : Ctx) (S : Sem) {q q' : Select} (h : UpToStr cx S q q') {op : SelectOp}
    (ho : op.onTables = false) :
    UpToStr cx S (selectStep cx S q op).1 (selectStep cx S q' op).1 := by
  have one : ∀ q : Select,
      UpToStr cx S (selectStep cx S q op).1
        (selectStep cx S { q with tables := (strTables cx S q.tables).1 } op).1 := by
    intro q
    cases op with
    | from_ a => cases ho
    | fromTable t al => cases ho
    | join ty a => cases ho
    | on a => cases ho
    | str =>
      show UpToStr cx S (selectStr cx S q).1
        (selectStr cx S { q with tables := (strTables cx S q.tables).1 }).1
      unfold selectStr
      simp only
      split
      · exact .inr (.inl rfl)
      · refine .inl ?_
        simp only [strTables_idem]
    | columns a => exact .inr (.inl rfl)
    | where_ a => exact .inr (.inl rfl)
    | having a => exact .inr (.inl rfl)
    | groupBy a => exact .inr (.inl rfl)
    | orderBy a => exact .inr (.inl rfl)
    | limit l o => exact .inr (.inl rfl)
    | offset o => exact .inr (.inl rfl)
    | outfile f v => exact .inr (.inl rfl)
    | option k a => exact .inr (.inl rfl)
    | forUpdate a => exact .inr (.inl rfl)
  rcases h with rfl | rfl | rfl
  · exact .inl rfl
  · exact one q
  · rcases one q' with h | h | h
    · exact .inl h.symm
    · exact .inr (.inr h)
    · exact .inr (.inl h)

theorem upToStr_text (cx : Ctx) (n : Nat) {q q' : Select} (h : UpToStr cx (sem cx n) q q') :
    (sem cx (n + 1)).str (.select q) = (sem cx (n + 1)).str (.select q') := by
  have one : ∀ q : Select, selectText cx (sem cx n)
      { q with tables := (strTables cx (sem cx n) q.tables).1 } = selectText cx (sem cx n) q := by
    intro q
    obtain ⟨h1, h2⟩ := strTables_text cx (sem cx n) L!"FROM" q.tables
    unfold selectText
    simp only [h1, h2]
  show selectText cx _ q = selectText cx _ q'
  rcases h with rfl | rfl | rfl
  · rfl
  · exact (one q).symm
  · exact one q'

/-- The tables after a rendering that succeeds: their joins are the ones that were written. -/
theorem strTables_written (cx : Ctx) (n : Nat) {ts : List Table} {us : List Str}
    (h : mapR (tableText cx (sem cx n)) ts = .ok us) :
    List.Forall₂ (fun t t' => ∃ js, t' = { t with joins := js } ∧ WrittenJoins cx n t.joins js) ts
      (strTables cx (sem cx n) ts).1 := by
  induction ts generalizing us with
  | nil => exact .nil
  | cons t ts ih =>
    rw [mapR_cons] at h
    obtain ⟨u, h1, h⟩ := bind_ok.mp h
    obtain ⟨us', h2, _⟩ := bind_ok.mp h
    have h3 := (strTable_spec cx (sem cx n) t).2.1
    rw [h1] at h3
    have h4 : ∃ js, (strTable cx (sem cx n) t).1 = { t with joins := js } ∧
        WrittenJoins cx n t.joins js := by
      unfold tableText at h1
      obtain ⟨a, h5, h1⟩ := bind_ok.mp h1
      unfold strTable
      rw [h5]
      by_cases hj : t.joins.isEmpty = true
      · refine ⟨[], ?_, ?_⟩
        · simp only [hj, if_true]
          have : t.joins = [] := by simpa using hj
          rw [← this]
        · have : t.joins = [] := by simpa using hj
          rw [this]
          exact ⟨[], .nil, rfl⟩
      · rw [if_neg hj] at h1
        obtain ⟨js, h6, h1⟩ := bind_ok.mp h1
        refine ⟨js, ?_, (minimizeJoins_iff cx n).mp h6⟩
        simp only [hj, h6, Bool.false_eq_true, if_false]
    cases hs : strTable cx (sem cx n) t with
    | mk t' e =>
      rw [hs] at h3 h4
      simp only [errOf] at h3 h4
      subst h3
      simp only [strTables, hs]
      exact .cons h4 (ih h2)

/-- The joins of the tables after a rendering, whether it succeeds or not. -/
theorem strTables_given (cx : Ctx) (S : Sem) (ts : List Table) :
    List.Forall₂ (fun t t' => ∃ js, t' = { t with joins := js } ∧
        ∀ j ∈ js, ∃ j0 ∈ t.joins, j.name = j0.name ∧ j.alias = j0.alias ∧ j.ons = j0.ons) ts
      (strTables cx S ts).1 := by
  have same : ∀ t : Table, ∃ js, t = { t with joins := js } ∧
      ∀ j ∈ js, ∃ j0 ∈ t.joins, j.name = j0.name ∧ j.alias = j0.alias ∧ j.ons = j0.ons :=
    fun t => ⟨t.joins, rfl, fun j hj => ⟨j, hj, rfl, rfl, rfl⟩⟩
  have one : ∀ t : Table, ∃ js, (strTable cx S t).1 = { t with joins := js } ∧
      ∀ j ∈ js, ∃ j0 ∈ t.joins, j.name = j0.name ∧ j.alias = j0.alias ∧ j.ons = j0.ons := by
    intro t
    unfold strTable
    split
    · exact same t
    · split
      · exact same t
      · split
        · exact same t
        · rename_i js hm
          exact ⟨js, rfl, fun j hj => minimizeJoins_mem cx S hm hj⟩
  induction ts with
  | nil => exact .nil
  | cons t ts ih =>
    have h1 := one t
    unfold strTables
    split
    · rename_i t' e hs
      rw [hs] at h1
      exact .cons h1 (List.forall₂_same.mpr fun t _ => same t)
    · rename_i t' hs
      rw [hs] at h1
      exact .cons h1 ih

/-- Joins that all differ stay as they are. -/
theorem strTables_distinct (cx : Ctx) (S : Sem) {ts : List Table}
    (h : ∀ t ∈ ts, t.joins.Pairwise fun a b => sameJoin cx S a b = .ok false) :
    (strTables cx S ts).1 = ts := by
  induction ts with
  | nil => rfl
  | cons t ts ih =>
    have h1 : (strTable cx S t).1 = t := by
      unfold strTable
      split
      · rfl
      · split
        · rfl
        · rw [minimizeJoins_distinct cx S (h t (by simp))]
    have h2 := ih fun x hx => h x (by simp [hx])
    unfold strTables
    split
    · rename_i t' e ht; rw [ht] at h1; simp only at h1 ⊢; rw [h1]
    · rename_i t' ht; rw [ht] at h1; simp only at h1 ⊢; rw [h1, h2]

/-- What a list of tables becomes when a query is rendered. -/
theorem selectStr_tables (cx : Ctx) (S : Sem) (q : Select) :
    (selectStr cx S q).1 = q ∨
      (selectStr cx S q).1 = { q with tables := (strTables cx S q.tables).1 } := by
  unfold selectStr
  split
  · exact .inl rfl
  · exact .inr rfl

/-- The tables of a clause that renders. -/
theorem tables_ok {cx : Ctx} {S : Sem} {kw : Str} {ts : List Table} {t : Str}
    (h : clause (!ts.isEmpty) (tablesText cx S kw ts) = .ok t) :
    ∃ us, mapR (tableText cx S) ts = .ok us := by
  cases ts with
  | nil => exact ⟨[], rfl⟩
  | cons x xs =>
    unfold clause tablesText partsText at h
    simp only [List.isEmpty_cons, Bool.not_false, if_true, Bool.false_eq_true, if_false] at h
    obtain ⟨_, h, _⟩ := bind_ok.mp h
    obtain ⟨us, h, _⟩ := bind_ok.mp h
    exact ⟨us, h⟩

theorem selectStr_ok (cx : Ctx) (n : Nat) {q : Select} {t : Str}
    (h : (sem cx (n + 1)).str (.select q) = .ok t) :
    (selectStr cx (sem cx n) q).1 = { q with tables := (strTables cx (sem cx n) q.tables).1 } ∧
      ∃ us, mapR (tableText cx (sem cx n)) q.tables = .ok us := by
  have h : selectText cx (sem cx n) q = .ok t := h
  unfold selectText at h
  obtain ⟨_, h1, h⟩ := bind_ok.mp h
  obtain ⟨_, h2, h⟩ := bind_ok.mp h
  obtain ⟨_, h3, h⟩ := bind_ok.mp h
  obtain ⟨_, h4, h⟩ := bind_ok.mp h
  obtain ⟨_, _, h⟩ := bind_ok.mp h
  obtain ⟨_, h5, h⟩ := bind_ok.mp h
  obtain ⟨_, _, h⟩ := bind_ok.mp h
  obtain ⟨_, _, h⟩ := bind_ok.mp h
  obtain ⟨_, h6, h⟩ := bind_ok.mp h
  refine ⟨?_, tables_ok h6⟩
  unfold selectStr
  rw [h1, h2, h3, h4, h5]
  rfl

theorem updateStr_ok (cx : Ctx) (n : Nat) {q : Update} {t : Str}
    (h : (sem cx (n + 1)).str (.update q) = .ok t) :
    (updateStr cx (sem cx n) q).1 = { q with tables := (strTables cx (sem cx n) q.tables).1 } ∧
      ∃ us, mapR (tableText cx (sem cx n)) q.tables = .ok us := by
  have h : updateText cx (sem cx n) q = .ok t := h
  unfold updateText at h
  unfold updateStr
  split at h
  · cases h
  · rename_i hw
    rw [if_neg hw]
    obtain ⟨_, h1, h⟩ := bind_ok.mp h
    exact ⟨rfl, tables_ok h1⟩

theorem deleteStr_ok (cx : Ctx) (n : Nat) {q : Delete} {t : Str}
    (h : (sem cx (n + 1)).str (.delete q) = .ok t) :
    (deleteStr cx (sem cx n) q).1 = { q with
        tables := (strTables cx (sem cx n) q.tables).1
        references := (strTables cx (sem cx n) q.references).1 } ∧
      (∃ us, mapR (tableText cx (sem cx n)) q.tables = .ok us) ∧
      ∃ us, mapR (tableText cx (sem cx n)) q.references = .ok us := by
  have h : deleteText cx (sem cx n) q = .ok t := h
  unfold deleteText at h
  unfold deleteStr
  split at h
  · cases h
  · rename_i hw
    rw [if_neg hw]
    obtain ⟨_, _, h⟩ := bind_ok.mp h
    obtain ⟨_, h1, h⟩ := bind_ok.mp h
    obtain ⟨_, h2, h⟩ := bind_ok.mp h
    obtain ⟨us, h1⟩ := tables_ok h1
    refine ⟨?_, tables_ok h2, us, h1⟩
    have := (strTables_spec cx (sem cx n) q.references).2
    rw [h1] at this
    simp only [errOf] at this
    simp only [this]

end SqlPuzzle
