import Verif.Proofs.Strip
import Verif.Proofs.Sort
import Verif.Spec.Settings

/-!
Facts about limit, offset, options and the outfile clause after a history of calls.
-/

namespace SqlPuzzle

open Spec

theorem allowed_int_none (v : Obj) :
    v.allowed [.none, .int] = true ↔ v = .none ∨ (∃ i, v = .int i) ∨ v.isSql = true := by
  cases v <;> simp [Obj.allowed, Obj.isInst, Obj.isBool, Obj.isSql]

theorem isSql_truthy {v : Obj} (h : v.isSql = true) :
    v.truthy = true ∧ v.isNone = false ∧ toInt v = .error .typeError := by
  cases v <;> simp [Obj.isSql, Obj.truthy, Obj.isNone, toInt] at *

/-- `offset(v)` in one table. -/
theorem limitOffset_cases (l : LimitS) (v : Obj) :
    (v = .none ∧ limitOffset l v = ({ l with offset := none }, none)) ∨
    (∃ i, v = .int i ∧ limitOffset l v = ({ l with offset := offsetOf i }, none)) ∨
    ((v ≠ .none ∧ ∀ i, v ≠ .int i) ∧ ∃ e, limitOffset l v = (l, some e)) := by
  by_cases h1 : v = .none
  · subst h1; exact .inl ⟨rfl, rfl⟩
  · by_cases h2 : ∃ i, v = .int i
    · obtain ⟨i, rfl⟩ := h2
      refine .inr (.inl ⟨i, rfl, ?_⟩)
      by_cases h3 : i = 0
      · subst h3; rfl
      · have : (Obj.int i).truthy = true := by simp [Obj.truthy, h3]
        simp [limitOffset, withR, checkType, Obj.allowed, Obj.isInst, Obj.isBool, this, toInt,
          offsetOf, h3]
    · refine .inr (.inr ⟨⟨h1, fun i h => h2 ⟨i, h⟩⟩, ?_⟩)
      by_cases h3 : v.isSql = true
      · obtain ⟨a, _, c⟩ := isSql_truthy h3
        refine ⟨.typeError, ?_⟩
        have : v.allowed [.none, .int] = true := (allowed_int_none v).mpr (.inr (.inr h3))
        simp [limitOffset, withR, checkType, this, a, c]
      · refine ⟨.invalidArgument, ?_⟩
        have : v.allowed [.none, .int] = false := by
          rw [← Bool.not_eq_true, allowed_int_none]
          rintro (h | h | h)
          · exact h1 h
          · exact h2 h
          · exact h3 h
        simp [limitOffset, withR, checkType, this]

/-- `limit(v, off)` in one table. -/
theorem limitLimit_cases (l : LimitS) (v off : Obj) :
    (v = .none ∧ limitLimit l v off = ({}, none)) ∨
    (∃ i, v = .int i ∧ limitLimit l v off =
      if off.isNone then ({ l with limit := some i }, none)
      else limitOffset { l with limit := some i } off) ∨
    ((v ≠ .none ∧ ∀ i, v ≠ .int i) ∧ ∃ e, limitLimit l v off = (l, some e)) := by
  by_cases h1 : v = .none
  · subst h1; exact .inl ⟨rfl, rfl⟩
  · by_cases h2 : ∃ i, v = .int i
    · obtain ⟨i, rfl⟩ := h2
      exact .inr (.inl ⟨i, rfl, rfl⟩)
    · refine .inr (.inr ⟨⟨h1, fun i h => h2 ⟨i, h⟩⟩, ?_⟩)
      by_cases h3 : v.isSql = true
      · obtain ⟨_, b, c⟩ := isSql_truthy h3
        refine ⟨.typeError, ?_⟩
        have : v.allowed [.none, .int] = true := (allowed_int_none v).mpr (.inr (.inr h3))
        simp [limitLimit, withR, checkType, this, b, c]
      · refine ⟨.invalidArgument, ?_⟩
        have : v.allowed [.none, .int] = false := by
          rw [← Bool.not_eq_true, allowed_int_none]
          rintro (h | h | h)
          · exact h1 h
          · exact h2 h
          · exact h3 h
        simp [limitLimit, withR, checkType, this]

theorem saysLimit_none {v off : Obj} (h : v ≠ .none ∧ ∀ i, v ≠ .int i) :
    saysLimit (.limit v off) = none ∧ saysOffset (.limit v off) = none := by
  cases v <;> simp_all [saysLimit, saysOffset]

theorem saysOffset_none {v : Obj} (h : v ≠ .none ∧ ∀ i, v ≠ .int i) :
    saysOffset (.offset v) = none := by
  cases v <;> simp_all [saysOffset]

theorem selectStr_eq (cx : Ctx) (S : Sem) (q : Select) :
    ∃ ts, (selectStr cx S q).1 = { q with tables := ts } := by
  unfold selectStr
  split
  · exact ⟨q.tables, rfl⟩
  · exact ⟨_, rfl⟩

/-- After any history of calls with any arguments the limit and the offset of a query are those
of the latest call that set or cleared them. -/
theorem limit_latest (cx : Ctx) (S : Sem) (ops : List SelectOp) :
    (runOps (selectStep cx S) {} ops).limit =
      ⟨(latest saysLimit ops).getD none, (latest saysOffset ops).getD none⟩ := by
  have h1 := runOps_latest (step := selectStep cx S) (f := fun q : Select => q.limit.limit)
    (tells := saysLimit) (fun q o => by
      cases o with
      | limit v off =>
        show (limitLimit q.limit v off).1.limit = _
        rcases limitLimit_cases q.limit v off with ⟨rfl, h⟩ | ⟨i, rfl, h⟩ | ⟨hv, e, h⟩ <;> rw [h]
        · rfl
        · split
          · rfl
          · rcases limitOffset_cases { q.limit with limit := some i } off with
              ⟨_, h⟩ | ⟨_, _, h⟩ | ⟨_, e, h⟩ <;> rw [h] <;> rfl
        · rw [(saysLimit_none hv).1]; rfl
      | offset v =>
        show (limitOffset q.limit v).1.limit = _
        rcases limitOffset_cases q.limit v with ⟨rfl, h⟩ | ⟨i, rfl, h⟩ | ⟨hv, e, h⟩ <;> rw [h] <;> rfl
      | str =>
        show (selectStr cx S q).1.limit.limit = _
        obtain ⟨ts, h⟩ := selectStr_eq cx S q
        rw [h]; rfl
      | _ => rfl) {} ops
  have h2 := runOps_latest (step := selectStep cx S) (f := fun q : Select => q.limit.offset)
    (tells := saysOffset) (fun q o => by
      cases o with
      | limit v off =>
        show (limitLimit q.limit v off).1.offset = _
        rcases limitLimit_cases q.limit v off with ⟨rfl, h⟩ | ⟨i, rfl, h⟩ | ⟨hv, e, h⟩ <;> rw [h]
        · rfl
        · rcases limitOffset_cases { q.limit with limit := some i } off with
              ⟨rfl, h⟩ | ⟨j, rfl, h⟩ | ⟨hv, e, h⟩
          · rfl
          · rw [h]; rfl
          · rw [if_neg, h]
            · cases off <;> simp_all [saysOffset]
            · cases off <;> simp_all [Obj.isNone]
        · rw [(saysLimit_none hv).2]; rfl
      | offset v =>
        show (limitOffset q.limit v).1.offset = _
        rcases limitOffset_cases q.limit v with ⟨rfl, h⟩ | ⟨i, rfl, h⟩ | ⟨hv, e, h⟩ <;> rw [h]
        · rfl
        · rfl
        · rw [saysOffset_none hv]; rfl
      | str =>
        show (selectStr cx S q).1.limit.offset = _
        obtain ⟨ts, h⟩ := selectStr_eq cx S q
        rw [h]; rfl
      | _ => rfl) {} ops
  generalize runOps (selectStep cx S) {} ops = q at h1 h2
  have h1 : q.limit.limit = _ := h1
  have h2 : q.limit.offset = _ := h2
  cases hq : q.limit
  rw [hq] at h1 h2
  simp only at h1 h2
  rw [h1, h2]

theorem SelectOptions.isOn_set (o : SelectOptions) (k k' : SelOpt) (b : Bool) :
    (o.set k' b).isOn k = if k' ∈ k.group then decide (k' = k) && b else o.isOn k := by
  cases k <;> cases k' <;> cases b <;> rfl

theorem SelectOptions.sorted_words (o : SelectOptions) :
    sortBy strLe o.words = (SelOpt.sorted.filter o.isOn).map SelOpt.word := by
  obtain ⟨c, d, b1, b2, b3, b4, b5, b6⟩ := o
  cases c <;> cases d <;> cases b1 <;> cases b2 <;> cases b3 <;> cases b4 <;> cases b5 <;>
      cases b6 <;> rfl

theorem options_latest (cx : Ctx) (S : Sem) (ops : List SelectOp) (k : SelOpt) :
    (runOps (selectStep cx S) {} ops).opts.isOn k = (latest (saysOption k) ops).getD false := by
  have h1 := runOps_latest (step := selectStep cx S) (f := fun q : Select => q.opts.isOn k)
    (tells := saysOption k) (fun q o => by
      cases o with
      | option k' allow =>
        show (q.opts.set k' allow.truthy).isOn k = _
        rw [SelectOptions.isOn_set, saysOption]
        split <;> rfl
      | str =>
        show (selectStr cx S q).1.opts.isOn k = _
        obtain ⟨ts, h⟩ := selectStr_eq cx S q
        rw [h]; rfl
      | _ => rfl) {} ops
  have h0 : ({} : Select).opts.isOn k = false := by cases k <;> rfl
  rw [h0] at h1
  exact h1

theorem allowed_str (v : Obj) : v.allowed [.str] = (v.isStr || v.isSql) := by
  cases v <;> rfl

/-- After any history of calls each of the four settings has the value of the latest call that
set it, whatever the order of calls on different settings. -/
theorem outfile_latest (cx : Ctx) (S : Sem) (ops : List SelectOp) (f : OutfileField) :
    OutfileS.get (runOps (selectStep cx S) {} ops).outfile f =
      (latest (saysOutfile f) ops).getD none := by
  have h1 := runOps_latest (step := selectStep cx S)
    (f := fun q : Select => OutfileS.get q.outfile f)
    (tells := saysOutfile f) (fun q o => by
      cases o with
      | outfile f' v =>
        show OutfileS.get (outfileSet q.outfile f' v).1 f = _
        unfold outfileSet checkType saysOutfile
        rw [allowed_str]
        by_cases hv : (v.isStr || v.isSql) = true
        · rw [if_pos hv]
          simp only [withR, hv, and_true]
          cases f <;> cases f' <;> rfl
        · rw [if_neg hv]
          simp [withR, hv]
      | str =>
        show OutfileS.get (selectStr cx S q).1.outfile f = _
        obtain ⟨ts, h⟩ := selectStr_eq cx S q
        rw [h]; rfl
      | _ => rfl) {} ops
  have h0 : OutfileS.get ({} : Select).outfile f = none := by cases f <;> rfl
  rw [h0] at h1
  exact h1

end SqlPuzzle
