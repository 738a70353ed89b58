import Verif.Model.Queries

/-!
Histories of calls that fall into independent groups: if calls of different groups can be exchanged,
only the order within each group matters.
-/

namespace SqlPuzzle.Commute

open SqlPuzzle

variable {σ ω κ : Type} [BEq κ] [LawfulBEq κ] {step : σ → ω → Upd σ} {group : ω → κ} {ok : ω → Prop}

omit [BEq κ] [LawfulBEq κ] in
theorem move
    (hc : ∀ q a b, ok a → ok b → group a ≠ group b →
      (step (step q a).1 b).1 = (step (step q b).1 a).1) (a : ω) (ha : ok a) :
    ∀ (pre : List ω) (q : σ) (post : List ω), (∀ b ∈ pre, ok b ∧ group b ≠ group a) →
      runOps step q (pre ++ a :: post) = runOps step q (a :: (pre ++ post))
  | [], _, _, _ => rfl
  | b :: pre, q, post, h => by
    have hb := h b (by simp)
    have ih := move hc a ha pre (step q b).1 post fun c hc => h c (List.mem_cons_of_mem _ hc)
    show runOps step (step q b).1 (pre ++ a :: post) = _
    rw [ih]
    show runOps step (step (step q b).1 a).1 (pre ++ post) =
      runOps step (step (step q a).1 b).1 (pre ++ post)
    rw [hc q a b ha hb.1 fun e => hb.2 e.symm]

theorem order
    (hc : ∀ q a b, ok a → ok b → group a ≠ group b →
      (step (step q a).1 b).1 = (step (step q b).1 a).1)
    (xs ys : List ω) (q : σ) (hx : ∀ a ∈ xs, ok a) (hy : ∀ a ∈ ys, ok a)
    (h : ∀ c, (xs.filter fun a => group a == c) = ys.filter fun a => group a == c) :
    runOps step q xs = runOps step q ys := by
  induction xs generalizing ys q with
  | nil =>
    cases ys with
    | nil => rfl
    | cons y ys =>
      have := h (group y)
      simp at this
  | cons x xs ih =>
    have hm : (ys.filter fun a => group a == group x) =
        x :: xs.filter fun a => group a == group x := by
      rw [← h (group x)]; simp
    obtain ⟨pre, post, rfl, hpre, _, hpost⟩ := List.filter_eq_cons_iff.mp hm
    have hne : ∀ b ∈ pre, ok b ∧ group b ≠ group x := fun b hb =>
      ⟨hy b (by simp [hb]), fun e => hpre b hb (by simp [e])⟩
    rw [move hc x (hx x (by simp)) pre q post hne]
    show runOps step (step q x).1 xs = runOps step (step q x).1 (pre ++ post)
    refine ih (pre ++ post) _ (fun a h => hx a (by simp [h])) (fun a h => hy a ?_) fun c => ?_
    · rcases List.mem_append.mp h with e | e <;> simp [e]
    · have hc := h c
      rw [List.filter_append, List.filter_cons] at hc
      rw [List.filter_append]
      by_cases e : group x = c
      · subst e
        have hp : (pre.filter fun a => group a == group x) = [] := by
          rw [List.filter_eq_nil_iff]; exact hpre
        rw [hp, List.nil_append]
        exact hpost.symm
      · have e' : (group x == c) = false := by simpa using e
        rw [List.filter_cons] at hc
        simpa only [e', Bool.false_eq_true, if_false] using hc

theorem onConflictSet_other (cx : Ctx) (S : Sem) (q : Insert) (a : Args) (ts : List Table)
    (rows : List (List (ValuePart Obj))) (ig : Bool) :
    onConflictSet cx S { q with tables := ts, rows := rows, ignore := ig } a =
      (onConflictSet cx S q a).map fun r =>
        { r with tables := ts, rows := rows, ignore := ig } := by
  unfold onConflictSet
  by_cases hk : kwSelf a
  · simp [hk, Upd.map]
  · simp only [hk, if_false, Bool.false_eq_true]
    split <;> rfl

/-- `on_duplicate_key_update` neither reads nor writes the other parts of an `INSERT`. -/
theorem onDup_other (cx : Ctx) (S : Sem) (q : Insert) (a : Args) (ts : List Table)
    (rows : List (List (ValuePart Obj))) (ig : Bool) :
    onDuplicateKeyUpdate cx S { q with tables := ts, rows := rows, ignore := ig } a =
      (onDuplicateKeyUpdate cx S q a).map fun r =>
        { r with tables := ts, rows := rows, ignore := ig } := by
  unfold onDuplicateKeyUpdate
  by_cases hk : kwSelf a
  · simp [hk, Upd.map]
  · simp only [hk, if_false, Bool.false_eq_true]
    by_cases h1 : cx.backend.supportsOnDuplicateKeyUpdate <;>
      by_cases h2 : cx.backend.supportsOnConflictDoUpdate <;>
      by_cases h3 : cx.backend.supportsReplaceInto <;>
      simp only [h1, h2, h3, if_true, if_false, Bool.false_eq_true, onConflictSet_other]
    all_goals
      first
      | (split <;> rfl; done)
      | (rcases valuesSet cx S q.onDup a with ⟨v, _ | e⟩ <;> rfl)
      | (rcases valuesSet cx S q.onDup a with ⟨v, _ | e⟩ <;> simp only [Upd.map]
         first
         | rfl
         | (rw [show (⟨q.isReplace, ig, ts, rows, v, q.conflict, q.onConflict⟩ : Insert) =
              { (⟨q.isReplace, q.ignore, q.tables, q.rows, v, q.conflict, q.onConflict⟩ : Insert)
                with tables := ts, rows := rows, ignore := ig } from rfl, onConflictSet_other]
            generalize onConflictSet cx S _ a = u
            rcases u with ⟨u, _ | e⟩ <;> simp only [Upd.map] <;> (try split) <;> rfl)
         | (split <;> rfl))
      | (generalize onConflictSet cx S _ a = u
         rcases u with ⟨u, _ | e⟩ <;> simp only [Upd.map] <;> (try split) <;> rfl)
      | rfl

/-- The other calls on an `INSERT` neither read nor write what `on_duplicate_key_update` sets. -/
theorem insert_other (cx : Ctx) (S : Sem) (b : InsertOp) (hb : b ≠ .str)
    (ho : ∀ a, b ≠ .onDuplicateKeyUpdate a) :
    ∃ f : List Table → List (List (ValuePart Obj)) → Bool →
        List Table × List (List (ValuePart Obj)) × Bool × Option Err,
      ∀ q : Insert, insertStep cx S q b =
        ({ q with tables := (f q.tables q.rows q.ignore).1
                  rows := (f q.tables q.rows q.ignore).2.1
                  ignore := (f q.tables q.rows q.ignore).2.2.1 },
          (f q.tables q.rows q.ignore).2.2.2) := by
  cases b with
  | str => exact absurd rfl hb
  | onDuplicateKeyUpdate a => exact absurd rfl (ho a)
  | into t =>
    exact ⟨fun ts rs ig => ((tablesSet cx S ts { pos := [t] }).1, rs, ig,
      (tablesSet cx S ts { pos := [t] }).2), fun q => rfl⟩
  | values a =>
    by_cases hk : kwSelf a
    · exact ⟨fun ts rs ig => (ts, rs, ig, some .typeError), fun q => by simp [insertStep, hk]⟩
    · exact ⟨fun ts rs ig => (ts, (rowsAdd cx S rs a).1, ig, (rowsAdd cx S rs a).2),
        fun q => by simp [insertStep, hk, Upd.map]⟩
  | ignore v => exact ⟨fun ts rs _ => (ts, rs, v.truthy, none), fun q => rfl⟩

theorem onDup_exchange (cx : Ctx) (S : Sem) (q : Insert) (a : Args) (b : InsertOp) (hb : b ≠ .str)
    (ho : ∀ a, b ≠ .onDuplicateKeyUpdate a) :
    (insertStep cx S (onDuplicateKeyUpdate cx S q a).1 b).1 =
        (onDuplicateKeyUpdate cx S (insertStep cx S q b).1 a).1 ∧
      (insertStep cx S (onDuplicateKeyUpdate cx S q a).1 b).2 = (insertStep cx S q b).2 ∧
      (onDuplicateKeyUpdate cx S (insertStep cx S q b).1 a).2 =
        (onDuplicateKeyUpdate cx S q a).2 := by
  obtain ⟨f, hf⟩ := insert_other cx S b hb ho
  have h := onDup_other cx S q a q.tables q.rows q.ignore
  rw [show ({ q with tables := q.tables, rows := q.rows, ignore := q.ignore } : Insert) = q
    from rfl] at h
  have h1 : (onDuplicateKeyUpdate cx S q a).1.tables = q.tables := by rw [h]; rfl
  have h2 : (onDuplicateKeyUpdate cx S q a).1.rows = q.rows := by rw [h]; rfl
  have h3 : (onDuplicateKeyUpdate cx S q a).1.ignore = q.ignore := by rw [h]; rfl
  have h4 := onDup_other cx S q a (f q.tables q.rows q.ignore).1 (f q.tables q.rows q.ignore).2.1
    (f q.tables q.rows q.ignore).2.2.1
  rw [hf, hf, h1, h2, h3, h4]
  exact ⟨rfl, rfl, rfl⟩

end SqlPuzzle.Commute
