import Verif.Model.HasCalls
import Verif.Proofs.Commute
import Verif.Proofs.Rendering
import Verif.Proofs.State
import Verif.Spec.CallClauses

/-!
What `str(query)` in the middle of a history does to an `UPDATE`, a `DELETE` and an `INSERT`.
-/

namespace SqlPuzzle.RenderCalls

open SqlPuzzle

variable (cx : Ctx) (S : Sem)

/-- Two lists of tables that become the same by rendering. -/
def SameTables (ts us : List Table) : Prop := (strTables cx S ts).1 = (strTables cx S us).1

theorem same_str (ts : List Table) : SameTables cx S (strTables cx S ts).1 ts :=
  strTables_idem cx S ts

theorem same_text {ts us : List Table} (h : SameTables cx S ts us) (k : Str) :
    tablesText cx S k ts = tablesText cx S k us ∧ ts.isEmpty = us.isEmpty := by
  obtain ⟨a, b⟩ := strTables_text cx S k ts
  obtain ⟨c, d⟩ := strTables_text cx S k us
  unfold SameTables at h
  exact ⟨by rw [← a, h, c], by rw [← b, h, d]⟩

/-- Two `UPDATE`s that differ at most by renderings. -/
def SameUpdate (q q' : Update) : Prop :=
  q' = { q with tables := q'.tables } ∧ SameTables cx S q.tables q'.tables

theorem sameUpdate_str (q : Update) : SameUpdate cx S (updateStep cx S q .str).1 q := by
  show SameUpdate cx S (updateStr cx S q).1 q
  unfold updateStr
  split
  · exact ⟨rfl, rfl⟩
  · exact ⟨rfl, same_str cx S _⟩

theorem sameUpdate_step {q q' : Update} (h : SameUpdate cx S q q') {op : UpdateOp}
    (ho : Spec.updateGroup op ≠ some .tables) :
    SameUpdate cx S (updateStep cx S q op).1 (updateStep cx S q' op).1 := by
  obtain ⟨h1, h2⟩ := h
  generalize q'.tables = ts at h1 h2
  subst h1
  cases op with
  | table _ => exact absurd rfl ho
  | join _ => exact absurd rfl ho
  | leftJoin _ => exact absurd rfl ho
  | rightJoin _ => exact absurd rfl ho
  | on _ => exact absurd rfl ho
  | str =>
    show SameUpdate cx S (updateStr cx S q).1 (updateStr cx S { q with tables := ts }).1
    unfold updateStr
    simp only
    split
    · exact ⟨rfl, h2⟩
    · exact ⟨rfl, by
        show (strTables cx S (strTables cx S _).1).1 = (strTables cx S (strTables cx S _).1).1
        rw [strTables_idem, strTables_idem]; exact h2⟩
  | _ => exact ⟨rfl, h2⟩

theorem sameUpdate_text (n : Nat) {q q' : Update} (h : SameUpdate cx (sem cx n) q q') :
    (sem cx (n + 1)).str (.update q) = (sem cx (n + 1)).str (.update q') := by
  obtain ⟨h1, h2⟩ := h
  generalize q'.tables = ts at h1 h2
  subst h1
  obtain ⟨a, b⟩ := same_text cx _ h2 []
  show updateText cx _ q = updateText cx _ _
  unfold updateText
  simp only [a, b]

/-- Two `DELETE`s that differ at most by renderings. -/
def SameDelete (q q' : Delete) : Prop :=
  q' = { q with tables := q'.tables, references := q'.references } ∧
    SameTables cx S q.tables q'.tables ∧ SameTables cx S q.references q'.references

theorem sameDelete_str (q : Delete) : SameDelete cx S (deleteStep cx S q .str).1 q := by
  show SameDelete cx S (deleteStr cx S q).1 q
  unfold deleteStr
  split
  · exact ⟨rfl, rfl, rfl⟩
  · simp only
    split
    · exact ⟨rfl, rfl, same_str cx S _⟩
    · exact ⟨rfl, same_str cx S _, same_str cx S _⟩

theorem sameDelete_step {q q' : Delete} (h : SameDelete cx S q q') {op : DeleteOp}
    (ho : Spec.deleteGroup op ≠ some .deleted ∧ Spec.deleteGroup op ≠ some .from_) :
    SameDelete cx S (deleteStep cx S q op).1 (deleteStep cx S q' op).1 := by
  obtain ⟨h1, h2, h3⟩ := h
  cases op with
  | delete _ => exact absurd rfl ho.1
  | from_ _ => exact absurd rfl ho.2
  | fromTable _ _ => exact absurd rfl ho.2
  | join _ => exact absurd rfl ho.2
  | leftJoin _ => exact absurd rfl ho.2
  | rightJoin _ => exact absurd rfl ho.2
  | on _ => exact absurd rfl ho.2
  | str =>
    obtain ⟨a1, a2, a3⟩ := sameDelete_str cx S q
    obtain ⟨b1, b2, b3⟩ := sameDelete_str cx S q'
    refine ⟨?_, a2.trans (h2.trans b2.symm), a3.trans (h3.trans b3.symm)⟩
    revert a1 b1 h1
    generalize (deleteStep cx S q .str).1 = p
    generalize (deleteStep cx S q' .str).1 = p'
    intro h1 a1 b1
    cases p; cases p'; cases q; cases q'
    simp_all
  | _ =>
    generalize q'.tables = ts at h1 h2
    generalize q'.references = rs at h1 h3
    subst h1
    exact ⟨rfl, h2, h3⟩

theorem sameDelete_text (n : Nat) {q q' : Delete} (h : SameDelete cx (sem cx n) q q') :
    (sem cx (n + 1)).str (.delete q) = (sem cx (n + 1)).str (.delete q') := by
  obtain ⟨h1, h2, h3⟩ := h
  generalize q'.tables = ts at h1 h2
  generalize q'.references = rs at h1 h3
  subst h1
  obtain ⟨a, b⟩ := same_text cx _ h2 []
  obtain ⟨c, d⟩ := same_text cx _ h3 []
  show deleteText cx _ q = deleteText cx _ _
  unfold deleteText
  simp only [a, b, c, d]

/-- A relation kept by every call of a history holds after it. -/
theorem rel_run {σ ω : Type} {step : σ → ω → Upd σ} {P : ω → Prop} {Rel : σ → σ → Prop}
    (hs : ∀ q q' op, Rel q q' → P op → Rel (step q op).1 (step q' op).1) :
    ∀ (ops : List ω) (q q' : σ), Rel q q' → (∀ op ∈ ops, P op) →
      Rel (runOps step q ops) (runOps step q' ops)
  | [], _, _, h, _ => h
  | op :: ops, q, q', h, ho =>
    rel_run hs ops _ _ (hs q q' op h (ho op (by simp))) fun o h => ho o (by simp [h])

/-- An `INSERT` has no joins. -/
def NoJoins (q : Insert) : Prop := ∀ t ∈ q.tables, t.joins = []

theorem noJoins_str {ts : List Table} (h : ∀ t ∈ ts, t.joins = []) : (strTables cx S ts).1 = ts := by
  have one : ∀ t ∈ ts, (strTable cx S t).1 = t := by
    intro t ht
    unfold strTable
    rw [h t ht]
    split <;> rfl
  clear h
  induction ts with
  | nil => rfl
  | cons t ts ih =>
    have h1 := one t (by simp)
    unfold strTables
    cases h2 : strTable cx S t with
    | mk t' e =>
      rw [h2] at h1
      cases e with
      | some e => simp only at h1 ⊢; rw [h1]
      | none => simp only at h1 ⊢; rw [h1, ih fun u hu => one u (by simp [hu])]

theorem mkTable_joins {nm al : Obj} {t : Table} (h : mkTable nm al = .ok t) : t.joins = [] := by
  unfold mkTable at h
  obtain ⟨_, _, h⟩ := bind_ok.mp h
  obtain ⟨_, _, h⟩ := bind_ok.mp h
  cases h
  rfl

theorem noJoins_set {ts : List Table} (h : ∀ t ∈ ts, t.joins = []) (a : Args) :
    ∀ t ∈ (tablesSet cx S ts a).1, t.joins = [] := by
  unfold tablesSet
  split
  · exact h
  · refine withR_inv (P := fun ts : List Table => ∀ t ∈ ts, t.joins = []) h fun bs _ => ?_
    refine forUpd_inv (P := fun ts : List Table => ∀ t ∈ ts, t.joins = []) (fun ts b _ h => ?_) h
    refine withR_inv (P := fun ts : List Table => ∀ t ∈ ts, t.joins = []) h fun t ht => ?_
    rcases appendUnique_cases (tableEq cx S) ts t with e | e
    · rw [e]; exact h
    · rw [e]
      intro u hu
      rcases List.mem_append.mp hu with hu | hu
      · exact h u hu
      · rw [List.mem_singleton.mp hu]; exact mkTable_joins ht

theorem noJoins_onDup (q : Insert) (a : Args) :
    (onDuplicateKeyUpdate cx S q a).1.tables = q.tables := by
  have h := Commute.onDup_other cx S q a q.tables q.rows q.ignore
  rw [show ({ q with tables := q.tables, rows := q.rows, ignore := q.ignore } : Insert) = q
    from rfl] at h
  rw [h]; rfl

theorem noJoins_step {q : Insert} (h : NoJoins q) (op : InsertOp) :
    NoJoins (insertStep cx S q op).1 := by
  cases op with
  | into t => exact noJoins_set cx S h _
  | values a =>
    show NoJoins (if kwSelf a then _ else _ : Upd Insert).1
    split <;> exact h
  | onDuplicateKeyUpdate a =>
    show ∀ t ∈ (onDuplicateKeyUpdate cx S q a).1.tables, _
    rw [noJoins_onDup]; exact h
  | ignore _ => exact h
  | str =>
    show NoJoins (insertStr cx S q).1
    unfold insertStr
    split
    · exact h
    · show ∀ t ∈ (strTables cx S q.tables).1, _
      rw [noJoins_str cx S h]; exact h

theorem noJoins_run {q : Insert} (h : NoJoins q) (ops : List InsertOp) :
    NoJoins (runOps (insertStep cx S) q ops) := by
  induction ops generalizing q with
  | nil => exact h
  | cons op ops ih => exact ih (noJoins_step cx S h op)

theorem noJoins_insertStr {q : Insert} (h : NoJoins q) : (insertStep cx S q .str).1 = q := by
  show (insertStr cx S q).1 = q
  unfold insertStr
  split
  · rfl
  · simp only [noJoins_str cx S h]

/-! ### `has()` -/

theorem afterHas_cases (ts : List Table) (v : Obj) :
    tablesAfterHas cx S ts v = ts ∨ tablesAfterHas cx S ts v = (strTables cx S ts).1 := by
  unfold tablesAfterHas
  split
  · exact .inl rfl
  · split
    · split
      · exact .inl rfl
      · exact .inr rfl
    · exact .inl rfl

theorem same_has (ts : List Table) (v : Obj) : SameTables cx S (tablesAfterHas cx S ts v) ts := by
  rcases afterHas_cases cx S ts v with h | h
  · rw [h]; rfl
  · rw [h]; exact same_str cx S ts

theorem sameUpdate_has (q : Update) (name : Str) (v : Obj) :
    SameUpdate cx S (updateHasStep cx S q name v).1 q := by
  unfold updateHasStep
  split
  · exact ⟨rfl, same_has cx S _ v⟩
  · exact ⟨rfl, rfl⟩

theorem sameDelete_has (q : Delete) (name : Str) (v : Obj) :
    SameDelete cx S (deleteHasStep cx S q name v).1 q := by
  unfold deleteHasStep
  split
  · exact ⟨rfl, same_has cx S _ v, rfl⟩
  · simp only
    split
    · exact ⟨rfl, rfl, same_has cx S _ v⟩
    · exact ⟨rfl, rfl, rfl⟩

theorem noJoins_has {q : Insert} (h : NoJoins q) (name : Str) (v : Obj) :
    (insertHasStep cx S q name v).1 = q := by
  unfold insertHasStep
  split
  · rcases afterHas_cases cx S q.tables v with e | e
    · simp only [e]
    · simp only [e, noJoins_str cx S h]
  · rfl

end SqlPuzzle.RenderCalls
