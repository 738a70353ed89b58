import Verif.Proofs.Plain
import Verif.Proofs.Entries
import Verif.Spec.FirstUse
import Verif.Spec.Accumulate

/-!
Facts about the clauses of a query after a history of calls.
-/

namespace SqlPuzzle

open Spec

section
variable (cx : Ctx) (S : Sem)

/-! ### Nothing is lost -/

theorem condsWhere_prefix (on : Bool) (ps : List Cond) (a : Args) :
    ps <+: (condsWhere cx S on ps a).1 := by
  unfold condsWhere
  split
  · exact List.prefix_refl _
  · split
    · exact List.prefix_append _ _
    · split
      · refine forUpd_inv (P := fun r => ps <+: r) (fun s o _ hs => ?_) (List.prefix_refl _)
        rcases appendUnique_cases (condEq cx S) s (.item o) with h | h <;> rw [h]
        · exact hs
        · exact hs.trans (List.prefix_append _ _)
      · refine withR_inv (P := fun r => ps <+: r) (List.prefix_refl _) fun bs _ => ?_
        cases h : addAll (condEq cx S) (fun b => mkCond on (pairOf b).1 (pairOf b).2) ps bs with
        | mk ps' e =>
          obtain ⟨new, _, h1, _⟩ := addAll_extends h
          unfold addAll at h
          rw [h]
          exact ⟨new, h1.symm⟩

theorem columnsAdd_prefix (cs : List Column) (a : Args) : cs <+: (columnsAdd S cs a).1 := by
  unfold columnsAdd
  split
  · exact List.prefix_refl _
  · refine withR_inv (P := fun r => cs <+: r) (List.prefix_refl _) fun bs _ => ?_
    cases h : addAll (columnEq S) (fun b => mkColumn (pairOf b).1 (pairOf b).2) cs bs with
    | mk ps' e =>
      obtain ⟨new, _, h1, _⟩ := addAll_extends h
      unfold addAll at h
      rw [h]
      exact ⟨new, h1.symm⟩

theorem tablesSet_prefix (ts : List Table) (a : Args) : ts <+: (tablesSet cx S ts a).1 := by
  unfold tablesSet
  split
  · exact List.prefix_refl _
  · refine withR_inv (P := fun r => ts <+: r) (List.prefix_refl _) fun bs _ => ?_
    cases h : addAll (tableEq cx S) (fun b => mkTable (pairOf b).1 (pairOf b).2) ts bs with
    | mk ps' e =>
      obtain ⟨new, _, h1, _⟩ := addAll_extends h
      unfold addAll at h
      rw [h]
      exact ⟨new, h1.symm⟩

theorem valuesSet_prefix (vs : List Value) (a : Args) : vs <+: (valuesSet cx S vs a).1 := by
  unfold valuesSet
  split
  · exact List.prefix_refl _
  · split
    · exact List.prefix_append _ _
    · refine withR_inv (P := fun r => vs <+: r) (List.prefix_refl _) fun bs _ => ?_
      cases h : addAll (valueEq cx S) (fun b => mkValue (pairOf b).1 (pairOf b).2) vs bs with
      | mk ps' e =>
        obtain ⟨new, _, h1, _⟩ := addAll_extends h
        unfold addAll at h
        rw [h]
        exact ⟨new, h1.symm⟩

theorem runOps_prefix {σ ω α : Type} {step : σ → ω → Upd σ} {f : σ → List α}
    (h : ∀ s o, f s <+: f (step s o).1) (s : σ) (ops : List ω) : f s <+: f (runOps step s ops) := by
  induction ops generalizing s with
  | nil => exact List.prefix_refl _
  | cons o ops ih => exact (h s o).trans (ih _)

/-- Whatever calls are made on a SELECT afterwards, also calls that raise, the conditions it
has stay, unchanged and in their places. -/
theorem select_keeps (q : Select) (ops : List SelectOp) :
    q.where_ <+: (runOps (selectStep cx S) q ops).where_ ∧
    q.having <+: (runOps (selectStep cx S) q ops).having := by
  constructor
  · refine runOps_prefix (f := SelectS.where_) (fun q op => ?_) q ops
    cases op with
    | where_ a => exact condsWhere_prefix cx S false q.where_ a
    | str =>
      show q.where_ <+: (selectStr cx S q).1.where_
      unfold selectStr; split <;> exact List.prefix_refl _
    | _ => exact List.prefix_refl _
  · refine runOps_prefix (f := SelectS.having) (fun q op => ?_) q ops
    cases op with
    | having a => exact condsWhere_prefix cx S false q.having a
    | str =>
      show q.having <+: (selectStr cx S q).1.having
      unfold selectStr; split <;> exact List.prefix_refl _
    | _ => exact List.prefix_refl _

/-- distinctness: as long as no single SQL object is passed to `where`, no two conditions of
the clause are equal, whatever calls are made, in whatever order, also calls that raise. -/
theorem where_distinct (q : Select)
    (hq : q.where_.Pairwise fun a b => condEq cx S a b = .ok false)
    (ops : List SelectOp) (ho : ∀ a, SelectOp.where_ a ∈ ops → customArg a = none) :
    (runOps (selectStep cx S) q ops).where_.Pairwise fun a b => condEq cx S a b = .ok false := by
  induction ops generalizing q with
  | nil => exact hq
  | cons op ops ih =>
    rw [runOps_cons]
    refine ih _ ?_ fun a ha => ho a (by simp [ha])
    cases op with
    | where_ a =>
      show (condsWhere cx S false q.where_ a).1.Pairwise _
      have hc := ho a (by simp)
      unfold condsWhere
      rw [hc]
      split
      · exact hq
      · simp only
        split
        · cases h : addAll (condEq cx S) (fun o => (.ok (.item o) : R Cond)) q.where_ a.pos with
          | mk ps' e =>
            have := addAll_distinct h hq
            unfold addAll at h
            simp only [withR] at h
            rw [h]; exact this
        · refine withR_inv (P := fun ps : List Cond => ps.Pairwise fun a b => condEq cx S a b = .ok false) hq
            fun bs _ => ?_
          cases h : addAll (condEq cx S) (fun b => mkCond false (pairOf b).1 (pairOf b).2)
              q.where_ bs with
          | mk ps' e =>
            have := addAll_distinct h hq
            unfold addAll at h
            rw [h]; exact this
    | str =>
      show (selectStr cx S q).1.where_.Pairwise _
      unfold selectStr; split <;> exact hq
    | _ => exact hq

end

/-! ### Order of first use -/

/-- A condition on a named column with a plain value. -/
def PlainCond : Cond → Prop
  | .cond on col _ v => on = false ∧ col.scalar = true ∧ v.plain = true
  | .item _ => False

theorem condEq_plain (cx : Ctx) (n : Nat) {a b : Cond} (ha : PlainCond a) (hb : PlainCond b) :
    ∃ r, condEq cx (sem cx (n + 2)) a b = .ok r ∧ (r = true ↔ a = b) := by
  cases a with
  | item o => exact ha.elim
  | cond on c k v =>
    cases b with
    | item o => exact hb.elim
    | cond on' c' k' v' =>
      obtain ⟨rfl, h1, h2⟩ := ha
      obtain ⟨rfl, h3, h4⟩ := hb
      obtain ⟨r, e1, e2⟩ := eqF_scalar cx (sem cx (n + 1)) h1 h3
      obtain ⟨r', e3, e4⟩ := eqF_plain cx n h2 h4
      have e1 : (sem cx (n + 2)).eq c c' = .ok r := e1
      have e3 : (sem cx (n + 2)).eq v v' = .ok r' := e3
      refine ⟨r && (r' && (k == k')), ?_, ?_⟩
      · simp only [condEq, if_true, e1, e3, andR_ok, Bool.false_and, Bool.false_eq_true, if_false,
          orR_ok, Bool.or_false]
      · simp only [Bool.and_eq_true, e2, e4, beq_iff_eq, CondPart.cond.injEq, true_and]
        tauto

theorem strTables_names (cx : Ctx) (S : Sem) (ts : List Table) :
    tableNames (strTables cx S ts).1 = tableNames ts := by
  have one : ∀ t, ((strTable cx S t).1.name, (strTable cx S t).1.alias) = (t.name, t.alias) := by
    intro t
    unfold strTable
    split
    · rfl
    · split
      · rfl
      · split <;> rfl
  induction ts with
  | nil => rfl
  | cons t ts ih =>
    have h := one t
    unfold strTables
    split
    · rename_i t' e ht; rw [ht] at h; simp only [tableNames, List.map_cons] at *; rw [h]
    · rename_i t' ht; rw [ht] at h; simp only [tableNames, List.map_cons] at *; rw [h, ih]

theorem updateLast_names {f : Table → Upd Table} (hf : ∀ t, (f t).1.name = t.name ∧
    (f t).1.alias = t.alias) {ts : List Table} {r : Upd (List Table)}
    (h : updateLast f ts = some r) : tableNames r.1 = tableNames ts := by
  obtain ⟨ys, y, rfl, rfl⟩ := updateLast_some h
  simp [tableNames, (hf y).1, (hf y).2]

theorem tablesJoin_names (cx : Ctx) (S : Sem) (ts : List Table) (ty : JoinType) (arg : Obj) :
    tableNames (tablesJoin cx S ts ty arg).1 = tableNames ts := by
  unfold tablesJoin
  split
  · rfl
  · split
    · rfl
    · rename_i r hr
      refine updateLast_names (fun t => ?_) hr
      cases mkJoin S ty arg <;> exact ⟨rfl, rfl⟩

theorem tablesOn_names (cx : Ctx) (S : Sem) (ts : List Table) (a : Args) :
    tableNames (tablesOn cx S ts a).1 = tableNames ts := by
  unfold tablesOn
  split
  · rfl
  · split
    · rfl
    · rename_i r hr
      refine updateLast_names (fun t => ?_) hr
      unfold tableOn
      split <;> exact ⟨rfl, rfl⟩

/-- A named column with a plain alias. -/
def PlainColumn (c : Column) : Prop := c.name.scalar = true ∧ c.alias.scalar = true

theorem columnEq_plain (cx : Ctx) (n : Nat) {a b : Column} (ha : PlainColumn a)
    (hb : PlainColumn b) : ∃ r, columnEq (sem cx (n + 1)) a b = .ok r ∧ (r = true ↔ a = b) := by
  obtain ⟨r, e1, e2⟩ := eqF_scalar cx (sem cx n) ha.1 hb.1
  obtain ⟨r', e3, e4⟩ := eqF_scalar cx (sem cx n) ha.2 hb.2
  have e1 : (sem cx (n + 1)).eq a.name b.name = .ok r := e1
  have e3 : (sem cx (n + 1)).eq a.alias b.alias = .ok r' := e3
  refine ⟨r && r', by simp only [columnEq, e1, e3, andR_ok], ?_⟩
  cases a; cases b
  simp [e2, e4]

/-- A named column set to a plain value. -/
def PlainValue : Value → Prop
  | .value c v => c.scalar = true ∧ v.scalar = true
  | .item _ => False

theorem valueEq_plain (cx : Ctx) (n : Nat) {a b : Value} (ha : PlainValue a) (hb : PlainValue b) :
    ∃ r, valueEq cx (sem cx (n + 1)) a b = .ok r ∧ (r = true ↔ a = b) := by
  cases a with
  | item o => exact ha.elim
  | value c v =>
    cases b with
    | item o => exact hb.elim
    | value c' v' =>
      obtain ⟨r, e1, e2⟩ := eqF_scalar cx (sem cx n) ha.1 hb.1
      obtain ⟨r', e3, e4⟩ := eqF_scalar cx (sem cx n) ha.2 hb.2
      have e1 : (sem cx (n + 1)).eq c c' = .ok r := e1
      have e3 : (sem cx (n + 1)).eq v v' = .ok r' := e3
      refine ⟨r && r', by simp only [valueEq, e1, e3, andR_ok], ?_⟩
      simp [e2, e4]

/-- A history of calls that give pairs, if all comparisons are exact. -/
theorem history_uses {σ ω α : Type} {step : σ → ω → Upd σ} {f : σ → List α} {P : α → Prop}
    {E : Obj × Obj → Prop} {conv : Obj × Obj → α} {Gives : ω → List (Obj × Obj) → Prop}
    (hstep : ∀ s op ps given, Gives op ps → (∀ p ∈ ps, E p) → (∀ c ∈ f s, P c) →
      FirstUses given (f s) →
      FirstUses (given ++ ps.map conv) (f (step s op).1) ∧ ∀ c ∈ f (step s op).1, P c)
    {ops : List ω} {uses : List (List (Obj × Obj))} (hg : List.Forall₂ Gives ops uses)
    (hp : ∀ ps ∈ uses, ∀ p ∈ ps, E p) (s : σ) (given : List α) (hf : FirstUses given (f s))
    (hs : ∀ c ∈ f s, P c) :
    FirstUses (given ++ uses.flatten.map conv) (f (runOps step s ops)) := by
  induction hg generalizing s given with
  | nil => simpa using hf
  | @cons op ps ops uses h1 _ ih =>
    rw [runOps_cons, List.flatten_cons, List.map_append, ← List.append_assoc]
    obtain ⟨h2, h3⟩ := hstep s op ps given h1 (hp ps (by simp)) hs hf
    exact ih (fun x hx => hp x (by simp [hx])) _ _ h2 h3

theorem exactScalar_scalar {v : Obj} (h : ExactScalar v) : v.scalar = true := by
  cases v <;> first | rfl | exact h.elim | skip
  show (Option.isNone _) = true
  rw [show _ = Option.none from h]
  rfl

theorem exactCond_mk {p : Obj × Obj} (h : ExactCond p) :
    mkCond false p.1 p.2 = .ok (condOf p.1 p.2) ∧ PlainCond (condOf p.1 p.2) := by
  obtain ⟨col, v⟩ := p
  obtain ⟨⟨s, rfl⟩, hv⟩ := h
  have all : ∀ xs : List Obj, (∀ x ∈ xs, ExactScalar x) → (Obj.list xs).plain = true := fun xs h =>
    List.all_eq_true.mpr fun x hx => exactScalar_scalar (h x hx)
  have one : ∀ v : Obj, ExactScalar v → v.plain = true := by
    intro v hv
    have := exactScalar_scalar hv
    cases v <;> first | exact this | exact hv.elim
  cases v with
  | rel k w =>
    refine ⟨rfl, rfl, rfl, ?_⟩
    cases w <;> first | exact all _ hv | exact one _ hv
  | none => exact ⟨rfl, rfl, rfl, rfl⟩
  | str s => exact ⟨rfl, rfl, rfl, rfl⟩
  | int i => exact ⟨rfl, rfl, rfl, rfl⟩
  | date d => exact ⟨rfl, rfl, rfl, rfl⟩
  | datetime d => exact ⟨rfl, rfl, rfl, one _ hv⟩
  | list xs => exact ⟨rfl, rfl, rfl, all _ hv⟩
  | tuple xs => exact ⟨rfl, rfl, rfl, all _ hv⟩
  | gen xs => exact ⟨rfl, rfl, rfl, all _ hv⟩
  | range is =>
    refine ⟨rfl, rfl, rfl, all _ ?_⟩
    intro x hx
    obtain ⟨i, _, rfl⟩ := List.mem_map.mp hx
    trivial
  | _ => exact hv.elim

/-- One call with exact conditions. -/
theorem conds_step (cx : Ctx) (n : Nat) {a : Args} {ps : List (Obj × Obj)} {cs given : List Cond}
    (hg : GivesPairs a ps) (hp : ∀ p ∈ ps, ExactCond p) (hc : ∀ c ∈ cs, PlainCond c)
    (hf : FirstUses given cs) :
    FirstUses (given ++ ps.map fun p => condOf p.1 p.2)
        (condsWhere cx (sem cx (n + 2)) false cs a).1 ∧
      ∀ c ∈ (condsWhere cx (sem cx (n + 2)) false cs a).1, PlainCond c := by
  obtain ⟨h1, h2⟩ := givesPairs_parse hg (sem cx (n + 2))
  have hq : (!a.pos.isEmpty && a.pos.all Obj.isConds) = false := by
    have hstr : ∀ x y, (x, y) ∈ ps → ∃ s, x = .str s := fun x y h => (hp _ h).1
    cases hg with
    | usual h3 _ _ =>
      cases h3 with
      | nothing => rfl
      | @direct x y _ =>
        obtain ⟨s, rfl⟩ := hstr x y (by simp)
        rfl
      | listed h _ => cases h <;> rfl
      | several h =>
        cases h with
        | cons h _ =>
          simp only [List.isEmpty_cons, Bool.not_false, List.all_cons, Bool.true_and,
            Bool.and_eq_false_iff]
          left
          cases h with
          | two h => cases h <;> rfl
          | one h => cases h <;> rfl
          | zero h => cases h <;> rfl
    | dict _ _ => rfl
  have h6 : List.Forall₂ (fun b c => mkCond false (pairOf b).1 (pairOf b).2 = .ok c) (rows2 ps)
      (ps.map fun p => condOf p.1 p.2) := by
    rw [rows2, List.forall₂_map_left_iff, List.forall₂_map_right_iff]
    exact List.forall₂_same.mpr fun p hm => (exactCond_mk (hp p hm)).1
  have hcs : ∀ c ∈ ps.map fun p => condOf p.1 p.2, PlainCond c := by
    intro c hc
    obtain ⟨p, hm, rfl⟩ := List.mem_map.mp hc
    exact (exactCond_mk (hp p hm)).2
  obtain ⟨ps', h7, h8, h9⟩ := addAll_firstUses (eq := condEq cx (sem cx (n + 2)))
    (mk := fun b => mkCond false (pairOf b).1 (pairOf b).2)
    (fun a b ha hb => condEq_plain cx n ha hb) h6 hcs hc hf
  have : (condsWhere cx (sem cx (n + 2)) false cs a).1 = ps' := by
    unfold addAll at h7
    simp only [condsWhere, h1, h2, givesPairs_custom hg, hq, Bool.false_eq_true, if_false, withR]
    simp only [withR] at h7
    rw [h7]
  rw [this]
  exact ⟨h8, h9⟩

theorem exactColumn_mk {p : Obj × Obj} (h : ExactColumn p) :
    mkColumn p.1 p.2 = .ok ⟨p.1, p.2⟩ ∧ PlainColumn ⟨p.1, p.2⟩ := by
  obtain ⟨a, b⟩ := p
  obtain ⟨⟨s, rfl⟩ | ⟨i, rfl⟩, rfl | ⟨t, rfl⟩⟩ := h <;> exact ⟨rfl, rfl, rfl⟩

/-- One call with exact columns. -/
theorem columns_step (cx : Ctx) (n : Nat) {a : Args} {ps : List (Obj × Obj)}
    {cs given : List Column} (hg : GivesNames a ps) (hp : ∀ p ∈ ps, ExactColumn p)
    (hc : ∀ c ∈ cs, PlainColumn c) (hf : FirstUses given cs) :
    FirstUses (given ++ ps.map fun p => (⟨p.1, p.2⟩ : Column)) (columnsAdd (sem cx (n + 1)) cs a).1 ∧
      ∀ c ∈ (columnsAdd (sem cx (n + 1)) cs a).1, PlainColumn c := by
  obtain ⟨h1, h2⟩ := givesNames_parse hg (sem cx (n + 1))
  have h6 : List.Forall₂ (fun b c => mkColumn (pairOf b).1 (pairOf b).2 = .ok c) (rows2 ps)
      (ps.map fun p => (⟨p.1, p.2⟩ : Column)) := by
    rw [rows2, List.forall₂_map_left_iff, List.forall₂_map_right_iff]
    exact List.forall₂_same.mpr fun p hm => (exactColumn_mk (hp p hm)).1
  have hcs : ∀ c ∈ ps.map fun p => (⟨p.1, p.2⟩ : Column), PlainColumn c := by
    intro c hc
    obtain ⟨p, hm, rfl⟩ := List.mem_map.mp hc
    exact (exactColumn_mk (hp p hm)).2
  obtain ⟨ps', h7, h8, h9⟩ := addAll_firstUses (eq := columnEq (sem cx (n + 1)))
    (mk := fun b => mkColumn (pairOf b).1 (pairOf b).2)
    (fun a b ha hb => columnEq_plain cx n ha hb) h6 hcs hc hf
  have : (columnsAdd (sem cx (n + 1)) cs a).1 = ps' := by
    unfold addAll at h7
    simp only [columnsAdd, h1, h2, Bool.false_eq_true, if_false, withR]
    simp only [withR] at h7
    rw [h7]
  rw [this]
  exact ⟨h8, h9⟩

theorem exactAssignment_mk {p : Obj × Obj} (h : ExactAssignment p) :
    mkValue p.1 p.2 = .ok (.value p.1 p.2) ∧ PlainValue (.value p.1 p.2) := by
  obtain ⟨a, v⟩ := p
  obtain ⟨⟨s, rfl⟩, hv⟩ := h
  refine ⟨?_, rfl, exactScalar_scalar hv⟩
  cases v <;> first | rfl | exact hv.elim

/-- One call with exact assignments. -/
theorem values_step (cx : Ctx) (n : Nat) {a : Args} {ps : List (Obj × Obj)} {cs given : List Value}
    (hg : GivesPairs a ps) (hp : ∀ p ∈ ps, ExactAssignment p) (hc : ∀ c ∈ cs, PlainValue c)
    (hf : FirstUses given cs) :
    FirstUses (given ++ ps.map fun p => (.value p.1 p.2 : Value))
        (valuesSet cx (sem cx (n + 1)) cs a).1 ∧
      ∀ c ∈ (valuesSet cx (sem cx (n + 1)) cs a).1, PlainValue c := by
  obtain ⟨h1, h2⟩ := givesPairs_parse hg (sem cx (n + 1))
  have h6 : List.Forall₂ (fun b c => mkValue (pairOf b).1 (pairOf b).2 = .ok c) (rows2 ps)
      (ps.map fun p => (.value p.1 p.2 : Value)) := by
    rw [rows2, List.forall₂_map_left_iff, List.forall₂_map_right_iff]
    exact List.forall₂_same.mpr fun p hm => (exactAssignment_mk (hp p hm)).1
  have hcs : ∀ c ∈ ps.map fun p => (.value p.1 p.2 : Value), PlainValue c := by
    intro c hc
    obtain ⟨p, hm, rfl⟩ := List.mem_map.mp hc
    exact (exactAssignment_mk (hp p hm)).2
  obtain ⟨ps', h7, h8, h9⟩ := addAll_firstUses (eq := valueEq cx (sem cx (n + 1)))
    (mk := fun b => mkValue (pairOf b).1 (pairOf b).2)
    (fun a b ha hb => valueEq_plain cx n ha hb) h6 hcs hc hf
  have : (valuesSet cx (sem cx (n + 1)) cs a).1 = ps' := by
    unfold addAll at h7
    simp only [valuesSet, h1, h2, givesPairs_custom hg, Bool.false_eq_true, if_false, withR]
    simp only [withR] at h7
    rw [h7]
  rw [this]
  exact ⟨h8, h9⟩

/-- A named table with a plain alias and no joins. -/
def PlainTable (t : Table) : Prop := t.name.scalar = true ∧ t.alias.scalar = true ∧ t.joins = []

theorem tableEq_plain (cx : Ctx) (n : Nat) {a b : Table} (ha : PlainTable a)
    (hb : PlainTable b) : ∃ r, tableEq cx (sem cx (n + 1)) a b = .ok r ∧ (r = true ↔ a = b) := by
  obtain ⟨r, e1, e2⟩ := eqF_scalar cx (sem cx n) ha.1 hb.1
  obtain ⟨r', e3, e4⟩ := eqF_scalar cx (sem cx n) ha.2.1 hb.2.1
  have e1 : (sem cx (n + 1)).eq a.name b.name = .ok r := e1
  have e3 : (sem cx (n + 1)).eq a.alias b.alias = .ok r' := e3
  have e5 : eqListR (joinEq cx (sem cx (n + 1))) a.joins b.joins = .ok true := by
    rw [ha.2.2, hb.2.2]; rfl
  refine ⟨r && r', by simp only [tableEq, e1, e3, e5, andR_ok, Bool.and_true], ?_⟩
  have h1 := ha.2.2; have h2 := hb.2.2
  cases a; cases b
  simp only at h1 h2
  simp [e2, e4, h1, h2]

theorem exactTable_mk {p : Obj × Obj} (h : ExactTable p) :
    mkTable p.1 p.2 = .ok ⟨p.1, p.2, []⟩ ∧ PlainTable ⟨p.1, p.2, []⟩ := by
  obtain ⟨a, b⟩ := p
  obtain ⟨⟨s, _, rfl⟩, rfl | ⟨t, rfl⟩⟩ := h <;> exact ⟨rfl, rfl, rfl, rfl⟩

/-- Arguments that give tables with names are not dropped. -/
theorem tables_filter {a : Args} {ps : List (Obj × Obj)} (hg : GivesNames a ps)
    (hd : a.pos ≠ [.dict []]) (hp : ∀ p ∈ ps, ExactTable p) :
    a.pos.filter Obj.truthy = a.pos := by
  rw [List.filter_eq_self]
  cases hg with
  | @usual pos kw qs rs hnd h1 _ _ =>
    intro x hx
    simp only at hx
    obtain ⟨p, hm, hn⟩ : ∃ p ∈ qs, IsName x p := by
      clear hp hd hnd
      induction h1 with
      | nil => cases hx
      | cons h _ ih =>
        rcases List.mem_cons.mp hx with rfl | hx
        · exact ⟨_, by simp, h⟩
        · obtain ⟨p, hm, hn⟩ := ih hx
          exact ⟨p, by simp [hm], hn⟩
    obtain ⟨⟨s, hs, e⟩, _⟩ := hp p (by simp [hm])
    cases hn with
    | name _ =>
      simp only at e
      rw [e]
      cases s with
      | nil => exact absurd rfl hs
      | cons _ _ => rfl
    | pair h =>
      cases h with
      | two h => cases h <;> rfl
      | one h => cases h <;> rfl
      | zero h => cases e
  | @dict items kw _ _ _ =>
    intro x hx
    simp only [List.mem_singleton] at hx
    subst hx
    cases items with
    | nil => exact absurd rfl hd
    | cons _ _ => rfl

/-- One call with exact tables. -/
theorem tables_step (cx : Ctx) (n : Nat) {a : Args} {ps : List (Obj × Obj)} {cs given : List Table}
    (hg : GivesNames a ps) (hd : a.pos ≠ [.dict []]) (hp : ∀ p ∈ ps, ExactTable p)
    (hc : ∀ c ∈ cs, PlainTable c) (hf : FirstUses given cs) :
    FirstUses (given ++ ps.map fun p => (⟨p.1, p.2, []⟩ : Table))
        (tablesSet cx (sem cx (n + 1)) cs a).1 ∧
      ∀ c ∈ (tablesSet cx (sem cx (n + 1)) cs a).1, PlainTable c := by
  obtain ⟨h1, h2⟩ := givesNames_parse hg (sem cx (n + 1))
  have h6 : List.Forall₂ (fun b c => mkTable (pairOf b).1 (pairOf b).2 = .ok c) (rows2 ps)
      (ps.map fun p => (⟨p.1, p.2, []⟩ : Table)) := by
    rw [rows2, List.forall₂_map_left_iff, List.forall₂_map_right_iff]
    exact List.forall₂_same.mpr fun p hm => (exactTable_mk (hp p hm)).1
  have hcs : ∀ c ∈ ps.map fun p => (⟨p.1, p.2, []⟩ : Table), PlainTable c := by
    intro c hc
    obtain ⟨p, hm, rfl⟩ := List.mem_map.mp hc
    exact (exactTable_mk (hp p hm)).2
  obtain ⟨ps', h7, h8, h9⟩ := addAll_firstUses (eq := tableEq cx (sem cx (n + 1)))
    (mk := fun b => mkTable (pairOf b).1 (pairOf b).2)
    (fun a b ha hb => tableEq_plain cx n ha hb) h6 hcs hc hf
  have : (tablesSet cx (sem cx (n + 1)) cs a).1 = ps' := by
    unfold addAll at h7
    simp only [tablesSet, tables_filter hg hd hp, h1, h2, Bool.false_eq_true, if_false, withR]
    simp only [withR] at h7
    rw [h7]
  rw [this]
  exact ⟨h8, h9⟩

/-- Rendering does not change tables without joins. -/
theorem strTables_plain (cx : Ctx) (S : Sem) {ts : List Table} (hts : ∀ t ∈ ts, PlainTable t) :
    (strTables cx S ts).1 = ts := by
  have one : ∀ t ∈ ts, (strTable cx S t).1 = t := by
    intro t ht
    unfold strTable
    rw [(hts t ht).2.2]
    split <;> rfl
  clear hts
  induction ts with
  | nil => rfl
  | cons t ts ih =>
    have h := one t (by simp)
    have h' := ih fun x hx => one x (by simp [hx])
    unfold strTables
    split
    · rename_i t' e ht; rw [ht] at h; simp only at h ⊢; rw [h]
    · rename_i t' ht; rw [ht] at h; simp only at h ⊢; rw [h, h']

/-- The orders are the map described by the uses. -/
structure OrderMap (uses : List Use) (os : List Order) : Prop where
  first : FirstUses (uses.map Prod.fst) (os.map OrderS.col)
  last : ∀ o ∈ os, LastValue uses o.col o.desc
  scalar : ∀ o ∈ os, o.col.scalar = true

/-- What a use of `order_by` accepts as direction: nothing, or `asc`/`desc` in any case. -/
theorem orderSort_iff (cx : Ctx) (v : Obj) (d : Bool) :
    orderSort cx v = .ok d ↔
      SortDirection cx v d := by
  unfold SortDirection
  have hne : L!"ASC" ≠ L!"DESC" := by decide
  cases v with
  | none => cases d <;> simp [orderSort, checkType, Obj.allowed, Obj.isInst, Obj.isBool]
  | str s =>
    simp only [orderSort, checkType, Obj.allowed, Obj.isInst, Obj.isBool, List.any_cons, Bool.true_or,
      Bool.not_true, Bool.false_and, Bool.or_false, Bool.not_false, if_true, ok_bind, reduceCtorEq,
      false_and, false_or, Obj.str.injEq, exists_eq_left']
    by_cases h1 : cx.env.upper s = L!"ASC"
    · rw [if_pos h1]
      simp only [h1, hne, false_and, or_false, true_and, Except.ok.injEq]
      exact eq_comm
    · rw [if_neg h1]
      by_cases h2 : cx.env.upper s = L!"DESC"
      · rw [if_pos h2]
        simp only [h2, hne.symm, false_and, false_or, true_and, Except.ok.injEq]
        exact eq_comm
      · rw [if_neg h2]
        simp only [h1, h2, false_and, or_false, reduceCtorEq]
  | _ =>
    constructor
    · intro h; simp [orderSort, checkType, Obj.allowed, Obj.isInst, Obj.isBool, Obj.isSql] at h
    · rintro (⟨h, _⟩ | ⟨s, h, _⟩) <;> cases h

theorem mkOrder_ok {cx : Ctx} {col sort : Obj} {o : Order} (h : mkOrder cx col sort = .ok o) :
    o.col = col ∧ orderSort cx sort = .ok o.desc := by
  unfold mkOrder at h
  obtain ⟨_, _, h⟩ := bind_ok.mp h
  obtain ⟨d, h1, h2⟩ := bind_ok.mp h
  cases h2
  exact ⟨rfl, h1⟩

/-- One use: a known column changes its direction in place, a new one is appended. -/
theorem orderPut_spec (cx : Ctx) (n : Nat) {os : List Order} {col sort : Obj} {d : Bool}
    (hm : mkOrder cx col sort = .ok ⟨col, d⟩) (hc : col.scalar = true)
    (hs : ∀ o ∈ os, o.col.scalar = true) :
    ∃ os', orderPut cx (sem cx (n + 1)) os col sort = .ok os' ∧
      ((col ∉ os.map OrderS.col ∧ os' = os ++ [⟨col, d⟩]) ∨
       (∃ pre post o, os = pre ++ o :: post ∧ o.col = col ∧ os' = pre ++ ⟨col, d⟩ :: post)) := by
  have hd := (mkOrder_ok hm).2
  induction os with
  | nil => exact ⟨[⟨col, d⟩], by rw [orderPut, hm]; rfl, .inl ⟨by simp, rfl⟩⟩
  | cons o os ih =>
    obtain ⟨r, e1, e2⟩ := eqF_scalar cx (sem cx n) (hs o (by simp)) hc
    have e1 : (sem cx (n + 1)).eq o.col col = .ok r := e1
    cases r with
    | true =>
      have h1 : o.col = col := e2.mp rfl
      refine ⟨⟨o.col, d⟩ :: os, ?_, .inr ⟨[], os, o, rfl, h1, by rw [h1]; rfl⟩⟩
      rw [orderPut, e1]
      simp only [ok_bind, if_true]
      rw [hd]
      rfl
    | false =>
      have h1 : o.col ≠ col := fun h => by simpa using e2.mpr h
      obtain ⟨os', h2, h3⟩ := ih fun x hx => hs x (by simp [hx])
      refine ⟨o :: os', ?_, ?_⟩
      · rw [orderPut, e1]
        simp only [ok_bind, Bool.false_eq_true, if_false]
        rw [h2]
        rfl
      · rcases h3 with ⟨h3, rfl⟩ | ⟨pre, post, o', rfl, h4, rfl⟩
        · left
          refine ⟨?_, rfl⟩
          simp only [List.map_cons, List.mem_cons, not_or]
          exact ⟨fun h => h1 h.symm, h3⟩
        · exact .inr ⟨o :: pre, post, o', rfl, h4, rfl⟩

theorem OrderMap.put {cx : Ctx} {n : Nat} {uses : List Use} {os : List Order} {col sort : Obj}
    {d : Bool} (h : OrderMap uses os) (hm : mkOrder cx col sort = .ok ⟨col, d⟩)
    (hc : col.scalar = true) :
    ∃ os', orderPut cx (sem cx (n + 1)) os col sort = .ok os' ∧ OrderMap (uses ++ [(col, d)]) os' := by
  obtain ⟨os', h1, h2⟩ := orderPut_spec cx n hm hc h.scalar
  refine ⟨os', h1, ?_⟩
  rcases h2 with ⟨h2, rfl⟩ | ⟨pre, post, o, rfl, h3, rfl⟩
  · refine ⟨?_, ?_, ?_⟩
    · simp only [List.map_append, List.map_cons, List.map_nil]
      exact h.first.new col h2
    · intro x hx
      rcases List.mem_append.mp hx with hx | hx
      · exact .there col d (h.last x hx) fun e => h2 (e ▸ List.mem_map.mpr ⟨x, hx, rfl⟩)
      · rw [List.mem_singleton.mp hx]; exact .here uses col d
    · intro x hx
      rcases List.mem_append.mp hx with hx | hx
      · exact h.scalar x hx
      · rw [List.mem_singleton.mp hx]; exact hc
  · subst h3
    have hn := h.first.nodup
    refine ⟨?_, ?_, ?_⟩
    · have := h.first.old o.col (by simp)
      simpa using this
    · intro x hx
      have hne : ∀ x, x ∈ pre ∨ x ∈ post → x.col ≠ o.col := by
        intro x hx e
        simp only [List.map_append, List.map_cons] at hn
        rw [List.nodup_append] at hn
        obtain ⟨_, h4, h5⟩ := hn
        rw [List.nodup_cons] at h4
        rcases hx with hx | hx
        · exact h5 x.col (List.mem_map.mpr ⟨x, hx, rfl⟩) o.col (by simp) e
        · exact h4.1 (e ▸ List.mem_map.mpr ⟨x, hx, rfl⟩)
      rcases List.mem_append.mp hx with hx | hx
      · exact .there _ _ (h.last x (by simp [hx])) fun e => hne x (.inl hx) e.symm
      · rcases List.mem_cons.mp hx with rfl | hx
        · exact .here uses _ d
        · exact .there _ _ (h.last x (by simp [hx])) fun e => hne x (.inr hx) e.symm
    · intro x hx
      rcases List.mem_append.mp hx with hx | hx
      · exact h.scalar x (by simp [hx])
      · rcases List.mem_cons.mp hx with rfl | hx
        · exact hc
        · exact h.scalar x (by simp [hx])

/-- One call of `order_by` or `group_by`. -/
theorem orders_call (cx : Ctx) (n : Nat) {uses us : List Use} {os : List Order} {a : Args}
    {ps : List (Obj × Obj)} (hg : GivesNames a ps) (hu : Uses cx ps us) (h : OrderMap uses os) :
    ∃ os', ordersAdd cx (sem cx (n + 1)) os a = (os', none) ∧ OrderMap (uses ++ us) os' := by
  obtain ⟨h1, h2⟩ := givesNames_parse hg (sem cx (n + 1))
  simp only [ordersAdd, h1, h2, Bool.false_eq_true, if_false, withR]
  clear h1 h2 hg
  induction hu generalizing uses os with
  | nil => exact ⟨os, rfl, by simpa using h⟩
  | @cons p u ps us hp _ ih =>
    obtain ⟨c, v⟩ := p
    obtain ⟨u1, d⟩ := u
    obtain ⟨hc, he, hd⟩ := hp
    simp only at hc he hd
    subst he
    have hm : mkOrder cx u1 v = .ok ⟨u1, d⟩ := by
      unfold mkOrder
      rw [(orderSort_iff cx v d).mpr hd]
      obtain ⟨s, rfl⟩ | ⟨i, rfl⟩ := hc <;> rfl
    have hs : u1.scalar = true := by obtain ⟨s, rfl⟩ | ⟨i, rfl⟩ := hc <;> rfl
    obtain ⟨os', h3, h4⟩ := h.put (n := n) hm hs
    have h5 := ih h4
    have h6 : uses ++ (u1, d) :: us = uses ++ [(u1, d)] ++ us := by simp
    rw [h6]
    simp only [rows2, List.map_cons, forUpd, pairOf, h3]
    exact h5

theorem orders_step (cx : Ctx) (n : Nat) {uses us : List Use} {os : List Order} {a : Args}
    {ps : List (Obj × Obj)} (hg : GivesNames a ps) (hu : Uses cx ps us) (h : OrderMap uses os) :
    OrderMap (uses ++ us) (ordersAdd cx (sem cx (n + 1)) os a).1 := by
  obtain ⟨os', h1, h2⟩ := orders_call cx n hg hu h
  rw [h1]
  exact h2

/-- A history of uses. -/
theorem history_orders {σ ω : Type} {step : σ → ω → Upd σ} {f : σ → List Order}
    {Gives : ω → List Use → Prop}
    (hstep : ∀ s op us uses, Gives op us → OrderMap uses (f s) →
      OrderMap (uses ++ us) (f (step s op).1))
    {ops : List ω} {uss : List (List Use)} (hg : List.Forall₂ Gives ops uss) (s : σ)
    (uses : List Use) (h : OrderMap uses (f s)) :
    OrderMap (uses ++ uss.flatten) (f (runOps step s ops)) := by
  induction hg generalizing s uses with
  | nil => simpa using h
  | @cons op us ops uss h1 _ ih =>
    rw [runOps_cons, List.flatten_cons, ← List.append_assoc]
    exact ih _ _ (hstep s op us uses h1 h)

/-- `order_by((column, v))` on a new query. -/
theorem order_single (cx : Ctx) (S : Sem) (col : Str) {v : Obj} {r : R Bool}
    (h : orderSort cx v = r) :
    selectStep cx S {} (.orderBy { pos := [.tuple [.str col, v]] }) =
      match (generalizing := false) r with
      | .ok d => ({ orderBy := [⟨.str col, d⟩] }, none)
      | .error e => ({}, some e) := by
  have h1 : parseArgs S nameOpts { pos := [.tuple [.str col, v]] } = .ok [[.str col, v]] := rfl
  simp only [selectStep, ordersAdd, h1, kwSelf, withR, forUpd, pairOf, orderPut, mkOrder, h]
  cases r <;> rfl

/-- Injective maps keep the order of first use. -/
theorem Spec.FirstUses.map_on {α β : Type} {g : α → β} {given kept : List α}
    (h : FirstUses given kept) (hg : ∀ a ∈ given, ∀ b ∈ given, g a = g b → a = b) :
    FirstUses (given.map g) (kept.map g) := by
  induction h with
  | nil => exact .nil
  | old x _ hx ih =>
    rw [List.map_append]
    exact .old _ (ih fun a ha b hb => hg a (by simp [ha]) b (by simp [hb])) (List.mem_map_of_mem hx)
  | new x h hx ih =>
    rw [List.map_append, List.map_append]
    refine .new _ (ih fun a ha b hb => hg a (by simp [ha]) b (by simp [hb])) ?_
    intro hm
    obtain ⟨y, hy, e⟩ := List.mem_map.mp hm
    have := hg y (by simp [(h.mem_iff y).mp hy]) x (by simp) e
    exact hx (this ▸ hy)

theorem Spec.FirstUses.map_inj {α β : Type} {g : α → β} {given kept : List α}
    (h : FirstUses given kept) (hg : ∀ a b, g a = g b → a = b) :
    FirstUses (given.map g) (kept.map g) := h.map_on fun a _ b _ => hg a b

theorem notAll_of {a : Args} (hq : a.pos ≠ [] → ∃ x ∈ a.pos, ¬IsCondition x) :
    (!a.pos.isEmpty && a.pos.all Obj.isConds) = false := by
  cases hp : a.pos with
  | nil => rfl
  | cons y ys =>
    obtain ⟨x, hx, hn⟩ := hq (by simp [hp])
    rw [Bool.and_eq_false_iff]
    right
    rw [List.all_eq_false]
    exact ⟨x, hp ▸ hx, fun h => hn (isConds_iff.mp h)⟩

theorem fromTable_names {t al : Obj} : GivesNames { pos := [.tuple [t, al]] } [(t, al)] :=
  .usual (ps := [(t, al)]) (by rintro _ ⟨⟩) (.cons (.pair (.two (.tuple _))) .nil)
    ⟨[], .nil, .nil, rfl⟩ (by simp [KwFree])

end SqlPuzzle
