import Verif.Spec.Statement
import Verif.Proofs.Strip
import Verif.Proofs.Plain
import Verif.Props.Types
import Verif.Proofs.Entries
import Verif.Proofs.Statement

/-!
Rows of INSERT statements, and what `on_duplicate_key_update` adds to a statement.
-/

namespace SqlPuzzle

open Spec

/-- There is at most one such list. -/
theorem columnList_unique {rows : List Row} {xs ys : List Str} (hx : ColumnList rows xs)
    (hy : ColumnList rows ys) : xs = ys := by
  have hm : ∀ c, c ∈ xs ↔ c ∈ ys := fun c => (hx.used c).trans (hy.used c).symm
  have nodup : ∀ {zs : List Str}, zs.Pairwise Before → zs.Nodup := fun h =>
    h.imp fun {a b} hab => (before_iff.mp hab).2
  have hp : xs.Perm ys := (List.perm_ext_iff_of_nodup (nodup hx.sorted) (nodup hy.sorted)).mpr hm
  exact hp.eq_of_pairwise (le := fun a b => strLe a b = true)
    (fun a b _ _ h1 h2 => strLe_antisymm h1 h2)
    (hx.sorted.imp fun {a b} h => (before_iff.mp h).1)
    (hy.sorted.imp fun {a b} h => (before_iff.mp h).1)

theorem rowColumns_parts (row : Row) : rowColumns (rowOf row) = .ok (row.map Prod.fst) := by
  induction row with
  | nil => rfl
  | cons p row ih =>
    have ih : rowColumns (row.map fun p => .value (.str p.1) p.2) = .ok (row.map Prod.fst) := ih
    simp [rowOf, rowColumns, ih]

theorem mem_dedupS {x : Str} {xs : List Str} : x ∈ dedupS xs ↔ x ∈ xs := by
  induction xs with
  | nil => rfl
  | cons y ys ih =>
    unfold dedupS
    split
    · rename_i h
      rw [ih]
      simp only [List.mem_cons]
      constructor
      · exact .inr
      · rintro (rfl | h') <;> assumption
    · simp [ih]

theorem nodup_dedupS (xs : List Str) : (dedupS xs).Nodup := by
  induction xs with
  | nil => exact List.nodup_nil
  | cons y ys ih =>
    unfold dedupS
    split
    · exact ih
    · rename_i h
      exact List.nodup_cons.mpr ⟨fun h' => h (mem_dedupS.mp h'), ih⟩

/-- The columns of the statement are the specified list. -/
theorem allColumns_spec (rows : List Row) :
    ∃ cols, allColumns (rows.map rowOf) = .ok cols ∧ ColumnList rows cols := by
  have h1 : mapR rowColumns (rows.map rowOf) = .ok (rows.map fun r => r.map Prod.fst) := by
    rw [mapR_map, mapR_ok_iff, List.forall₂_map_right_iff]
    exact List.forall₂_same.mpr fun r _ => rowColumns_parts r
  refine ⟨_, by rw [allColumns, h1]; rfl, ?_, fun c => ?_⟩
  · have hp := sortBy_perm strLe (dedupS (rows.map fun r => r.map Prod.fst).flatten)
    have hn := (hp.nodup_iff).mpr (nodup_dedupS _)
    have hs := sortBy_pairwise linear_strLe (dedupS (rows.map fun r => r.map Prod.fst).flatten)
    exact (hs.and hn).imp fun {a b} h => before_iff.mpr h
  · rw [(sortBy_perm _ _).mem_iff, mem_dedupS]
    simp only [List.mem_flatten, List.mem_map]
    constructor
    · rintro ⟨l, ⟨r, hr, rfl⟩, hc⟩
      obtain ⟨p, hp, rfl⟩ := List.mem_map.mp hc
      exact ⟨r, hr, p.2, hp⟩
    · rintro ⟨r, hr, v, hv⟩
      exact ⟨_, ⟨r, hr, rfl⟩, List.mem_map.mpr ⟨(c, v), hv, rfl⟩⟩

theorem lookupValue_given (c : Str) (row : Row) : lookupValue c (rowOf row) = given row c := by
  induction row with
  | nil => rfl
  | cons p row ih =>
    have hany : ((rowOf row).any fun p => match p with
        | .value (.str d) _ => d == c
        | _ => false) = row.any fun p => p.1 == c := by
      simp [rowOf, List.any_map, Function.comp_def]
    by_cases h : row.any fun p => p.1 == c
    · have hne : (row.filter fun p => p.1 = c) ≠ [] := by
        obtain ⟨q, hq, hc⟩ := List.any_eq_true.mp h
        exact List.ne_nil_of_mem (List.mem_filter.mpr ⟨hq, by simpa using hc⟩)
      have h3 : lookupValue c (rowOf (p :: row)) = lookupValue c (rowOf row) := by
        exact if_pos (hany.trans h)
      rw [h3, ih]
      unfold given
      rw [List.filter_cons]
      by_cases hc : p.1 = c
      · obtain ⟨x, xs, hx⟩ := List.exists_cons_of_ne_nil hne
        rw [hx, if_pos (by simpa using hc), List.getLast?_cons_cons]
      · rw [if_neg (by simpa using hc)]
    · have hf : (row.filter fun p => p.1 = c) = [] := by
        rw [List.filter_eq_nil_iff]
        intro q hq hc
        exact h (List.any_eq_true.mpr ⟨q, hq, by simpa using hc⟩)
      have h3 : lookupValue c (rowOf (p :: row)) =
          if p.1 = c then p.2 else lookupValue c (rowOf row) := by
        exact if_neg fun he => h (hany.symm.trans he)
      rw [h3, ih]
      unfold given
      rw [List.filter_cons, hf]
      by_cases hc : p.1 = c <;> simp [hc]

theorem given_perm {row row' : Row} (hp : row.Perm row') (hn : (row.map Prod.fst).Nodup) (c : Str) :
    given row c = given row' c := by
  have hn' := (hp.map Prod.fst).nodup_iff.mp hn
  have one : ∀ {r : Row}, (r.map Prod.fst).Nodup → (r.filter fun p => p.1 = c).length ≤ 1 := by
    intro r hr
    induction r with
    | nil => simp
    | cons p r ih =>
      obtain ⟨h1, h2⟩ := List.nodup_cons.mp hr
      rw [List.filter_cons]
      split
      · rename_i hc
        have hc : p.1 = c := by simpa using hc
        have : (r.filter fun p => p.1 = c) = [] := by
          rw [List.filter_eq_nil_iff]
          intro q hq hqc
          exact h1 (by rw [hc, ← of_decide_eq_true hqc]; exact List.mem_map_of_mem hq)
        simp [this]
      · exact ih h2
  have hf := hp.filter fun p => p.1 = c
  have h1 := one hn
  unfold given
  match hx : row.filter fun p => p.1 = c with
  | [] => rw [hx] at hf; rw [← hf.nil_eq, hx]
  | [p] => rw [hx] at hf; rw [← List.singleton_perm.mp hf, hx]
  | _ :: _ :: _ => rw [hx] at h1; simp at h1

theorem rowText_iff (cx : Ctx) (n : Nat) {rows : List Row} {cols : List Str} (h2 : ColumnList rows cols)
    {row : Row} (hrow : row ∈ rows) {u : Str} :
    rowText cx (sem cx n) cols (rowOf row) = .ok u ↔
      ∃ cs, List.Forall₂ (fun c cell => (sem cx (n + 1)).str (.sqlValue (given row c)) = .ok cell) cols cs ∧
        u = joinS L!", " cs := by
  have e : (if cols.isEmpty then (rowOf row).map partValue else cols.map fun c => lookupValue c (rowOf row)) =
      cols.map fun c => given row c := by
    cases hc : cols with
    | nil =>
      rw [hc] at h2
      have : row = [] := by
        cases row with
        | nil => rfl
        | cons p r => exact absurd ((h2.used p.1).mpr ⟨_, hrow, p.2, by simp⟩) (by simp)
      subst this
      rfl
    | cons c cs =>
      simp only [List.isEmpty_cons, Bool.false_eq_true, if_false, lookupValue_given]
  unfold rowText
  rw [e]
  show (mapR (sqlValueText cx (sem cx n)) _ >>= _) = _ ↔ _
  rw [bind_ok, mapR_map]
  constructor
  · rintro ⟨cs, h3, h4⟩
    cases h4
    exact ⟨cs, mapR_ok_iff.mp h3, rfl⟩
  · rintro ⟨cs, h3, rfl⟩
    exact ⟨cs, mapR_ok_iff.mpr h3, rfl⟩

theorem rowColumns_ok {vs : List Value} {cs : List Str} (h : rowColumns vs = .ok cs) :
    ∃ row : Row, vs = rowOf row := by
  induction vs generalizing cs with
  | nil => exact ⟨[], rfl⟩
  | cons v vs ih =>
    cases v with
    | item o => cases h
    | value c v =>
      cases c <;> first | cases h | skip
      rename_i c
      obtain ⟨cs', h1, _⟩ := bind_ok.mp h
      obtain ⟨row, rfl⟩ := ih h1
      exact ⟨(c, v) :: row, rfl⟩

theorem allColumns_ok {rows : List (List Value)} {cols : List Str} (h : allColumns rows = .ok cols) :
    ∃ rs : List Row, rows = rs.map rowOf := by
  obtain ⟨cs, h1, -⟩ := bind_ok.mp h
  have h2 := mapR_ok_iff.mp h1
  clear h h1
  induction h2 with
  | nil => exact ⟨[], rfl⟩
  | cons h _ ih =>
    obtain ⟨r, rfl⟩ := rowColumns_ok h
    obtain ⟨rs, rfl⟩ := ih
    exact ⟨r :: rs, rfl⟩

theorem rowsText_rowOf (cx : Ctx) (n : Nat) {rs : List Row} {t : Str} :
    rowsText cx (sem cx n) (rs.map rowOf) = .ok t ↔ RowsText cx n rs t := by
  obtain ⟨cols, h1, h2⟩ := allColumns_spec rs
  unfold rowsText
  rw [h1, ok_bind]
  show (mapR _ _ >>= _) = _ ↔ _
  rw [bind_ok, mapR_map]
  have rows : ∀ ts, mapR (fun x => rowText cx (sem cx n) cols (rowOf x)) rs = .ok ts ↔
      ∃ cells : List (List Str), ts = cells.map (joinS L!", ") ∧
        List.Forall₂ (fun row cs => List.Forall₂ (fun c cell =>
          (sem cx (n + 1)).str (.sqlValue (given row c)) = .ok cell) cols cs) rs cells := by
    intro ts
    rw [mapR_ok_iff]
    have hr : ∀ row ∈ rs, ∀ u, rowText cx (sem cx n) cols (rowOf row) = .ok u ↔ _ :=
      fun row h u => rowText_iff cx n h2 h
    clear h1 h2
    constructor
    · intro h
      induction h with
      | nil => exact ⟨[], rfl, .nil⟩
      | @cons row u rs us h _ ih =>
        obtain ⟨cs, h3, rfl⟩ := (hr row (by simp) u).mp h
        obtain ⟨cells, rfl, h4⟩ := ih fun r h => hr r (by simp [h])
        exact ⟨cs :: cells, rfl, .cons h3 h4⟩
    · rintro ⟨cells, rfl, h⟩
      induction h with
      | nil => exact .nil
      | @cons row cs rs cells h _ ih =>
        exact .cons ((hr row (by simp) _).mpr ⟨cs, h, rfl⟩) (ih fun r h => hr r (by simp [h]))
  have names : ∀ {cols ns : List Str},
      List.Forall₂ (fun c a => (sem cx (n + 1)).str (.sqlRef (.str c)) = .ok a) cols ns ↔
        ns = cols.map (reference cx.backend.quote) := by
    intro cols ns
    constructor
    · intro h
      induction h with
      | nil => rfl
      | cons h _ ih =>
        cases h
        rw [ih]
        rfl
    · rintro rfl
      rw [List.forall₂_map_right_iff]
      exact List.forall₂_same.mpr fun c _ => rfl
  have tup : tupleOf = fun x => '(' :: (joinS L!", " x ++ [')']) := rfl
  constructor
  · rintro ⟨ts, h3, h4⟩
    obtain ⟨cells, rfl, h5⟩ := (rows ts).mp h3
    refine ⟨cols, _, cells, h2, names.mpr rfl, h5, ?_⟩
    injection h4 with h4
    rw [← h4]
    simp [tup, List.map_map, Function.comp_def]
  · rintro ⟨cols', ns, cells, h3, h4, h5, rfl⟩
    have := columnList_unique h2 h3
    subst this
    have h4 := names.mp h4
    subst h4
    refine ⟨_, (rows _).mpr ⟨cells, rfl, h5⟩, ?_⟩
    simp [tup, List.map_map, Function.comp_def]

theorem rowsText_iff (cx : Ctx) (n : Nat) {rows : List (List Value)} {t : Str} :
    rowsText cx (sem cx n) rows = .ok t ↔ ∃ rs, rows = rs.map rowOf ∧ RowsText cx n rs t := by
  constructor
  · intro h
    have h' := h
    unfold rowsText at h'
    obtain ⟨cols, h1, _⟩ := bind_ok.mp h'
    obtain ⟨rs, rfl⟩ := allColumns_ok h1
    exact ⟨rs, rfl, (rowsText_rowOf cx n).mp h⟩
  · rintro ⟨rs, rfl, h⟩
    exact (rowsText_rowOf cx n).mpr h

/-- The text of an INSERT. -/
theorem insertStatement_iff (cx : Ctx) (n : Nat) {q : Insert} {t : Str} :
    (sem cx (n + 1)).str (.insert q) = .ok t ↔ InsertStatement cx n q t := by
  show insertText cx (sem cx n) q = .ok t ↔ _
  unfold insertText InsertStatement
  have hw : ∃ w, ConflictWords cx n q.conflict w ∧ w = conflictKeyword cx q.conflict ++ [' '] ∧
      conflictKeyword cx q.conflict ≠ [] ∧ ∀ w', ConflictWords cx n q.conflict w' → w' = w := by
    unfold conflictKeyword ConflictWords
    cases q.conflict with
    | none => exact ⟨_, rfl, rfl, by simp, fun _ h => h⟩
    | some c =>
      refine ⟨_, ⟨_, rfl, rfl⟩, by simp, by simp, ?_⟩
      rintro w' ⟨a, h, rfl⟩
      cases h
      rfl
  obtain ⟨w, hw1, hw2, hw3, hw4⟩ := hw
  have rows : ∀ s, clause (!q.rows.isEmpty) (rowsText cx (sem cx n) q.rows) = .ok s ↔
      ∃ c, ((q.rows = [] ∧ c = none) ∨ (q.rows ≠ [] ∧ ∃ rs u, q.rows = rs.map rowOf ∧
        RowsText cx n rs u ∧ c = some u)) ∧ s = spaced c := by
    intro s
    unfold clause
    by_cases hr : q.rows = []
    · simp only [hr, List.isEmpty_nil, Bool.not_true, Bool.false_eq_true, if_false, true_and, ne_eq,
        not_true, false_and, or_false]
      constructor
      · intro h; cases h; exact ⟨none, rfl, rfl⟩
      · rintro ⟨c, rfl, rfl⟩; rfl
    · have he : q.rows.isEmpty = false := by simpa using hr
      simp only [hr, he, Bool.not_false, if_true, false_and, false_or, ne_eq, not_false_iff, true_and]
      rw [bind_ok]
      simp only [rowsText_iff]
      constructor
      · rintro ⟨u, ⟨rs, h1, h2⟩, h3⟩
        cases h3
        exact ⟨_, ⟨rs, u, h1, h2, rfl⟩, rfl⟩
      · rintro ⟨c, ⟨rs, u, h1, h2, rfl⟩, rfl⟩
        exact ⟨u, ⟨rs, h1, h2⟩, rfl⟩
  have keyword : clause true (.ok (if q.isReplace then L!"REPLACE" else L!"INSERT")) =
      .ok (' ' :: (if q.isReplace then L!"REPLACE" else L!"INSERT")) := rfl
  have blank : ∀ s, strip (' ' :: s) = strip s := by
    intro s
    unfold strip
    rw [List.dropWhile_cons, if_pos (by decide)]
  have od : ∀ s, _ ↔ _ := fun s => listClause_iff (xs := q.onDup) (sep := L!", ")
    (kw := L!"ON DUPLICATE KEY UPDATE") (fun x t => valueText_iff cx n (v := x)) (.inr ⟨by decide, rfl⟩) (s := s)
  have oc : ∀ s, _ ↔ _ := fun s => listClause_iff (xs := q.onConflict) (sep := L!", ")
    (kw := conflictKeyword cx q.conflict) (fun x t => valueText_iff cx n (v := x)) (.inr ⟨hw3, rfl⟩) (s := s)
  have tab : ∀ s, _ ↔ _ := fun s => listClause_iff (xs := q.tables) (sep := L!", ")
    (kw := []) (fun x t => tableText_iff cx n (tb := x)) (.inl ⟨rfl, rfl⟩) (s := s)
  rw [← hw2] at oc
  simp only [keyword, ok_bind]
  constructor
  · intro h
    obtain ⟨o, e1, h⟩ := bind_ok.mp h
    obtain ⟨c, e2, h⟩ := bind_ok.mp h
    obtain ⟨d, e3, h⟩ := bind_ok.mp h
    obtain ⟨ta, e4, h⟩ := bind_ok.mp h
    obtain ⟨v, e5, h⟩ := bind_ok.mp h
    have h1 := wordClause.mp e1
    obtain ⟨c', h2, h2'⟩ := (oc c).mp e2
    obtain ⟨d', h3, h3'⟩ := (od d).mp e3
    obtain ⟨ta', h4, h4'⟩ := (tab ta).mp e4
    obtain ⟨v', h5, h5'⟩ := (rows v).mp e5
    refine ⟨ta', v', w, c', d', h4, h5, h3, hw1, h2, ?_⟩
    injection h with h
    rw [← strip_iff, ← h, h1, h2', h3', h4', h5']
    have := blank ((if q.isReplace then L!"REPLACE" else L!"INSERT") ++ spaced (wordIf q.ignore L!"IGNORE") ++
      L!" INTO" ++ spaced ta' ++ spaced v' ++ spaced d' ++ spaced c')
    refine Eq.trans (congrArg strip ?_) (this.symm.trans (congrArg strip ?_)) <;>
    (simp only [assemble_eq, List.flatMap_cons, List.flatMap_nil, spaced_some, List.append_assoc,
      List.append_nil, List.cons_append] <;> rfl)
  · rintro ⟨ta', v', w', c', d', h4, h5, h3, hw', h2, h⟩
    have := hw4 w' hw'
    subst this
    refine bind_ok.mpr ⟨_, wordClause.mpr rfl, bind_ok.mpr ⟨_, (oc _).mpr ⟨c', h2, rfl⟩,
      bind_ok.mpr ⟨_, (od _).mpr ⟨d', h3, rfl⟩, bind_ok.mpr ⟨_, (tab _).mpr ⟨ta', h4, rfl⟩,
      bind_ok.mpr ⟨_, (rows _).mpr ⟨v', h5, rfl⟩, ?_⟩⟩⟩⟩⟩
    rw [← strip_iff] at h
    rw [← h]
    have := blank ((if q.isReplace then L!"REPLACE" else L!"INSERT") ++ spaced (wordIf q.ignore L!"IGNORE") ++
      L!" INTO" ++ spaced ta' ++ spaced v' ++ spaced d' ++ spaced c')
    refine congrArg Except.ok (Eq.trans (congrArg strip ?_) (this.trans (congrArg strip ?_))) <;>
    (simp only [assemble_eq, List.flatMap_cons, List.flatMap_nil, spaced_some, List.append_assoc,
      List.append_nil, List.cons_append] <;> rfl)

/-- Rows given in another order. -/
theorem rowsText_perm (cx : Ctx) (S : Sem) (rows rows' : List Row)
    (h : List.Forall₂ (fun r r' => r.Perm r' ∧ (r.map Prod.fst).Nodup) rows rows') :
    rowsText cx S (rows.map rowOf) = rowsText cx S (rows'.map rowOf) := by
  obtain ⟨cols, h1, h2⟩ := allColumns_spec rows
  obtain ⟨cols', h1', h2'⟩ := allColumns_spec rows'
  have hmem : ∀ {xs ys : List Row}, List.Forall₂ (fun r r' => r.Perm r' ∧ (r.map Prod.fst).Nodup) xs ys →
      ∀ c, (∃ row ∈ xs, ∃ v, (c, v) ∈ row) ↔ ∃ row ∈ ys, ∃ v, (c, v) ∈ row := by
    intro xs ys hxy c
    induction hxy with
    | nil => rfl
    | @cons a b as bs hab _ ih =>
      simp only [List.mem_cons, exists_eq_or_imp, ih, hab.1.mem_iff]
  have hc : cols = cols' :=
    columnList_unique h2 ⟨h2'.sorted, fun c => (h2'.used c).trans (hmem h c).symm⟩
  subst hc
  unfold rowsText
  rw [h1, h1', ok_bind, ok_bind, mapR_map, mapR_map]
  have : mapR (fun r => rowText cx S cols (rowOf r)) rows =
      mapR (fun r => rowText cx S cols (rowOf r)) rows' := by
    have hrow : ∀ r r', r ∈ rows → r' ∈ rows' → r.Perm r' → (r.map Prod.fst).Nodup →
        rowText cx S cols (rowOf r) = rowText cx S cols (rowOf r') := by
      intro r r' hr hr' hp hn
      unfold rowText
      cases hcols : cols with
      | nil =>
        rw [hcols] at h2
        have : r = [] := by
          cases r with
          | nil => rfl
          | cons p r => exact absurd ((h2.used p.1).mpr ⟨_, hr, p.2, by simp⟩) (by simp)
        subst this
        rw [hp.nil_eq]
      | cons c cs =>
        simp only [List.isEmpty_cons, Bool.false_eq_true, if_false]
        congr 2
        exact List.map_congr_left fun c _ => by
          rw [lookupValue_given, lookupValue_given, given_perm hp hn]
    clear h1 h1' h2 h2'
    induction h with
    | nil => rfl
    | @cons a b as bs hab _ ih =>
      rw [mapR_cons, mapR_cons, hrow a b (by simp) (by simp) hab.1 hab.2,
        ih fun r r' hr hr' => hrow r r' (by simp [hr]) (by simp [hr'])]
  rw [this]

/-- The row a `values` call adds, if it succeeds. -/
def addedRow (cx : Ctx) (S : Sem) : InsertOp → Option (List Value)
  | .values a => if kwSelf a then none else
    match valuesSet cx S [] a with
    | (row, none) => some row
    | _ => none
  | _ => none

theorem insertStep_rows (cx : Ctx) (S : Sem) (q : Insert) (op : InsertOp) :
    (insertStep cx S q op).1.rows = q.rows ++ (addedRow cx S op).toList := by
  cases op with
  | into t => simp [insertStep, Upd.map, addedRow]
  | values a =>
    simp only [insertStep, addedRow]
    split
    · simp
    · simp only [Upd.map, rowsAdd]
      split <;> rename_i h <;> rw [h] <;> simp
  | onDuplicateKeyUpdate a =>
    simp only [insertStep, addedRow, Option.toList_none, List.append_nil]
    have hset : ∀ q : Insert, (onConflictSet cx S q a).1.rows = q.rows := by
      intro q; unfold onConflictSet; split
      · rfl
      · split <;> rfl
    unfold onDuplicateKeyUpdate
    split
    · rfl
    · have h1 : ∀ u1 : Upd Insert, u1.1.rows = q.rows →
          (match u1 with
            | (q1, some e) => (q1, some e)
            | (q1, none) =>
              let u2 : Upd Insert :=
                if cx.backend.supportsOnConflictDoUpdate then onConflictSet cx S q1 a else (q1, none)
              match u2 with
              | (q2, some e) => (q2, some e)
              | (q2, none) =>
                if cx.backend.supportsReplaceInto then
                  if !a.pos.isEmpty || !a.kw.isEmpty then (q2, some .exception)
                  else ({ q2 with isReplace := true }, none)
                else (q2, none) : Upd Insert).1.rows = q.rows := by
        rintro ⟨q1, e1⟩ hu
        have hu : q1.rows = q.rows := hu
        cases e1 with
        | some e => exact hu
        | none =>
          have h2 : ∀ u2 : Upd Insert, u2.1.rows = q.rows →
              (match u2 with
              | (q2, some e) => (q2, some e)
              | (q2, none) =>
                if cx.backend.supportsReplaceInto then
                  if !a.pos.isEmpty || !a.kw.isEmpty then (q2, some .exception)
                  else ({ q2 with isReplace := true }, none)
                else (q2, none) : Upd Insert).1.rows = q.rows := by
            rintro ⟨q2, e2⟩ hu2
            cases e2 with
            | some e => exact hu2
            | none =>
              simp only
              split
              · split <;> exact hu2
              · exact hu2
          refine h2 _ ?_
          split
          · exact (hset q1).trans hu
          · exact hu
      refine h1 _ ?_
      split <;> rfl
  | ignore b => simp [insertStep, addedRow]
  | str =>
    simp only [insertStep, addedRow, insertStr]
    split <;> simp

theorem keyed_pairs : pairOpts.Keyed := keyed_pair

/-- One step of `Values.set`. -/
def addPair (cx : Ctx) (S : Sem) (vs : List Value) (b : List Obj) : Upd (List Value) :=
  withR vs (mkValue (pairOf b).1 (pairOf b).2) fun v => appendUnique (valueEq cx S) vs v

theorem valuesSet_eq (cx : Ctx) (S : Sem) {a : Args} {bs : List (List Obj)} (h1 : kwSelf a = false)
    (h2 : customArg a = none) (h3 : parseArgs S pairOpts a = .ok bs) :
    valuesSet cx S [] a = forUpd (addPair cx S) [] bs := by
  unfold valuesSet
  rw [h1, h2, h3]
  rfl

theorem valuesSet_row (cx : Ctx) (n : Nat) (acc : Row) (row : Row)
    (hf : ∀ p ∈ row, Fit .setValue p.2) (hn : ((acc ++ row).map Prod.fst).Nodup) :
    forUpd (addPair cx (sem cx (n + 1))) (rowOf acc) (row.map fun p => [.str p.1, p.2]) =
      (rowOf (acc ++ row), none) := by
  induction row generalizing acc with
  | nil => simp [forUpd]
  | cons p row ih =>
    have h1 : mkValue (.str p.1) p.2 = .ok (.value (.str p.1) p.2) := by
      have h2 := (check_value p.2).mpr (hf p (by simp))
      simp only [mkValue, h2]
      rfl
    have h2 : anyR (fun v => valueEq cx (sem cx (n + 1)) v (.value (.str p.1) p.2)) (rowOf acc) =
        .ok false := by
      rw [anyR_false]
      intro v hv
      obtain ⟨q, hq, rfl⟩ := List.mem_map.mp hv
      have hne : q.1 ≠ p.1 := by
        intro he
        rw [List.map_append, List.nodup_append] at hn
        exact hn.2.2 q.1 (List.mem_map_of_mem hq) p.1 (by simp) he
      obtain ⟨r, e, f⟩ := eqF_scalar cx (sem cx n) (a := .str q.1) (b := .str p.1) rfl rfl
      have e : (sem cx (n + 1)).eq (.str q.1) (.str p.1) = .ok r := e
      have : r = false := by
        cases r with
        | false => rfl
        | true => exact absurd (by injection f.mp rfl) hne
      simp only [valueEq, e, this]
      rfl
    have h3 : appendUnique (valueEq cx (sem cx (n + 1))) (rowOf acc) (.value (.str p.1) p.2) =
        (rowOf (acc ++ [p]), none) := by
      unfold appendUnique
      rw [h2]
      simp [rowOf]
    have h4 : addPair cx (sem cx (n + 1)) (rowOf acc) [.str p.1, p.2] =
        (rowOf (acc ++ [p]), none) := by
      simp only [addPair, pairOf, h1, withR, h3]
    rw [List.map_cons, forUpd]
    simp only [h4]
    have := ih (acc ++ [p]) (fun q hq => hf q (by simp [hq])) (by simpa using hn)
    simpa using this

theorem addedRow_kw (cx : Ctx) (n : Nat) (row : Row) (hk : KwFree row)
    (hn : (row.map Prod.fst).Nodup) (hf : ∀ p ∈ row, Fit .setValue p.2) :
    ∃ row', row.Perm row' ∧
      addedRow cx (sem cx (n + 1)) (.values { kw := row }) = some (rowOf row') ∧
      addedRow cx (sem cx (n + 1)) (.values { pos := [dictOf row] }) = some (rowOf row') := by
  refine ⟨sortBy (fun a b => strLe a.1 b.1) row, (sortBy_perm _ _).symm, ?_⟩
  have hp := sortBy_perm (fun a b : Str × Obj => strLe a.1 b.1) row
  have hd : parseDict (sem cx (n + 1)) pairOpts (row.map fun p => (.str p.1, p.2)) =
      .ok ((sortBy (fun a b => strLe a.1 b.1) row).map fun p => [.str p.1, p.2]) := by
    unfold parseDict
    rw [sortItems_str _ hn, ok_bind, mapR_map, mapR_ok_iff, List.forall₂_map_right_iff]
    exact List.forall₂_same.mpr fun p _ => rfl
  have hset := valuesSet_row cx n [] (sortBy (fun a b => strLe a.1 b.1) row)
    (fun p h => hf p (hp.mem_iff.mp h)) (by
      simpa using ((hp.map Prod.fst).nodup_iff).mpr hn)
  have hset : forUpd (addPair cx (sem cx (n + 1))) []
      ((sortBy (fun a b => strLe a.1 b.1) row).map fun p => [.str p.1, p.2]) =
      (rowOf (sortBy (fun a b => strLe a.1 b.1) row), none) := hset
  have c1 : customArg { kw := row } = none := by cases row <;> rfl
  have k1 : kwSelf { kw := row } = false := hk.self
  have c2 : customArg { pos := [dictOf row] } = none := rfl
  have k2 : kwSelf { pos := [dictOf row] } = false := rfl
  have v1 := valuesSet_eq cx (sem cx (n + 1)) k1 c1 ((parse_kw _ keyed_pairs hk).trans hd)
  have v2 := valuesSet_eq cx (sem cx (n + 1)) k2 c2 ((parse_dict _ keyed_pairs _).trans hd)
  rw [hset] at v1 v2
  simp only [addedRow, k1, k2, v1, v2, Bool.false_eq_true, if_false, and_self]

theorem joinS_tuple_end (sep : Str) {cells : List (List Str)} (h : cells ≠ []) :
    ∃ e, joinS sep (cells.map tupleOf) = e ++ [')'] := by
  induction cells with
  | nil => exact absurd rfl h
  | cons c cs ih =>
    cases cs with
    | nil => exact ⟨'(' :: joinS L!", " c, by simp [joinS, tupleOf]⟩
    | cons d ds =>
      obtain ⟨e, he⟩ := ih (by simp)
      exact ⟨tupleOf c ++ sep ++ e, by
        rw [List.map_cons, List.map_cons, joinS, ← List.map_cons, he]
        simp⟩

theorem sqlValueText_scalar (cx : Ctx) (S : Sem) {v : Obj} (h : Fit .setValue v)
    (hs : v.isSql = false) : ∃ t, sqlValueText cx S v = .ok t := by
  have h : positionAccepts .setValue v = true := by
    rcases h with h | h
    · rw [hs] at h; cases h
    · exact h
  cases v <;> first | exact ⟨_, rfl⟩ | cases h

section
variable (cx : Ctx)

theorem setAll_row (n : Nat) (row : Row) (hk : KwFree row)
    (hn : (row.map Prod.fst).Nodup) (hf : ∀ p ∈ row, Fit .setValue p.2) :
    ∃ row', row.Perm row' ∧ valuesSet cx (sem cx (n + 1)) [] { kw := row } = (rowOf row', none) := by
  obtain ⟨row', h1, h2, _⟩ := addedRow_kw cx n row hk hn hf
  refine ⟨row', h1, ?_⟩
  have k1 : kwSelf { kw := row } = false := hk.self
  simp only [addedRow, k1, Bool.false_eq_true, if_false] at h2
  split at h2
  · rename_i r hr
    injection h2 with h2
    rw [hr, h2]
  · cases h2

theorem rowsText_end (S : Sem) {rows : List (List Value)} (hne : rows ≠ []) {t : Str}
    (h : rowsText cx S rows = .ok t) : ∃ e, t = e ++ [')'] := by
  unfold rowsText at h
  obtain ⟨cols, _, h⟩ := bind_ok.mp h
  obtain ⟨ts, hts, h⟩ := bind_ok.mp h
  have hl := mapR_length hts
  injection h with h
  have : ∀ ts : List Str, ts ≠ [] → ∃ e, joinS L!", " (ts.map fun t => '(' :: (t ++ [')'])) = e ++ [')'] := by
    intro ts
    induction ts with
    | nil => intro h; exact absurd rfl h
    | cons c cs ih =>
      intro _
      cases cs with
      | nil => exact ⟨'(' :: c, by simp [joinS]⟩
      | cons d ds =>
        obtain ⟨e, he⟩ := ih (by simp)
        exact ⟨'(' :: (c ++ [')']) ++ L!", " ++ e, by
          rw [List.map_cons, List.map_cons, joinS, ← List.map_cons (f := fun t => '(' :: (t ++ [')'])), he]
          simp⟩
  obtain ⟨e, he⟩ := this ts (by
    rintro rfl
    exact hne (List.length_eq_zero_iff.mp hl.symm))
  rw [he] at h
  exact ⟨'(' :: (joinS L!", " (cols.map (reference cx.backend.quote)) ++ L!") VALUES " ++ e), by
    rw [← h]; simp⟩

theorem strip_extend {x : Str} {c : Char} (hc : isSpace c = false) (y : Str) :
    strip (x ++ [c] ++ y) = strip (strip (x ++ [c]) ++ y) := by
  have drop : ∀ x : Str, ∃ r, ∀ y, (x ++ [c] ++ y).dropWhile isSpace = r ++ [c] ++ y ∧
      ∀ d, (r ++ [c]).head? = some d → isSpace d = false := by
    intro x
    induction x with
    | nil => exact ⟨[], fun y => ⟨by simp [hc], by simp [hc]⟩⟩
    | cons z x ih =>
      by_cases hz : isSpace z
      · obtain ⟨r, hr⟩ := ih
        refine ⟨r, fun y => ?_⟩
        rw [List.cons_append, List.cons_append, List.dropWhile_cons, if_pos hz]
        exact hr y
      · refine ⟨z :: x, fun y => ⟨?_, ?_⟩⟩
        · rw [List.cons_append, List.cons_append, List.dropWhile_cons, if_neg hz]
        · simp [hz]
  obtain ⟨r, hr⟩ := drop x
  have h1 : strip (x ++ [c]) = r ++ [c] := by
    have := (hr []).1
    simp only [List.append_nil] at this
    unfold strip
    rw [this]
    simp [hc]
  rw [h1]
  have h2 : ∀ y, (r ++ [c] ++ y).dropWhile isSpace = r ++ [c] ++ y := by
    intro y
    have hd := (hr y).2
    cases hrc : r ++ [c] with
    | nil => simp at hrc
    | cons d ds =>
      have := hd d (by rw [hrc]; rfl)
      rw [List.cons_append, List.dropWhile_cons, if_neg (by simp [this])]
  unfold strip
  rw [(hr y).1, h2 y]

/-- Rendering with assignments after the rows appends them to the text without them. -/
theorem insertText_onDup (S : Sem) (q : Insert) (hrows : q.rows ≠ []) (h1 : q.onDup = [])
    (h2 : q.onConflict = []) (t base : Str) (hb : insertText cx S q = .ok base) (vs : List Value)
    (hvs : vs ≠ []) (h : insertText cx S { q with onDup := vs } = .ok t) :
    ∃ u, valuesText cx S L!"ON DUPLICATE KEY UPDATE" vs = .ok u ∧ t = strip (base ++ ' ' :: u) := by
  have he : vs.isEmpty = false := by simpa using hvs
  have hr : q.rows.isEmpty = false := by simpa using hrows
  unfold insertText at h hb
  simp only [h1, h2, he, hr, clause, List.isEmpty_nil, Bool.not_true, Bool.not_false,
    Bool.false_eq_true, if_false, if_true, ok_bind] at h hb
  obtain ⟨o, ho, h⟩ := bind_ok.mp h
  obtain ⟨o', ho', hb⟩ := bind_ok.mp hb
  rw [ho] at ho'; cases ho'
  obtain ⟨d, hd, h⟩ := bind_ok.mp h
  obtain ⟨u, hu, hd⟩ := bind_ok.mp hd
  cases hd
  obtain ⟨ta, hta, h⟩ := bind_ok.mp h
  obtain ⟨ta', hta', hb⟩ := bind_ok.mp hb
  rw [hta] at hta'; cases hta'
  obtain ⟨v, hv, h⟩ := bind_ok.mp h
  obtain ⟨v', hv', hb⟩ := bind_ok.mp hb
  rw [hv] at hv'; cases hv'
  obtain ⟨w, hw, hv⟩ := bind_ok.mp hv
  cases hv
  obtain ⟨e, rfl⟩ := rowsText_end cx S hrows hw
  refine ⟨u, hu, ?_⟩
  injection h with h
  injection hb with hb
  rw [← h, ← hb]
  have := strip_extend (x := ' ' :: (if q.isReplace then L!"REPLACE" else L!"INSERT") ++ o ++ L!" INTO" ++
    ta ++ ' ' :: e) (c := ')') (by decide) (' ' :: u)
  refine Eq.trans (congrArg strip ?_) (this.trans (congrArg (fun z => strip (strip z ++ ' ' :: u)) ?_)) <;>
    simp only [List.append_assoc, List.cons_append, List.nil_append, List.append_nil]

theorem insertText_onConflict (S : Sem) (q : Insert) (hrows : q.rows ≠ []) (h1 : q.onDup = [])
    (h2 : q.onConflict = []) (t base : Str) (hb : insertText cx S q = .ok base) (vs : List Value)
    (hvs : vs ≠ []) (c : Str)
    (h : insertText cx S { q with conflict := some c, onConflict := vs } = .ok t) :
    ∃ u, valuesText cx S (conflictKeyword cx (some c)) vs = .ok u ∧ t = strip (base ++ ' ' :: u) := by
  have he : vs.isEmpty = false := by simpa using hvs
  have hr : q.rows.isEmpty = false := by simpa using hrows
  unfold insertText at h hb
  simp only [h1, h2, he, hr, clause, List.isEmpty_nil, Bool.not_true, Bool.not_false,
    Bool.false_eq_true, if_false, if_true, ok_bind] at h hb
  obtain ⟨o, ho, h⟩ := bind_ok.mp h
  obtain ⟨o', ho', hb⟩ := bind_ok.mp hb
  rw [ho] at ho'; cases ho'
  obtain ⟨d, hd, h⟩ := bind_ok.mp h
  obtain ⟨u, hu, hd⟩ := bind_ok.mp hd
  cases hd
  obtain ⟨ta, hta, h⟩ := bind_ok.mp h
  obtain ⟨ta', hta', hb⟩ := bind_ok.mp hb
  rw [hta] at hta'; cases hta'
  obtain ⟨v, hv, h⟩ := bind_ok.mp h
  obtain ⟨v', hv', hb⟩ := bind_ok.mp hb
  rw [hv] at hv'; cases hv'
  obtain ⟨w, hw, hv⟩ := bind_ok.mp hv
  cases hv
  obtain ⟨e, rfl⟩ := rowsText_end cx S hrows hw
  refine ⟨u, hu, ?_⟩
  injection h with h
  injection hb with hb
  rw [← h, ← hb]
  have := strip_extend (x := ' ' :: (if q.isReplace then L!"REPLACE" else L!"INSERT") ++ o ++ L!" INTO" ++
    ta ++ ' ' :: e) (c := ')') (by decide) (' ' :: u)
  refine Eq.trans (congrArg strip ?_) (this.trans (congrArg (fun z => strip (strip z ++ ' ' :: u)) ?_)) <;>
    simp only [List.append_assoc, List.cons_append, List.nil_append, List.append_nil]

theorem NoSelf.kwSelf {a : Args} (h : NoSelf a.kw) : kwSelf a = false := by
  unfold SqlPuzzle.kwSelf
  rw [List.any_eq_false]
  intro p hp
  simpa using h p hp

/-- The step of a `values` call that adds a row. -/
theorem insertStep_added {S : Sem} {a : Args} {row : List Value}
    (h : addedRow cx S (.values a) = some row) (q : Insert) :
    insertStep cx S q (.values a) = ({ q with rows := q.rows ++ [row] }, none) := by
  simp only [addedRow] at h
  simp only [insertStep]
  split at h
  · cases h
  · rename_i hk
    rw [if_neg hk]
    simp only [rowsAdd, Upd.map]
    split at h
    · rename_i r hr
      injection h with h
      rw [hr, h]
    · cases h

theorem assignText_rowOf (n : Nat) {row : Row} {ts : List Str} :
    List.Forall₂ (AssignmentText cx n) (rowOf row) ts ↔
      List.Forall₂ (fun p t => AssignmentText cx n (.value (.str p.1) p.2) t) row ts := by
  unfold rowOf
  rw [List.forall₂_map_left_iff]

theorem valuesText_iff (n : Nat) {kw : Str} (hk : kw ≠ []) {vs : List Value} (hv : vs ≠ []) {t : Str} :
    valuesText cx (sem cx n) kw vs = .ok t ↔
      ∃ ts, List.Forall₂ (AssignmentText cx n) vs ts ∧ t = kw ++ [' '] ++ joinS L!", " ts := by
  unfold valuesText partsText
  have h1 : vs.isEmpty = false := by simpa using hv
  have h2 : kw.isEmpty = false := by simpa using hk
  rw [h1, h2]
  simp only [Bool.false_eq_true, if_false]
  rw [bind_ok]
  simp only [mapR_iff fun v t => valueText_iff cx n (v := v) (t := t)]
  refine exists_congr fun ts => and_congr_right fun _ => ?_
  simp [eq_comm]

end

end SqlPuzzle
