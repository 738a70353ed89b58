import Verif.Proofs.Inserts

/-!
C32 (INSERT is rectangular), C33 (columns and rows of INSERT), C34 (on_duplicate_key_update).
-/

namespace SqlPuzzle

open Spec

private def cx0 : Ctx := ⟨.sql, ⟨id, id, fun _ => true, fun _ => [], fun _ => []⟩⟩

/-! ### C32 -/

/-- C32, C33. Any rendered INSERT with rows contains the rows in this form: a list of the columns, as
specified, and one parenthesised list per row, in the order of the rows, with one value per column:
the value given for that column in that row, `NULL` (the text of `None`) if none was given. -/
theorem C32_rows (cx : Ctx) (n : Nat) (q : Insert) (hq : q.rows ≠ []) (t : Str)
    (h : (sem cx (n + 1)).str (.insert q) = .ok t) :
    ∃ (rows : List Row) (cols names : List Str) (cells : List (List Str)),
      q.rows = rows.map rowOf ∧ ColumnList rows cols ∧
      List.Forall₂ (fun c a => (sem cx (n + 1)).str (.sqlRef (.str c)) = .ok a) cols names ∧
      List.Forall₂ (fun row cs => List.Forall₂ (fun c cell =>
        (sem cx (n + 1)).str (.sqlValue (given row c)) = .ok cell) cols cs) rows cells ∧
      tupleOf names ++ L!" VALUES " ++ joinS L!", " (cells.map tupleOf) <:+: t := by
  obtain ⟨tables, rows, words, oc, od, h1, h2, h3, h4, h5, h6⟩ := (insertStatement_iff cx n).mp h
  rcases h2 with ⟨h2, _⟩ | ⟨_, rs, u, h2, ⟨cols, names, cells, h7, h8, h9, rfl⟩, rfl⟩
  · exact absurd h2 hq
  refine ⟨rs, cols, names, cells, h2, h7, h8, h9, ?_⟩
  rw [← strip_iff] at h6
  have hne : cells ≠ [] := by
    rintro rfl
    cases h9
    exact hq h2
  obtain ⟨e, he⟩ := joinS_tuple_end L!", " hne
  rw [he] at h6 ⊢
  have hkw : ∃ k ks, (if q.isReplace then L!"REPLACE" else L!"INSERT") = k :: ks ∧ isSpace k = false := by
    cases q.isReplace
    · exact ⟨_, _, rfl, by decide⟩
    · exact ⟨_, _, rfl, by decide⟩
  obtain ⟨k, ks, hk, hs⟩ := hkw
  have form : strip (k :: ((ks ++ (spaced (wordIf q.ignore L!"IGNORE") ++ (L!" INTO" ++
      (spaced tables ++ ' ' :: (tupleOf names ++ L!" VALUES " ++ e))))) ++ ([')'] ++ (spaced od ++ spaced oc)))) = t := by
    rw [← h6]
    refine congrArg strip ?_
    rw [hk]
    simp only [assemble_eq, List.flatMap_cons, List.flatMap_nil, spaced_some, List.append_assoc,
      List.append_nil, List.cons_append, List.nil_append]
    rfl
  rw [strip_of_head hs, ← List.cons_append, rstrip_append ⟨')', by simp, by decide⟩] at form
  have hz : ∀ r : Str, ∃ z, rstrip ([')'] ++ r) = ')' :: z := by
    intro r
    unfold rstrip
    rw [List.reverse_append, List.dropWhile_append]
    split
    · exact ⟨[], by decide⟩
    · exact ⟨(r.reverse.dropWhile isSpace).reverse, by simp⟩
  obtain ⟨z, hz⟩ := hz (spaced od ++ spaced oc)
  rw [hz] at form
  rw [← form]
  refine ⟨k :: (ks ++ (spaced (wordIf q.ignore L!"IGNORE") ++ (L!" INTO" ++ (spaced tables ++ [' '])))), z, ?_⟩
  simp only [List.append_assoc, List.cons_append, List.nil_append]

/-- C32. So every row has as many values as there are columns. -/
theorem C32_rectangular (cx : Ctx) (n : Nat) (q : Insert) (hq : q.rows ≠ []) (t : Str)
    (h : (sem cx (n + 1)).str (.insert q) = .ok t) :
    ∃ (names : List Str) (cells : List (List Str)),
      tupleOf names ++ L!" VALUES " ++ joinS L!", " (cells.map tupleOf) <:+: t ∧
      cells.length = q.rows.length ∧ ∀ cs ∈ cells, cs.length = names.length := by
  obtain ⟨rows, cols, names, cells, h1, h2, h3, h4, h5⟩ := C32_rows cx n q hq t h
  refine ⟨names, cells, h5, by rw [h1, List.length_map, h4.length_eq], fun cs hcs => ?_⟩
  rw [← h3.length_eq]
  clear h1 h2 h3 h5
  induction h4 with
  | nil => cases hcs
  | cons hab _ ih =>
    rcases List.mem_cons.mp hcs with rfl | hcs
    · exact hab.length_eq.symm
    · exact ih hcs

/-! ### C33 -/

/-- C33. The order in which columns are given within the rows does not matter: text and errors are
the same. -/
theorem C33_order (cx : Ctx) (n : Nat) (q : Insert) (rows rows' : List Row)
    (h : List.Forall₂ (fun r r' => r.Perm r' ∧ (r.map Prod.fst).Nodup) rows rows') :
    (sem cx (n + 1)).str (.insert { q with rows := rows.map rowOf }) =
      (sem cx (n + 1)).str (.insert { q with rows := rows'.map rowOf }) := by
  show insertText cx (sem cx n) _ = insertText cx (sem cx n) _
  unfold insertText
  have he : (rows.map rowOf).isEmpty = (rows'.map rowOf).isEmpty := by cases h <;> rfl
  simp only [rowsText_perm cx (sem cx n) rows rows' h, he]

/-- C33. After any history of calls, failing ones included, the query holds what its calls would have
added to a query without rows, in call order. -/
theorem C33_call_order (cx : Ctx) (S : Sem) (q : Insert) (ops : List InsertOp) :
    (runOps (insertStep cx S) q ops).rows =
      q.rows ++ ops.flatMap fun op => (insertStep cx S {} op).1.rows := by
  induction ops generalizing q with
  | nil => simp [runOps]
  | cons op ops ih =>
    have h1 := ih (insertStep cx S q op).1
    have h2 : runOps (insertStep cx S) q (op :: ops) =
      runOps (insertStep cx S) (insertStep cx S q op).1 ops := rfl
    rw [h2, h1, insertStep_rows, List.flatMap_cons, insertStep_rows cx S {} op]
    simp

/-- C33. A `values` call adds one row or, if it fails, none; all other calls add none. -/
theorem C33_one_row (cx : Ctx) (S : Sem) (op : InsertOp) :
    (∃ a row, op = .values a ∧ (insertStep cx S {} op).1.rows = [row] ∧
      (insertStep cx S {} op).2 = none) ∨
    ((insertStep cx S {} op).1.rows = [] ∧
      ((∃ a, op = .values a) → (insertStep cx S {} op).2 ≠ none)) := by
  rw [insertStep_rows cx S {} op]
  cases op with
  | values a =>
    cases h : addedRow cx S (.values a) with
    | some row =>
      refine .inl ⟨a, row, rfl, rfl, ?_⟩
      rw [insertStep_added cx h]
    | none =>
      refine .inr ⟨rfl, fun _ => ?_⟩
      simp only [addedRow] at h
      simp only [insertStep]
      split at h
      · rename_i hk
        rw [if_pos hk]
        simp
      · rename_i hk
        rw [if_neg hk]
        simp only [rowsAdd, Upd.map]
        rcases hv : valuesSet cx S [] a with ⟨r, e⟩
        rw [hv] at h
        cases e with
        | none => cases h
        | some e => simp
  | _ => exact .inr ⟨rfl, by rintro ⟨a, h⟩; cases h⟩

/-- C33. A `values` call with keyword arguments, or a dictionary with text keys, succeeds if all
values have an allowed type, and the row it adds has the given items, in some order. -/
theorem C33_values_row (cx : Ctx) (n : Nat) (q : Insert) (row : Row) (hk : KwFree row)
    (hn : (row.map Prod.fst).Nodup) (hf : ∀ p ∈ row, Fit .setValue p.2) :
    ∃ row', row.Perm row' ∧
      insertStep cx (sem cx (n + 1)) q (.values { kw := row }) =
        ({ q with rows := q.rows ++ [rowOf row'] }, none) ∧
      insertStep cx (sem cx (n + 1)) q (.values { pos := [dictOf row] }) =
        ({ q with rows := q.rows ++ [rowOf row'] }, none) := by
  obtain ⟨row', h1, h2, h3⟩ := addedRow_kw cx n row hk hn hf
  exact ⟨row', h1, insertStep_added cx h2 q, insertStep_added cx h3 q⟩

/-- The state after `insert_into(t)` and `values(**row)` for any number of rows. -/
theorem values_run (cx : Ctx) (n : Nat) (q : Insert) (rows : List Row) (hk : ∀ r ∈ rows, KwFree r)
    (hn : ∀ r ∈ rows, (r.map Prod.fst).Nodup) (hf : ∀ r ∈ rows, ∀ p ∈ r, Fit .setValue p.2) :
    ∃ rows', List.Forall₂ (fun r r' => r.Perm r' ∧ (r.map Prod.fst).Nodup) rows rows' ∧
      runOps (insertStep cx (sem cx (n + 1))) q (rows.map fun r => .values { kw := r }) =
        { q with rows := q.rows ++ rows'.map rowOf } := by
  induction rows generalizing q with
  | nil => exact ⟨[], .nil, by simp [runOps]⟩
  | cons r rs ih =>
    obtain ⟨r', h1, h2, -⟩ := C33_values_row cx n q r (hk r (by simp)) (hn r (by simp)) (hf r (by simp))
    obtain ⟨rs', h3, h4⟩ := ih { q with rows := q.rows ++ [rowOf r'] } (fun x hx => hk x (by simp [hx]))
      (fun x hx => hn x (by simp [hx])) (fun x hx => hf x (by simp [hx]))
    refine ⟨r' :: rs', .cons ⟨h1, hn r (by simp)⟩ h3, ?_⟩
    show runOps _ (insertStep cx (sem cx (n + 1)) q (.values { kw := r })).1 _ = _
    rw [h2, h4]
    simp

/-- C32, C33 end to end: `insert_into(t)` followed by `values(**row)` for any number of rows, rendered:
`INSERT INTO`, the table, the column list and the rows, as specified. -/
theorem C32_statement (cx : Ctx) (n : Nat) (table : Str) (rows : List Row) (hne : rows ≠ [])
    (hk : ∀ r ∈ rows, KwFree r) (hn : ∀ r ∈ rows, (r.map Prod.fst).Nodup)
    (hf : ∀ r ∈ rows, ∀ p ∈ r, Fit .setValue p.2) (t : Str)
    (h : (sem cx (n + 2)).str (.insert (runOps (insertStep cx (sem cx (n + 1)))
      { tables := [⟨.str table, .none, []⟩] } (rows.map fun r => .values { kw := r }))) = .ok t) :
    ∃ (name : Str) (cols names : List Str) (cells : List (List Str)),
      (sem cx (n + 2)).str (.sqlRef (.str table)) = .ok name ∧ ColumnList rows cols ∧
      List.Forall₂ (fun c a => (sem cx (n + 2)).str (.sqlRef (.str c)) = .ok a) cols names ∧
      List.Forall₂ (fun row cs => List.Forall₂ (fun c cell =>
        (sem cx (n + 2)).str (.sqlValue (given row c)) = .ok cell) cols cs) rows cells ∧
      t = L!"INSERT INTO " ++ name ++ [' '] ++ tupleOf names ++ L!" VALUES " ++
        joinS L!", " (cells.map tupleOf) := by
  obtain ⟨rows', hp, hr⟩ := values_run cx n { tables := [⟨.str table, .none, []⟩] } rows hk hn hf
  rw [hr] at h
  have h : (sem cx (n + 2)).str (.insert { tables := [⟨.str table, .none, []⟩], rows := rows'.map rowOf }) =
    .ok t := h
  rw [← C33_order cx (n + 1) { tables := [⟨.str table, .none, []⟩] } rows rows' hp] at h
  have h : insertText cx (sem cx (n + 1)) { tables := [⟨.str table, .none, []⟩], rows := rows.map rowOf } =
    .ok t := h
  have he : (rows.map rowOf).isEmpty = false := by simpa using hne
  simp only [insertText, clause, he, tablesText, partsText, mapR, Bool.not_false, if_true,
    List.isEmpty_nil, List.isEmpty_cons, Bool.not_true, Bool.false_eq_true, if_false, ok_bind] at h
  have htab : tableText cx (sem cx (n + 1)) ⟨.str table, .none, []⟩ =
      .ok (reference cx.backend.quote table) := rfl
  simp only [htab, ok_bind] at h
  obtain ⟨vt, hvt, h⟩ := bind_ok.mp h
  obtain ⟨rt, hrt, hvt⟩ := bind_ok.mp hvt
  cases hvt
  obtain ⟨cols, names, cells, h1, h2, h3, rfl⟩ := (rowsText_rowOf cx (n + 1)).mp hrt
  refine ⟨reference cx.backend.quote table, cols, names, cells, rfl, h1, h2, h3, ?_⟩
  have hcne : cells ≠ [] := by
    rintro rfl
    cases h3
    exact hne rfl
  obtain ⟨e, he⟩ := joinS_tuple_end L!", " hcne
  injection h with h
  rw [← h, he]
  have hs : ∀ x : Str, strip (' ' :: 'I' :: (x ++ [')'])) = 'I' :: (x ++ [')']) := by
    intro x
    have h1 : strip (' ' :: 'I' :: (x ++ [')'])) = strip ('I' :: (x ++ [')'])) := by
      unfold strip; rw [List.dropWhile_cons, if_pos (by decide)]
    rw [h1, strip_of_head (by decide), ← List.cons_append, rstrip_of_last (by decide)]
  have := hs (L!"NSERT INTO " ++ reference cx.backend.quote table ++ [' '] ++
        tupleOf names ++ L!" VALUES " ++ e)
  simpa [joinS] using this

/-- C32. Such a statement always renders if the values are plain Python values. -/
theorem C32_renders (cx : Ctx) (n : Nat) (table : Str) (rows : List Row)
    (hk : ∀ r ∈ rows, KwFree r) (hn : ∀ r ∈ rows, (r.map Prod.fst).Nodup)
    (hf : ∀ r ∈ rows, ∀ p ∈ r, Fit .setValue p.2 ∧ p.2.isSql = false) :
    ∃ t, (sem cx (n + 2)).str (.insert (runOps (insertStep cx (sem cx (n + 1)))
      { tables := [⟨.str table, .none, []⟩] } (rows.map fun r => .values { kw := r }))) = .ok t := by
  obtain ⟨rows', hp, hr⟩ := values_run cx n { tables := [⟨.str table, .none, []⟩] } rows hk hn
    fun r h p h' => (hf r h p h').1
  rw [hr]
  show ∃ t, (sem cx (n + 2)).str (.insert { tables := [⟨.str table, .none, []⟩], rows := rows'.map rowOf }) =
    .ok t
  rw [← C33_order cx (n + 1) { tables := [⟨.str table, .none, []⟩] } rows rows' hp]
  obtain ⟨cols, h1, h2⟩ := allColumns_spec rows
  have total : ∀ {α β : Type} (W : α → β → Prop) (xs : List α), (∀ x ∈ xs, ∃ y, W x y) →
      ∃ ys, List.Forall₂ W xs ys := by
    intro α β W xs
    induction xs with
    | nil => intro _; exact ⟨[], .nil⟩
    | cons x xs ih =>
      intro h
      obtain ⟨y, hy⟩ := h x (by simp)
      obtain ⟨ys, hys⟩ := ih fun z hz => h z (by simp [hz])
      exact ⟨y :: ys, .cons hy hys⟩
  obtain ⟨names, hnames⟩ := total (fun c a => (sem cx (n + 2)).str (.sqlRef (.str c)) = .ok a) cols
    fun c _ => ⟨_, rfl⟩
  obtain ⟨cells, hcells⟩ := total (fun row cs => List.Forall₂ (fun c cell =>
      (sem cx (n + 2)).str (.sqlValue (given row c)) = .ok cell) cols cs) rows fun row hrow =>
    total _ cols fun c _ => by
      show ∃ y, sqlValueText cx (sem cx (n + 1)) (given row c) = .ok y
      unfold given
      split
      · rename_i p hp
        have hm := (List.mem_filter.mp (List.mem_of_getLast? hp)).1
        exact sqlValueText_scalar cx _ (hf row hrow p hm).1 (hf row hrow p hm).2
      · exact ⟨_, rfl⟩
  have htab : TableText cx (n + 1) ⟨.str table, .none, []⟩ (reference cx.backend.quote table) :=
    (tableText_iff cx (n + 1)).mp rfl
  refine ⟨_, (insertStatement_iff cx (n + 1)).mpr ⟨_, if rows = [] then none else
      some (tupleOf names ++ L!" VALUES " ++ joinS L!", " (cells.map tupleOf)), _, none, none,
    .inr ⟨by simp, _, .cons htab .nil, rfl⟩, ?_, .inl ⟨rfl, rfl⟩, rfl, .inl ⟨rfl, rfl⟩,
    strip_trimmed _⟩⟩
  · by_cases he : rows = []
    · exact .inl ⟨by simp [he], if_pos he⟩
    · exact .inr ⟨by simpa using he, rows, _, rfl, ⟨cols, names, cells, h2, hnames, hcells, rfl⟩, if_neg he⟩

private def sampleRows : List Row := [[(L!"b", .int 1), (L!"a", .str L!"x")], [(L!"c", .none), (L!"a", .int 2)]]

example : KwFree sampleRows.head! ∧ (∀ r ∈ sampleRows, (r.map Prod.fst).Nodup) ∧
    (∀ r ∈ sampleRows, ∀ p ∈ r, Fit .setValue p.2 ∧ p.2.isSql = false) := by
  refine ⟨?_, by decide, by decide⟩
  unfold KwFree
  decide

example : (sem cx0 3).str (.insert (runOps (insertStep cx0 (sem cx0 2))
    { tables := [⟨.str L!"t", .none, []⟩] } (sampleRows.map fun r => .values { kw := r }))) =
    .ok L!"INSERT INTO \"t\" (\"a\", \"b\", \"c\") VALUES ('x', 1, NULL), (2, NULL, NULL)" := by
  decide

/-! ### C34 -/

section
variable (cx : Ctx)

/-- C34. On MySQL `on_duplicate_key_update(**row)` succeeds, and the rendered statement is the
statement before, followed by `ON DUPLICATE KEY UPDATE` and the assignments (each given one once). -/
theorem C34_mysql (hm : cx.backend = .mysql) (n : Nat) (q : Insert) (hrows : q.rows ≠ [])
    (h1 : q.onDup = []) (h2 : q.onConflict = []) (row : Row) (hne : row ≠ []) (hk : KwFree row)
    (hn : (row.map Prod.fst).Nodup) (hf : ∀ p ∈ row, Fit .setValue p.2) (base t : Str)
    (hb : (sem cx (n + 2)).str (.insert q) = .ok base)
    (ht : (sem cx (n + 2)).str (.insert
      (insertStep cx (sem cx (n + 1)) q (.onDuplicateKeyUpdate { kw := row })).1) = .ok t) :
    (insertStep cx (sem cx (n + 1)) q (.onDuplicateKeyUpdate { kw := row })).2 = none ∧
    ∃ row' ts, row.Perm row' ∧ List.Forall₂ (AssignmentText cx (n + 1)) (rowOf row') ts ∧
      Trimmed isWhite (base ++ L!" ON DUPLICATE KEY UPDATE " ++ joinS L!", " ts) t := by
  obtain ⟨row', hp, hv⟩ := setAll_row cx n row hk hn hf
  have hne' : rowOf row' ≠ [] := by
    intro e
    have : row' = [] := by simpa [rowOf] using e
    subst this
    exact hne hp.eq_nil
  have k1 : kwSelf { kw := row } = false := hk.self
  have hstep : insertStep cx (sem cx (n + 1)) q (.onDuplicateKeyUpdate { kw := row }) =
      ({ q with onDup := rowOf row' }, none) := by
    simp only [insertStep, onDuplicateKeyUpdate, k1, hm, h1, hv, Upd.map, Bool.false_eq_true, if_false,
      if_true, Backend.supportsOnDuplicateKeyUpdate, Backend.supportsOnConflictDoUpdate,
      Backend.supportsReplaceInto]
  rw [hstep] at ht ⊢
  refine ⟨rfl, ?_⟩
  obtain ⟨u, hu, hx⟩ := insertText_onDup cx (sem cx (n + 1)) q hrows h1 h2 t base hb (rowOf row') hne' ht
  obtain ⟨ts, hts, rfl⟩ := (valuesText_iff cx (n + 1) (by simp) hne').mp hu
  refine ⟨row', ts, hp, hts, ?_⟩
  rw [← strip_iff, hx]
  exact congrArg strip (by simp)

/-- C34, the PostgreSQL part except for the word `SET` (see `C34_refuted`): the conflict column and
the assignments are appended as `ON CONFLICT (column) DO UPDATE`. -/
theorem C34_postgresql_partial (hm : cx.backend = .postgresql) (n : Nat) (q : Insert)
    (hrows : q.rows ≠ []) (h1 : q.onDup = []) (h2 : q.onConflict = []) (c : Str) (row : Row)
    (hne : row ≠ []) (hk : KwFree row)
    (hn : (row.map Prod.fst).Nodup) (hf : ∀ p ∈ row, Fit .setValue p.2) (base t : Str)
    (hb : (sem cx (n + 2)).str (.insert q) = .ok base)
    (ht : (sem cx (n + 2)).str (.insert
      (insertStep cx (sem cx (n + 1)) q (.onDuplicateKeyUpdate { pos := [.str c], kw := row })).1) =
        .ok t) :
    (insertStep cx (sem cx (n + 1)) q (.onDuplicateKeyUpdate { pos := [.str c], kw := row })).2 = none ∧
    ∃ name row' ts, (sem cx (n + 2)).str (.sqlRef (.str c)) = .ok name ∧ row.Perm row' ∧
      List.Forall₂ (AssignmentText cx (n + 1)) (rowOf row') ts ∧
      Trimmed isWhite (base ++ L!" ON CONFLICT (" ++ name ++ L!") DO UPDATE " ++ joinS L!", " ts) t := by
  obtain ⟨row', hp, hv⟩ := setAll_row cx n row hk hn hf
  have hne' : rowOf row' ≠ [] := by
    intro e
    have : row' = [] := by simpa [rowOf] using e
    subst this
    exact hne hp.eq_nil
  have k1 : kwSelf { pos := [.str c], kw := row } = false := hk.self
  have hstep : insertStep cx (sem cx (n + 1)) q (.onDuplicateKeyUpdate { pos := [.str c], kw := row }) =
      ({ q with conflict := some c, onConflict := rowOf row' }, none) := by
    simp only [insertStep, onDuplicateKeyUpdate, k1, hm, h2, hv, Upd.map, Bool.false_eq_true, if_false,
      if_true, Backend.supportsOnDuplicateKeyUpdate, Backend.supportsOnConflictDoUpdate,
      Backend.supportsReplaceInto, onConflictSet]
  rw [hstep] at ht ⊢
  refine ⟨rfl, ?_⟩
  obtain ⟨u, hu, hx⟩ := insertText_onConflict cx (sem cx (n + 1)) q hrows h1 h2 t base hb (rowOf row')
    hne' c ht
  obtain ⟨ts, hts, rfl⟩ := (valuesText_iff cx (n + 1)
    (List.append_ne_nil_of_right_ne_nil _ (by simp)) hne').mp hu
  refine ⟨reference cx.backend.quote c, row', ts, rfl, hp, hts, ?_⟩
  rw [← strip_iff, hx]
  refine congrArg strip ?_
  show _ = base ++ ' ' :: ((L!"ON CONFLICT (" ++ reference cx.backend.quote c) ++ L!") DO UPDATE" ++ [' '] ++
    joinS L!", " ts)
  generalize reference cx.backend.quote c = r
  simp

/-- C34. On PostgreSQL the conflict column is required: without a text as first argument the call
raises `InvalidQueryException` and changes nothing. -/
theorem C34_conflict_required (hm : cx.backend = .postgresql) (S : Sem) (q : Insert) (a : Args)
    (hs : NoSelf a.kw) (h : ∀ c, a.pos.head? ≠ some (.str c)) :
    insertStep cx S q (.onDuplicateKeyUpdate a) = (q, some .invalidQuery) := by
  have hs := hs.kwSelf
  have hset : onConflictSet cx S q a = (q, some .invalidQuery) := by
    unfold onConflictSet
    rw [if_neg (by simp [hs])]
    split
    · rename_i c rest hc
      exact absurd (by rw [hc]; rfl) (h c)
    · rfl
  simp only [insertStep, onDuplicateKeyUpdate, hs, hm, Bool.false_eq_true, if_false, if_true,
    Backend.supportsOnDuplicateKeyUpdate, Backend.supportsOnConflictDoUpdate, hset]

example : NoSelf [(L!"a", .int 1)] ∧ ∀ c, [Obj.int 1].head? ≠ some (.str c) :=
  ⟨by unfold NoSelf; decide, by simp⟩

/-- C34. On SQLite the call without arguments turns the statement into REPLACE and nothing else;
with arguments it raises and changes nothing. -/
theorem C34_sqlite (hm : cx.backend = .sqlite) (S : Sem) (q : Insert) (a : Args)
    (hs : NoSelf a.kw) :
    insertStep cx S q (.onDuplicateKeyUpdate {}) = ({ q with isReplace := true }, none) ∧
    (a.pos ≠ [] ∨ a.kw ≠ [] →
      insertStep cx S q (.onDuplicateKeyUpdate a) = (q, some .exception)) := by
  have hs := hs.kwSelf
  constructor
  · simp only [insertStep, onDuplicateKeyUpdate, hm, kwSelf, List.any_nil, Bool.false_eq_true, if_false,
      if_true, Backend.supportsOnDuplicateKeyUpdate, Backend.supportsOnConflictDoUpdate,
      Backend.supportsReplaceInto, List.isEmpty_nil, Bool.not_true, Bool.or_self]
  · intro h
    have h' : (!a.pos.isEmpty || !a.kw.isEmpty) = true := by
      rcases h with h | h
      · cases hp : a.pos with
        | nil => exact absurd hp h
        | cons => rfl
      · cases hp : a.kw with
        | nil => exact absurd hp h
        | cons => simp
    simp only [insertStep, onDuplicateKeyUpdate, hm, hs, Bool.false_eq_true, if_false,
      if_true, Backend.supportsOnDuplicateKeyUpdate, Backend.supportsOnConflictDoUpdate,
      Backend.supportsReplaceInto, h']

/-- C34. A REPLACE statement differs from the INSERT statement in the keyword only. -/
theorem C34_replace (n : Nat) (q : Insert) (hq : q.isReplace = false) (t : Str)
    (h : (sem cx (n + 1)).str (.insert { q with isReplace := true }) = .ok t) :
    ∃ rest, t = L!"REPLACE" ++ rest ∧ (sem cx (n + 1)).str (.insert q) = .ok (L!"INSERT" ++ rest) := by
  have h : insertText cx (sem cx n) { q with isReplace := true } = .ok t := h
  show ∃ rest, t = L!"REPLACE" ++ rest ∧ insertText cx (sem cx n) q = .ok (L!"INSERT" ++ rest)
  unfold insertText at h ⊢
  simp only [hq, if_true, Bool.false_eq_true, if_false, clause, ok_bind] at h ⊢
  obtain ⟨o, ho, h⟩ := bind_ok.mp h
  obtain ⟨c, hc, h⟩ := bind_ok.mp h
  obtain ⟨d, hd, h⟩ := bind_ok.mp h
  obtain ⟨ta, hta, h⟩ := bind_ok.mp h
  obtain ⟨v, hv, h⟩ := bind_ok.mp h
  simp only [ho, hc, hd, hta, hv, ok_bind]
  injection h with h
  have key : ∀ (k r : Str) (c : Char), isSpace c = false →
      strip (' ' :: c :: k ++ L!" I" ++ r) = c :: k ++ L!" I" ++ (rstrip (L!"I" ++ r)).tail := by
    intro k r c hc
    have h1 : strip (' ' :: c :: k ++ L!" I" ++ r) = strip (c :: k ++ L!" I" ++ r) := by
      unfold strip; simp only [List.cons_append]; rw [List.dropWhile_cons, if_pos (by decide)]
    have h2 : c :: k ++ L!" I" ++ r = c :: (k ++ [' '] ++ (L!"I" ++ r)) := by simp
    have hI : ∃ x ∈ L!"I" ++ r, isSpace x = false := ⟨'I', by simp, by decide⟩
    rw [h1, h2, strip_of_head hc, ← List.cons_append, rstrip_append hI]
    have h3 : ∃ z, rstrip (L!"I" ++ r) = 'I' :: z := by
      unfold rstrip
      have : (L!"I" ++ r).reverse = r.reverse ++ ['I'] := by simp
      rw [this, List.dropWhile_append]
      split
      · exact ⟨[], by decide⟩
      · exact ⟨(r.reverse.dropWhile isSpace).reverse, by simp⟩
    obtain ⟨z, hz⟩ := h3
    rw [hz]; simp
  refine ⟨o ++ L!" I" ++ (rstrip (L!"I" ++ (L!"NTO" ++ ta ++ v ++ d ++ c))).tail, ?_, ?_⟩
  · have := key (L!"EPLACE" ++ o) (L!"NTO" ++ ta ++ v ++ d ++ c) 'R' (by decide)
    rw [← h]
    refine Eq.trans (congrArg strip ?_) (this.trans ?_) <;> simp
  · have := key (L!"NSERT" ++ o) (L!"NTO" ++ ta ++ v ++ d ++ c) 'I' (by decide)
    refine congrArg Except.ok (Eq.trans (congrArg strip ?_) (this.trans ?_)) <;> simp

/-- C34, full statement: on each backend that supports it the assignments are applied, and the call
is never accepted without effect. -/
def C34_claim : Prop :=
  (∀ (cx : Ctx) (n : Nat) (q : Insert) (c : Str) (row : Row) (base t name : Str),
    cx.backend = .postgresql →
    q.rows ≠ [] → q.onDup = [] → q.onConflict = [] → row ≠ [] → KwFree row →
    (row.map Prod.fst).Nodup → (∀ p ∈ row, Fit .setValue p.2) →
    (sem cx (n + 2)).str (.insert q) = .ok base →
    (sem cx (n + 2)).str (.sqlRef (.str c)) = .ok name →
    (sem cx (n + 2)).str (.insert (insertStep cx (sem cx (n + 1)) q
      (.onDuplicateKeyUpdate { pos := [.str c], kw := row })).1) = .ok t →
    ∃ rest, t = base ++ L!" ON CONFLICT (" ++ name ++ L!") DO UPDATE SET " ++ rest) ∧
  (∀ (cx : Ctx) (n : Nat) (q q' : Insert) (a : Args), a.pos ≠ [] ∨ a.kw ≠ [] → q.onDup = [] →
    insertStep cx (sem cx (n + 1)) q (.onDuplicateKeyUpdate a) = (q', none) → q' ≠ q)

/-- C34 is false: the PostgreSQL statement lacks the word `SET`, so PostgreSQL rejects it. -/
theorem C34_refuted : ¬C34_claim := by
  intro ⟨h, _⟩
  obtain ⟨rest, hr⟩ := h ⟨.postgresql, cx0.env⟩ 1
    { tables := [⟨.str L!"t", .none, []⟩], rows := [[.value (.str L!"a") (.int 1)]] } L!"a"
    [(L!"a", .int 2)] L!"INSERT INTO \"t\" (\"a\") VALUES (1)"
    L!"INSERT INTO \"t\" (\"a\") VALUES (1) ON CONFLICT (\"a\") DO UPDATE \"a\" = 2" L!"\"a\"" rfl (by simp) rfl rfl
    (by simp) (by unfold KwFree; decide) (by decide) (by decide) (by decide) (by decide) (by decide)
  have h2 := congrArg (fun s : Str => s[61]?) hr
  simp at h2

/-- C34 is false also in its second half: on the default backend the call is accepted and has no
effect at all. -/
theorem C34_refuted_noop (S : Sem) (hb : cx.backend = .sql) (q : Insert) (a : Args)
    (hs : NoSelf a.kw) :
    insertStep cx S q (.onDuplicateKeyUpdate a) = (q, none) := by
  have hs := hs.kwSelf
  simp only [insertStep, onDuplicateKeyUpdate, hb, hs, Bool.false_eq_true, if_false,
      Backend.supportsOnDuplicateKeyUpdate, Backend.supportsOnConflictDoUpdate,
      Backend.supportsReplaceInto]

end

example : (sem ⟨.mysql, cx0.env⟩ 3).str (.insert (runOps (insertStep ⟨.mysql, cx0.env⟩ (sem ⟨.mysql, cx0.env⟩ 2))
    { tables := [⟨.str L!"t", .none, []⟩] } [.values { kw := [(L!"a", .int 1)] },
      .onDuplicateKeyUpdate { kw := [(L!"b", .int 3), (L!"a", .int 2)] }])) =
    .ok L!"INSERT INTO `t` (`a`) VALUES (1) ON DUPLICATE KEY UPDATE `a` = 2, `b` = 3" := by decide

end SqlPuzzle
