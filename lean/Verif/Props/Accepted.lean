import Verif.Proofs.Accepted
import Verif.Props.Conditions
import Verif.Props.Assign

/-!
C70: the server accepts the clauses it is given.
-/

namespace SqlPuzzle

open Spec

private def env0 : Env := ⟨id, id, fun _ => true, fun _ => [], fun _ => []⟩

/-! ### SELECT -/

/-- C70: whatever is called on a query, the database the library is configured for accepts `LIMIT` and `OFFSET`,
`INTO OUTFILE`, `FOR UPDATE` and the options of the SELECT, and the words and clauses of an INSERT.  This is false. -/
def C70_claim : Prop :=
  (∀ (cx : Ctx) (d : Dialect) (n : Nat) (ops : List SelectOp) (t : Str), Fits cx d →
    NoRaw cx.backend.quote .stmt (.select (runOps (selectStep cx (sem cx n)) {} ops)) →
    (sem cx (n + 1)).str (.select (runOps (selectStep cx (sem cx n)) {} ops)) = .ok t →
    selectAccepted cx.backend (lex d t) = true) ∧
  (∀ (cx : Ctx) (d : Dialect) (n : Nat) (ops : List InsertOp) (t : Str), Fits cx d →
    NoRaw cx.backend.quote .stmt (.insert (runOps (insertStep cx (sem cx n)) {} ops)) →
    (sem cx (n + 1)).str (.insert (runOps (insertStep cx (sem cx n)) {} ops)) = .ok t →
    insertAccepted cx.backend (lex d t) = true)

section
variable {cx : Ctx} {d : Dialect}

/-- The clauses in the text of a SELECT. -/
private theorem select_clauses (hf : Fits cx d) {q : Select} {n : Nat} {t : Str}
    (h : NoRaw cx.backend.quote .stmt (.select q)) (e : (sem cx n).str (.select q) = .ok t) :
    ∃ m, safeSelect cx.backend.quote (Safe cx.backend.quote m) q ∧
      ∀ {w : Str} {o : Option (List Tok)}, (w, o) ∈ selectParts cx (sem cx m) d (toks cx d m) q →
        clauseBody selectClauses w (lex d t) = o.getD [] := by
  obtain ⟨m, hs, _, r⟩ := stmt_level hf h e
  have hs : safeSelect cx.backend.quote (Safe cx.backend.quote m) q := hs
  refine ⟨m, hs, fun hm => ?_⟩
  rw [r]
  exact select_part (phrases_sem cx d m) hs hm

/-- C70 for `limit` and `offset`: after any calls the database accepts the clauses exactly if the offset in force
comes with a limit, except on PostgreSQL, and the numbers in force are not negative, except on SQLite. -/
theorem C70_paging_partial (hf : Fits cx d) (n k : Nat) (ops : List SelectOp) (t : Str)
    (h : NoRaw cx.backend.quote .stmt (.select (runOps (selectStep cx (sem cx k)) {} ops)))
    (e : (sem cx n).str (.select (runOps (selectStep cx (sem cx k)) {} ops)) = .ok t) :
    let limit := (latest saysLimit ops).getD none
    let offset := (latest saysOffset ops).getD none
    pagingAccepted cx.backend (lex d t) = true ↔
      (cx.backend = .mysql ∨ cx.backend = .sqlite → limit = none → offset = none) ∧
      (cx.backend = .mysql ∨ cx.backend = .postgresql →
        (∀ i, limit = some i → 0 ≤ i) ∧ (∀ i, offset = some i → 0 ≤ i)) := by
  obtain ⟨m, -, part⟩ := select_clauses hf h e
  have hlim := limit_latest cx (sem cx k) ops
  generalize runOps (selectStep cx (sem cx k)) {} ops = q at *
  have pl := part (w := L!"LIMIT") (o := q.limit.limit.map intToks) (by simp [selectParts])
  have po := part (w := L!"OFFSET") (o := q.limit.offset.map intToks) (by simp [selectParts])
  have nl : (rowNumber L!"LIMIT" (lex d t)).isSome = true ↔ ∀ i, q.limit.limit = some i → 0 ≤ i := by
    unfold rowNumber; rw [pl]; exact number_ok
  have no : (rowNumber L!"OFFSET" (lex d t)).isSome = true ↔ ∀ i, q.limit.offset = some i → 0 ≤ i := by
    unfold rowNumber; rw [po]; exact number_ok
  have el : clauseBody selectClauses L!"LIMIT" (lex d t) = [] ↔ q.limit.limit = none := by
    rw [pl]; cases q.limit.limit <;> simp [intToks_ne]
  have eo : clauseBody selectClauses L!"OFFSET" (lex d t) = [] ↔ q.limit.offset = none := by
    rw [po]; cases q.limit.offset <;> simp [intToks_ne]
  have e1 : (latest saysLimit ops).getD none = q.limit.limit := by rw [hlim]
  have e2 : (latest saysOffset ops).getD none = q.limit.offset := by rw [hlim]
  dsimp only
  rw [e1, e2]
  have key : (q.limit.offset = none ∨ ¬ q.limit.limit = none) ↔ (q.limit.limit = none → q.limit.offset = none) := by
    constructor
    · rintro (h | h) h'
      · exact h
      · exact absurd h' h
    · intro h
      by_cases h' : q.limit.limit = none
      · exact .inl (h h')
      · exact .inr h'
  unfold pagingAccepted
  cases hb : cx.backend <;>
    simp only [Bool.and_eq_true, Bool.or_eq_true, decide_eq_true_eq, ne_eq, nl, no, el, eo, key, reduceCtorEq, or_false,
      or_true, forall_const, IsEmpty.forall_iff, and_true, true_and, and_self]
  exact and_comm

/-- C70 for FOR UPDATE: the database accepts it exactly if it is not SQLite. -/
theorem C70_lock_partial (hf : Fits cx d) (n k : Nat) (ops : List SelectOp) (t : Str)
    (h : NoRaw cx.backend.quote .stmt (.select (runOps (selectStep cx (sem cx k)) {} ops)))
    (e : (sem cx n).str (.select (runOps (selectStep cx (sem cx k)) {} ops)) = .ok t) :
    lockAccepted cx.backend (lex d t) = true ↔
      (cx.backend = .sqlite → (latest saysLock ops).getD false = false) := by
  obtain ⟨m, -, part⟩ := select_clauses hf h e
  have hl : (runOps (selectStep cx (sem cx k)) {} ops).forUpdate = (latest saysLock ops).getD false := by
    refine runOps_latest (step := selectStep cx (sem cx k)) (f := fun q : Select => q.forUpdate) (tells := saysLock)
      (fun q o => ?_) {} ops
    cases o with
    | str =>
      obtain ⟨ts, hts⟩ := selectStr_eq cx (sem cx k) q
      show (selectStr cx (sem cx k) q).1.forUpdate = q.forUpdate
      rw [hts]
    | _ => rfl
  rw [← hl]
  generalize runOps (selectStep cx (sem cx k)) {} ops = q at *
  have := part (w := L!"FOR") (o := present q.forUpdate [.word L!"UPDATE"]) (by simp [selectParts])
  unfold lockAccepted
  rw [this]
  cases q.forUpdate <;> cases cx.backend <;> simp [present]

/-- C70 for INTO OUTFILE with strings: accepted by MySQL only, and there not if the quotation mark is given without a
separator of fields, or with an end of lines. -/
theorem C70_export_partial (hf : Fits cx d) (hb : cx.backend ≠ .sql) (n k : Nat) (ops : List SelectOp) (t : Str)
    (hv : ∀ f v, .outfile f v ∈ ops → ∃ s, v = .str s)
    (h : NoRaw cx.backend.quote .stmt (.select (runOps (selectStep cx (sem cx k)) {} ops)))
    (e : (sem cx n).str (.select (runOps (selectStep cx (sem cx k)) {} ops)) = .ok t) :
    let setting := fun f => (latest (saysOutfile f) ops).getD none
    exportAccepted cx.backend (lex d t) = true ↔
      (setting .file ≠ none → cx.backend = .mysql ∧
        (setting .enclosed ≠ none → setting .fields ≠ none ∧ setting .lines = none)) := by
  obtain ⟨m, -, part⟩ := select_clauses hf h e
  have hs : ∀ f, ∃ s : Option Str, (latest (saysOutfile f) ops).getD none = s.map Obj.str := by
    intro f
    cases hl : latest (saysOutfile f) ops with
    | none => exact ⟨none, rfl⟩
    | some o =>
      obtain ⟨a, op, c, rfl, h3, _⟩ := latest_eq_some.mp hl
      cases op with
      | outfile f' v =>
        obtain ⟨s, rfl⟩ := hv f' v (by simp)
        simp only [saysOutfile] at h3
        split at h3
        · cases h3; exact ⟨some s, rfl⟩
        · cases h3
      | _ => cases h3
  have ho := outfile_latest cx (sem cx k) ops
  dsimp only
  generalize runOps (selectStep cx (sem cx k)) {} ops = q at *
  obtain ⟨file, hfile⟩ := hs .file
  obtain ⟨fields, hfields⟩ := hs .fields
  obtain ⟨lines, hlines⟩ := hs .lines
  obtain ⟨enclosed, hencl⟩ := hs .enclosed
  have o1 : q.outfile.file = file.map Obj.str := (ho .file).trans hfile
  have o2 : q.outfile.fields = fields.map Obj.str := (ho .fields).trans hfields
  have o3 : q.outfile.lines = lines.map Obj.str := (ho .lines).trans hlines
  have o4 : q.outfile.enclosed = enclosed.map Obj.str := (ho .enclosed).trans hencl
  rw [hfile, hfields, hlines, hencl]
  have := part (w := L!"INTO") (o := q.outfile.file.map (exportToks cx d (toks cx d m) q.outfile)) (by simp [selectParts])
  unfold exportAccepted
  rw [this, o1]
  cases file with
  | none =>
    cases cx.backend <;> simp
  | some f =>
    have e1 : (((some f).map Obj.str).map (exportToks cx d (toks cx d m) q.outfile)).getD [] =
        .word L!"OUTFILE" :: .str (litValue d f) ::
          (((fields.map fun s => words [L!"FIELDS", L!"TERMINATED", L!"BY"] ++ [.str (litValue d s)]).getD []) ++
          (((lines.map fun s => words [L!"LINES", L!"TERMINATED", L!"BY"] ++ [.str (litValue d s)]).getD []) ++
           ((enclosed.map fun s => words [L!"OPTIONALLY", L!"ENCLOSED", L!"BY"] ++ [.str (litValue d s)]).getD []))) := by
      show exportToks cx d (toks cx d m) q.outfile (.str f) = _
      unfold exportToks
      rw [o2, o3, o4]
      cases fields <;> cases lines <;> cases enclosed <;> rfl
    rw [e1]
    cases hc : cx.backend with
    | sql => exact absurd hc hb
    | mysql =>
      cases fields <;> cases lines <;> cases enclosed <;>
        first
        | exact iff_of_true rfl (fun _ => ⟨rfl, fun h => absurd rfl h⟩)
        | exact iff_of_true rfl (fun _ => ⟨rfl, fun _ => ⟨by simp, rfl⟩⟩)
        | exact iff_of_false (by intro h; cases h) (by intro h; simp at h)
    | postgresql => exact iff_of_false (by intro h; cases h) (by intro h; simp at h)
    | sqlite => exact iff_of_false (by intro h; cases h) (by intro h; simp at h)

/-- C70 for the options of a SELECT: MySQL accepts all of them, PostgreSQL and SQLite exactly if only `all` or
`distinct` are in force. -/
theorem C70_words_partial (hf : Fits cx d) (n k : Nat) (ops : List SelectOp) (t : Str)
    (h : NoRaw cx.backend.quote .stmt (.select (runOps (selectStep cx (sem cx k)) {} ops)))
    (e : (sem cx n).str (.select (runOps (selectStep cx (sem cx k)) {} ops)) = .ok t) :
    wordsAccepted cx.backend (lex d t) = true ↔
      (cx.backend = .postgresql ∨ cx.backend = .sqlite →
        ∀ o : SelOpt, (latest (saysOption o) ops).getD false = true → o = .all ∨ o = .distinct) := by
  obtain ⟨m, hs, part⟩ := select_clauses hf h e
  have ho : ∀ o, (latest (saysOption o) ops).getD false =
      (runOps (selectStep cx (sem cx k)) {} ops).opts.isOn o := fun o => (options_latest cx (sem cx k) ops o).symm
  simp only [ho]
  generalize runOps (selectStep cx (sem cx k)) {} ops = q at *
  have hsel := part (w := L!"SELECT") (o := some _) (.head _)
  have hhead : ∀ w ∈ selectWords, (columnsToks cx (toks cx d m) q.columns).head? ≠ some (.word w) := fun w hw =>
    (g_quiet (ws := selectWords) (by decide) (g_columns (phrases_sem cx d m) hs.1) trivial trivial).head hw
  have hdw := dropWhile_words (us := sortBy strLe q.opts.words)
    (fun u hu => words_mem q.opts ((sortBy_perm strLe q.opts.words).mem_iff.mp hu)) hhead
  have hopt : optionWords (lex d t) = words (sortBy strLe q.opts.words) := by
    unfold optionWords
    rw [hsel]
    exact hdw.1
  have key : ((optionWords (lex d t)).all fun t => t = .word L!"ALL" || t = .word L!"DISTINCT") = true ↔
      ∀ o : SelOpt, q.opts.isOn o = true → o = .all ∨ o = .distinct := by
    rw [hopt, SelectOptions.sorted_words, List.all_eq_true]
    constructor
    · intro hall o hon
      have hm : o ∈ SelOpt.sorted := by cases o <;> decide
      have := hall (.word o.word) (List.mem_map_of_mem (List.mem_map_of_mem (List.mem_filter.mpr ⟨hm, hon⟩)))
      revert this
      clear hon hm
      cases o <;> decide
    · intro hall x hx
      obtain ⟨w, hw, rfl⟩ := List.mem_map.mp hx
      obtain ⟨o, ho, rfl⟩ := List.mem_map.mp hw
      rcases hall o (List.mem_filter.mp ho).2 with rfl | rfl <;> decide
  unfold wordsAccepted
  cases hb : cx.backend <;> simp only [key, reduceCtorEq, or_false, or_true, forall_const,
    IsEmpty.forall_iff, or_self]

/-! ### INSERT -/

/-- What `on_duplicate_key_update` may change. -/
private theorem onDuplicate_cases (S : Sem) (q : Insert) (a : Args) : ∃ r c r' b,
    (onDuplicateKeyUpdate cx S q a).1 = { q with onDup := r, conflict := c, onConflict := r', isReplace := b } ∧
    (cx.backend ≠ .mysql → r = q.onDup) ∧ (cx.backend ≠ .postgresql → r' = q.onConflict) ∧
    (cx.backend ≠ .sqlite → b = q.isReplace) := by
  have same : ∃ r c r' b, q = { q with onDup := r, conflict := c, onConflict := r', isReplace := b } ∧
      (cx.backend ≠ .mysql → r = q.onDup) ∧ (cx.backend ≠ .postgresql → r' = q.onConflict) ∧
      (cx.backend ≠ .sqlite → b = q.isReplace) :=
    ⟨q.onDup, q.conflict, q.onConflict, q.isReplace, rfl, fun _ => rfl, fun _ => rfl, fun _ => rfl⟩
  unfold onDuplicateKeyUpdate
  split
  · exact same
  · cases hb : cx.backend <;> simp only [Backend.supportsOnDuplicateKeyUpdate, Backend.supportsOnConflictDoUpdate,
      Backend.supportsReplaceInto, if_true, Bool.false_eq_true, if_false] <;> rw [hb] at same
    · exact same
    · cases valuesSet cx S q.onDup a with
      | mk r e =>
        cases e <;> exact ⟨r, q.conflict, q.onConflict, q.isReplace, rfl, fun h => absurd rfl h, fun _ => rfl,
          fun _ => rfl⟩
    · have hset : ∃ c r, (onConflictSet cx S q a).1 = { q with conflict := c, onConflict := r } := by
        unfold onConflictSet
        split
        · exact ⟨q.conflict, q.onConflict, rfl⟩
        · split
          · exact ⟨_, _, rfl⟩
          · exact ⟨q.conflict, q.onConflict, rfl⟩
      obtain ⟨c, r, hset⟩ := hset
      cases he : onConflictSet cx S q a with
      | mk q' e =>
        rw [he] at hset
        cases e <;> exact ⟨q.onDup, c, r, q.isReplace, hset, fun _ => rfl, fun h => absurd rfl h, fun _ => rfl⟩
    · split
      · exact same
      · exact ⟨q.onDup, q.conflict, q.onConflict, true, rfl, fun _ => rfl, fun _ => rfl, fun h => absurd rfl h⟩

private theorem ignore_latest (S : Sem) (ops : List InsertOp) :
    (runOps (insertStep cx S) {} ops).ignore = (latest saysIgnore ops).getD false := by
  refine runOps_latest (step := insertStep cx S) (f := InsertS.ignore) (tells := saysIgnore) (fun q o => ?_) {} ops
  cases o with
  | str =>
    show (insertStr cx S q).1.ignore = q.ignore
    unfold insertStr; split <;> rfl
  | values a =>
    show (insertStep cx S q (.values a)).1.ignore = q.ignore
    simp only [insertStep]
    split <;> rfl
  | onDuplicateKeyUpdate a =>
    obtain ⟨r, c, r', b, h, _⟩ := onDuplicate_cases (cx := cx) S q a
    show (onDuplicateKeyUpdate cx S q a).1.ignore = q.ignore
    rw [h]
  | _ => rfl

/-- What the calls on an INSERT never use on some backends. -/
private theorem insert_kept (S : Sem) (ops : List InsertOp) (q : Insert)
    (hq : (cx.backend ≠ .mysql → q.onDup = []) ∧ (cx.backend ≠ .postgresql → q.onConflict = []) ∧
      (cx.backend ≠ .sqlite → q.isReplace = false)) :
    (cx.backend ≠ .mysql → (runOps (insertStep cx S) q ops).onDup = []) ∧
    (cx.backend ≠ .postgresql → (runOps (insertStep cx S) q ops).onConflict = []) ∧
    (cx.backend ≠ .sqlite → (runOps (insertStep cx S) q ops).isReplace = false) := by
  induction ops generalizing q with
  | nil => exact hq
  | cons op ops ih =>
    refine ih _ ?_
    cases op with
    | str =>
      show (_ → (insertStr cx S q).1.onDup = _) ∧ (_ → (insertStr cx S q).1.onConflict = _) ∧
        (_ → (insertStr cx S q).1.isReplace = _)
      unfold insertStr; split <;> exact hq
    | values a =>
      simp only [insertStep]
      split <;> exact hq
    | onDuplicateKeyUpdate a =>
      obtain ⟨r, c, r', b, h, h1, h2, h3⟩ := onDuplicate_cases (cx := cx) S q a
      show (_ → (onDuplicateKeyUpdate cx S q a).1.onDup = _) ∧ (_ → (onDuplicateKeyUpdate cx S q a).1.onConflict = _) ∧
        (_ → (onDuplicateKeyUpdate cx S q a).1.isReplace = _)
      rw [h]
      exact ⟨fun h => (h1 h).trans (hq.1 h), fun h => (h2 h).trans (hq.2.1 h), fun h => (h3 h).trans (hq.2.2 h)⟩
    | into t => exact hq
    | ignore t => exact hq

/-- The conflict clause in force on PostgreSQL. -/
private theorem conflict_uses (n : Nat) (hb : cx.backend = .postgresql) (ops : List InsertOp)
    (uses : List (List (Obj × Obj))) (hg : List.Forall₂ ConflictPairs ops uses)
    (hp : ∀ ps ∈ uses, ∀ p ∈ ps, ExactAssignment p) :
    (runOps (insertStep cx (sem cx (n + 1))) {} ops).onConflict = [] ↔ uses.flatten = [] := by
  have hf : FirstUses (uses.flatten.map fun p => (.value p.1 p.2 : Value))
      (runOps (insertStep cx (sem cx (n + 1))) {} ops).onConflict := by
    refine history_uses (f := InsertS.onConflict) (P := PlainValue) (E := ExactAssignment)
      (Gives := ConflictPairs) ?_ hg hp {} [] .nil (by simp)
    intro q op ps given h he hs hf
    have skip : ∀ q' : Insert, q'.onConflict = q.onConflict → ps = [] →
        FirstUses (given ++ ps.map fun p => (.value p.1 p.2 : Value)) q'.onConflict ∧
          ∀ c ∈ q'.onConflict, PlainValue c := by
      rintro q' h2 rfl
      rw [h2, List.map_nil, List.append_nil]
      exact ⟨hf, hs⟩
    cases op with
    | onDuplicateKeyUpdate a =>
      obtain ⟨c, rest, h0, h⟩ := h
      have hk : kwSelf a = false := (givesPairs_parse h (sem cx (n + 1))).2
      have := values_step cx n h he hs hf
      have e : (insertStep cx (sem cx (n + 1)) q (.onDuplicateKeyUpdate a)).1.onConflict =
          (valuesSet cx (sem cx (n + 1)) q.onConflict { a with pos := rest }).1 := by
        simp only [insertStep, onDuplicateKeyUpdate, onConflictSet, hk, hb, h0, Backend.supportsOnDuplicateKeyUpdate,
          Backend.supportsOnConflictDoUpdate, Backend.supportsReplaceInto, Bool.false_eq_true, if_false, if_true]
        cases valuesSet cx (sem cx (n + 1)) q.onConflict { a with pos := rest } with
        | mk r e => cases e <;> rfl
      rw [e]
      exact this
    | str =>
      refine skip _ ?_ h
      show (insertStr cx _ q).1.onConflict = _
      unfold insertStr; split <;> rfl
    | values a =>
      refine skip _ ?_ h
      simp only [insertStep]
      split <;> rfl
    | _ => exact skip _ rfl h
  constructor
  · intro e
    rw [e] at hf
    cases hu : uses.flatten with
    | nil => rfl
    | cons p ps =>
      rw [hu] at hf
      have := (hf.mem_iff (.value p.1 p.2)).mpr (by simp)
      cases this
  · intro e
    rw [e] at hf
    cases hu : (runOps (insertStep cx (sem cx (n + 1))) {} ops).onConflict with
    | nil => rfl
    | cons p ps =>
      rw [hu] at hf
      have := (hf.mem_iff p).mp (by simp)
      cases this

/-- C70 for INSERT: MySQL accepts the statement after any calls, SQLite exactly if `ignore` is not in force, and
PostgreSQL exactly if `ignore` is not in force and `on_duplicate_key_update` was given nothing to assign.  On
PostgreSQL the calls give strings and scalar values. -/
theorem C70_insert_partial (hf : Fits cx d) (n k : Nat) (ops : List InsertOp) (t : Str)
    (h : NoRaw cx.backend.quote .stmt (.insert (runOps (insertStep cx (sem cx (k + 1))) {} ops)))
    (e : (sem cx n).str (.insert (runOps (insertStep cx (sem cx (k + 1))) {} ops)) = .ok t) :
    (cx.backend = .mysql → insertAccepted cx.backend (lex d t) = true) ∧
    (cx.backend = .sqlite →
      (insertAccepted cx.backend (lex d t) = true ↔ (latest saysIgnore ops).getD false = false)) ∧
    (cx.backend = .postgresql → ∀ uses, List.Forall₂ ConflictPairs ops uses →
      (∀ ps ∈ uses, ∀ p ∈ ps, ExactAssignment p) →
      (insertAccepted cx.backend (lex d t) = true ↔
        (latest saysIgnore ops).getD false = false ∧ uses.flatten = [])) := by
  have hi := ignore_latest (cx := cx) (sem cx (k + 1)) ops
  obtain ⟨k1, k2, k3⟩ := insert_kept (cx := cx) (sem cx (k + 1)) ops {} ⟨fun _ => rfl, fun _ => rfl, fun _ => rfl⟩
  have hu := conflict_uses (cx := cx) k
  rw [← hi]
  have hu : cx.backend = .postgresql → ∀ uses, List.Forall₂ ConflictPairs ops uses →
      (∀ ps ∈ uses, ∀ p ∈ ps, ExactAssignment p) →
      ((runOps (insertStep cx (sem cx (k + 1))) {} ops).onConflict = [] ↔ uses.flatten = []) :=
    fun hb uses => hu hb ops uses
  generalize runOps (insertStep cx (sem cx (k + 1))) {} ops = q at *
  obtain ⟨m, hs, _, r⟩ := stmt_level hf h e
  have hs : safeInsert cx.backend.quote (Safe cx.backend.quote m) q := hs
  have hr : toks cx d (m + 1) (.insert q) = insertToks cx (sem cx m) d (toks cx d m) q := rfl
  rw [r, hr]
  have ih := phrases_sem cx d m
  have hdup := insert_duplicate (cx := cx) (S := sem cx m) (d := d) ih hs
  have hcon := insert_conflict (cx := cx) (S := sem cx m) (d := d) ih hs
  have hrep : ((insertToks cx (sem cx m) d (toks cx d m) q).head? = some (.word L!"REPLACE")) ↔ q.isReplace = true := by
    show (some (Tok.word (if q.isReplace then L!"REPLACE" else L!"INSERT")) = _) ↔ _
    cases q.isReplace
    · exact iff_of_false (by decide) (by simp)
    · exact iff_of_true rfl rfl
  have hign : ((insertToks cx (sem cx m) d (toks cx d m) q).tail.head? = some (.word L!"IGNORE")) ↔ q.ignore = true := by
    unfold insertToks
    rw [List.tail_cons]
    cases q.ignore
    · exact iff_of_false (by
        rw [show optToks false (words [L!"IGNORE"]) = [] from rfl, List.nil_append, List.head?_cons]
        decide) (by simp)
    · exact iff_of_true rfl rfl
  have hconf : q.onConflict ≠ [] → conflictAccepted (afterAt L!"CONFLICT" 0
      (insertToks cx (sem cx m) d (toks cx d m) q)) = false := by
    intro hc
    rw [hcon, if_neg hc]
    exact conflict_refused ih hs hc _
  refine ⟨fun hb => ?_, fun hb => ?_, fun hb uses hg hp => ?_⟩
  · have e3 := k3 (by rw [hb]; decide)
    have e2 := k2 (by rw [hb]; decide)
    rw [if_pos e2] at hcon
    unfold insertAccepted
    rw [hb]
    simp only [hrep, hcon, e3, Bool.false_eq_true, decide_false, Bool.false_and, Bool.not_false, decide_true,
      Bool.and_self]
  · have e2 := k2 (by rw [hb]; decide)
    have e1 := hdup.mpr (k1 (by rw [hb]; decide))
    rw [if_pos e2] at hcon
    unfold insertAccepted
    rw [hb]
    simp only [hign, hcon, e1]
    cases q.ignore <;> decide
  · have e1 := hdup.mpr (k1 (by rw [hb]; decide))
    have e3 := k3 (by rw [hb]; decide)
    rw [← hu hb uses hg hp]
    unfold insertAccepted
    rw [hb]
    simp only [hrep, hign, e1, e3]
    by_cases hc : q.onConflict = []
    · rw [hcon, if_pos hc]
      simp only [hc]
      cases q.ignore <;> decide
    · have hne : afterAt L!"CONFLICT" 0 (insertToks cx (sem cx m) d (toks cx d m) q) ≠ [] := by
        rw [hcon, if_neg hc]; simp [paren]
      simp only [hc, hconf hc, hne]
      cases q.ignore <;> decide

end

/-! ### The claim fails -/

private def pg : Ctx := ⟨.postgresql, env0⟩
private def my : Ctx := ⟨.mysql, env0⟩
private def lite : Ctx := ⟨.sqlite, env0⟩

/-- `select('a').from_('t')` and more calls. -/
private def asked (ops : List SelectOp) : List SelectOp :=
  .columns { pos := [.str L!"a"] } :: .from_ { pos := [.str L!"t"] } :: ops

/-- `insert_into('t').values(a=1)` and more calls. -/
private def inserted (ops : List InsertOp) : List InsertOp :=
  .into (.str L!"t") :: .values { kw := [(L!"a", .int 1)] } :: ops

/-- `select('a').from_('t').offset(5)` on MySQL has `OFFSET` without `LIMIT`. -/
theorem C70_refuted : ¬ C70_claim := by
  intro ⟨h, _⟩
  have := h my mysqlDialect 4 (asked [.offset (.int 5)]) L!"SELECT `a` FROM `t` OFFSET 5" rfl
    ⟨6, by decide +kernel⟩ (by decide +kernel)
  revert this
  decide +kernel

/-- The claim about INSERT fails as well: `insert_into('t').values(a=1).on_duplicate_key_update('a', b=2)` on
PostgreSQL has `DO UPDATE` without `SET`. -/
theorem C70_refuted_insert : ¬ ∀ (cx : Ctx) (d : Dialect) (n : Nat) (ops : List InsertOp) (t : Str), Fits cx d →
    NoRaw cx.backend.quote .stmt (.insert (runOps (insertStep cx (sem cx n)) {} ops)) →
    (sem cx (n + 1)).str (.insert (runOps (insertStep cx (sem cx n)) {} ops)) = .ok t →
    insertAccepted cx.backend (lex d t) = true := by
  intro h
  have := h pg standardDialect 4
    (inserted [.onDuplicateKeyUpdate { pos := [.str L!"a"], kw := [(L!"b", .int 2)] }])
    L!"INSERT INTO \"t\" (\"a\") VALUES (1) ON CONFLICT (\"a\") DO UPDATE \"b\" = 2" rfl
    ⟨6, by decide +kernel⟩ (by decide +kernel)
  revert this
  decide +kernel

/-! ### Calls that meet the hypotheses, with both outcomes -/

example : NoRaw '`' .stmt (.select (runOps (selectStep my (sem my 4)) {} (asked [.offset (.int 5), .limit (.int 3) .none,
      .outfile .file (.str L!"f"), .outfile .fields (.str L!";"), .outfile .enclosed (.str L!"x"),
      .option .sqlCache (.bool true), .forUpdate (.bool true)]))) ∧
    (sem my 5).str (.select (runOps (selectStep my (sem my 4)) {} (asked [.offset (.int 5), .limit (.int 3) .none,
      .outfile .file (.str L!"f"), .outfile .fields (.str L!";"), .outfile .enclosed (.str L!"x"),
      .option .sqlCache (.bool true), .forUpdate (.bool true)]))) =
    .ok (L!"SELECT SQL_CACHE `a` FROM `t` LIMIT 3 OFFSET 5 INTO OUTFILE 'f' FIELDS TERMINATED BY ';' " ++
      L!"OPTIONALLY ENCLOSED BY 'x' FOR UPDATE") ∧
    selectAccepted .mysql (lex mysqlDialect
      (L!"SELECT SQL_CACHE `a` FROM `t` LIMIT 3 OFFSET 5 INTO OUTFILE 'f' FIELDS TERMINATED BY ';' " ++
      L!"OPTIONALLY ENCLOSED BY 'x' FOR UPDATE")) = true ∧
    selectAccepted .mysql (lex mysqlDialect
      (L!"SELECT `a` FROM `t` INTO OUTFILE 'f' FIELDS TERMINATED BY ';' LINES TERMINATED BY 'n' " ++
      L!"OPTIONALLY ENCLOSED BY 'x'")) = false :=
  ⟨⟨6, by decide +kernel⟩, by decide +kernel, by decide +kernel, by decide +kernel⟩

example : NoRaw '"' .stmt (.select (runOps (selectStep lite (sem lite 4)) {} (asked [.limit (.int (-1)) (.int 2),
      .option .distinct (.bool true)]))) ∧
    (sem lite 5).str (.select (runOps (selectStep lite (sem lite 4)) {} (asked [.limit (.int (-1)) (.int 2),
      .option .distinct (.bool true)]))) = .ok L!"SELECT DISTINCT \"a\" FROM \"t\" LIMIT -1 OFFSET 2" ∧
    selectAccepted .sqlite (lex standardDialect L!"SELECT DISTINCT \"a\" FROM \"t\" LIMIT -1 OFFSET 2") = true ∧
    selectAccepted .postgresql (lex standardDialect L!"SELECT DISTINCT \"a\" FROM \"t\" LIMIT -1 OFFSET 2") = false ∧
    selectAccepted .sqlite (lex standardDialect L!"SELECT \"a\" FROM \"t\" FOR UPDATE") = false ∧
    selectAccepted .postgresql (lex standardDialect L!"SELECT HIGH_PRIORITY \"a\" FROM \"t\"") = false :=
  ⟨⟨6, by decide +kernel⟩, by decide +kernel, by decide +kernel, by decide +kernel, by decide +kernel,
    by decide +kernel⟩

private theorem oneB : GivesPairs { pos := [], kw := [(L!"b", .int 2)] } [(.str L!"b", .int 2)] :=
  .usual (ps := []) (qs := [(.str L!"b", .int 2)]) .nothing
    ⟨[(L!"b", .int 2)], .refl _, List.pairwise_singleton _ _, rfl⟩ (by simp [KwFree])

example : List.Forall₂ ConflictPairs (inserted [.onDuplicateKeyUpdate { pos := [.str L!"a"], kw := [(L!"b", .int 2)] }])
      [[], [], [(.str L!"b", .int 2)]] ∧ ExactAssignment (.str L!"b", .int 2) :=
  ⟨.cons rfl (.cons rfl (.cons ⟨_, _, rfl, oneB⟩ .nil)), by simp [ExactAssignment, ExactScalar]⟩

example : NoRaw '"' .stmt (.insert (runOps (insertStep lite (sem lite 4)) {}
      (inserted [.ignore (.bool true), .onDuplicateKeyUpdate {}, .ignore (.bool false)]))) ∧
    (sem lite 5).str (.insert (runOps (insertStep lite (sem lite 4)) {}
      (inserted [.ignore (.bool true), .onDuplicateKeyUpdate {}, .ignore (.bool false)]))) =
      .ok L!"REPLACE INTO \"t\" (\"a\") VALUES (1)" ∧
    insertAccepted .sqlite (lex standardDialect L!"REPLACE INTO \"t\" (\"a\") VALUES (1)") = true ∧
    insertAccepted .postgresql (lex standardDialect L!"REPLACE INTO \"t\" (\"a\") VALUES (1)") = false ∧
    insertAccepted .sqlite (lex standardDialect L!"INSERT IGNORE INTO \"t\" (\"a\") VALUES (1)") = false ∧
    insertAccepted .postgresql (lex standardDialect
      L!"INSERT INTO \"t\" (\"a\") VALUES (1) ON CONFLICT (\"a\") DO UPDATE SET \"b\" = 2") = true :=
  ⟨⟨6, by decide +kernel⟩, by decide +kernel, by decide +kernel, by decide +kernel, by decide +kernel,
    by decide +kernel⟩

end SqlPuzzle
