import Verif.Proofs.Answers
import Verif.Proofs.Settings
import Verif.Spec.Accepted

/-!
The clauses of SELECT and INSERT that databases accept or not.
-/

namespace SqlPuzzle

open Spec

theorem intToks_ne (i : Int) : intToks i ≠ [] := by
  cases i <;> simp [intToks]

/-- A clause with a number is readable iff the number has no sign. -/
theorem number_ok {i : Option Int} :
    (match (i.map intToks).getD [] with
      | [] => some none
      | [.num s] => (readNat s).map some
      | _ => none : Option (Option Nat)).isSome = true ↔ ∀ k, i = some k → 0 ≤ k := by
  cases i with
  | none => simp
  | some k =>
    cases k with
    | ofNat n =>
      have : (match ((some (Int.ofNat n)).map intToks).getD [] with
        | [] => some none
        | [.num s] => (readNat s).map some
        | _ => none : Option (Option Nat)) = (readNat (natText n)).map some := rfl
      rw [this, readNat_natText]
      simp
    | negSucc n =>
      constructor
      · intro h; cases h
      · intro h; exact absurd (h _ rfl) (by simp)

/-- Tokens without a word of `ws` outside parentheses do not begin with one. -/
theorem Quiet.head {ws : List Str} {ts : List Tok} (h : Quiet ws ts) {w : Str} (hw : w ∈ ws) :
    ts.head? ≠ some (.word w) := by
  cases ts with
  | nil => simp
  | cons t ts =>
    intro e
    cases e
    have := h 0 []
    rw [List.append_nil, clausesAt_hit hw] at this
    cases this

theorem quiet_commas {ws : List Str} {xs : List (List Tok)} (h : ∀ x ∈ xs, Quiet ws x) : Quiet ws (commas xs) := by
  induction xs with
  | nil => exact quiet_nil
  | cons x xs ih =>
    cases xs with
    | nil => exact h x (by simp)
    | cons y ys =>
      exact (h x (by simp)).append (.cons (by decide) (by decide) (by simp)
        (ih fun z hz => h z (List.mem_cons_of_mem _ hz)))

section
variable {cx : Ctx} {S : Sem} {d : Dialect} {T : Obj → List Tok} {P : Kind → Obj → Prop}

theorem quiet_rows (ih : Phrases T P) {ws : List Str} (hv : L!"VALUES" ∉ ws) {rows : List (List Value)}
    (h : ∀ r ∈ rows, safeRow cx.backend.quote P r) : Quiet ws (rowsToks cx d T rows) := by
  unfold rowsToks
  by_cases hne : rows = []
  · subst hne; exact quiet_nil
  · obtain ⟨_, hc, hs⟩ := insertColumns_spec h hne
    have : rows.isEmpty = false := by simpa using hne
    rw [this]
    refine (quiet_paren (g_built (c := .list .expr) (g_list (by simpa using hc) ?_) (by fine))).append
      (.word hv (quiet_commas ?_))
    · intro x hx
      obtain ⟨c, hc, rfl⟩ := List.mem_map.mp hx
      exact .name (refParts_ne (hs c hc).1 (hs c hc).2)
    · intro x hx
      obtain ⟨r, hr, rfl⟩ := List.mem_map.mp hx
      refine quiet_paren (g_built (c := .list .expr) (g_list (by simpa using hc) ?_) (by fine))
      intro y hy
      obtain ⟨c, _, rfl⟩ := List.mem_map.mp hy
      exact g_val ih (safe_lookup c (h r hr).2)

/-- The beginning of an INSERT. -/
def insertHead (cx : Ctx) (S : Sem) (d : Dialect) (T : Obj → List Tok) (q : Insert) : List Tok :=
  .word (if q.isReplace then L!"REPLACE" else L!"INSERT") ::
    (optToks q.ignore (words [L!"IGNORE"]) ++ (.word L!"INTO" :: (tablesToks cx S d T [] q.tables ++
      rowsToks cx d T q.rows)))

theorem quiet_insertHead (ih : Phrases T P) {ws : List Str} (hw : ∀ w ∈ ws, w ∉ innerWords)
    (h0 : ∀ w ∈ [L!"REPLACE", L!"INSERT", L!"IGNORE", L!"INTO", L!"VALUES"], w ∉ ws) {q : Insert}
    (h : safeInsert cx.backend.quote P q) : Quiet ws (insertHead cx S d T q) := by
  refine .word ?_ (Quiet.append ?_ (.word (h0 _ (by decide)) ((quiet_tables ih hw h.1).append
    (quiet_rows ih (h0 _ (by decide)) h.2.1))))
  · split
    · exact h0 _ (by decide)
    · exact h0 _ (by decide)
  · cases q.ignore
    · exact quiet_nil
    · exact quiet_words (by
        intro w hm
        rw [List.mem_singleton.mp hm]
        exact h0 _ (by decide))

theorem afterAt_skip {w : Str} {a r : List Tok} (h : Quiet [w] a) : afterAt w 0 (a ++ r) = afterAt w 0 r := by
  have f := h.facts (List.mem_singleton_self _)
  rw [afterAt_split (List.mem_singleton_self _) _ _ 0 f.1, f.2]

theorem afterAt_here {w : Str} {r : List Tok} : afterAt w 0 (.word w :: r) = r := by
  conv => lhs; unfold afterAt
  rw [if_neg (by simp), if_neg (by simp), if_pos ⟨rfl, rfl⟩]

/-- The clause for duplicates of an INSERT. -/
theorem insert_duplicate (ih : Phrases T P) {q : Insert} (h : safeInsert cx.backend.quote P q) :
    (afterAt L!"DUPLICATE" 0 (insertToks cx S d T q) = [] ↔ q.onDup = []) := by
  have hw : ∀ w ∈ [L!"DUPLICATE"], w ∉ innerWords := by decide
  have e : insertToks cx S d T q = insertHead cx S d T q ++
      (assignsToks cx d T (words [L!"ON", L!"DUPLICATE", L!"KEY", L!"UPDATE"]) q.onDup ++
       assignsToks cx d T (words [L!"ON", L!"CONFLICT"] ++
        (paren (refToks (refParts cx.backend.quote (q.conflict.getD []))) ++ words [L!"DO", L!"UPDATE"])) q.onConflict) := by
    simp only [insertToks, insertHead, List.cons_append, List.append_assoc]
  rw [e, afterAt_skip (quiet_insertHead ih hw (by decide) h)]
  by_cases hd : q.onDup = []
  · have hq : Quiet [L!"DUPLICATE"] (assignsToks cx d T (words [L!"ON", L!"CONFLICT"] ++
        (paren (refToks (refParts cx.backend.quote (q.conflict.getD []))) ++ words [L!"DO", L!"UPDATE"])) q.onConflict) := by
      unfold assignsToks
      by_cases hc : q.onConflict = []
      · rw [hc]; exact quiet_nil
      · have : q.onConflict.isEmpty = false := by simpa using hc
        rw [this]
        exact ((quiet_words (by decide)).append ((quiet_paren (built_names _)).append (quiet_words (by decide)))).append
          (g_quiet hw (g_assignList ih (d := d) hc h.2.2.2.1) (by fine) trivial)
    rw [hd, assignsToks_nil, List.nil_append, afterAt_quiet hq]
    exact ⟨fun _ => rfl, fun _ => rfl⟩
  · have : q.onDup.isEmpty = false := by simpa using hd
    simp only [hd, iff_false]
    unfold assignsToks
    rw [this]
    have : words [L!"ON", L!"DUPLICATE", L!"KEY", L!"UPDATE"] = [.word L!"ON"] ++ (.word L!"DUPLICATE" ::
      words [L!"KEY", L!"UPDATE"]) := rfl
    simp only [Bool.not_false, optToks, if_true, this, List.append_assoc]
    rw [afterAt_skip (Quiet.word (by decide) quiet_nil), List.cons_append, afterAt_here]
    simp [words]

/-- The clause for conflicts of an INSERT. -/
theorem insert_conflict (ih : Phrases T P) {q : Insert} (h : safeInsert cx.backend.quote P q) :
    afterAt L!"CONFLICT" 0 (insertToks cx S d T q) = if q.onConflict = [] then [] else
      paren (refToks (refParts cx.backend.quote (q.conflict.getD []))) ++ (words [L!"DO", L!"UPDATE"] ++
        commas (q.onConflict.map (assignToks cx d T))) := by
  have hw : ∀ w ∈ [L!"CONFLICT"], w ∉ innerWords := by decide
  have e : insertToks cx S d T q = insertHead cx S d T q ++
      (assignsToks cx d T (words [L!"ON", L!"DUPLICATE", L!"KEY", L!"UPDATE"]) q.onDup ++
       assignsToks cx d T (words [L!"ON", L!"CONFLICT"] ++
        (paren (refToks (refParts cx.backend.quote (q.conflict.getD []))) ++ words [L!"DO", L!"UPDATE"])) q.onConflict) := by
    simp only [insertToks, insertHead, List.cons_append, List.append_assoc]
  rw [e, afterAt_skip (quiet_insertHead ih hw (by decide) h)]
  have hq : Quiet [L!"CONFLICT"] (assignsToks cx d T (words [L!"ON", L!"DUPLICATE", L!"KEY", L!"UPDATE"]) q.onDup) := by
    unfold assignsToks
    by_cases hc : q.onDup = []
    · rw [hc]; exact quiet_nil
    · have : q.onDup.isEmpty = false := by simpa using hc
      rw [this]
      exact (quiet_words (by decide)).append (g_quiet hw (g_assignList ih (d := d) hc h.2.2.1) (by fine) trivial)
  rw [afterAt_skip hq]
  by_cases hc : q.onConflict = []
  · rw [hc, assignsToks_nil, if_pos rfl]; rfl
  · have : q.onConflict.isEmpty = false := by simpa using hc
    rw [if_neg hc]
    unfold assignsToks
    have e2 : words [L!"ON", L!"CONFLICT"] = [.word L!"ON"] ++ [.word L!"CONFLICT"] := rfl
    simp only [this, Bool.not_false, optToks, if_true, e2, List.append_assoc]
    rw [afterAt_skip (Quiet.word (by decide) quiet_nil), List.singleton_append, afterAt_here]

/-- No database accepts the clause for conflicts. -/
theorem conflict_refused (ih : Phrases T P) {q : Insert} (h : safeInsert cx.backend.quote P q)
    (hc : q.onConflict ≠ []) (ps : List Str) :
    conflictAccepted (paren (refToks ps) ++ (words [L!"DO", L!"UPDATE"] ++
        commas (q.onConflict.map (assignToks cx d T)))) = false := by
  have hhead : (commas (q.onConflict.map (assignToks cx d T))).head? ≠ some (.word L!"SET") :=
    (g_quiet (ws := [L!"SET"]) (by decide) (g_assignList ih (d := d) hc h.2.2.2.1) (by fine) trivial).head (by simp)
  have : paren (refToks ps) ++ (words [L!"DO", L!"UPDATE"] ++ commas (q.onConflict.map (assignToks cx d T))) =
      .sym '(' :: (refToks ps ++ (.sym ')' :: (words [L!"DO", L!"UPDATE"] ++
        commas (q.onConflict.map (assignToks cx d T))))) := by simp [paren]
  rw [this]
  show (match closing 0 _ with
    | some (_, .word a :: .word b :: .word c :: _) => _
    | _ => false) = false
  rw [closing_built (built_names ps)]
  generalize commas (q.onConflict.map (assignToks cx d T)) = r at hhead
  have hcl : closing 0 (.sym ')' :: (words [L!"DO", L!"UPDATE"] ++ r)) = some ([], words [L!"DO", L!"UPDATE"] ++ r) := by
    simp [closing]
  rw [hcl]
  cases r with
  | nil => rfl
  | cons t r =>
    cases t with
    | word w =>
      have : w ≠ L!"SET" := fun e => hhead (by rw [e]; rfl)
      show (L!"DO" = L!"DO" && L!"UPDATE" = L!"UPDATE" && decide (w = L!"SET")) = false
      simp only [this, decide_false, Bool.and_false]
    | _ => rfl

end

end SqlPuzzle
