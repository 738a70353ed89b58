import Verif.Proofs.Accepted
import Verif.Proofs.Changes
import Verif.Proofs.RenderCalls
import Verif.Props.Assign
import Verif.Spec.Inserted

/-!
Reading an INSERT.
-/

namespace SqlPuzzle

open Spec

section
variable {cx : Ctx} {S : Sem} {d : Dialect} {T : Obj → List Tok} {P : Kind → Obj → Prop}

private def verb (q : Insert) : List Tok :=
  .word (if q.isReplace then L!"REPLACE" else L!"INSERT") :: optToks q.ignore (words [L!"IGNORE"])

/-- The columns of an INSERT as they are read. -/
def insertNames (cx : Ctx) (q : Insert) : List (List Tok) :=
  (insertColumns q.rows).map fun c => refToks (refParts cx.backend.quote c)

private def dup : List Tok := words [L!"ON", L!"DUPLICATE", L!"KEY", L!"UPDATE"]

/-- The tokens of an INSERT into one table, cut into clauses. -/
private theorem insert_shape {q : Insert} {name : Str} (hq : q.tables = [⟨.str name, .none, []⟩]) (hne : q.rows ≠ [])
    (h2 : q.onConflict = []) : insertToks cx S d T q =
      verb q ++ (.word L!"INTO" :: ((refToks (refParts cx.backend.quote name) ++ paren (commas (insertNames cx q))) ++
        (.word L!"VALUES" :: (commas (q.rows.map (rowToks cx d T (insertColumns q.rows))) ++
          assignsToks cx d T dup q.onDup)))) := by
  unfold insertToks
  rw [h2, hq, tablesToks_one]
  unfold rowsToks
  have : q.rows.isEmpty = false := by simpa using hne
  rw [this]
  simp only [assignsToks_nil, List.append_nil, optToks, verb, insertNames, dup, Bool.not_false, if_true, List.cons_append,
    List.append_assoc]

private theorem quiet_verb {ws : List Str} (h0 : ∀ w ∈ [L!"REPLACE", L!"INSERT", L!"IGNORE"], w ∉ ws) (q : Insert) :
    Quiet ws (verb q) := by
  refine .word ?_ (quiet_ignore (h0 _ (by decide)) _)
  split
  · exact h0 _ (by decide)
  · exact h0 _ (by decide)

/-- What a server reads in an INSERT of rows into one table. -/
theorem insert_order (ih : Phrases T P) {q : Insert} (h : safeInsert cx.backend.quote P q) {name : Str}
    (hq : q.tables = [⟨.str name, .none, []⟩]) (hne : q.rows ≠ []) (h2 : q.onConflict = [])
    {V : Type} (sv : Server V) :
    readInsert sv (insertToks cx S d T q) =
      { replace := q.isReplace, ignore := q.ignore, table := refToks (refParts cx.backend.quote name),
        rows := q.rows.map fun r => newTuple sv (insertNames cx q)
          ((insertColumns q.rows).map fun c => valToks cx d T (lookupValue c r)),
        updates := q.onDup.filterMap fun v => readAssignment sv (assignToks cx d T v) } := by
  have hrows := h.2.1
  obtain ⟨_, hc, hsafe⟩ := insertColumns_spec hrows hne
  have gcols : ∀ x ∈ insertNames cx q, G .expr x := by
    intro x hx
    obtain ⟨c, hc, rfl⟩ := List.mem_map.mp hx
    exact .name (refParts_ne (hsafe c hc).1 (hsafe c hc).2)
  have gvals : ∀ r ∈ q.rows, ∀ x ∈ (insertColumns q.rows).map fun c => valToks cx d T (lookupValue c r), G .expr x := by
    intro r hr x hx
    obtain ⟨c, _, rfl⟩ := List.mem_map.mp hx
    exact g_val ih (safe_lookup c (hrows r hr).2)
  have ecols : insertNames cx q ≠ [] := by simpa [insertNames] using hc
  have evals : ∀ r, (insertColumns q.rows).map (fun c => valToks cx d T (lookupValue c r)) ≠ [] := by
    intro r; simpa using hc
  have qcols : ∀ ws, Quiet ws (paren (commas (insertNames cx q))) := fun ws =>
    quiet_paren (g_built (c := .list .expr) (g_list ecols gcols) (by fine))
  have qrows : ∀ ws, Quiet ws (commas (q.rows.map (rowToks cx d T (insertColumns q.rows)))) := fun ws => by
    refine quiet_commas ?_
    intro x hx
    obtain ⟨r, hr, rfl⟩ := List.mem_map.mp hx
    exact quiet_paren (g_built (c := .list .expr) (g_list (evals r) (gvals r hr)) (by fine))
  have sdup : Starts insertClauses (assignsToks cx d T dup q.onDup) := starts_opt (w := L!"ON") (by decide)
  have e := insert_shape (S := S) (d := d) (T := T) (cx := cx) hq hne h2
  have einto : clauseBody insertClauses L!"INTO" (insertToks cx S d T q) =
      refToks (refParts cx.backend.quote name) ++ paren (commas (insertNames cx q)) := by
    rw [e]
    exact clauseBody_eq (by decide) (quiet_verb (by decide) q) ((quiet_names _).append (qcols _))
      (.inr ⟨L!"VALUES", by decide, rfl⟩)
  have evalues : clauseBody insertClauses L!"VALUES" (insertToks cx S d T q) =
      commas (q.rows.map (rowToks cx d T (insertColumns q.rows))) := by
    have hA : Quiet [L!"VALUES"] (verb q ++ (.word L!"INTO" :: (refToks (refParts cx.backend.quote name) ++
        paren (commas (insertNames cx q))))) :=
      (quiet_verb (by decide) q).append (.word (by decide) ((quiet_names _).append (qcols _)))
    have := clauseBody_eq (ws := insertClauses) (by decide) hA (qrows _) sdup
    simp only [List.append_assoc, List.cons_append] at this
    rw [e]
    simp only [List.append_assoc]
    exact this
  have eon : afterAt L!"ON" 0 (insertToks cx S d T q) = if q.onDup = [] then [] else
      words [L!"DUPLICATE", L!"KEY", L!"UPDATE"] ++ commas (q.onDup.map (assignToks cx d T)) := by
    have hA : Quiet [L!"ON"] (verb q ++ (.word L!"INTO" :: (refToks (refParts cx.backend.quote name) ++
        (paren (commas (insertNames cx q)) ++
        (.word L!"VALUES" :: commas (q.rows.map (rowToks cx d T (insertColumns q.rows)))))))) :=
      (quiet_verb (by decide) q).append (.word (by decide) ((quiet_names _).append ((qcols _).append
        (.word (by decide) (qrows _)))))
    have := afterAt_skip (r := assignsToks cx d T dup q.onDup) hA
    simp only [List.append_assoc, List.cons_append] at this
    rw [e]
    simp only [List.append_assoc]
    rw [this]
    unfold assignsToks
    by_cases hd : q.onDup = []
    · rw [if_pos hd, hd]; rfl
    · have hd' : q.onDup.isEmpty = false := by simpa using hd
      rw [if_neg hd, hd']
      exact afterAt_here
  have hinside : ∀ rs : List (List Value), (∀ r ∈ rs, r ∈ q.rows) →
      (rs.map (rowToks cx d T (insertColumns q.rows))).filterMap inside =
        rs.map fun r => commas ((insertColumns q.rows).map fun c => valToks cx d T (lookupValue c r)) := by
    intro rs hrs
    induction rs with
    | nil => rfl
    | cons r rs ihr =>
      rw [List.map_cons, List.filterMap_cons_some (b := commas ((insertColumns q.rows).map fun c =>
        valToks cx d T (lookupValue c r))), ihr fun r hr => hrs r (List.mem_cons_of_mem _ hr), List.map_cons]
      exact inside_paren (g_built (g_list (evals r) (gvals r (hrs r List.mem_cons_self))) (by fine))
  obtain ⟨t1, t2⟩ := takeWhile_open (r := commas (insertNames cx q) ++ [.sym ')'])
    (refToks_open (refParts cx.backend.quote name))
  unfold readInsert
  rw [einto, evalues, eon, InsertOrder.mk.injEq]
  refine ⟨?_, ?_, t1, ?_, ?_⟩
  · rw [Bool.eq_iff_iff, decide_eq_true_iff, e]
    show some (Tok.word (if q.isReplace then L!"REPLACE" else L!"INSERT")) = _ ↔ _
    cases q.isReplace <;> decide
  · rw [Bool.eq_iff_iff, decide_eq_true_iff, e]
    show (optToks q.ignore _ ++ _).head? = _ ↔ _
    cases hr : q.ignore <;> simp [optToks, words]
  · unfold readColumns
    have t2' : (refToks (refParts cx.backend.quote name) ++ paren (commas (insertNames cx q))).dropWhile
      (fun t => !(t = .sym '(' : Bool)) = paren (commas (insertNames cx q)) := t2
    rw [t2', inside_paren (g_built (g_list ecols gcols) (by fine))]
    unfold commas
    rw [pieces_joinT (by simpa using hne) ?_ (by decide) (by decide), hinside q.rows fun _ h => h, List.map_map]
    · refine List.map_congr_left fun r hr => ?_
      show newTuple sv (pieces _ (joinT _ _)) (pieces _ (joinT _ _)) = _
      rw [pieces_joinT ecols (fun x hx => (expr_facts (by decide) (gcols x hx)).1) (by decide) (by decide),
        pieces_joinT (evals r) (fun x hx => (expr_facts (by decide) (gvals r hr x hx)).1) (by decide) (by decide)]
    · intro x hx
      obtain ⟨r, hr, rfl⟩ := List.mem_map.mp hx
      exact whole_paren (g_built (g_list (evals r) (gvals r hr)) (by fine))
  · by_cases hd : q.onDup = []
    · rw [if_pos hd, hd]; rfl
    · rw [if_neg hd]
      unfold readUpdates
      rw [if_pos (by rfl)]
      have hp := pieces_assigns (d := d) ih hd h.2.2.1
      have ha : assignsToks cx d T [] q.onDup = commas (q.onDup.map (assignToks cx d T)) := by
        unfold assignsToks
        have hd' : q.onDup.isEmpty = false := by simpa using hd
        rw [hd']
        rfl
      rw [ha] at hp
      show List.filterMap _ (pieces _ (commas _)) = _
      rw [hp, List.filterMap_map]
      rfl

end

/-! ### Histories of calls on an INSERT -/

theorem forUpd_unfit (cx : Ctx) (S : Sem) {row : Row} (h : ¬∀ p ∈ row, Fit .setValue p.2) (vs : List Value) :
    (forUpd (addPair cx S) vs (row.map fun p => [.str p.1, p.2])).2 ≠ none := by
  induction row generalizing vs with
  | nil => exact absurd (fun p hp => by cases hp) h
  | cons p row ih =>
    rw [List.map_cons]
    unfold forUpd
    by_cases hp : Fit .setValue p.2
    · have h' : ¬∀ p ∈ row, Fit .setValue p.2 := fun h' => h fun q hq => by
        rcases List.mem_cons.mp hq with rfl | hq
        · exact hp
        · exact h' q hq
      split
      · exact ih h' _
      · simp
    · have : (addPair cx S vs [.str p.1, p.2]).2 ≠ none := by
        have hc : ∃ e, checkType valueTypes p.2 = .error e := by
          cases hc : checkType valueTypes p.2 with
          | ok u => exact absurd ((check_value p.2).mp hc) hp
          | error e => exact ⟨e, rfl⟩
        obtain ⟨e, hc⟩ := hc
        have hm : mkValue (.str p.1) p.2 = .error e := by
          simp only [mkValue, hc]
          rfl
        show (withR vs (mkValue (.str p.1) p.2) _).2 ≠ none
        rw [hm]
        simp [withR]
      split
      · rename_i e
        rw [e] at this
        exact absurd rfl this
      · simp

theorem addedRow_given (cx : Ctx) (n : Nat) {op : InsertOp} {rs : List Row} (h : RowGiven op rs) :
    (addedRow cx (sem cx (n + 1)) op).toList = rs.map rowOf := by
  cases op with
  | values a =>
    obtain ⟨row, hg, hn, rfl⟩ := h
    obtain ⟨hp, hk⟩ := givesPairs_parse hg (sem cx (n + 1))
    have hv := valuesSet_eq cx (sem cx (n + 1)) hk (givesPairs_custom hg) hp
    have e : rows2 (row.map fun p => ((.str p.1 : Obj), p.2)) = row.map fun p => [.str p.1, p.2] := by
      simp [rows2]
    rw [e] at hv
    simp only [addedRow, hk, Bool.false_eq_true, if_false, hv]
    by_cases hf : ∀ p ∈ row, Fit .setValue p.2
    · have h1 := valuesSet_row cx n [] row hf (by simpa using hn)
      rw [if_pos hf]
      have h1 : forUpd (addPair cx (sem cx (n + 1))) [] (row.map fun p => [.str p.1, p.2]) = (rowOf row, none) := h1
      rw [h1]
      rfl
    · have h1 := forUpd_unfit cx (sem cx (n + 1)) hf []
      rw [if_neg hf]
      split
      · rename_i e
        rw [e] at h1
        exact absurd rfl h1
      · rfl
  | _ =>
    have h : rs = [] := h
    subst h
    rfl

theorem run_rows (cx : Ctx) (n : Nat) {ops : List InsertOp} {rowss : List (List Row)}
    (h : List.Forall₂ RowGiven ops rowss) (q : Insert) :
    (runOps (insertStep cx (sem cx (n + 1))) q ops).rows = q.rows ++ rowss.flatten.map rowOf := by
  induction h generalizing q with
  | nil => simp [runOps]
  | cons h1 _ ih =>
    rw [runOps_cons, ih, insertStep_rows, addedRow_given cx n h1, List.flatten_cons, List.map_append,
      List.append_assoc]

/-- What a call leaves as it is. -/
theorem step_rest (cx : Ctx) (S : Sem) {op : InsertOp} (hi : ∀ t, op ≠ .into t)
    (hb : cx.backend = .postgresql → ∀ a, op ≠ .onDuplicateKeyUpdate a) {q : Insert}
    (hj : ∀ t ∈ q.tables, t.joins = []) :
    (insertStep cx S q op).1.tables = q.tables ∧ (insertStep cx S q op).1.onConflict = q.onConflict ∧
    (insertStep cx S q op).1.ignore = (match op with | .ignore a => a.truthy | _ => q.ignore) ∧
    (insertStep cx S q op).1.isReplace = (q.isReplace || replaceGiven cx.backend [op]) := by
  cases op with
  | into t => exact absurd rfl (hi t)
  | values a =>
    simp only [insertStep]
    split <;> exact ⟨rfl, rfl, rfl, by simp [replaceGiven, Upd.map]⟩
  | ignore a => exact ⟨rfl, rfl, rfl, by simp [replaceGiven, insertStep]⟩
  | str =>
    simp only [insertStep, insertStr]
    split
    · exact ⟨rfl, rfl, rfl, by simp [replaceGiven]⟩
    · exact ⟨RenderCalls.noJoins_str cx S hj, rfl, rfl, by simp [replaceGiven]⟩
  | onDuplicateKeyUpdate a =>
    have hk : kwSelf a = true → a.kw.isEmpty = false := by
      intro h
      cases hz : a.kw with
      | nil => simp [kwSelf, hz] at h
      | cons => rfl
    simp only [insertStep, onDuplicateKeyUpdate, replaceGiven, List.any_cons, List.any_nil, Bool.or_false]
    split
    · rename_i h
      rw [hk h]
      exact ⟨rfl, rfl, rfl, by simp⟩
    · cases hc : cx.backend with
      | postgresql => exact absurd rfl (hb hc a)
      | mysql =>
        simp only [Backend.supportsOnDuplicateKeyUpdate, Backend.supportsOnConflictDoUpdate,
          Backend.supportsReplaceInto]
        cases hv : valuesSet cx S q.onDup a with
        | mk r e => cases e <;> exact ⟨rfl, rfl, rfl, by simp [Upd.map]⟩
      | sqlite =>
        simp only [Backend.supportsOnDuplicateKeyUpdate, Backend.supportsOnConflictDoUpdate,
          Backend.supportsReplaceInto]
        cases hp : a.pos.isEmpty <;> cases hw : a.kw.isEmpty <;> exact ⟨rfl, rfl, rfl, by simp⟩
      | sql => exact ⟨rfl, rfl, rfl, by simp [Backend.supportsOnDuplicateKeyUpdate,
          Backend.supportsOnConflictDoUpdate, Backend.supportsReplaceInto]⟩

theorem run_rest (cx : Ctx) (S : Sem) {ops : List InsertOp} (hi : ∀ op ∈ ops, ∀ t, op ≠ .into t)
    (hb : cx.backend = .postgresql → ∀ op ∈ ops, ∀ a, op ≠ .onDuplicateKeyUpdate a) {q : Insert}
    (hj : ∀ t ∈ q.tables, t.joins = []) :
    (runOps (insertStep cx S) q ops).tables = q.tables ∧ (runOps (insertStep cx S) q ops).onConflict = q.onConflict ∧
    (runOps (insertStep cx S) q ops).isReplace = (q.isReplace || replaceGiven cx.backend ops) := by
  induction ops generalizing q with
  | nil => exact ⟨rfl, rfl, by simp [runOps, replaceGiven]⟩
  | cons op ops ih =>
    obtain ⟨h1, h2, _, h4⟩ := step_rest cx S (hi op (by simp)) (fun h => hb h op (by simp)) hj
    obtain ⟨i1, i2, i3⟩ := ih (fun op h => hi op (by simp [h])) (fun h op h' => hb h op (by simp [h']))
      (q := (insertStep cx S q op).1) (by rw [h1]; exact hj)
    rw [runOps_cons]
    refine ⟨i1.trans h1, i2.trans h2, ?_⟩
    rw [i3, h4]
    simp only [replaceGiven, List.any_cons, List.any_nil, Bool.or_false, Bool.or_assoc, Bool.and_or_distrib_left]

theorem run_ignore (cx : Ctx) (S : Sem) {ops : List InsertOp} (hi : ∀ op ∈ ops, ∀ t, op ≠ .into t)
    (hb : cx.backend = .postgresql → ∀ op ∈ ops, ∀ a, op ≠ .onDuplicateKeyUpdate a) {q : Insert}
    (hj : ∀ t ∈ q.tables, t.joins = []) (h0 : q.ignore = false) :
    (runOps (insertStep cx S) q ops).ignore = ignoreGiven ops := by
  induction ops using List.reverseRecOn with
  | nil => exact h0
  | append_singleton ops op ih =>
    have hi' : ∀ op ∈ ops, ∀ t, op ≠ .into t := fun op h => hi op (by simp [h])
    have hb' : cx.backend = .postgresql → ∀ op ∈ ops, ∀ a, op ≠ .onDuplicateKeyUpdate a :=
      fun h op h' => hb h op (by simp [h'])
    obtain ⟨h1, _⟩ := run_rest cx S hi' hb' hj
    obtain ⟨_, _, h3, _⟩ := step_rest cx S (hi op (by simp)) (fun h => hb h op (by simp))
      (q := runOps (insertStep cx S) q ops) (by rw [h1]; exact hj)
    rw [runOps_append, runOps_cons]
    show (insertStep cx S (runOps (insertStep cx S) q ops) op).1.ignore = _
    rw [h3, ih hi' hb']
    unfold ignoreGiven
    rw [List.filterMap_append]
    cases op <;> simp

theorem run_updates (cx : Ctx) (n : Nat) {ops : List InsertOp} {dups : List (List (Obj × Obj))}
    (hg : List.Forall₂ DuplicatePairs ops dups) (hp : ∀ ps ∈ dups, ∀ p ∈ ps, ExactAssignment p)
    {q : Insert} (h0 : q.onDup = []) :
    ∃ kept, FirstUses (if cx.backend = .mysql then dups.flatten else []) kept ∧
      (runOps (insertStep cx (sem cx (n + 1))) q ops).onDup = kept.map fun p => .value p.1 p.2 := by
  by_cases hb : cx.backend = .mysql
  · rw [if_pos hb]
    have hf : FirstUses ([] ++ dups.flatten.map fun p => (.value p.1 p.2 : Value))
        (runOps (insertStep cx (sem cx (n + 1))) q ops).onDup := by
      refine history_uses (f := InsertS.onDup) (P := PlainValue) (E := ExactAssignment)
        (Gives := DuplicatePairs) ?_ hg hp q [] (by rw [h0]; exact .nil) (by simp [h0])
      intro q op ps given h he hs hf
      have skip : ∀ q' : Insert, q'.onDup = q.onDup → ps = [] →
          FirstUses (given ++ ps.map fun p => (.value p.1 p.2 : Value)) q'.onDup ∧ ∀ c ∈ q'.onDup, PlainValue c := by
        rintro q' h2 rfl
        rw [h2, List.map_nil, List.append_nil]
        exact ⟨hf, hs⟩
      cases op with
      | onDuplicateKeyUpdate a =>
        have h : GivesPairs a ps := h
        have hk : kwSelf a = false := (givesPairs_parse h (sem cx (n + 1))).2
        have := values_step cx n h he hs hf
        have e : (insertStep cx (sem cx (n + 1)) q (.onDuplicateKeyUpdate a)).1.onDup =
            (valuesSet cx (sem cx (n + 1)) q.onDup a).1 := by
          simp only [insertStep, onDuplicateKeyUpdate, hk, hb, Backend.supportsOnDuplicateKeyUpdate,
            Backend.supportsOnConflictDoUpdate, Backend.supportsReplaceInto]
          cases hv : valuesSet cx (sem cx (n + 1)) q.onDup a with
          | mk r e => cases e <;> rfl
        rw [e]
        exact this
      | str =>
        refine skip _ ?_ h
        show (insertStr cx _ q).1.onDup = _
        unfold insertStr; split <;> rfl
      | values a =>
        refine skip _ ?_ h
        simp only [insertStep]
        split <;> rfl
      | _ => exact skip _ rfl h
    exact kept_pairs hf
  · rw [if_neg hb]
    refine ⟨[], .nil, ?_⟩
    rw [List.map_nil, ← h0]
    clear hg hp h0
    induction ops generalizing q with
    | nil => rfl
    | cons op ops ih =>
      rw [runOps_cons, ih]
      cases op with
      | onDuplicateKeyUpdate a =>
        have hs : cx.backend.supportsOnDuplicateKeyUpdate = false := by
          cases hc : cx.backend <;> first | rfl | exact absurd hc hb
        simp only [insertStep, onDuplicateKeyUpdate, hs, Bool.false_eq_true, if_false]
        split
        · rfl
        · split
          · rename_i e
            split at e
            · unfold onConflictSet at e
              split at e
              · cases e; rfl
              · split at e
                · simp only [Upd.map, Prod.mk.injEq] at e
                  rw [← e.1]
                · cases e; rfl
            · cases e
          · rename_i e
            have : ∀ q2, (if cx.backend.supportsOnConflictDoUpdate = true then onConflictSet cx (sem cx (n + 1)) q a
                else (q, none)) = (q2, none) → q2.onDup = q.onDup := by
              intro q2 e
              split at e
              · unfold onConflictSet at e
                split at e
                · cases e
                · split at e
                  · simp only [Upd.map, Prod.mk.injEq] at e
                    rw [← e.1]
                  · cases e
              · cases e; rfl
            have := this _ e
            split
            · split <;> exact this
            · exact this
      | str =>
        show (insertStr cx _ q).1.onDup = _
        unfold insertStr; split <;> rfl
      | values a =>
        simp only [insertStep]
        split <;> rfl
      | _ => rfl

end SqlPuzzle
