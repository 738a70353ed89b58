import Verif.Proofs.ClauseBody
import Verif.Proofs.TruthTree
import Verif.Spec.Effects

/-!
The parts of UPDATE, DELETE and INSERT that a server reads.
-/

namespace SqlPuzzle

open Spec

theorem afterAt_quiet {w : Str} {A : List Tok} (hA : Quiet [w] A) : afterAt w 0 A = [] := by
  have a := hA.facts (List.mem_singleton_self w)
  have := afterAt_split (ws := [w]) (List.mem_singleton_self w) A [] 0 a.1
  rw [List.append_nil] at this
  rw [this]
  unfold afterAt
  rfl

/-- A clause that is not there has no contents. -/
theorem clauseBody_none {ws : List Str} {w : Str} {A : List Tok} (hA : Quiet [w] A) :
    clauseBody ws w A = [] := by
  unfold clauseBody
  rw [afterAt_quiet hA]
  rfl

section
variable {cx : Ctx} {S : Sem} {d : Dialect} {T : Obj → List Tok} {P : Kind → Obj → Prop}

theorem assignsToks_nil {kw : List Tok} : assignsToks cx d T kw [] = [] := rfl

theorem condsToks_nil {w : Str} : condsToks cx d T [w] [] = [] := rfl

theorem starts_conds {ws : List Str} {w : Str} {ps : List Cond} (hw : w ∈ ws) :
    Starts ws (condsToks cx d T [w] ps) := starts_opt hw

theorem quiet_ignore {ws : List Str} (h : L!"IGNORE" ∉ ws) (b : Bool) :
    Quiet ws (optToks b (words [L!"IGNORE"])) := by
  cases b
  · exact quiet_nil
  · exact quiet_words (by simpa using h)

theorem quiet_tables (ih : Phrases T P) {ws : List Str} (hw : ∀ w ∈ ws, w ∉ innerWords) {ts : List Table}
    (h : ∀ t ∈ ts, safeTable cx.backend.quote P t) : Quiet ws (tablesToks cx S d T [] ts) :=
  g_quiet hw (g_tables ih (S := S) (d := d) [] h) (by fine) ⟨by simp [words], trivial⟩

theorem quiet_assigns (ih : Phrases T P) {ws : List Str} (hw : ∀ w ∈ ws, w ∉ innerWords) {vs : List Value}
    (h : ∀ v ∈ vs, safeAssign cx.backend.quote P v) : Quiet ws (assignsToks cx d T [] vs) :=
  g_quiet hw (g_assigns ih (d := d) [] h) (by fine) ⟨by simp, trivial⟩

theorem set_update (ih : Phrases T P) {q : Update} (h : safeUpdate cx.backend.quote P q) :
    clauseBody updateClauses L!"SET" (updateToks cx S d T q) = assignsToks cx d T [] q.values := by
  have hA : Quiet [L!"SET"] (.word L!"UPDATE" :: (optToks q.ignore (words [L!"IGNORE"]) ++
      tablesToks cx S d T [] q.tables)) :=
    .word (by decide) ((quiet_ignore (by decide) _).append (quiet_tables ih (by decide) h.1))
  have := clauseBody_eq (ws := updateClauses) (by decide) hA (quiet_assigns (d := d) ih (by decide) h.2.1)
    (starts_conds (cx := cx) (d := d) (T := T) (w := L!"WHERE") (ps := q.where_) (by decide))
  rw [← this]
  unfold updateToks
  simp

theorem table_update (ih : Phrases T P) {q : Update} (h : safeUpdate cx.backend.quote P q) :
    clauseBody updateClauses L!"UPDATE" (updateToks cx S d T q) =
      optToks q.ignore (words [L!"IGNORE"]) ++ tablesToks cx S d T [] q.tables := by
  have := clauseBody_eq (ws := updateClauses) (w := L!"UPDATE") (A := [])
    (C := .word L!"SET" :: (assignsToks cx d T [] q.values ++ condsToks cx d T [L!"WHERE"] q.where_))
    (by decide) quiet_nil ((quiet_ignore (by decide) q.ignore).append
      (quiet_tables (S := S) (d := d) ih (by decide) h.1)) (.inr ⟨L!"SET", by decide, rfl⟩)
  rw [← this]
  unfold updateToks
  simp

theorem nowhere_update (ih : Phrases T P) {q : Update} (h : safeUpdate cx.backend.quote P q)
    (hw : q.where_ = []) : clauseBody updateClauses L!"WHERE" (updateToks cx S d T q) = [] := by
  refine clauseBody_none ?_
  unfold updateToks
  rw [hw, condsToks_nil, List.append_nil]
  exact .word (by decide) ((quiet_ignore (by decide) _).append ((quiet_tables ih (by decide) h.1).append
    (.word (by decide) (quiet_assigns ih (by decide) h.2.1))))

theorem from_delete (ih : Phrases T P) {q : Delete} (h : safeDelete cx.backend.quote P q) :
    clauseBody deleteClauses L!"FROM" (deleteToks cx S d T q) = tablesToks cx S d T [] q.references := by
  have hA : Quiet [L!"FROM"] (.word L!"DELETE" :: (optToks q.ignore (words [L!"IGNORE"]) ++
      tablesToks cx S d T [] q.tables)) :=
    .word (by decide) ((quiet_ignore (by decide) _).append (quiet_tables ih (by decide) h.1))
  have := clauseBody_eq (ws := deleteClauses) (by decide) hA
    (quiet_tables (S := S) (d := d) ih (by decide) h.2.1)
    (starts_conds (cx := cx) (d := d) (T := T) (w := L!"WHERE") (ps := q.where_) (by decide))
  rw [← this]
  unfold deleteToks
  simp

theorem nowhere_delete (ih : Phrases T P) {q : Delete} (h : safeDelete cx.backend.quote P q)
    (hw : q.where_ = []) : clauseBody deleteClauses L!"WHERE" (deleteToks cx S d T q) = [] := by
  refine clauseBody_none ?_
  unfold deleteToks
  rw [hw, condsToks_nil, List.append_nil]
  exact .word (by decide) ((quiet_ignore (by decide) _).append ((quiet_tables ih (by decide) h.1).append
    (.word (by decide) (quiet_tables ih (by decide) h.2.1))))

/-- The tokens of a single table without alias and joins. -/
theorem tablesToks_one {name : Str} :
    tablesToks cx S d T [] [⟨.str name, .none, []⟩] = refToks (refParts cx.backend.quote name) := by
  have e : keptJoins cx S ⟨.str name, .none, []⟩ = [] := rfl
  simp [tablesToks, tableToks, e, aliasedToks, refToksOf, optToks, words, commas, joinT, Obj.truthy]

/-- The assignments that a server reads. -/
theorem pieces_assigns (ih : Phrases T P) {vs : List Value} (hne : vs ≠ [])
    (h : ∀ v ∈ vs, safeAssign cx.backend.quote P v) :
    pieces (.sym ',') (assignsToks cx d T [] vs) = vs.map (assignToks cx d T) := by
  have e : assignsToks cx d T [] vs = joinT [.sym ','] (vs.map (assignToks cx d T)) := by
    unfold assignsToks
    have : vs.isEmpty = false := by simpa using hne
    rw [this]
    rfl
  rw [e]
  refine pieces_joinT (by simpa using hne) ?_ (by decide) (by decide)
  intro x hx
  obtain ⟨v, hv, rfl⟩ := List.mem_map.mp hx
  have hs := h v hv
  cases v with
  | item o => exact hs.elim
  | value c v =>
    exact (expr_facts (by decide) (g_ref ih hs.1)).1.append (.cons (by decide) (by decide) (by decide)
      (expr_facts (by decide) (g_val ih hs.2)).1)

theorem pieces_assign (ih : Phrases T P) {c v : Obj} (h : safeAssign cx.backend.quote P (.value c v)) :
    pieces (.op L!"=") (assignToks cx d T (.value c v)) = [refToksOf cx T c, valToks cx d T v] := by
  show pieces _ (refToksOf cx T c ++ (.op L!"=" :: valToks cx d T v)) = _
  rw [(expr_facts (by decide) (g_ref ih h.1)).1.cut (by decide) (by decide),
    (expr_facts (by decide) (g_val ih h.2)).1.one]

theorem refToks_open (ps : List Str) : ∀ t ∈ refToks ps, t ≠ .sym '(' := by
  have hseg : ∀ p, segmentTok p ≠ .sym '(' := by
    intro p
    unfold segmentTok
    split <;> simp
  induction ps with
  | nil => intro t ht; cases ht
  | cons p ps ih =>
    cases ps with
    | nil =>
      intro t ht
      rw [List.mem_singleton.mp ht]
      exact hseg p
    | cons p' ps =>
      intro t ht
      rcases List.mem_cons.mp ht with rfl | ht
      · exact hseg p
      · rcases List.mem_cons.mp ht with rfl | ht
        · simp
        · exact ih t ht

theorem takeWhile_open {A r : List Tok} (h : ∀ t ∈ A, t ≠ .sym '(') :
    (A ++ .sym '(' :: r).takeWhile (fun t => !(t = .sym '(' : Bool)) = A ∧
    (A ++ .sym '(' :: r).dropWhile (fun t => !(t = .sym '(' : Bool)) = .sym '(' :: r := by
  induction A with
  | nil => exact ⟨rfl, rfl⟩
  | cons t A ih =>
    obtain ⟨h1, h2⟩ := ih fun t ht => h t (List.mem_cons_of_mem _ ht)
    have : (!(decide (t = Tok.sym '('))) = true := by simp [h t List.mem_cons_self]
    constructor
    · rw [List.cons_append, List.takeWhile_cons, if_pos this, h1]
    · rw [List.cons_append, List.dropWhile_cons, if_pos this, h2]

/-- What a server does with an INSERT of rows. -/
theorem insert_read (ih : Phrases T P) {q : Insert} (h : safeInsert cx.backend.quote P q) {name : Str}
    (hq : q.tables = [⟨.str name, .none, []⟩]) (hne : q.rows ≠ []) (h1 : q.onDup = []) (h2 : q.onConflict = [])
    {V : Type} (sv : Server V) (db : Database V) :
    carryOutInsert sv (insertToks cx S d T q) db = fun tb =>
      if tb = refToks (refParts cx.backend.quote name) then
        db tb ++ q.rows.map fun r =>
          newTuple sv ((insertColumns q.rows).map fun c => refToks (refParts cx.backend.quote c))
            ((insertColumns q.rows).map fun c => valToks cx d T (lookupValue c r))
      else db tb := by
  have hrows := h.2.1
  obtain ⟨_, hc, hsafe⟩ := insertColumns_spec hrows hne
  have gcols : ∀ x ∈ (insertColumns q.rows).map fun c => refToks (refParts cx.backend.quote c), G .expr x := by
    intro x hx
    obtain ⟨c, hc, rfl⟩ := List.mem_map.mp hx
    exact .name (refParts_ne (hsafe c hc).1 (hsafe c hc).2)
  have gvals : ∀ r ∈ q.rows, ∀ x ∈ (insertColumns q.rows).map fun c => valToks cx d T (lookupValue c r), G .expr x := by
    intro r hr x hx
    obtain ⟨c, _, rfl⟩ := List.mem_map.mp hx
    exact g_val ih (safe_lookup c (hrows r hr).2)
  have ecols : (insertColumns q.rows).map (fun c => refToks (refParts cx.backend.quote c)) ≠ [] := by simpa using hc
  have evals : ∀ r, (insertColumns q.rows).map (fun c => valToks cx d T (lookupValue c r)) ≠ [] := by
    intro r; simpa using hc
  -- the tokens after INTO
  have hshape : afterAt L!"INTO" 0 (insertToks cx S d T q) =
      refToks (refParts cx.backend.quote name) ++ .sym '(' ::
        (commas ((insertColumns q.rows).map fun c => refToks (refParts cx.backend.quote c)) ++ (.sym ')' ::
          (.word L!"VALUES" :: commas (q.rows.map (rowToks cx d T (insertColumns q.rows)))))) := by
    have hA : Quiet [L!"INTO"] (.word (if q.isReplace then L!"REPLACE" else L!"INSERT") ::
        optToks q.ignore (words [L!"IGNORE"])) := by
      refine .word ?_ (quiet_ignore (by decide) _)
      split <;> decide
    have a := hA.facts (List.mem_singleton_self _)
    have e : insertToks cx S d T q = (.word (if q.isReplace then L!"REPLACE" else L!"INSERT") ::
        optToks q.ignore (words [L!"IGNORE"])) ++ (.word L!"INTO" :: (tablesToks cx S d T [] q.tables ++
          rowsToks cx d T q.rows)) := by
      unfold insertToks
      rw [h1, h2]
      simp only [assignsToks_nil, List.append_nil, List.cons_append]
    rw [e, afterAt_split (List.mem_singleton_self _) _ _ 0 a.1, a.2]
    conv => lhs; unfold afterAt
    rw [if_neg (by simp), if_neg (by simp), if_pos ⟨rfl, rfl⟩, hq, tablesToks_one]
    unfold rowsToks
    have : q.rows.isEmpty = false := by simpa using hne
    rw [this]
    simp only [optToks, paren, Bool.not_false, if_true, List.cons_append, List.append_assoc, List.nil_append]
  obtain ⟨t1, t2⟩ := takeWhile_open (refToks_open (refParts cx.backend.quote name))
    (r := commas ((insertColumns q.rows).map fun c => refToks (refParts cx.backend.quote c)) ++ (.sym ')' ::
          (.word L!"VALUES" :: commas (q.rows.map (rowToks cx d T (insertColumns q.rows))))))
  have hclose : closing 0 (commas ((insertColumns q.rows).map fun c => refToks (refParts cx.backend.quote c)) ++
      (.sym ')' :: (.word L!"VALUES" :: commas (q.rows.map (rowToks cx d T (insertColumns q.rows)))))) =
      some (commas ((insertColumns q.rows).map fun c => refToks (refParts cx.backend.quote c)),
        .word L!"VALUES" :: commas (q.rows.map (rowToks cx d T (insertColumns q.rows)))) := by
    rw [closing_built (g_built (g_list ecols gcols) (by fine))]
    simp [closing]
  have hval : ∀ r : List Tok, afterAt L!"VALUES" 0 (.word L!"VALUES" :: r) = r := by
    intro r
    unfold afterAt
    rw [if_neg (by simp), if_neg (by simp), if_pos ⟨rfl, rfl⟩]
  have hrowPieces : pieces (.sym ',') (commas (q.rows.map (rowToks cx d T (insertColumns q.rows)))) =
      q.rows.map (rowToks cx d T (insertColumns q.rows)) := by
    refine pieces_joinT (by simpa using hne) ?_ (by decide) (by decide)
    intro x hx
    obtain ⟨r, hr, rfl⟩ := List.mem_map.mp hx
    exact whole_paren (g_built (g_list (evals r) (gvals r hr)) (by fine))
  have hinside : ∀ rs : List (List Value), (∀ r ∈ rs, r ∈ q.rows) →
      (rs.map (rowToks cx d T (insertColumns q.rows))).filterMap inside =
        rs.map fun r => commas ((insertColumns q.rows).map fun c => valToks cx d T (lookupValue c r)) := by
    intro rs hrs
    induction rs with
    | nil => rfl
    | cons r rs ihr =>
      rw [List.map_cons, List.filterMap_cons_some (b := commas ((insertColumns q.rows).map fun c =>
        valToks cx d T (lookupValue c r))), ihr fun r hr => hrs r (List.mem_cons_of_mem _ hr), List.map_cons]
      exact inside_paren (g_built (g_list (evals r) (gvals r (hrs r List.mem_cons_self))) (by fine))
  funext tb
  unfold carryOutInsert
  rw [hshape]
  dsimp only
  rw [t1, t2]
  dsimp only
  rw [hclose]
  dsimp only
  rw [hval, hrowPieces, hinside q.rows fun _ h => h, List.map_map]
  split
  · congr 1
    refine List.map_congr_left fun r hr => ?_
    show newTuple sv (pieces _ (commas _)) (pieces _ (commas _)) = _
    unfold commas
    rw [pieces_joinT ecols (fun x hx => (expr_facts (by decide) (gcols x hx)).1) (by decide) (by decide),
      pieces_joinT (evals r) (fun x hx => (expr_facts (by decide) (gvals r hr x hx)).1) (by decide) (by decide)]
  · rfl

end

end SqlPuzzle
