import Verif.Proofs.Effects
import Verif.Spec.Answers

/-!
The parts of a SELECT that a server reads.
-/

namespace SqlPuzzle

open Spec

/-- Clauses with their first words, written one after another; a clause may be missing. -/
def clausesFlat : List (Str × Option (List Tok)) → List Tok
  | [] => []
  | (_, none) :: cs => clausesFlat cs
  | (w, some b) :: cs => .word w :: (b ++ clausesFlat cs)

theorem clausesFlat_starts {ws : List Str} {cs : List (Str × Option (List Tok))} (hw : ∀ c ∈ cs, c.1 ∈ ws) :
    Starts ws (clausesFlat cs) := by
  induction cs with
  | nil => exact .inl rfl
  | cons c cs ih =>
    obtain ⟨w, o⟩ := c
    cases o with
    | none => exact ih fun c hc => hw c (List.mem_cons_of_mem _ hc)
    | some b => exact .inr ⟨w, hw _ List.mem_cons_self, rfl⟩

private theorem afterAt_skip {ws : List Str} {w w' : Str} (hw : w ∈ ws) (hne : w' ≠ w) {b r : List Tok}
    (hb : Quiet ws b) : afterAt w 0 (.word w' :: (b ++ r)) = afterAt w 0 r := by
  have h := hb.facts hw
  conv => lhs; unfold afterAt
  rw [if_neg (by simp), if_neg (by simp), if_neg (by simpa using hne), afterAt_split hw b r 0 h.1, h.2]

private theorem afterAt_absent {ws : List Str} {w : Str} (hw : w ∈ ws) {cs : List (Str × Option (List Tok))}
    (hq : ∀ c ∈ cs, ∀ b, c.2 = some b → Quiet ws b) (hn : ∀ c ∈ cs, c.1 ≠ w) :
    afterAt w 0 (clausesFlat cs) = [] := by
  induction cs with
  | nil => unfold clausesFlat afterAt; rfl
  | cons c cs ih =>
    have ih := ih (fun c hc => hq c (List.mem_cons_of_mem _ hc)) (fun c hc => hn c (List.mem_cons_of_mem _ hc))
    obtain ⟨w', o⟩ := c
    cases o with
    | none => exact ih
    | some b =>
      show afterAt w 0 (.word w' :: (b ++ clausesFlat cs)) = []
      rw [afterAt_skip hw (hn _ List.mem_cons_self) (hq _ List.mem_cons_self b rfl), ih]

/-- The contents of every clause. -/
theorem clauseBody_flat {ws : List Str} {cs : List (Str × Option (List Tok))} (hw : ∀ c ∈ cs, c.1 ∈ ws)
    (hd : (cs.map Prod.fst).Nodup) (hq : ∀ c ∈ cs, ∀ b, c.2 = some b → Quiet ws b) {w : Str}
    {o : Option (List Tok)} (h : (w, o) ∈ cs) : clauseBody ws w (clausesFlat cs) = o.getD [] := by
  unfold clauseBody
  induction cs with
  | nil => cases h
  | cons c cs ih =>
    have hww : w ∈ ws := hw _ h
    rw [List.map_cons, List.nodup_cons] at hd
    have hw' : ∀ c ∈ cs, c.1 ∈ ws := fun c hc => hw c (List.mem_cons_of_mem _ hc)
    have hq' : ∀ c ∈ cs, ∀ b, c.2 = some b → Quiet ws b := fun c hc => hq c (List.mem_cons_of_mem _ hc)
    rcases List.mem_cons.mp h with rfl | hm
    · have hn : ∀ c ∈ cs, c.1 ≠ w := fun c hc e => hd.1 (by
        have := List.mem_map_of_mem (f := Prod.fst) hc
        rwa [e] at this)
      cases o with
      | none =>
        show beforeAt ws 0 (afterAt w 0 (clausesFlat cs)) = []
        rw [afterAt_absent hww hq' hn]
        rfl
      | some b =>
        have hb := hq _ List.mem_cons_self b rfl
        have := clauseBody_eq (A := []) (w := w) (B := b) hww quiet_nil hb (clausesFlat_starts hw')
        exact this
    · have hn : c.1 ≠ w := fun e => hd.1 (by
        rw [e]
        exact List.mem_map_of_mem (f := Prod.fst) hm)
      obtain ⟨w', o'⟩ := c
      cases o' with
      | none => exact ih hw' hd.2 hq' hm
      | some b =>
        show beforeAt ws 0 (afterAt w 0 (.word w' :: (b ++ clausesFlat cs))) = _
        rw [afterAt_skip hww hn (hq _ List.mem_cons_self b rfl)]
        exact ih hw' hd.2 hq' hm

section
variable (cx : Ctx) (S : Sem) (d : Dialect) (T : Obj → List Tok)

def present {α : Type} (b : Bool) (x : α) : Option α := if b then some x else none

/-- What stands after `INTO`. -/
def exportToks (o : Outfile) (file : Obj) : List Tok :=
  .word L!"OUTFILE" :: (valToks cx d T file ++ (phraseToks cx d T [L!"FIELDS", L!"TERMINATED", L!"BY"] o.fields ++
    (phraseToks cx d T [L!"LINES", L!"TERMINATED", L!"BY"] o.lines ++
     phraseToks cx d T [L!"OPTIONALLY", L!"ENCLOSED", L!"BY"] o.enclosed)))

/-- The clauses of a SELECT. -/
def selectParts (q : Select) : List (Str × Option (List Tok)) :=
  [(L!"SELECT", some (words (sortBy strLe q.opts.words) ++ columnsToks cx T q.columns)),
   (L!"FROM", present (!q.tables.isEmpty) (tablesToks cx S d T [] q.tables)),
   (L!"WHERE", present (!q.where_.isEmpty) (conjToks cx d T q.where_)),
   (L!"GROUP", present (!q.groupBy.isEmpty) (.word L!"BY" :: commas (q.groupBy.map (orderToks cx T)))),
   (L!"HAVING", present (!q.having.isEmpty) (conjToks cx d T q.having)),
   (L!"ORDER", present (!q.orderBy.isEmpty) (.word L!"BY" :: commas (q.orderBy.map (orderToks cx T)))),
   (L!"LIMIT", q.limit.limit.map intToks), (L!"OFFSET", q.limit.offset.map intToks),
   (L!"INTO", q.outfile.file.map (exportToks cx d T q.outfile)),
   (L!"FOR", present q.forUpdate [.word L!"UPDATE"])]

private theorem flat_present {b : Bool} {w : Str} {x : List Tok} {cs : List (Str × Option (List Tok))} :
    clausesFlat ((w, present b x) :: cs) = optToks b (.word w :: x) ++ clausesFlat cs := by
  cases b <;> simp [present, clausesFlat, optToks]

private theorem flat_int {w : Str} {i : Option Int} {cs : List (Str × Option (List Tok))} :
    clausesFlat ((w, i.map intToks) :: cs) = intOptToks [w] i ++ clausesFlat cs := by
  cases i <;> simp [clausesFlat, intOptToks, words]

private theorem flat_file {o : Outfile} {cs : List (Str × Option (List Tok))} :
    clausesFlat ((L!"INTO", o.file.map (exportToks cx d T o)) :: cs) = outfileToks cx d T o ++ clausesFlat cs := by
  unfold outfileToks
  cases o.file with
  | none => rfl
  | some f => simp [clausesFlat, exportToks, optToks, phraseToks, words]

theorem selectToks_flat (q : Select) : selectToks cx S d T q = clausesFlat (selectParts cx S d T q) := by
  have ht : tablesToks cx S d T [L!"FROM"] q.tables =
      optToks (!q.tables.isEmpty) (.word L!"FROM" :: tablesToks cx S d T [] q.tables) := by
    unfold tablesToks
    cases q.tables <;> rfl
  unfold selectToks selectParts
  rw [ht]
  show _ = .word L!"SELECT" :: (_ ++ clausesFlat _)
  rw [flat_present, flat_present, flat_present, flat_present, flat_present, flat_int, flat_int, flat_file, flat_present]
  simp [condsToks, ordersToks, words, clausesFlat]

end

section
variable {cx : Ctx} {S : Sem} {d : Dialect} {T : Obj → List Tok} {P : Kind → Obj → Prop}

theorem quiet_int {ws : List Str} (i : Int) : Quiet ws (intToks i) := by
  have h1 : ∀ s, Quiet ws [.num s] := fun s n r => by
    cases n <;> simp [clausesAt]
  cases i with
  | ofNat n => exact h1 _
  | negSucc n => exact Quiet.append (ts := [.sym '-']) (fun n r => by cases n <;> simp [clausesAt]) (h1 _)

/-- The contents of a clause of a SELECT. -/
theorem select_part (ih : Phrases T P) {q : Select} (h : safeSelect cx.backend.quote P q)
    {w : Str} {o : Option (List Tok)}
    (hm : (w, o) ∈ selectParts cx S d T q) :
    clauseBody selectClauses w (selectToks cx S d T q) = o.getD [] := by
  obtain ⟨h1, h2, h3, h4, h5, h6, h7, h8, h9, h10⟩ := h
  have hw : ∀ w ∈ selectClauses, w ∉ innerWords := by decide
  rw [selectToks_flat cx S d T q]
  refine clauseBody_flat ?_ ?_ ?_ hm
  · intro c hc
    have : c.1 ∈ (selectParts cx S d T q).map Prod.fst := List.mem_map_of_mem hc
    exact this
  · show [L!"SELECT", L!"FROM", L!"WHERE", L!"GROUP", L!"HAVING", L!"ORDER", L!"LIMIT", L!"OFFSET", L!"INTO",
      L!"FOR"].Nodup
    decide
  · have hp : ∀ {b : Bool} {x y : List Tok}, (b = true → Quiet selectClauses x) → present b x = some y →
        Quiet selectClauses y := by
      intro b x y hx e
      cases b with
      | false => cases e
      | true => cases e; exact hx rfl
    have hopt : ∀ w ∈ sortBy strLe q.opts.words, w ∉ selectClauses := fun w hm => by
      have hm := words_mem q.opts ((sortBy_perm strLe q.opts.words).mem_iff.mp hm)
      exact (by decide : ∀ w ∈ selectWords, w ∉ selectClauses) w hm
    intro c hc b hb
    simp only [selectParts, List.mem_cons, List.not_mem_nil, or_false] at hc
    rcases hc with rfl | rfl | rfl | rfl | rfl | rfl | rfl | rfl | rfl | rfl
    · cases hb
      exact (quiet_words hopt).append (g_quiet hw (g_columns ih h1) trivial trivial)
    · exact hp (fun _ => quiet_tables ih hw h2) hb
    · exact hp (fun e => conds_quiet ih hw (by cases hq : q.where_ <;> simp_all) h3) hb
    · refine hp (fun e => .word (by decide) ?_) hb
      have := g_orders ih [L!"GROUP", L!"BY"] h4
      exact g_quiet hw (g_opt_inv this (by simp [words]) e) (by fine) trivial
    · exact hp (fun e => conds_quiet ih hw (by cases hq : q.having <;> simp_all) h5) hb
    · refine hp (fun e => .word (by decide) ?_) hb
      have := g_orders ih [L!"ORDER", L!"BY"] h6
      exact g_quiet hw (g_opt_inv this (by simp [words]) e) (by fine) trivial
    · cases hl : q.limit.limit <;> rw [hl] at hb <;> cases hb
      exact quiet_int _
    · cases hl : q.limit.offset <;> rw [hl] at hb <;> cases hb
      exact quiet_int _
    · cases hfile : q.outfile.file with
      | none => rw [hfile] at hb; cases hb
      | some v =>
        rw [hfile] at hb h7
        cases hb
        have p : ∀ (kw : List Str) {v : Option Obj}, safeOpt cx.backend.quote P v →
            PlainWords (words kw) → (∀ w ∈ selectClauses, .word w ∉ words kw) →
            Quiet selectClauses (phraseToks cx d T kw v) := fun kw v hv hk hk' =>
          g_quiet hw (g_phrase ih kw hv) ⟨hk, trivial, rfl⟩ ⟨hk', trivial⟩
        exact .word (by decide) ((g_quiet hw (g_val ih h7) trivial trivial).append
          ((p _ h8 (plainWords_words (by decide)) (by decide)).append
          ((p _ h9 (plainWords_words (by decide)) (by decide)).append
          (p _ h10 (plainWords_words (by decide)) (by decide)))))
    · exact hp (fun _ => .word (by decide) quiet_nil) hb

/-! ### Columns -/

theorem whole_ref {w : Str} : ∀ ps : List Str, Whole (.word w) (refToks ps)
  | [] => whole_nil _
  | [p] => by
    have h : segmentTok p ≠ .sym '(' ∧ segmentTok p ≠ .sym ')' ∧ segmentTok p ≠ .word w := by
      unfold segmentTok
      split <;> exact ⟨by simp, by simp, by simp⟩
    exact .cons h.1 h.2.1 h.2.2 (whole_nil _)
  | p :: p' :: ps => by
    have h : segmentTok p ≠ .sym '(' ∧ segmentTok p ≠ .sym ')' ∧ segmentTok p ≠ .word w := by
      unfold segmentTok
      split <;> exact ⟨by simp, by simp, by simp⟩
    exact .cons h.1 h.2.1 h.2.2 (.cons (by simp) (by simp) (by simp) (whole_ref (p' :: ps)))

theorem refToks_last {w : Str} : ∀ ps : List Str, (refToks ps).getLast? ≠ some (.word w)
  | [] => by simp [refToks]
  | [p] => by
    simp only [refToks, List.getLast?_singleton]
    unfold segmentTok
    split <;> simp
  | p :: p' :: ps => by
    have h := refToks_last (w := w) (p' :: ps)
    have hne : refToks (p' :: ps) ≠ [] := refToks_ne (by simp)
    show (segmentTok p :: .sym '.' :: refToks (p' :: ps)).getLast? ≠ _
    rw [List.getLast?_cons_cons, List.getLast?_cons]
    cases hl : (refToks (p' :: ps)).getLast? with
    | none => exact absurd (List.getLast?_eq_none_iff.mp hl) hne
    | some t =>
      rw [hl] at h
      exact h

theorem head_ref {w : Str} {r : List Tok} {ps : List Str} : refToks ps ≠ .word w :: r := by
  have hseg : ∀ p, segmentTok p ≠ .word w := by
    intro p; unfold segmentTok; split <;> simp
  match ps with
  | [] => simp [refToks]
  | [p] => intro e; injection e with e _; exact hseg p e
  | p :: _ :: _ => intro e; injection e with e _; exact hseg p e

theorem dropWhile_words {us : List Str} (hu : ∀ u ∈ us, u ∈ selectWords) {r : List Tok}
    (hr : ∀ w ∈ selectWords, r.head? ≠ some (.word w)) :
    (words us ++ r).takeWhile (fun t => decide (∃ w ∈ selectWords, t = .word w)) = words us ∧
    (words us ++ r).dropWhile (fun t => decide (∃ w ∈ selectWords, t = .word w)) = r := by
  induction us with
  | nil =>
    cases r with
    | nil => exact ⟨rfl, rfl⟩
    | cons t r =>
      have : ¬(decide (∃ w ∈ selectWords, t = .word w) = true) := by
        rw [decide_eq_true_eq]
        rintro ⟨w, hw, rfl⟩
        exact hr w hw rfl
      constructor
      · show (t :: r).takeWhile _ = []
        rw [List.takeWhile_cons, if_neg this]
      · show (t :: r).dropWhile _ = _
        rw [List.dropWhile_cons, if_neg this]
  | cons u us ih =>
    obtain ⟨h1, h2⟩ := ih fun u hm => hu u (List.mem_cons_of_mem _ hm)
    have : decide (∃ w ∈ selectWords, Tok.word u = .word w) = true :=
      decide_eq_true ⟨u, hu u List.mem_cons_self, rfl⟩
    constructor
    · show (Tok.word u :: (words us ++ r)).takeWhile _ = _
      rw [List.takeWhile_cons, if_pos this, h1]
      rfl
    · show (Tok.word u :: (words us ++ r)).dropWhile _ = _
      rw [List.dropWhile_cons, if_pos this, h2]

/-- The tokens of a column given by name. -/
theorem columnToks_named {c a : Obj} : columnToks cx T ⟨c, a⟩ =
    refToksOf cx T c ++ optToks a.truthy (.word L!"AS" :: refToksOf cx T a) := rfl

theorem columns_pieces {cs : List Column} (hne : cs ≠ [])
    (hn : ∀ c ∈ cs, (∃ s, c.name = .str s) ∧ (c.alias.truthy = true → ∃ s, c.alias = .str s)) :
    pieces (.sym ',') (columnsToks cx T cs) = cs.map (columnToks cx T) := by
  unfold columnsToks
  have : cs.isEmpty = false := by simpa using hne
  rw [this]
  refine pieces_joinT (by simpa using hne) ?_ (by decide) (by decide)
  intro x hx
  obtain ⟨⟨c, a⟩, hc, rfl⟩ := List.mem_map.mp hx
  obtain ⟨⟨s, rfl⟩, ha⟩ := hn _ hc
  rw [columnToks_named]
  refine (whole_names (by decide) _).append ?_
  cases hb : a.truthy with
  | false => exact whole_nil _
  | true =>
    obtain ⟨u, rfl⟩ := ha hb
    exact .cons (by decide) (by decide) (by decide) (whole_names (by decide) _)

theorem columns_head {cs : List Column} (hn : ∀ c ∈ cs, ∃ s, c.name = .str s ∧ refParts cx.backend.quote s ≠ [])
    {w : Str} : (columnsToks cx T cs).head? ≠ some (.word w) := by
  cases cs with
  | nil => simp [columnsToks]
  | cons c cs =>
    obtain ⟨n, a⟩ := c
    obtain ⟨s, rfl, hs⟩ := hn _ List.mem_cons_self
    intro e
    have hr := refToks_ne hs
    have h2 : ∃ r, columnsToks cx T (⟨.str s, a⟩ :: cs) = refToks (refParts cx.backend.quote s) ++ r := by
      cases cs with
      | nil => exact ⟨_, rfl⟩
      | cons c' cs => exact ⟨_, List.append_assoc _ _ _⟩
    obtain ⟨r, h2⟩ := h2
    rw [h2] at e
    cases hx : refToks (refParts cx.backend.quote s) with
    | nil => exact hr hx
    | cons t ts =>
      rw [hx] at e
      simp only [List.cons_append, List.head?_cons, Option.some.injEq] at e
      subst e
      exact head_ref hx

/-! ### Order -/

theorem orders_pieces {os : List Order} (hne : os ≠ []) (hn : ∀ o ∈ os, ∃ s, o.col = .str s) :
    pieces (.sym ',') (commas (os.map (orderToks cx T))) = os.map (orderToks cx T) := by
  refine pieces_joinT (by simpa using hne) ?_ (by decide) (by decide)
  intro x hx
  obtain ⟨⟨c, desc⟩, hc, rfl⟩ := List.mem_map.mp hx
  obtain ⟨s, hs⟩ := hn _ hc
  cases hs
  refine (whole_names (by decide) _).append ?_
  cases desc with
  | false => exact whole_nil _
  | true => exact .cons (by decide) (by decide) (by decide) (whole_nil _)

theorem readKey_order {s : Str} {desc : Bool} :
    readKey (orderToks cx T ⟨.str s, desc⟩) = (refToks (refParts cx.backend.quote s), desc) := by
  unfold readKey
  cases desc with
  | false =>
    have e : orderToks cx T ⟨.str s, false⟩ = refToks (refParts cx.backend.quote s) := List.append_nil _
    rw [e, if_neg (refToks_last _)]
  | true =>
    have e : orderToks cx T ⟨.str s, true⟩ = refToks (refParts cx.backend.quote s) ++ [.word L!"DESC"] := rfl
    rw [e, List.getLast?_append, if_pos (by rfl), List.dropLast_concat]

end

end SqlPuzzle
