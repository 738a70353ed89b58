import Verif.Proofs.ClauseFacts

/-!
The contents of a clause.
-/

namespace SqlPuzzle

open Spec

/-- Number of open parentheses after a token list. -/
def depthAfter : Nat → List Tok → Nat
  | n, [] => n
  | n, t :: ts =>
    if t = .sym '(' then depthAfter (n + 1) ts
    else if t = .sym ')' then depthAfter (n - 1) ts
    else depthAfter n ts

section
variable {ws : List Str}

theorem clausesAt_split (ts r : List Tok) : ∀ n,
    clausesAt ws n (ts ++ r) = clausesAt ws n ts ++ clausesAt ws (depthAfter n ts) r := by
  induction ts with
  | nil => intro n; simp [clausesAt, depthAfter]
  | cons t ts ih =>
    intro n
    by_cases h1 : t = .sym '('
    · subst h1
      simp only [List.cons_append, clausesAt, depthAfter, if_true, ih]
    · by_cases h2 : t = .sym ')'
      · subst h2
        simp only [List.cons_append, clausesAt, depthAfter, if_neg h1, if_true, ih]
      · simp only [List.cons_append, depthAfter, if_neg h1, if_neg h2]
        cases n with
        | succ n => rw [clausesAt_deep h1 h2, clausesAt_deep h1 h2, ih]
        | zero =>
          by_cases h3 : ∃ w ∈ ws, t = .word w
          · obtain ⟨w, hw, rfl⟩ := h3
            rw [clausesAt_hit hw, clausesAt_hit hw, ih]
            rfl
          · have h3' : ∀ w ∈ ws, t ≠ .word w := fun w hw e => h3 ⟨w, hw, e⟩
            rw [clausesAt_other h1 h2 h3', clausesAt_other h1 h2 h3', ih]

theorem Quiet.facts {ts : List Tok} {w : Str} (h : Quiet ws ts) (hw : w ∈ ws) :
    clausesAt ws 0 ts = [] ∧ depthAfter 0 ts = 0 := by
  have h1 : clausesAt ws 0 ts = [] := by
    have := h 0 []
    rwa [List.append_nil] at this
  refine ⟨h1, ?_⟩
  have h2 := h 0 [.word w]
  rw [clausesAt_split, h1, clausesAt_hit hw] at h2
  cases hd : depthAfter 0 ts with
  | zero => rfl
  | succ k =>
    rw [hd, clausesAt_deep (by simp) (by simp)] at h2
    cases h2

theorem beforeAt_split (ts r : List Tok) : ∀ n, clausesAt ws n ts = [] →
    beforeAt ws n (ts ++ r) = ts ++ beforeAt ws (depthAfter n ts) r := by
  induction ts with
  | nil => intro n _; rfl
  | cons t ts ih =>
    intro n h
    rw [List.cons_append]
    conv => lhs; unfold beforeAt
    unfold depthAfter
    by_cases h1 : t = .sym '('
    · subst h1
      rw [if_pos rfl, if_pos rfl, ih _ h]; rfl
    · by_cases h2 : t = .sym ')'
      · subst h2
        rw [if_neg h1, if_pos rfl, if_neg h1, if_pos rfl, ih _ h]; rfl
      · rw [if_neg h1, if_neg h2, if_neg h1, if_neg h2]
        cases n with
        | succ n =>
          rw [clausesAt_deep h1 h2] at h
          rw [if_neg (by simp), ih _ h]; rfl
        | zero =>
          by_cases h3 : ∃ w ∈ ws, t = .word w
          · obtain ⟨w, hw, rfl⟩ := h3
            rw [clausesAt_hit hw] at h
            cases h
          · have h3' : ∀ w ∈ ws, t ≠ .word w := fun w hw e => h3 ⟨w, hw, e⟩
            rw [clausesAt_other h1 h2 h3'] at h
            rw [if_neg (fun k => h3 k.2), ih _ h]; rfl

theorem afterAt_split {w : Str} (hw : w ∈ ws) (ts r : List Tok) : ∀ n, clausesAt ws n ts = [] →
    afterAt w n (ts ++ r) = afterAt w (depthAfter n ts) r := by
  induction ts with
  | nil => intro n _; rfl
  | cons t ts ih =>
    intro n h
    rw [List.cons_append]
    conv => lhs; unfold afterAt
    unfold depthAfter
    by_cases h1 : t = .sym '('
    · subst h1
      rw [if_pos rfl, if_pos rfl, ih _ h]
    · by_cases h2 : t = .sym ')'
      · subst h2
        rw [if_neg h1, if_pos rfl, if_neg h1, if_pos rfl, ih _ h]
      · rw [if_neg h1, if_neg h2, if_neg h1, if_neg h2]
        cases n with
        | succ n =>
          rw [clausesAt_deep h1 h2] at h
          rw [if_neg (by simp), ih _ h]
        | zero =>
          by_cases h3 : ∃ w ∈ ws, t = .word w
          · obtain ⟨w, hw, rfl⟩ := h3
            rw [clausesAt_hit hw] at h
            cases h
          · have h3' : ∀ w ∈ ws, t ≠ .word w := fun w hw e => h3 ⟨w, hw, e⟩
            rw [clausesAt_other h1 h2 h3'] at h
            rw [if_neg (fun k => h3' w hw k.2), ih _ h]

/-- Nothing, or tokens that begin with a word of `ws`. -/
def Starts (ws : List Str) (r : List Tok) : Prop := r = [] ∨ ∃ w ∈ ws, r.head? = some (.word w)

theorem Starts.append {r s : List Tok} (h : Starts ws r) (k : Starts ws s) : Starts ws (r ++ s) := by
  rcases h with rfl | ⟨w, hw, h⟩
  · exact k
  · cases r with
    | nil => cases h
    | cons t r => exact .inr ⟨w, hw, h⟩

theorem starts_opt {b : Bool} {w : Str} {ts : List Tok} (hw : w ∈ ws) :
    Starts ws (optToks b (.word w :: ts)) := by
  cases b
  · exact .inl rfl
  · exact .inr ⟨w, hw, rfl⟩

theorem Starts.before {r : List Tok} (h : Starts ws r) : beforeAt ws 0 r = [] := by
  rcases h with rfl | ⟨w, hw, h⟩
  · rfl
  · cases r with
    | nil => rfl
    | cons t r =>
      cases h
      unfold beforeAt
      rw [if_neg (by simp), if_neg (by simp), if_pos ⟨rfl, w, hw, rfl⟩]

/-- The contents of a clause: nothing before it has the word, and a clause word or nothing follows. -/
theorem clauseBody_eq {w : Str} {A B C : List Tok} (hw : w ∈ ws) (hA : Quiet [w] A) (hB : Quiet ws B)
    (hC : Starts ws C) : clauseBody ws w (A ++ (.word w :: (B ++ C))) = B := by
  have a := hA.facts (List.mem_singleton_self w)
  have b := hB.facts hw
  have h1 : afterAt w 0 (A ++ (.word w :: (B ++ C))) = B ++ C := by
    rw [afterAt_split (List.mem_singleton_self w) A _ 0 a.1, a.2]
    unfold afterAt
    rw [if_neg (by simp), if_neg (by simp), if_pos ⟨rfl, rfl⟩]
  unfold clauseBody
  rw [h1, beforeAt_split B C 0 b.1, b.2, hC.before, List.append_nil]

end

section
variable {cx : Ctx} {S : Sem} {d : Dialect} {T : Obj → List Tok} {P : Kind → Obj → Prop}

theorem g_opt_inv {kw us : List Tok} {c : Cat} {b : Bool} (h : G (.opt kw c) (optToks b (kw ++ us)))
    (hne : kw ≠ []) (hb : b = true) : G c us := by
  subst hb
  generalize e : optToks true (kw ++ us) = ts at h
  cases h with
  | absent => exact absurd (List.append_eq_nil_iff.mp e).1 hne
  | present h => rw [List.append_cancel_left e]; exact h

theorem quiet_opt {ws : List Str} (hw : ∀ w ∈ ws, w ∉ innerWords) {b : Bool} {kw : List Str} {c : Cat}
    {us : List Tok} (h : G (.opt (words kw) c) (optToks b (words kw ++ us))) (hne : words kw ≠ [])
    (hf : c.Fine) (hc : c.Inner ws) (h2 : ∀ u ∈ kw, u ∉ ws) : Quiet ws (optToks b (words kw ++ us)) := by
  cases b with
  | false => exact quiet_nil
  | true => exact (quiet_words h2).append (g_quiet hw (g_opt_inv h hne rfl) hf hc)

theorem conds_quiet (ih : Phrases T P) {ws : List Str} (hw : ∀ w ∈ ws, w ∉ innerWords) {ps : List Cond}
    (hne : ps ≠ []) (h : safeConds cx.backend.quote P ps) : Quiet ws (conjToks cx d T ps) :=
  g_quiet hw (g_conds ih hne h) trivial trivial

theorem conds_present {w : Str} {ps : List Cond} (hne : ps ≠ []) :
    condsToks cx d T [w] ps = .word w :: conjToks cx d T ps := by
  unfold condsToks
  have : ps.isEmpty = false := by simpa using hne
  rw [this]
  rfl

theorem where_select (ih : Phrases T P) {q : Select} (h : safeSelect cx.backend.quote P q)
    (hne : q.where_ ≠ []) :
    clauseBody selectClauses L!"WHERE" (selectToks cx S d T q) = conjToks cx d T q.where_ := by
  obtain ⟨h1, h2, h3, h4, h5, h6, h7, h8, h9, h10⟩ := h
  have hw : ∀ w ∈ [L!"WHERE"], w ∉ innerWords := by decide
  have hw' : ∀ w ∈ selectClauses, w ∉ innerWords := by decide
  have hopt : ∀ w ∈ sortBy strLe q.opts.words, w ∉ [L!"WHERE"] := fun w hm => by
    have hm := words_mem q.opts ((sortBy_perm strLe q.opts.words).mem_iff.mp hm)
    exact (by decide : ∀ w ∈ selectWords, w ∉ [L!"WHERE"]) w hm
  have hA : Quiet [L!"WHERE"] (.word L!"SELECT" :: (words (sortBy strLe q.opts.words) ++
      (columnsToks cx T q.columns ++ tablesToks cx S d T [L!"FROM"] q.tables))) :=
    .word (by decide) ((quiet_words hopt).append ((g_quiet hw (g_columns ih h1) trivial trivial).append
      (quiet_opt hw (g_tables ih (S := S) (d := d) [L!"FROM"] h2) (by simp [words]) (by fine) trivial
        (by decide))))
  have hi : ∀ (w : Str) (i : Option Int), w ∈ selectClauses → Starts selectClauses (intOptToks [w] i) := by
    intro w i hm
    cases i with
    | none => exact .inl rfl
    | some i => exact .inr ⟨w, hm, rfl⟩
  have ho : Starts selectClauses (outfileToks cx d T q.outfile) := by
    unfold outfileToks
    cases q.outfile.file with
    | none => exact .inl rfl
    | some v => exact .inr ⟨L!"INTO", by decide, rfl⟩
  have hC : Starts selectClauses
      (ordersToks cx T [L!"GROUP", L!"BY"] q.groupBy ++ (condsToks cx d T [L!"HAVING"] q.having ++
      (ordersToks cx T [L!"ORDER", L!"BY"] q.orderBy ++ (intOptToks [L!"LIMIT"] q.limit.limit ++
      (intOptToks [L!"OFFSET"] q.limit.offset ++ (outfileToks cx d T q.outfile ++
      optToks q.forUpdate (words [L!"FOR", L!"UPDATE"]))))))) :=
    (starts_opt (by decide)).append ((starts_opt (by decide)).append ((starts_opt (by decide)).append
      ((hi _ _ (by decide)).append ((hi _ _ (by decide)).append (ho.append (starts_opt (by decide)))))))
  have := clauseBody_eq (by decide) hA (conds_quiet (d := d) ih hw' hne h3) hC
  rw [← this]
  unfold selectToks
  rw [conds_present hne]
  simp

theorem having_select (ih : Phrases T P) {q : Select} (h : safeSelect cx.backend.quote P q)
    (hne : q.having ≠ []) :
    clauseBody selectClauses L!"HAVING" (selectToks cx S d T q) = conjToks cx d T q.having := by
  obtain ⟨h1, h2, h3, h4, h5, h6, h7, h8, h9, h10⟩ := h
  have hw : ∀ w ∈ [L!"HAVING"], w ∉ innerWords := by decide
  have hw' : ∀ w ∈ selectClauses, w ∉ innerWords := by decide
  have hopt : ∀ w ∈ sortBy strLe q.opts.words, w ∉ [L!"HAVING"] := fun w hm => by
    have hm := words_mem q.opts ((sortBy_perm strLe q.opts.words).mem_iff.mp hm)
    exact (by decide : ∀ w ∈ selectWords, w ∉ [L!"HAVING"]) w hm
  have hA : Quiet [L!"HAVING"] (.word L!"SELECT" :: (words (sortBy strLe q.opts.words) ++
      (columnsToks cx T q.columns ++ (tablesToks cx S d T [L!"FROM"] q.tables ++
      (condsToks cx d T [L!"WHERE"] q.where_ ++ ordersToks cx T [L!"GROUP", L!"BY"] q.groupBy))))) :=
    .word (by decide) ((quiet_words hopt).append ((g_quiet hw (g_columns ih h1) trivial trivial).append
      ((quiet_opt hw (g_tables ih (S := S) (d := d) [L!"FROM"] h2) (by simp [words]) (by fine) trivial
        (by decide)).append ((quiet_opt hw (g_condsOpt ih (d := d) [L!"WHERE"] h3) (by simp [words])
        trivial trivial (by decide)).append (quiet_opt hw (g_orders ih [L!"GROUP", L!"BY"] h4)
        (by simp [words]) (by fine) trivial (by decide))))))
  have hi : ∀ (w : Str) (i : Option Int), w ∈ selectClauses → Starts selectClauses (intOptToks [w] i) := by
    intro w i hm
    cases i with
    | none => exact .inl rfl
    | some i => exact .inr ⟨w, hm, rfl⟩
  have ho : Starts selectClauses (outfileToks cx d T q.outfile) := by
    unfold outfileToks
    cases q.outfile.file with
    | none => exact .inl rfl
    | some v => exact .inr ⟨L!"INTO", by decide, rfl⟩
  have hC : Starts selectClauses
      (ordersToks cx T [L!"ORDER", L!"BY"] q.orderBy ++ (intOptToks [L!"LIMIT"] q.limit.limit ++
      (intOptToks [L!"OFFSET"] q.limit.offset ++ (outfileToks cx d T q.outfile ++
      optToks q.forUpdate (words [L!"FOR", L!"UPDATE"]))))) :=
    (starts_opt (by decide)).append
      ((hi _ _ (by decide)).append ((hi _ _ (by decide)).append (ho.append (starts_opt (by decide)))))
  have := clauseBody_eq (by decide) hA (conds_quiet (d := d) ih hw' hne h5) hC
  rw [← this]
  unfold selectToks
  rw [conds_present hne]
  simp

theorem where_update (ih : Phrases T P) {q : Update} (h : safeUpdate cx.backend.quote P q)
    (hne : q.where_ ≠ []) :
    clauseBody updateClauses L!"WHERE" (updateToks cx S d T q) = conjToks cx d T q.where_ := by
  have hw : ∀ w ∈ [L!"WHERE"], w ∉ innerWords := by decide
  have hw' : ∀ w ∈ updateClauses, w ∉ innerWords := by decide
  have nil : ∀ w ∈ [L!"WHERE"], Tok.word w ∉ words [] := by simp [words]
  have k1 : Quiet [L!"WHERE"] (optToks q.ignore (words [L!"IGNORE"])) :=
    g_quiet hw (g_flag (kw := words [L!"IGNORE"]) _) (by fine)
      (show ∀ w ∈ [L!"WHERE"], Tok.word w ∉ words [L!"IGNORE"] by decide)
  have k2 := g_quiet hw (g_tables ih (S := S) (d := d) [] h.1) (by fine) ⟨nil, trivial⟩
  have k3 := g_quiet hw (g_assigns ih (d := d) [] h.2.1) (by fine) ⟨nil, trivial⟩
  have hA : Quiet [L!"WHERE"] (.word L!"UPDATE" :: (optToks q.ignore (words [L!"IGNORE"]) ++
      (tablesToks cx S d T [] q.tables ++ (.word L!"SET" :: assignsToks cx d T [] q.values)))) :=
    .word (by decide) (k1.append (k2.append (.word (by decide) k3)))
  have := clauseBody_eq (C := []) (by decide) hA (conds_quiet (d := d) ih hw' hne h.2.2) (.inl rfl)
  rw [← this]
  unfold updateToks
  rw [conds_present hne]
  simp

theorem where_delete (ih : Phrases T P) {q : Delete} (h : safeDelete cx.backend.quote P q)
    (hne : q.where_ ≠ []) :
    clauseBody deleteClauses L!"WHERE" (deleteToks cx S d T q) = conjToks cx d T q.where_ := by
  have hw : ∀ w ∈ [L!"WHERE"], w ∉ innerWords := by decide
  have hw' : ∀ w ∈ deleteClauses, w ∉ innerWords := by decide
  have nil : ∀ w ∈ [L!"WHERE"], Tok.word w ∉ words [] := by simp [words]
  have k1 : Quiet [L!"WHERE"] (optToks q.ignore (words [L!"IGNORE"])) :=
    g_quiet hw (g_flag (kw := words [L!"IGNORE"]) _) (by fine)
      (show ∀ w ∈ [L!"WHERE"], Tok.word w ∉ words [L!"IGNORE"] by decide)
  have k2 := g_quiet hw (g_tables ih (S := S) (d := d) [] h.1) (by fine) ⟨nil, trivial⟩
  have k3 := g_quiet hw (g_tables ih (S := S) (d := d) [] h.2.1) (by fine) ⟨nil, trivial⟩
  have hA : Quiet [L!"WHERE"] (.word L!"DELETE" :: (optToks q.ignore (words [L!"IGNORE"]) ++
      (tablesToks cx S d T [] q.tables ++ (.word L!"FROM" :: tablesToks cx S d T [] q.references)))) :=
    .word (by decide) (k1.append (k2.append (.word (by decide) k3)))
  have := clauseBody_eq (C := []) (by decide) hA (conds_quiet (d := d) ih hw' hne h.2.2) (.inl rfl)
  rw [← this]
  unfold deleteToks
  rw [conds_present hne]
  simp

end

end SqlPuzzle
