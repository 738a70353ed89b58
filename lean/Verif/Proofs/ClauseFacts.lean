import Verif.Spec.Clauses
import Verif.Proofs.GrammarFacts

/-!
Clause words outside parentheses.
-/

namespace SqlPuzzle

open Spec

section
variable {ws : List Str}

theorem clausesAt_deep {n : Nat} {t : Tok} {ts : List Tok} (h1 : t ≠ .sym '(') (h2 : t ≠ .sym ')') :
    clausesAt ws (n + 1) (t :: ts) = clausesAt ws (n + 1) ts := by
  conv => lhs; unfold clausesAt
  split <;> simp_all

theorem clausesAt_other {n : Nat} {t : Tok} {ts : List Tok} (h1 : t ≠ .sym '(') (h2 : t ≠ .sym ')')
    (h3 : ∀ w ∈ ws, t ≠ .word w) : clausesAt ws n (t :: ts) = clausesAt ws n ts := by
  conv => lhs; unfold clausesAt
  split
  · simp_all
  · rename_i e; injection e with e1 e2; exact absurd e1 h1
  · rename_i e; injection e with e1 e2; exact absurd e1 h2
  · rename_i w us e
    injection e with e1 e2
    subst e1 e2
    rw [if_neg fun hw => h3 w hw rfl]
  · rename_i e; injection e with e1 e2; rw [e2]

theorem clausesAt_hit {w : Str} {ts : List Tok} (h : w ∈ ws) :
    clausesAt ws 0 (.word w :: ts) = w :: clausesAt ws 0 ts := by
  simp [clausesAt, h]

theorem clausesAt_skip {n : Nat} {w : Str} {ts : List Tok} (h : w ∉ ws) :
    clausesAt ws n (.word w :: ts) = clausesAt ws n ts :=
  clausesAt_other (by simp) (by simp) fun w' hw e => by injection e with e; exact h (e ▸ hw)

/-- Nothing is outside the parentheses that surround a phrase. -/
theorem clausesAt_built {b : Bool} {ts : List Tok} (h : Built b ts) (n : Nat) (r : List Tok) :
    clausesAt ws (n + 1) (ts ++ r) = clausesAt ws (n + 1) r := by
  induction h generalizing n r with
  | nil => rfl
  | cons h _ ih => rw [List.cons_append, clausesAt_deep h.2.1 h.2.2.1, ih]
  | append _ _ ih1 ih2 => rw [List.append_assoc, ih1, ih2]
  | @paren b ts _ ih =>
    have e : paren ts ++ r = .sym '(' :: (ts ++ (.sym ')' :: r)) := by simp [paren]
    rw [e]
    show clausesAt ws (n + 1 + 1) (ts ++ (.sym ')' :: r)) = _
    rw [ih]
    rfl
  | select _ ih => rw [List.cons_append, clausesAt_deep (by simp) (by simp), ih]
  | union _ _ ih1 ih2 =>
    rw [List.append_assoc, ih1, List.cons_append, clausesAt_deep (by simp) (by simp), ih2]
  | unionAll _ _ ih1 ih2 =>
    rw [List.append_assoc, ih1]
    refine (clausesAt_deep (by simp) (by simp)).trans ((clausesAt_deep (by simp) (by simp)).trans ?_)
    exact ih2 n r

/-- The phrase has no word of `ws` outside parentheses. -/
def Quiet (ws : List Str) (ts : List Tok) : Prop :=
  ∀ n r, clausesAt ws n (ts ++ r) = clausesAt ws n r

theorem quiet_nil : Quiet ws [] := fun _ _ => rfl

theorem Quiet.append {ts us : List Tok} (h : Quiet ws ts) (k : Quiet ws us) : Quiet ws (ts ++ us) := by
  intro n r
  rw [List.append_assoc, h, k]

theorem Quiet.cons {t : Tok} {us : List Tok} (h1 : t ≠ .sym '(') (h2 : t ≠ .sym ')')
    (h3 : ∀ w ∈ ws, t ≠ .word w) (k : Quiet ws us) : Quiet ws (t :: us) := by
  intro n r
  rw [List.cons_append, clausesAt_other h1 h2 h3, k]

theorem Quiet.word {w : Str} {us : List Tok} (h : w ∉ ws) (k : Quiet ws us) :
    Quiet ws (.word w :: us) := by
  intro n r
  rw [List.cons_append, clausesAt_skip h, k]

theorem quiet_paren {b : Bool} {ts : List Tok} (h : Built b ts) : Quiet ws (paren ts) := by
  intro n r
  have e : paren ts ++ r = .sym '(' :: (ts ++ (.sym ')' :: r)) := by simp [paren]
  rw [e]
  show clausesAt ws (n + 1) (ts ++ (.sym ')' :: r)) = _
  rw [clausesAt_built h]
  rfl

theorem quiet_words {us : List Str} (h : ∀ w ∈ us, w ∉ ws) : Quiet ws (words us) := by
  induction us with
  | nil => exact quiet_nil
  | cons w us ih =>
    exact .word (h w (by simp)) (ih fun w hw => h w (List.mem_cons_of_mem _ hw))

theorem quiet_plain {kw : List Tok} (h : PlainWords kw) (k : ∀ w ∈ ws, .word w ∉ kw) : Quiet ws kw := by
  induction kw with
  | nil => exact quiet_nil
  | cons t kw ih =>
    obtain ⟨w, rfl, _⟩ := h t (by simp)
    exact .word (fun hw => k w hw (by simp)) (ih (fun t ht => h t (List.mem_cons_of_mem _ ht))
      fun w hw hm => k w hw (List.mem_cons_of_mem _ hm))

/-- Words that occur outside parentheses inside clauses. -/
def innerWords : List Str :=
  aggregates ++ [L!"NULL", L!"true", L!"false", L!"CONCAT", L!"GROUP_CONCAT", L!"CONVERT", L!"EXISTS",
   L!"AS", L!"DESC", L!"AND", L!"NOT", L!"LIKE", L!"REGEXP", L!"IN", L!"IS", L!"JOIN", L!"LEFT",
   L!"RIGHT", L!"FULL", L!"ON"]

/-- Categories of phrases inside clauses. -/
def Spec.Cat.Inner (ws : List Str) : Cat → Prop
  | .list c => c.Inner ws
  | .opt kw c => (∀ w ∈ ws, .word w ∉ kw) ∧ c.Inner ws
  | .flag kw => ∀ w ∈ ws, .word w ∉ kw
  | .select | .query | .stmt | .rows => False
  | _ => True

theorem quiet_names (ps : List Str) : Quiet ws (refToks ps) := by
  have hs : ∀ p us, Quiet ws us → Quiet ws (segmentTok p :: us) := by
    intro p us hu
    unfold segmentTok
    split <;> exact .cons (by simp) (by simp) (fun w _ => by simp) hu
  match ps with
  | [] => exact quiet_nil
  | [p] => exact hs p _ quiet_nil
  | p :: p' :: ps => exact hs p _ (.cons (by decide) (by decide) (by simp) (quiet_names (p' :: ps)))

theorem quiet_kw (hw : ∀ w ∈ ws, w ∉ innerWords) {us : List Str} (h : ∀ u ∈ us, u ∈ innerWords) :
    ∀ w ∈ ws, .word w ∉ words us := by
  intro w hm hk
  obtain ⟨u, hu, e⟩ := List.mem_map.mp hk
  injection e with e
  subst e
  exact hw _ hm (h _ hu)

theorem g_quiet (hw : ∀ w ∈ ws, w ∉ innerWords) {c : Cat} {ts : List Tok} (h : G c ts) (hf : c.Fine)
    (hc : c.Inner ws) : Quiet ws ts := by
  have nw : ∀ {w}, w ∈ innerWords → w ∉ ws := fun h k => hw _ k h
  have nk : ∀ {us : List Str}, (∀ u ∈ us, u ∈ innerWords) → Quiet ws (words us) :=
    fun h => quiet_words fun w hm => nw (h w hm)
  induction h with
  | name _ => exact quiet_names _
  | lit h =>
    cases h <;> first
      | exact .word (nw (by decide)) quiet_nil
      | exact .cons (by simp) (by simp) (by simp) quiet_nil
  | neg => exact .cons (by simp) (by simp) (by simp) (.cons (by simp) (by simp) (by simp) quiet_nil)
  | tuple h ih => exact quiet_paren (g_built h (by fine))
  | subquery h ih => exact quiet_paren (g_built h (by fine))
  | aggregate hm h ih =>
    exact .word (nw (List.mem_append_left _ hm)) (quiet_paren (g_built h (by fine)))
  | aggregateDistinct hm h ih =>
    exact .word (nw (List.mem_append_left _ hm)) (quiet_paren (b := false)
      (.cons (by decide) (g_built h (by fine))))
  | concat h ih => exact .word (nw (by decide)) (quiet_paren (g_built h (by fine)))
  | groupConcat h1 h2 h3 =>
    exact .word (nw (by decide)) (quiet_paren (b := false) (.append (g_built h1 (by fine))
      (.append (g_built h2 (by fine)) (g_built h3 (by fine)))))
  | convert hm h =>
    exact .word (nw (by decide)) (quiet_paren (b := false) (.append (g_built h (by fine))
      (.cons (by decide) (built_one (plain_castType hm)))))
  | exists_ h => exact .word (nw (by decide)) (quiet_paren (g_built h (by fine)))
  | nat => exact .cons (by simp) (by simp) (by simp) quiet_nil
  | negInt => exact .cons (by simp) (by simp) (by simp) (.cons (by simp) (by simp) (by simp) quiet_nil)
  | one _ ih => exact ih hf.1 hc
  | more _ _ ih1 ih2 =>
    exact (ih1 hf.1 hc).append ((Quiet.cons (by decide) (by decide) (by simp) quiet_nil).append (ih2 hf hc))
  | absent => exact quiet_nil
  | present _ ih => exact (quiet_plain hf.1 hc.1).append (ih hf.2.1 hc.2)
  | off => exact quiet_nil
  | on => exact quiet_plain hf hc
  | star => exact .cons (by decide) (by decide) (by simp) quiet_nil
  | columns _ ih => exact ih (by fine) trivial
  | column _ _ ih1 ih2 =>
    exact (ih1 trivial trivial).append (ih2 (by fine) ⟨quiet_kw hw (by decide), trivial⟩)
  | order _ _ ih1 ih2 => exact (ih1 trivial trivial).append (ih2 (by fine) (quiet_kw hw (by decide)))
  | compare _ hr _ ih1 ih2 =>
    refine (ih1 trivial trivial).append (Quiet.append ?_ (ih2 trivial trivial))
    simp only [relations, List.mem_cons, List.not_mem_nil, or_false] at hr
    rcases hr with rfl | rfl | rfl | rfl | rfl | rfl | rfl | rfl | rfl | rfl | rfl | rfl | rfl <;>
      first
        | exact nk (by decide)
        | exact .cons (by decide) (by decide) (by simp) quiet_nil
  | test _ ih => exact ih trivial trivial
  | group h ih => exact quiet_paren (g_built h (by fine))
  | both h1 h2 =>
    exact quiet_paren (b := false) (.append (g_built h1 trivial) (.cons (by decide) (g_built h2 trivial)))
  | either h1 h2 =>
    exact quiet_paren (b := false) (.append (g_built h1 trivial) (.cons (by decide) (g_built h2 trivial)))
  | not h => exact .word (nw (by decide)) (quiet_paren (g_built h trivial))
  | conjOne _ ih => exact ih trivial trivial
  | conjMore _ _ ih1 ih2 =>
    exact (ih1 trivial trivial).append ((Quiet.word (nw (by decide)) quiet_nil).append (ih2 trivial trivial))
  | table _ _ ih1 ih2 => exact (ih1 trivial trivial).append (ih2 trivial trivial)
  | noJoin => exact quiet_nil
  | join hk _ _ _ ih1 ih2 ih3 =>
    refine Quiet.append ?_ ((ih1 trivial trivial).append ((ih2 (by fine)
      ⟨quiet_kw hw (by decide), trivial⟩).append (ih3 trivial trivial)))
    simp only [joinWords, List.mem_cons, List.not_mem_nil, or_false] at hk
    rcases hk with rfl | rfl | rfl | rfl <;> exact nk (by decide)
  | assign _ _ ih1 ih2 =>
    exact (ih1 trivial trivial).append (.cons (by decide) (by decide) (by simp) (ih2 trivial trivial))
  | row h ih => exact quiet_paren (g_built h (by fine))
  | _ => exact hc.elim

/-- The phrase has exactly the clause word `w` outside parentheses if `b`, else none. -/
def Rings (ws : List Str) (b : Bool) (w : Str) (ts : List Tok) : Prop :=
  ∀ r, clausesAt ws 0 (ts ++ r) = clauseIf b w ++ clausesAt ws 0 r

theorem ring_opt (hw : ∀ w ∈ ws, w ∉ innerWords) {b : Bool} {w : Str} {kw : List Str} {c : Cat}
    {us : List Tok} (h : G (.opt (words (w :: kw)) c) (optToks b (words (w :: kw) ++ us)))
    (hf : c.Fine) (hc : c.Inner ws) (h1 : w ∈ ws) (h2 : ∀ u ∈ kw, u ∉ ws) :
    Rings ws b w (optToks b (words (w :: kw) ++ us)) := by
  intro r
  cases b with
  | false => rfl
  | true =>
    have hu : G c us := by
      generalize e : optToks true (words (w :: kw) ++ us) = ts at h
      cases h with
      | absent => cases e
      | present h => rw [List.append_cancel_left e]; exact h
    have key := (quiet_words h2).append (g_quiet hw hu hf hc) 0 r
    show clausesAt ws 0 (.word w :: ((words kw ++ us) ++ r)) = [w] ++ clausesAt ws 0 r
    rw [clausesAt_hit h1, key]
    rfl

theorem ring_flag {b : Bool} {w : Str} {kw : List Str} (h1 : w ∈ ws) (h2 : ∀ u ∈ kw, u ∉ ws) :
    Rings ws b w (optToks b (words (w :: kw))) := by
  intro r
  cases b with
  | false => rfl
  | true =>
    show clausesAt ws 0 (.word w :: (words kw ++ r)) = [w] ++ clausesAt ws 0 r
    rw [clausesAt_hit h1, quiet_words h2]
    rfl

theorem ring_word {w : Str} {us r : List Tok} {v : List Str} (h : w ∈ ws)
    (k : clausesAt ws 0 (us ++ r) = v) : clausesAt ws 0 (.word w :: us ++ r) = w :: v := by
  rw [List.cons_append, clausesAt_hit h, k]

end

section
variable {cx : Ctx} {S : Sem} {d : Dialect} {T : Obj → List Tok} {P : Kind → Obj → Prop}

theorem clauses_select (ih : Phrases T P) {q : Select} (h : safeSelect cx.backend.quote P q) :
    clauses selectClauses (selectToks cx S d T q) =
      L!"SELECT" :: (clauseIf (!q.tables.isEmpty) L!"FROM" ++ (clauseIf (!q.where_.isEmpty) L!"WHERE" ++
      (clauseIf (!q.groupBy.isEmpty) L!"GROUP" ++ (clauseIf (!q.having.isEmpty) L!"HAVING" ++
      (clauseIf (!q.orderBy.isEmpty) L!"ORDER" ++ (clauseIf q.limit.limit.isSome L!"LIMIT" ++
      (clauseIf q.limit.offset.isSome L!"OFFSET" ++ (clauseIf q.outfile.file.isSome L!"INTO" ++
      clauseIf q.forUpdate L!"FOR")))))))) := by
  obtain ⟨h1, h2, h3, h4, h5, h6, h7, h8, h9, h10⟩ := h
  have hw : ∀ w ∈ selectClauses, w ∉ innerWords := by decide
  have hopt : ∀ w ∈ sortBy strLe q.opts.words, w ∉ selectClauses := fun w hw => by
    have hm := words_mem q.opts ((sortBy_perm strLe q.opts.words).mem_iff.mp hw)
    revert w
    have : ∀ w ∈ selectWords, w ∉ selectClauses := by decide
    exact fun w _ hm => this w hm
  have hi : ∀ (w : Str) (i : Option Int), w ∈ selectClauses →
      Rings selectClauses i.isSome w (intOptToks [w] i) := by
    intro w i hm
    cases i with
    | none => exact fun _ => rfl
    | some i =>
      have := ring_opt hw (b := true) (kw := []) (w := w) (us := intToks i)
        (.present (g_int i)) trivial trivial hm (by simp)
      exact this
  have hof : Rings selectClauses q.outfile.file.isSome L!"INTO" (outfileToks cx d T q.outfile) := by
    unfold outfileToks
    cases hfile : q.outfile.file with
    | none => exact fun _ => rfl
    | some v =>
      rw [hfile] at h7
      intro r
      have p : ∀ (kw : List Str) {v : Option Obj}, safeOpt cx.backend.quote P v →
          PlainWords (words kw) → (∀ w ∈ selectClauses, .word w ∉ words kw) →
          Quiet selectClauses (phraseToks cx d T kw v) := fun kw v hv hk hk' =>
        g_quiet hw (g_phrase ih kw hv) ⟨hk, trivial, rfl⟩ ⟨hk', trivial⟩
      have k1 := ring_opt hw (b := true) (kw := [L!"OUTFILE"]) (w := L!"INTO") (us := valToks cx d T v)
        (.present (g_val ih h7)) trivial trivial (by decide) (by decide)
      have k2 := (p [L!"FIELDS", L!"TERMINATED", L!"BY"] h8 (plainWords_words (by decide)) (by decide)).append
        ((p [L!"LINES", L!"TERMINATED", L!"BY"] h9 (plainWords_words (by decide)) (by decide)).append
        (p [L!"OPTIONALLY", L!"ENCLOSED", L!"BY"] h10 (plainWords_words (by decide)) (by decide)))
      simp only [optToks, Option.isSome_some, if_true, List.append_assoc] at k1 k2 ⊢
      refine (k1 _).trans ?_
      have := k2 0 r
      simp only [List.append_assoc] at this
      rw [this]
  have k0 : Quiet selectClauses (words (sortBy strLe q.opts.words)) := quiet_words hopt
  have k1 := g_quiet hw (g_columns ih h1) trivial trivial
  have k2 := ring_opt hw (g_tables ih (S := S) (d := d) [L!"FROM"] h2) (by fine) trivial (by decide) (by decide)
  have k3 := ring_opt hw (g_condsOpt ih (d := d) [L!"WHERE"] h3) trivial trivial (by decide) (by decide)
  have k4 := ring_opt hw (g_orders ih [L!"GROUP", L!"BY"] h4) (by fine) trivial (by decide) (by decide)
  have k5 := ring_opt hw (g_condsOpt ih (d := d) [L!"HAVING"] h5) trivial trivial (by decide) (by decide)
  have k6 := ring_opt hw (g_orders ih [L!"ORDER", L!"BY"] h6) (by fine) trivial (by decide) (by decide)
  have k7 := hi L!"LIMIT" q.limit.limit (by decide)
  have k8 := hi L!"OFFSET" q.limit.offset (by decide)
  have k9 : Rings selectClauses q.forUpdate L!"FOR" (optToks q.forUpdate (words [L!"FOR", L!"UPDATE"])) :=
    ring_flag (by decide) (by decide)
  show clausesAt selectClauses 0 (.word L!"SELECT" :: _) = _
  rw [clausesAt_hit (by decide)]
  congr 1
  refine (k0 _ _).trans ((k1 _ _).trans ((k2 _).trans (congrArg _ ((k3 _).trans (congrArg _
    ((k4 _).trans (congrArg _ ((k5 _).trans (congrArg _ ((k6 _).trans (congrArg _ ((k7 _).trans (congrArg _
    ((k8 _).trans (congrArg _ ((hof _).trans (congrArg _ ?_)))))))))))))))))
  have := k9 []
  rw [List.append_nil] at this
  rw [this]
  exact List.append_nil _

theorem clauses_update (ih : Phrases T P) {q : Update} (h : safeUpdate cx.backend.quote P q) :
    clauses updateClauses (updateToks cx S d T q) =
      L!"UPDATE" :: L!"SET" :: clauseIf (!q.where_.isEmpty) L!"WHERE" := by
  have hw : ∀ w ∈ updateClauses, w ∉ innerWords := by decide
  have nil : ∀ w ∈ updateClauses, Tok.word w ∉ words [] := by simp [words]
  have k1 : Quiet updateClauses (optToks q.ignore (words [L!"IGNORE"])) :=
    g_quiet hw (g_flag (kw := words [L!"IGNORE"]) _) (by fine)
      (show ∀ w ∈ updateClauses, Tok.word w ∉ words [L!"IGNORE"] by decide)
  have k2 := g_quiet hw (g_tables ih (S := S) (d := d) [] h.1) (by fine) ⟨nil, trivial⟩
  have k3 := g_quiet hw (g_assigns ih (d := d) [] h.2.1) (by fine) ⟨nil, trivial⟩
  have k4 := ring_opt hw (g_condsOpt ih (d := d) [L!"WHERE"] h.2.2) trivial trivial (by decide) (by decide)
  show clausesAt updateClauses 0 (.word L!"UPDATE" :: _) = _
  rw [clausesAt_hit (by decide)]
  congr 1
  refine (k1 _ _).trans ((k2 _ _).trans ((clausesAt_hit (by decide)).trans ?_))
  congr 1
  refine (k3 _ _).trans ?_
  have := k4 []
  rw [List.append_nil] at this
  refine Eq.trans this (List.append_nil _)

theorem clauses_delete (ih : Phrases T P) {q : Delete} (h : safeDelete cx.backend.quote P q) :
    clauses deleteClauses (deleteToks cx S d T q) =
      L!"DELETE" :: L!"FROM" :: clauseIf (!q.where_.isEmpty) L!"WHERE" := by
  have hw : ∀ w ∈ deleteClauses, w ∉ innerWords := by decide
  have nil : ∀ w ∈ deleteClauses, Tok.word w ∉ words [] := by simp [words]
  have k1 : Quiet deleteClauses (optToks q.ignore (words [L!"IGNORE"])) :=
    g_quiet hw (g_flag (kw := words [L!"IGNORE"]) _) (by fine)
      (show ∀ w ∈ deleteClauses, Tok.word w ∉ words [L!"IGNORE"] by decide)
  have k2 := g_quiet hw (g_tables ih (S := S) (d := d) [] h.1) (by fine) ⟨nil, trivial⟩
  have k3 := g_quiet hw (g_tables ih (S := S) (d := d) [] h.2.1) (by fine) ⟨nil, trivial⟩
  have k4 := ring_opt hw (g_condsOpt ih (d := d) [L!"WHERE"] h.2.2) trivial trivial (by decide) (by decide)
  show clausesAt deleteClauses 0 (.word L!"DELETE" :: _) = _
  rw [clausesAt_hit (by decide)]
  congr 1
  refine (k1 _ _).trans ((k2 _ _).trans ((clausesAt_hit (by decide)).trans ?_))
  congr 1
  refine (k3 _ _).trans ?_
  have := k4 []
  rw [List.append_nil] at this
  refine Eq.trans this (List.append_nil _)

end

end SqlPuzzle
