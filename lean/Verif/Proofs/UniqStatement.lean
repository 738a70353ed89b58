import Verif.Proofs.UniqClauses
import Verif.Proofs.Statement
import Verif.Props.Statement

/-!
Statements whose texts can be read in one way only.
-/

namespace SqlPuzzle

open Spec

/-! ### Clauses of a SELECT -/

/-- An option and its word. -/
def OptionT (k : SelOpt) (t : Str) : Prop := t = k.word

/-- Words that begin the options. -/
def optionWords : List Str := SelOpt.sorted.map fun k => ' ' :: k.word

theorem option_uniq : Uniq OptionT [] := by
  rintro a b _ _ x y rfl rfl hx hy e
  obtain ⟨h1, h2⟩ := word_uniq (by cases a <;> decide) (by cases b <;> decide) hx.1 hy.1 e
  refine ⟨?_, h2⟩
  revert h1
  cases a <;> cases b <;> decide

theorem option_starts {k : SelOpt} {t : Str} (h : OptionT k t) : ∃ w ∈ optionWords, w <+: ' ' :: t := by
  obtain rfl := h
  refine ⟨' ' :: k.word, ?_, List.prefix_rfl⟩
  cases k <;> decide

theorem option_ends {k : SelOpt} {t : Str} (h : OptionT k t) : Ends t := by
  obtain rfl := h
  cases k <;> exact ends_nonempty (by decide) (by decide)

theorem options_text (o : SelectOptions) :
    TailT OptionT (SelOpt.sorted.filter o.isOn) (assemble [optionsPhrase o.isOn]) := by
  refine ⟨(SelOpt.sorted.filter o.isOn).map SelOpt.word, ?_, ?_⟩
  · generalize SelOpt.sorted.filter o.isOn = l
    induction l with
    | nil => exact .nil
    | cons _ _ ih => exact .cons rfl ih
  · unfold optionsPhrase
    generalize SelOpt.sorted.filter o.isOn = l
    cases l with
    | nil => rfl
    | cons k l =>
      rw [if_neg (by simp), List.map_cons, joinS_cons]
      simp [assemble]

theorem optionsOn_inj {o p : SelectOptions} (h : SelOpt.sorted.filter o.isOn = SelOpt.sorted.filter p.isOn) :
    o = p := by
  have on : ∀ k, o.isOn k = p.isOn k := by
    intro k
    have hk : k ∈ SelOpt.sorted := by cases k <;> decide
    have : k ∈ SelOpt.sorted.filter o.isOn ↔ k ∈ SelOpt.sorted.filter p.isOn := by rw [h]
    simp only [List.mem_filter, hk, true_and] at this
    exact Bool.eq_iff_iff.mpr this
  obtain ⟨c, d, a1, a2, a3, a4, a5, a6⟩ := o
  obtain ⟨c', d', b1, b2, b3, b4, b5, b6⟩ := p
  have e1 : a1 = b1 := on .sqlSmallResult
  have e2 : a2 = b2 := on .sqlBigResult
  have e3 : a3 = b3 := on .sqlBufferResult
  have e4 : a4 = b4 := on .sqlCalcFoundRows
  have e5 : a5 = b5 := on .straightJoin
  have e6 : a6 = b6 := on .highPriority
  have f1 : (c == .cache) = (c' == .cache) := on .sqlCache
  have f2 : (c == .noCache) = (c' == .noCache) := on .sqlNoCache
  have g1 : (d == .all) = (d' == .all) := on .all
  have g2 : (d == .distinct) = (d' == .distinct) := on .distinct
  have g3 : (d == .distinctrow) = (d' == .distinctrow) := on .distinctrow
  have ec : c = c' := by
    revert f1 f2
    cases c <;> cases c' <;> decide
  have ed : d = d' := by
    revert g1 g2 g3
    cases d <;> cases d' <;> decide
  rw [e1, e2, e3, e4, e5, e6, ec, ed]

/-- A column and its text. -/
def ColT (q : Char) (T : Texts) (c : Column) (t : Str) : Prop := AliasT q T (c.name, c.alias) t

theorem col_uniq {q : Char} (hq : q = '"' ∨ q = '`') {T : Texts} (G : Good q T) : Uniq (ColT q T) [L!" AS "] := by
  rintro ⟨n, a⟩ ⟨n', a'⟩ s t x y h1 h2 hx hy e
  obtain ⟨h3, e⟩ := alias_uniq hq G h1 h2 hx hy e
  cases h3
  exact ⟨rfl, e⟩

/-- The column list, with a blank before it. -/
def ColsT (q : Char) (T : Texts) (cs : List Column) (t : Str) : Prop :=
  (cs = [] ∧ t = L!" *") ∨ ∃ s, ListT (ColT q T) L!", " cs s ∧ t = ' ' :: s

theorem listT_head {α : Type} {T : α → Str → Prop} {sep : Str} {ws : List Str}
    (h : ∀ {a t}, T a t → Begins ws t) {xs : List α} {t : Str} (ht : ListT T sep xs t) : Begins ws t := by
  obtain ⟨hne, ts, h1, rfl⟩ := ht
  cases h1 with
  | nil => exact absurd rfl hne
  | cons h2 h3 =>
    rw [joinS_cons]
    exact (h h2).append _

/-- The words with a blank before them. -/
def blankWords (ws : List Str) : List Str := ws.map fun w => ' ' :: w

theorem cols_starts {q : Char} {T : Texts} (G : Good q T) : StartsT (ColsT q T) ([' ', '*'] :: blankWords (nameWords q)) := by
  rintro cs _ (⟨_, rfl⟩ | ⟨s, h1, rfl⟩)
  · exact .inr ⟨sep_blank _, _, by simp, List.prefix_rfl⟩
  · obtain ⟨w, hw, hp⟩ := (listT_head (alias_head G) h1).cons ' '
    exact .inr ⟨sep_blank _, w, List.mem_cons_of_mem _ hw, hp⟩

theorem cols_uniq {q : Char} (hq : q = '"' ∨ q = '`') {T : Texts} (G : Good q T) :
    Uniq (ColsT q T) [L!", ", L!" AS "] := by
  have key := list_uniq (sep := L!", ") (col_uniq hq G) ⟨.inr ⟨',', _, rfl, .inr (.inl rfl)⟩, by decide⟩ (by decide)
  have star : ∀ {cs : List Column} {s x y : Str}, ListT (ColT q T) L!", " cs s → L!" *" ++ y = ' ' :: s ++ x → False := by
    intro cs s x y h1 e
    have hb := (listT_head (alias_head G) h1).append x
    have e : ' ' :: '*' :: y = ' ' :: (s ++ x) := e
    refine hb.char (List.cons.inj e).2.symm ?_
    rcases hq with rfl | rfl <;> decide
  rintro _ _ _ _ x y (⟨rfl, rfl⟩ | ⟨s, h1, rfl⟩) (⟨rfl, rfl⟩ | ⟨t, h2, rfl⟩) hx hy e
  · exact ⟨rfl, List.append_cancel_left e⟩
  · exact (star h2 e).elim
  · exact (star h1 e.symm).elim
  · exact key h1 h2 hx hy (List.cons.inj e).2

theorem cols_closed {q : Char} (hq : q = '"' ∨ q = '`') {T : Texts} (G : Good q T) : ClosedT (ColsT q T) := by
  rintro cs _ (⟨_, rfl⟩ | ⟨s, h1, rfl⟩)
  · exact .inr ⟨[' '], '*', rfl, by decide⟩
  · exact .inr ((list_ends (alias_ends hq G) h1).cons _)

/-- A number and its text. -/
def IntT (i : Int) (t : Str) : Prop := t = intText i

theorem intT_uniq : Uniq IntT [] := by
  rintro a b _ _ x y rfl rfl hx hy e
  exact int_uniq hx.1 hy.1 e

theorem intT_ends {i : Int} {t : Str} (h : IntT i t) : Ends t := by
  obtain rfl := h
  exact ends_nonempty (intText_chars i).1 fun c hc => digit_notWhite ((intText_chars i).2 c hc)

/-- Limit and offset. -/
abbrev LimitT := Seq (OptT L!" LIMIT " IntT) (OptT L!" OFFSET " IntT)

theorem limit_text (l o : Option Int) : LimitT (l, o) (assemble [limitPhrase l o]) := by
  cases l <;> cases o
  · exact ⟨[], [], .inl ⟨rfl, rfl⟩, .inl ⟨rfl, rfl⟩, rfl⟩
  · exact ⟨[], _, .inl ⟨rfl, rfl⟩, .inr ⟨_, _, rfl, rfl, rfl⟩, by simp [assemble, limitPhrase]⟩
  · exact ⟨_, [], .inr ⟨_, _, rfl, rfl, rfl⟩, .inl ⟨rfl, rfl⟩, by simp [assemble, limitPhrase]⟩
  · exact ⟨_, _, .inr ⟨_, _, rfl, rfl, rfl⟩, .inr ⟨_, _, rfl, rfl, rfl⟩, by simp [assemble, limitPhrase]⟩

theorem limit_uniq : Uniq LimitT [L!" LIMIT ", L!" OFFSET "] :=
  seq_uniq (opt_uniq intT_uniq) (opt_uniq intT_uniq) (opt_starts ⟨sep_blank _, by decide⟩) (by decide)

theorem limit_starts : StartsT LimitT [L!" LIMIT ", L!" OFFSET "] :=
  seq_starts (opt_starts ⟨sep_blank _, by decide⟩) (opt_starts ⟨sep_blank _, by decide⟩) (by decide)

theorem limit_closed : ClosedT LimitT := seq_closed (opt_closed intT_ends) (opt_closed intT_ends)

/-- The outfile clause. -/
abbrev OutT (q : Char) := Seq (OptT L!" INTO OUTFILE " (ScalarT q)) (Seq (OptT L!" FIELDS TERMINATED BY " (ScalarT q))
  (Seq (OptT L!" LINES TERMINATED BY " (ScalarT q)) (OptT L!" OPTIONALLY ENCLOSED BY " (ScalarT q))))

/-- Words of the outfile clause. -/
def outWords : List Str :=
  [L!" INTO OUTFILE ", L!" FIELDS TERMINATED BY ", L!" LINES TERMINATED BY ", L!" OPTIONALLY ENCLOSED BY "]

theorem out_uniq {q : Char} : Uniq (OutT q) outWords := by
  refine seq_uniq (opt_uniq scalar_uniq) (seq_uniq (opt_uniq scalar_uniq) (seq_uniq (opt_uniq scalar_uniq)
    (opt_uniq scalar_uniq) (ws := [L!" OPTIONALLY ENCLOSED BY "]) ?s3 ?_) (ws := [L!" LINES TERMINATED BY ", L!" OPTIONALLY ENCLOSED BY "]) ?s2 ?_)
    (ws := [L!" FIELDS TERMINATED BY ", L!" LINES TERMINATED BY ", L!" OPTIONALLY ENCLOSED BY "]) ?s1 ?_
  case s3 => exact opt_starts ⟨sep_blank _, by decide⟩
  case s2 => exact seq_starts (opt_starts ⟨sep_blank _, by decide⟩) (opt_starts ⟨sep_blank _, by decide⟩) (by decide)
  case s1 => exact seq_starts (opt_starts ⟨sep_blank _, by decide⟩) (seq_starts (opt_starts ⟨sep_blank _, by decide⟩)
    (opt_starts ⟨sep_blank _, by decide⟩) (by decide)) (by decide)
  all_goals decide

theorem out_starts {q : Char} : StartsT (OutT q) outWords :=
  seq_starts (opt_starts ⟨sep_blank _, by decide⟩) (seq_starts (opt_starts ⟨sep_blank _, by decide⟩)
    (seq_starts (opt_starts ⟨sep_blank _, by decide⟩) (opt_starts ⟨sep_blank _, by decide⟩) (by decide))
    (by decide)) (by decide)

theorem out_closed {q : Char} : ClosedT (OutT q) :=
  seq_closed (opt_closed scalar_ends) (seq_closed (opt_closed scalar_ends) (seq_closed (opt_closed scalar_ends)
    (opt_closed scalar_ends)))

theorem phrase_text {cx : Ctx} {n : Nat} {kw : Str} {v : Option Obj} {t : Str} (hv : TidySetting cx.backend.quote v)
    (h : OutfilePhrase cx n kw v t) : OptT kw (ScalarT cx.backend.quote) v t := by
  cases v with
  | none => exact .inl ⟨rfl, h⟩
  | some v =>
    obtain ⟨s, rfl, hs⟩ := hv
    obtain ⟨a, h1, rfl⟩ := h
    exact .inr ⟨_, a, rfl, scalar_text hs h1, rfl⟩

theorem outfile_text {cx : Ctx} {n : Nat} {o : Outfile} {c : Option Str}
    (hs : TidySetting cx.backend.quote o.file ∧ TidySetting cx.backend.quote o.fields ∧
      TidySetting cx.backend.quote o.lines ∧ TidySetting cx.backend.quote o.enclosed)
    (hn : o.file = none → o = {}) (h : OutfileClause cx n o c) :
    OutT cx.backend.quote (o.file, o.fields, o.lines, o.enclosed) (assemble [c]) := by
  rcases h with ⟨h1, rfl⟩ | ⟨h1, a, b, d, e, h2, h3, h4, h5, rfl⟩
  · rw [hn h1]
    exact ⟨[], [], .inl ⟨rfl, rfl⟩, ⟨[], [], .inl ⟨rfl, rfl⟩, ⟨[], [], .inl ⟨rfl, rfl⟩, .inl ⟨rfl, rfl⟩, rfl⟩, rfl⟩, rfl⟩
  · refine ⟨' ' :: a, _, ?_, ⟨b, _, phrase_text hs.2.1 h3, ⟨d, e, phrase_text hs.2.2.1 h4,
      phrase_text hs.2.2.2 h5, rfl⟩, rfl⟩, by simp [assemble]⟩
    rcases phrase_text hs.1 h2 with ⟨h6, _⟩ | ⟨v, s, h6, h7, rfl⟩
    · exact absurd h6 h1
    · exact .inr ⟨v, s, h6, h7, rfl⟩

theorem clauseT_text {α : Type} {kw sep : Str} {W T : α → Str → Prop} {P : α → Prop} {xs : List α} {c : Option Str}
    (hp : ∀ x ∈ xs, P x) (ht : ∀ {x t}, P x → W x t → T x t) (h : ListClause kw sep W xs c) :
    ClauseT (' ' :: kw) sep T xs (assemble [c]) := by
  rcases h with ⟨rfl, rfl⟩ | ⟨h1, ts, h2, rfl⟩
  · exact .inl ⟨rfl, rfl⟩
  · refine .inr ⟨joinS sep ts, ⟨h1, ts, ?_, rfl⟩, by simp [assemble]⟩
    clear h1
    induction h2 with
    | nil => exact .nil
    | cons h3 _ ih => exact .cons (ht (hp _ (by simp)) h3) (ih fun x hx => hp x (by simp [hx]))

theorem flag_text (b : Bool) (w : Str) : FlagT (' ' :: w) b (assemble [wordIf b w]) := by
  cases b <;> simp [FlagT, assemble, wordIf]

theorem assemble_cons (c : Option Str) (cs : List (Option Str)) : assemble (c :: cs) = assemble [c] ++ assemble cs := by
  simp [assemble]

/-! ### SELECT -/

/-- The clauses of a SELECT and their text. -/
abbrev SelT (q : Char) (T : Texts) :=
  Seq (TailT OptionT) <| Seq (ColsT q T) <| Seq (ClauseT L!" FROM " L!", " (TableT q T)) <|
  Seq (ClauseT L!" WHERE " L!" AND " (CondT T)) <| Seq (ClauseT L!" GROUP BY " L!", " (OrderT T)) <|
  Seq (ClauseT L!" HAVING " L!" AND " (CondT T)) <| Seq (ClauseT L!" ORDER BY " L!", " (OrderT T)) <|
  Seq LimitT <| Seq (OutT q) (FlagT L!" FOR UPDATE")

theorem comma_sep : Sep L!", " ∧ L!", " ≠ [] := ⟨.inr ⟨',', _, rfl, .inr (.inl rfl)⟩, by decide⟩

theorem and_sep : Sep L!" AND " ∧ L!" AND " ≠ [] := ⟨sep_blank _, by decide⟩

/-- What must not follow a SELECT. -/
def selectStops : List Str :=
  ([] ++ optionWords) ++ (([L!", ", L!" AS "]) ++ ((L!" FROM " :: L!", " :: tableStops) ++
    ([L!" WHERE ", L!" AND "] ++ ([L!" GROUP BY ", L!", ", L!" DESC"] ++ ([L!" HAVING ", L!" AND "] ++
    ([L!" ORDER BY ", L!", ", L!" DESC"] ++ ([L!" LIMIT ", L!" OFFSET "] ++ (outWords ++ [L!" FOR UPDATE"]))))))))

/-- Words that may follow the column list. -/
def fromWords : List Str := [L!" FROM ", L!" WHERE ", L!" GROUP BY ", L!" HAVING ", L!" ORDER BY ", L!" LIMIT ",
  L!" OFFSET ", L!" INTO OUTFILE ", L!" FIELDS TERMINATED BY ", L!" LINES TERMINATED BY ",
  L!" OPTIONALLY ENCLOSED BY ", L!" FOR UPDATE"]

theorem sel_uniq {q : Char} (hq : q = '"' ∨ q = '`') {T : Texts} (G : Good q T) : Uniq (SelT q T) selectStops := by
  have b : ∀ {w : Str}, Sep (' ' :: w) ∧ ' ' :: w ≠ [] := ⟨sep_blank _, by simp⟩
  have s0 : StartsT (FlagT L!" FOR UPDATE") (fromWords.drop 11) := flag_starts (sep_blank _)
  have s1 : StartsT (Seq (OutT q) (FlagT L!" FOR UPDATE")) (fromWords.drop 7) := seq_starts out_starts s0 (by decide)
  have s2 := seq_starts limit_starts s1 (by decide)
  have s3 := seq_starts (clause_starts (kw := L!" ORDER BY ") (sep := L!", ") (T := OrderT T) b) s2 (by decide)
  have s4 := seq_starts (clause_starts (kw := L!" HAVING ") (sep := L!" AND ") (T := CondT T) b) s3 (by decide)
  have s5 := seq_starts (clause_starts (kw := L!" GROUP BY ") (sep := L!", ") (T := OrderT T) b) s4 (by decide)
  have s6 := seq_starts (clause_starts (kw := L!" WHERE ") (sep := L!" AND ") (T := CondT T) b) s5 (by decide)
  have s7 := seq_starts (clause_starts (kw := L!" FROM ") (sep := L!", ") (T := TableT q T) b) s6 (by decide)
  have s8 := seq_starts (cols_starts G) s7 (by rcases hq with rfl | rfl <;> decide)
  have u1 : Uniq (Seq (OutT q) (FlagT L!" FOR UPDATE")) _ := seq_uniq out_uniq flag_uniq s0 (by decide)
  have u2 := seq_uniq limit_uniq u1 s1 (by decide)
  have u3 := seq_uniq (clause_uniq (kw := L!" ORDER BY ") (order_uniq G) comma_sep (by decide)) u2 s2 (by decide)
  have u4 := seq_uniq (clause_uniq (kw := L!" HAVING ") (cond_uniq hq G) and_sep (by decide)) u3 s3 (by decide)
  have u5 := seq_uniq (clause_uniq (kw := L!" GROUP BY ") (order_uniq G) comma_sep (by decide)) u4 s4 (by decide)
  have u6 := seq_uniq (clause_uniq (kw := L!" WHERE ") (cond_uniq hq G) and_sep (by decide)) u5 s5 (by decide)
  have u7 := seq_uniq (clause_uniq (kw := L!" FROM ") (table_uniq hq G) comma_sep (by decide)) u6 s6 (by decide)
  have u8 := seq_uniq (cols_uniq hq G) u7 s7 (by decide)
  refine seq_uniq (tail_uniq option_uniq (fun _ _ => option_starts) (by decide)) u8 s8 ?_
  rcases hq with rfl | rfl <;> decide

theorem sel_closed {q : Char} (hq : q = '"' ∨ q = '`') {T : Texts} (G : Good q T) : ClosedT (SelT q T) :=
  seq_closed (tail_closed option_ends) <| seq_closed (cols_closed hq G) <| seq_closed (clause_closed (table_ends hq G)) <|
  seq_closed (clause_closed (cond_ends G)) <| seq_closed (clause_closed (order_ends G)) <|
  seq_closed (clause_closed (cond_ends G)) <| seq_closed (clause_closed (order_ends G)) <| seq_closed limit_closed <|
  seq_closed out_closed (flag_closed ⟨L!" FOR UPDAT", 'E', by decide, by decide⟩)

theorem trimmed_closed {w u t : Str} {c : Char} (hw : isWhite c = false) (he : Ends (c :: w)) (hu : u = [] ∨ Ends u)
    (h : Trimmed isWhite (c :: w ++ u) t) : t = c :: w ++ u := by
  have h1 : Ends (c :: w ++ u) := by
    rcases hu with rfl | hu
    · rwa [List.append_nil]
    · exact hu.append _
  have h0 : ∃ r, c :: w ++ u = c :: r := ⟨_, rfl⟩
  generalize c :: w ++ u = s at h h0 h1
  obtain ⟨pre, post, rfl, h2, h3, h4, h5⟩ := h
  obtain ⟨r, h6⟩ := h0
  obtain ⟨r', d, h7, hd⟩ := h1
  have hpre : pre = [] := by
    cases pre with
    | nil => rfl
    | cons e pre =>
      have : e = c := (List.cons.inj h6).1
      have := h2 e (by simp)
      simp_all
  have hpost : post = [] := by
    rcases List.eq_nil_or_concat post with h | ⟨l, e, rfl⟩
    · exact h
    · rw [List.concat_eq_append, ← List.append_assoc] at h7
      have : [e] = [d] := (List.append_inj' h7 rfl).2
      have := h3 e (by simp)
      simp_all
  simp [hpre, hpost]

/-- The clauses of a SELECT. -/
def selTuple (q : Select) := (SelOpt.sorted.filter q.opts.isOn, q.columns, q.tables, q.where_, q.groupBy, q.having, q.orderBy,
  (q.limit.limit, q.limit.offset), (q.outfile.file, q.outfile.fields, q.outfile.lines, q.outfile.enclosed),
  q.forUpdate)

theorem selTuple_inj {q r : Select} (h : selTuple q = selTuple r) : q = r := by
  obtain ⟨o, c, f, w, g, hv, ob, ⟨l, off⟩, ⟨o1, o2, o3, o4⟩, fu⟩ := q
  obtain ⟨o', c', f', w', g', hv', ob', ⟨l', off'⟩, ⟨p1, p2, p3, p4⟩, fu'⟩ := r
  simp only [selTuple, Prod.mk.injEq] at h
  obtain ⟨e1, rfl, rfl, rfl, rfl, rfl, rfl, ⟨rfl, rfl⟩, ⟨rfl, rfl, rfl, rfl⟩, rfl⟩ := h
  rw [optionsOn_inj e1]

/-- A SELECT and its text. -/
def SubT (q : Char) (T : Texts) (s : Select) (t : Str) : Prop := ∃ u, t = L!"SELECT" ++ u ∧ SelT q T (selTuple s) u

theorem sub_uniq {q : Char} (hq : q = '"' ∨ q = '`') {T : Texts} (G : Good q T) : Uniq (SubT q T) selectStops := by
  rintro a b _ _ x y ⟨u, rfl, h1⟩ ⟨v, rfl, h2⟩ hx hy e
  rw [List.append_assoc, List.append_assoc] at e
  obtain ⟨h3, e⟩ := sel_uniq hq G h1 h2 hx hy (List.append_cancel_left e)
  exact ⟨selTuple_inj h3, e⟩

theorem sub_closes {q : Char} (hq : q = '"' ∨ q = '`') {T : Texts} (G : Good q T) {a b : Select} {s t x y : Str}
    (h1 : SubT q T a s) (h2 : SubT q T b t) (e : s ++ ')' :: x = t ++ ')' :: y) : a = b ∧ x = y := by
  obtain ⟨h3, e⟩ := sub_uniq hq G h1 h2 (ok_close (by decide) x) (ok_close (by decide) y) e
  exact ⟨h3, (List.cons.inj e).2⟩

theorem select_text {S : Shapes} {cx : Ctx} {n : Nat} {T : Texts} (G : Good cx.backend.quote T) (hR : Read S cx n T)
    {q : Select} {t : Str} (hq : TidySelectOf S cx n q) (h : SelectStatement cx n q t) :
    SubT cx.backend.quote T q t := by
  obtain ⟨p, hp, ht⟩ := h
  have key : SelT cx.backend.quote T (selTuple q) (assemble [p.options, some p.columns, p.from_, p.where_, p.groupBy, p.having,
          p.orderBy, p.limit, p.outfile, p.forUpdate]) := by
    refine ⟨_, _, hp.options ▸ options_text _, ?_, assemble_cons _ _⟩
    refine ⟨_, _, ?_, ?_, assemble_cons _ _⟩
    · rcases hp.columns with ⟨h1, h2⟩ | ⟨ts, h1, h2, h3⟩
      · exact .inl ⟨h1, by rw [h2]; rfl⟩
      · have := clauseT_text (kw := []) (sep := L!", ") hq.columns (fun {c t} => alias_text hR (t := t))
          (.inr ⟨h1, ts, h2, rfl⟩)
        rcases this with ⟨h4, _⟩ | ⟨s, h4, h5⟩
        · exact absurd h4 h1
        · refine .inr ⟨s, h4, ?_⟩
          rw [h3]
          exact h5
    refine ⟨_, _, clauseT_text hq.tables (table_text hR) hp.from_, ?_, assemble_cons _ _⟩
    refine ⟨_, _, clauseT_text hq.where_ (cond_text hR) hp.where_, ?_, assemble_cons _ _⟩
    refine ⟨_, _, clauseT_text hq.groupBy (order_text hR) hp.groupBy, ?_, assemble_cons _ _⟩
    refine ⟨_, _, clauseT_text hq.having (cond_text hR) hp.having, ?_, assemble_cons _ _⟩
    refine ⟨_, _, clauseT_text hq.orderBy (order_text hR) hp.orderBy, ?_, assemble_cons _ _⟩
    refine ⟨_, _, hp.limit ▸ limit_text _ _, ?_, assemble_cons _ _⟩
    exact ⟨_, _, outfile_text hq.settings hq.outfile hp.outfile, hp.forUpdate ▸ flag_text _ _, assemble_cons _ _⟩
  exact ⟨_, trimmed_closed (by decide) ⟨L!"SELEC", 'T', by decide, by decide⟩
    (sel_closed (quote_cases cx) G key) ht, key⟩

theorem ok_end {bad : List Str} (h : ∀ w ∈ bad, w ≠ []) : Ok bad [] :=
  ⟨.inl rfl, fun w hw hp => h w hw (List.prefix_nil.mp hp)⟩

/-! ### Nested queries and conditions -/

/-- An operand of `|` or `&` and its text. -/
def OperandT (T : Texts) (o : Obj) (t : Str) : Prop := T.item o t ∨ ∃ c, o = .conds [c] ∧ T.single c t

theorem operand_uniq {q : Char} (hq : q = '"' ∨ q = '`') {T : Texts} (G : Good q T) : Uniq (OperandT T) [] := by
  rintro a b s t x y (ha | ⟨o, rfl, ha⟩) (hb | ⟨p, rfl, hb⟩) hx hy h
  · exact G.item ha hb hx hy h
  · exact ((G.singleHead hb).differ (G.itemHead ha) (words_differ hq) h.symm).elim
  · exact ((G.singleHead ha).differ (G.itemHead hb) (words_differ hq) h).elim
  · obtain ⟨rfl, h⟩ := G.single ha hb hx hy h
    exact ⟨rfl, h⟩

theorem operand_head {q : Char} {T : Texts} (G : Good q T) {o : Obj} {t : Str} (h : OperandT T o t) :
    Begins (nameWords q ++ itemWords q) t := by
  rcases h with h | ⟨c, _, h⟩
  · exact (G.itemHead h).sub fun w hw => ⟨w, by simp [hw], List.prefix_rfl⟩
  · exact (G.singleHead h).sub fun w hw => ⟨w, by simp [hw], List.prefix_rfl⟩

/-- Two conditions with a word between them. -/
def CofcT (T : Texts) (o : Obj) (t : Str) : Prop :=
  ∃ l r op a b, o = .cofc l r op ∧ OperandT T l a ∧ OperandT T r b ∧
    t = '(' :: (a ++ (' ' :: (op.text ++ ' ' :: (b ++ [')']))))

/-- Negated conditions. -/
def NotT (T : Texts) (o : Obj) (t : Str) : Prop :=
  ∃ ps u, o = .not_ ps ∧ T.group ps u ∧ t = L!"NOT(" ++ (u ++ [')'])

/-- A query after EXISTS. -/
def ExistsT (T : Texts) (o : Obj) (t : Str) : Prop :=
  ∃ q u, o = .exists_ (.select q) ∧ T.sub q u ∧ t = L!"EXISTS(" ++ (u ++ [')'])

/-- A query in brackets. -/
def BracketT (q : Char) (T : Texts) (o : Obj) (t : Str) : Prop :=
  ∃ s u, o = .select s ∧ SubT q T s u ∧ t = '(' :: (u ++ [')'])

/-- The texts one level higher. -/
def nextTexts (q : Char) (T : Texts) : Texts where
  name := fun o t => ColumnT q o t ∨ BracketT q T o t
  value := fun o t => ValueT q o t ∨ BracketT q T o t
  item := fun o t => CofcT T o t ∨ NotT T o t ∨ ExistsT T o t
  group := ListT (CondT T) L!" AND "
  single := PairT T
  sub := SubT q T

/-- The texts up to a depth. -/
def texts (q : Char) : Nat → Texts
  | 0 => ⟨ColumnT q, ValueT q, fun _ _ => False, fun _ _ => False, fun _ _ => False, fun _ _ => False⟩
  | k + 1 => nextTexts q (texts q k)

theorem column_head {q : Char} {o : Obj} {t : Str} (h : ColumnT q o t) : Begins (nameWords q) t := by
  rcases h with h | h
  · obtain ⟨r, rfl⟩ := name_head h
    exact ⟨[q], by simp [nameWords], ⟨r, rfl⟩⟩
  · exact Begins.sub (ws := aggWords) (fun_head h) fun w hw => ⟨w, by simp [nameWords, hw], List.prefix_rfl⟩

theorem bracket_ends {q : Char} {T : Texts} {o : Obj} {t : Str} (h : BracketT q T o t) : Ends t := by
  obtain ⟨s, u, _, _, rfl⟩ := h
  exact ⟨'(' :: u, ')', rfl, by decide⟩

theorem bracket_head {q : Char} {T : Texts} {o : Obj} {t : Str} (h : BracketT q T o t) : ∃ r, t = '(' :: 'S' :: 'E' :: 'L' :: 'E' :: 'C' :: 'T' :: r := by
  obtain ⟨s, _, _, ⟨u, rfl, _⟩, rfl⟩ := h
  exact ⟨_, rfl⟩

theorem bracket_uniq {q : Char} (hq : q = '"' ∨ q = '`') {T : Texts} (G : Good q T) {a b : Obj} {s t x y : Str}
    (h1 : BracketT q T a s) (h2 : BracketT q T b t) (e : s ++ x = t ++ y) : a = b ∧ x = y := by
  obtain ⟨a, u, rfl, h1, rfl⟩ := h1
  obtain ⟨b, v, rfl, h2, rfl⟩ := h2
  simp only [List.cons_append, List.append_assoc, List.nil_append, List.cons.injEq, true_and] at e
  obtain ⟨rfl, e⟩ := sub_closes hq G h1 h2 e
  exact ⟨rfl, e⟩

theorem item_uniq {q : Char} (hq : q = '"' ∨ q = '`') {T : Texts} (G : Good q T) : Uniq (nextTexts q T).item [] := by
  rintro a b s t x y (⟨l, r, op, u, v, rfl, h1, h2, rfl⟩ | ⟨ps, u, rfl, h1, rfl⟩ | ⟨p, u, rfl, h1, rfl⟩)
    (⟨l', r', op', u', v', rfl, h1', h2', rfl⟩ | ⟨ps', u', rfl, h1', rfl⟩ | ⟨p', u', rfl, h1', rfl⟩) hx hy e
  · simp only [List.cons_append, List.append_assoc, List.nil_append, List.cons.injEq, true_and] at e
    obtain ⟨rfl, e⟩ := operand_uniq hq G h1 h1' (ok_blank (by simp)) (ok_blank (by simp)) e
    have e := (List.cons.inj e).2
    have : op = op' ∧ v ++ ')' :: x = v' ++ ')' :: y := by
      revert e
      generalize v ++ ')' :: x = z
      generalize v' ++ ')' :: y = z'
      intro e
      cases op <;> cases op' <;> simp [BoolOp.text] at e ⊢ <;> exact e
    obtain ⟨rfl, e'⟩ := this
    obtain ⟨rfl, e'⟩ := operand_uniq hq G h2 h2' (ok_close (by simp) x) (ok_close (by simp) y) e'
    exact ⟨rfl, (List.cons.inj e').2⟩
  · cases e
  · cases e
  · cases e
  · simp only [List.append_assoc, List.cons_append, List.nil_append] at e
    obtain ⟨rfl, e⟩ := G.group h1 h1' (List.append_cancel_left e)
    exact ⟨rfl, e⟩
  · cases e
  · cases e
  · cases e
  · simp only [List.append_assoc, List.cons_append, List.nil_append] at e
    obtain ⟨rfl, e⟩ := G.sub h1 h1' (List.append_cancel_left e)
    exact ⟨rfl, e⟩

theorem good_next {q : Char} (hq : q = '"' ∨ q = '`') {T : Texts} (G : Good q T) : Good q (nextTexts q T) where
  name := by
    have no : ∀ {o p s t x y}, ColumnT q o s → BracketT q T p t → s ++ x = t ++ y → False := by
      rintro o p s t x y h1 h2 e
      obtain ⟨r, rfl⟩ := bracket_head h2
      rcases h1 with h1 | h1
      · obtain ⟨r, rfl⟩ := name_head h1
        rcases hq with rfl | rfl <;> cases e
      · obtain ⟨c, u, rfl, hc⟩ := fun_letter h1
        cases (List.cons.inj e).1
        revert hc
        decide
    rintro a b s t x y (ha | ha) (hb | hb) hx hy e
    · exact column_uniq hq ha hb hx hy e
    · exact (no ha hb e).elim
    · exact (no hb ha e.symm).elim
    · exact bracket_uniq hq G ha hb e
  nameEnds := fun h => h.elim (column_ends hq) bracket_ends
  nameHead := by
    rintro o t (h | h)
    · exact column_head h
    · obtain ⟨r, rfl⟩ := bracket_head h
      exact ⟨L!"(SELECT", by simp [nameWords], ⟨r, rfl⟩⟩
  value := by
    have no : ∀ {o p s t x y}, ValueT q o s → BracketT q T p t → s ++ x = t ++ y → False := by
      rintro o p s t x y h1 h2 e
      obtain ⟨r, rfl⟩ := bracket_head h2
      exact value_sub hq h1 e
    rintro a b s t x y (ha | ha) (hb | hb) hx hy e
    · exact value_uniq hq ha hb hx hy e
    · exact (no ha hb e).elim
    · exact (no hb ha e.symm).elim
    · exact bracket_uniq hq G ha hb e
  valueEnds := fun h => h.elim (value_ends hq) bracket_ends
  valueNot := by
    rintro o s x r (h | h) e
    · exact value_not hq h e
    · obtain ⟨r, rfl⟩ := bracket_head h
      cases e
  item := item_uniq hq G
  itemEnds := by
    rintro o t (⟨l, r, op, u, v, _, _, _, rfl⟩ | ⟨ps, u, _, _, rfl⟩ | ⟨p, u, _, _, rfl⟩)
    · exact ((((((Ends.append ⟨[], ')', rfl, by decide⟩ v).cons _).append _).cons _).append _).cons _)
    · exact (Ends.append ⟨[], ')', rfl, by decide⟩ u).append _
    · exact (Ends.append ⟨[], ')', rfl, by decide⟩ u).append _
  itemHead := by
    rintro o t (⟨l, r, op, u, v, _, h, _, rfl⟩ | ⟨ps, u, _, _, rfl⟩ | ⟨p, u, _, _, rfl⟩)
    · refine (((operand_head G h).append _).cons '(').sub ?_
      rcases hq with rfl | rfl <;> decide
    · exact ⟨L!"NOT(", by simp [itemWords], ⟨_, rfl⟩⟩
    · exact ⟨L!"EXISTS(", by simp [itemWords], ⟨_, rfl⟩⟩
  group := by
    intro a b s t x y h1 h2 e
    obtain ⟨rfl, e⟩ := list_uniq (cond_uniq hq G) and_sep (by simp) h1 h2 (ok_close (by decide) x) (ok_close (by decide) y) e
    exact ⟨rfl, (List.cons.inj e).2⟩
  single := pair_uniq G
  singleHead := pair_head G
  sub := sub_closes hq G

theorem good_texts {q : Char} (hq : q = '"' ∨ q = '`') (k : Nat) : Good q (texts q k) := by
  induction k with
  | zero =>
    exact ⟨column_uniq hq, column_ends hq, column_head, value_uniq hq, value_ends hq, value_not hq,
      fun _ _ _ _ _ _ h => h.elim, fun h => h.elim, fun h => h.elim, fun h => h.elim, fun _ _ _ _ _ _ h => h.elim,
      fun h => h.elim, fun h => h.elim⟩
  | succ k ih => exact good_next hq ih

theorem value_iter {q : Char} {v : Obj} (h : TidyValue q v) :
    v.iterate = none ∨ (∃ s, v = .str s) ∨ ∃ xs, v = .list xs ∧ ∀ x ∈ xs, x ≠ .none := by
  rcases h with h | ⟨xs, rfl, h⟩ | ⟨s, rfl, _⟩ |
    (⟨f, d, s, rfl, _⟩ | ⟨cs, rfl, _⟩ | ⟨cs, os, sep, rfl, _⟩ | ⟨s, ty, rfl, _⟩)
  · cases v <;> first
      | exact h.elim
      | exact .inl rfl
      | exact .inr (.inl ⟨_, rfl⟩)
  · exact .inr (.inr ⟨xs, rfl, fun x hx => (h.2 x hx).2⟩)
  all_goals exact .inl rfl

theorem operand_text {S : Shapes} {cx : Ctx} {n : Nat} {T : Texts} (hR : Read S cx n T)
    (hi : ∀ {ps}, ¬ S.item (.conds ps)) {o : Obj} {t : Str} (ho : TidyOperand S o)
    (h : operandText (sem cx n) o = .ok t) : OperandT T o t := by
  unfold operandText at h
  obtain ⟨u, h1, h⟩ := bind_ok.mp h
  have h2 : needsBrackets o = false := by
    rcases ho with ho | ⟨c, rfl, _⟩
    · cases o <;> first | rfl | exact absurd ho hi
    · rfl
  rw [h2] at h
  cases h
  rcases ho with ho | ⟨c, rfl, hc⟩
  · exact .inl (hR.item ho h1)
  · exact .inr ⟨c, rfl, hR.single hc h1⟩

theorem shapes_item (cx : Ctx) (n : Nat) {ps : List Cond} : ¬ (shapes cx n).item (.conds ps) := by
  cases n with
  | zero => exact id
  | succ n => rintro (⟨_, _, _, h, _⟩ | ⟨_, h, _⟩ | ⟨_, h, _⟩) <;> cases h

theorem read_all (cx : Ctx) (n : Nat) : ∀ k, n ≤ k → Read (shapes cx n) cx n (texts cx.backend.quote k) := by
  have base : ∀ {n k o t}, TidyColumn cx.backend.quote o → sqlRefText cx (sem cx n) o = .ok t →
      (texts cx.backend.quote k).name o t := by
    intro n k o t ho h
    cases k with
    | zero => exact column_text ho h
    | succ k => exact .inl (column_text ho h)
  have basev : ∀ {n k o t}, TidyValue cx.backend.quote o → sqlValueText cx (sem cx n) o = .ok t →
      (texts cx.backend.quote k).value o t := by
    intro n k o t ho h
    cases k with
    | zero => exact value_text ho h
    | succ k => exact .inl (value_text ho h)
  induction n with
  | zero =>
    intro k _
    exact ⟨base, basev, fun h => h.elim, fun h => h.elim, fun h => h.elim, fun h => h.elim, value_iter⟩
  | succ n ih =>
    intro k hk
    obtain ⟨k, rfl⟩ : ∃ j, k = j + 1 := ⟨k - 1, by omega⟩
    have hR := ih k (by omega)
    have G := good_texts (quote_cases cx) k
    have sub : ∀ {q t}, TidySelectOf (shapes cx n) cx n q → (sem cx (n + 1)).str (.select q) = .ok t →
        SubT cx.backend.quote (texts cx.backend.quote k) q t :=
      fun hq h => select_text G hR hq ((C52_select cx n _ _).mp h)
    have bracket : ∀ {o t}, (∃ q, o = .select q ∧ TidySelectOf (shapes cx n) cx n q) →
        (sem cx (n + 1)).str o >>= (fun t => Except.ok ('(' :: (t ++ [')']))) = .ok t →
        BracketT cx.backend.quote (texts cx.backend.quote k) o t := by
      rintro o t ⟨q, rfl, hq⟩ h
      obtain ⟨u, h1, h⟩ := bind_ok.mp h
      cases h
      exact ⟨q, u, rfl, sub hq h1, rfl⟩
    refine ⟨?_, ?_, ?_, ?_, ?_, sub, ?_⟩
    · rintro o t (ho | ho) h
      · exact base ho h
      · refine .inr (bracket ho ?_)
        obtain ⟨q, rfl, _⟩ := ho
        exact h
    · rintro o t (ho | ho) h
      · exact basev ho h
      · refine .inr (bracket ho ?_)
        obtain ⟨q, rfl, _⟩ := ho
        exact h
    · rintro o t (⟨l, r, op, rfl, hl, hr⟩ | ⟨ps, rfl, hp⟩ | ⟨q, rfl, hq⟩) h
      · obtain ⟨a, h1, h⟩ := bind_ok.mp h
        obtain ⟨b, h2, h⟩ := bind_ok.mp h
        cases h
        refine .inl ⟨l, r, op, a, b, rfl, operand_text hR (shapes_item cx n) hl h1,
          operand_text hR (shapes_item cx n) hr h2, ?_⟩
        simp only [List.append_assoc, List.cons_append]
      · obtain ⟨u, h1, h⟩ := bind_ok.mp h
        cases h
        exact .inr (.inl ⟨ps, u, rfl, hR.group hp h1, by simp only [List.append_assoc]⟩)
      · obtain ⟨u, h1, h⟩ := bind_ok.mp h
        cases h
        exact .inr (.inr ⟨q, u, rfl, hR.sub hq h1, by simp only [List.append_assoc]⟩)
    · rintro ps t ⟨hne, hp⟩ h
      have h : condsText cx (sem cx n) [] ps = .ok t := h
      have he : ps.isEmpty = false := by
        cases ps with
        | nil => exact absurd rfl hne
        | cons _ _ => rfl
      simp only [condsText, partsText, he, Bool.false_eq_true, if_false] at h
      obtain ⟨ts, h1, h⟩ := bind_ok.mp h
      cases h
      exact ⟨hne, ts, forall2_tidy h1 hp (condition_text hR), rfl⟩
    · intro c t hc h
      exact pair_text hR hc (conds_single h)
    · rintro v (h | ⟨q, rfl, _⟩)
      · exact value_iter h
      · exact .inl rfl

theorem select_distinct {cx : Ctx} {n m : Nat} {q r : Select} {t : Str} (hq : TidySelect cx n q)
    (hr : TidySelect cx m r) (h1 : SelectStatement cx n q t) (h2 : SelectStatement cx m r t) : q = r := by
  have G := good_texts (quote_cases cx) (max n m)
  have h3 := select_text G (read_all cx n (max n m) (Nat.le_max_left ..)) hq h1
  have h4 := select_text G (read_all cx m (max n m) (Nat.le_max_right ..)) hr h2
  exact (sub_uniq (quote_cases cx) G h3 h4 (ok_end (by decide)) (ok_end (by decide)) rfl).1

/-! ### UPDATE and DELETE -/

/-- A clause without a keyword, whose items begin with some words. -/
theorem bare_uniq {α : Type} {ws : List Str} {sep : Str} {T : α → Str → Prop} {bad : List Str} (h : Uniq T bad)
    (hh : ∀ {a t}, T a t → Begins ws t) (hs : Sep sep ∧ sep ≠ []) (ha : ∀ w ∈ bad, Unlike sep w) :
    Uniq (ClauseT [' '] sep T) (blankWords ws ++ sep :: bad) := by
  have key := list_uniq h hs ha
  have stop : ∀ {xs : List α} {s x y : Str}, ListT T sep xs s → Ok (blankWords ws ++ sep :: bad) y →
      y = ' ' :: s ++ x → False := by
    intro xs s x y h1 hy e
    obtain ⟨w, hw, hp⟩ := ((listT_head hh h1).cons ' ').append x
    exact hy.2 w (List.mem_append_left _ hw) (e ▸ hp)
  have sub : ∀ {x}, Ok (blankWords ws ++ sep :: bad) x → Ok (sep :: bad) x :=
    fun h => ok_sub h fun w hw => List.mem_append_right _ hw
  rintro _ _ _ _ x y (⟨rfl, rfl⟩ | ⟨s, h1, rfl⟩) (⟨rfl, rfl⟩ | ⟨t, h2, rfl⟩) hx hy e
  · exact ⟨rfl, e⟩
  · exact (stop h2 hx e).elim
  · exact (stop h1 hy e.symm).elim
  · exact key h1 h2 (sub hx) (sub hy) (List.cons.inj e).2

theorem bare_starts {α : Type} {ws : List Str} {sep : Str} {T : α → Str → Prop}
    (hh : ∀ {a t}, T a t → Begins ws t) : StartsT (ClauseT [' '] sep T) (blankWords ws) := by
  rintro _ _ (⟨_, rfl⟩ | ⟨s, h1, rfl⟩)
  · exact .inl rfl
  · obtain ⟨w, hw, hp⟩ := (listT_head hh h1).cons ' '
    exact .inr ⟨sep_blank _, w, hw, hp⟩

theorem wordT_first {β : Type} {U : β → Str → Prop} {w : Str} :
    StartsT (Seq (WordT (' ' :: w)) U) [' ' :: w] := by
  rintro ⟨a, b⟩ _ ⟨s, u, rfl, h, rfl⟩
  exact .inr ⟨sep_blank _, _, by simp, ⟨u, rfl⟩⟩

theorem table_head {q : Char} {T : Texts} (G : Good q T) {tb : Table} {t : Str} (h : TableT q T tb t) :
    Begins (nameWords q) t := by
  obtain ⟨a, o, h1, _, rfl⟩ := h
  exact (alias_head G h1).append _

theorem assign_head {q : Char} {T : Texts} {v : Value} {t : Str} (h : AssignT q T v t) : Begins [[q]] t := by
  obtain ⟨o, w, a, b, _, h1, _, rfl⟩ := h
  obtain ⟨r, rfl⟩ := name_head h1
  exact ⟨[q], by simp, ⟨_, rfl⟩⟩

/-- The clauses of an UPDATE and their text. -/
abbrev UpdT (q : Char) (T : Texts) :=
  Seq (FlagT L!" IGNORE") <| Seq (ClauseT [' '] L!", " (TableT q T)) <| Seq (WordT L!" SET") <|
  Seq (ClauseT [' '] L!", " (AssignT q T)) (ClauseT L!" WHERE " L!" AND " (CondT T))

/-- The clauses of a DELETE and their text. -/
abbrev DelT (q : Char) (T : Texts) :=
  Seq (FlagT L!" IGNORE") <| Seq (ClauseT [' '] L!", " (TableT q T)) <| Seq (WordT L!" FROM") <|
  Seq (ClauseT [' '] L!", " (TableT q T)) (ClauseT L!" WHERE " L!" AND " (CondT T))

/-- What must not follow an UPDATE. -/
def updateStops (q : Char) : List Str :=
  [L!" IGNORE"] ++ ((blankWords (nameWords q) ++ L!", " :: tableStops) ++ ([] ++ ((blankWords [[q]] ++ [L!", "]) ++ [L!" WHERE ", L!" AND "])))

/-- What must not follow a DELETE. -/
def deleteStops (q : Char) : List Str :=
  [L!" IGNORE"] ++ ((blankWords (nameWords q) ++ L!", " :: tableStops) ++ ([] ++ ((blankWords (nameWords q) ++ L!", " :: tableStops) ++
    [L!" WHERE ", L!" AND "])))

theorem upd_uniq {q : Char} (hq : q = '"' ∨ q = '`') {T : Texts} (G : Good q T) : Uniq (UpdT q T) (updateStops q) := by
  have s1 := clause_starts (kw := L!" WHERE ") (sep := L!" AND ") (T := CondT T) ⟨sep_blank _, by decide⟩
  have s2 := seq_starts (bare_starts (sep := L!", ") (T := AssignT q T) assign_head) s1 (by rcases hq with rfl | rfl <;> decide)
  have s3 : StartsT (Seq (WordT L!" SET") (Seq (ClauseT [' '] L!", " (AssignT q T))
      (ClauseT L!" WHERE " L!" AND " (CondT T)))) [L!" SET"] := wordT_first
  have s4 := seq_starts (bare_starts (sep := L!", ") (T := TableT q T) (table_head G)) s3 (by rcases hq with rfl | rfl <;> decide)
  refine seq_uniq flag_uniq (seq_uniq (bare_uniq (table_uniq hq G) (table_head G) comma_sep (by decide))
    (seq_uniq wordT_uniq (seq_uniq (bare_uniq (assign_uniq hq G) assign_head comma_sep (by decide))
      (clause_uniq (cond_uniq hq G) and_sep (by decide)) s1 ?_) s2 ?_) s3 ?_) s4 ?_
  all_goals rcases hq with rfl | rfl <;> decide

theorem del_uniq {q : Char} (hq : q = '"' ∨ q = '`') {T : Texts} (G : Good q T) : Uniq (DelT q T) (deleteStops q) := by
  have s1 := clause_starts (kw := L!" WHERE ") (sep := L!" AND ") (T := CondT T) ⟨sep_blank _, by decide⟩
  have s2 := seq_starts (bare_starts (sep := L!", ") (T := TableT q T) (table_head G)) s1 (by rcases hq with rfl | rfl <;> decide)
  have s3 : StartsT (Seq (WordT L!" FROM") (Seq (ClauseT [' '] L!", " (TableT q T))
      (ClauseT L!" WHERE " L!" AND " (CondT T)))) [L!" FROM"] := wordT_first
  have s4 := seq_starts (bare_starts (sep := L!", ") (T := TableT q T) (table_head G)) s3 (by rcases hq with rfl | rfl <;> decide)
  refine seq_uniq flag_uniq (seq_uniq (bare_uniq (table_uniq hq G) (table_head G) comma_sep (by decide))
    (seq_uniq wordT_uniq (seq_uniq (bare_uniq (table_uniq hq G) (table_head G) comma_sep (by decide))
      (clause_uniq (cond_uniq hq G) and_sep (by decide)) s1 ?_) s2 ?_) s3 ?_) s4 ?_
  all_goals rcases hq with rfl | rfl <;> decide

theorem upd_closed {q : Char} (hq : q = '"' ∨ q = '`') {T : Texts} (G : Good q T) : ClosedT (UpdT q T) :=
  seq_closed (flag_closed ⟨L!" IGNOR", 'E', by decide, by decide⟩) <| seq_closed (clause_closed (table_ends hq G)) <|
  seq_closed (wordT_closed ⟨L!" SE", 'T', by decide, by decide⟩) <| seq_closed (clause_closed (assign_ends G))
  (clause_closed (cond_ends G))

theorem del_closed {q : Char} (hq : q = '"' ∨ q = '`') {T : Texts} (G : Good q T) : ClosedT (DelT q T) :=
  seq_closed (flag_closed ⟨L!" IGNOR", 'E', by decide, by decide⟩) <| seq_closed (clause_closed (table_ends hq G)) <|
  seq_closed (wordT_closed ⟨L!" FRO", 'M', by decide, by decide⟩) <| seq_closed (clause_closed (table_ends hq G))
  (clause_closed (cond_ends G))

theorem update_text {cx : Ctx} {n : Nat} {T : Texts} (G : Good cx.backend.quote T)
    (hR : Read (shapes cx n) cx n T) {q : Update} {t : Str} (hq : TidyUpdate cx n q)
    (h : UpdateStatement cx n q t) : ∃ u, t = L!"UPDATE" ++ u ∧ UpdT cx.backend.quote T
      (q.ignore, q.tables, (), q.values, q.where_) u := by
  obtain ⟨a, b, c, h1, h2, h3, ht⟩ := h
  have key : UpdT cx.backend.quote T (q.ignore, q.tables, (), q.values, q.where_)
      (assemble [wordIf q.ignore L!"IGNORE", a, some L!"SET", b, c]) := by
    refine ⟨_, _, flag_text _ _, ?_, assemble_cons _ _⟩
    refine ⟨_, _, clauseT_text hq.tables (table_text hR) h1, ?_, assemble_cons _ _⟩
    refine ⟨_, _, rfl, ?_, assemble_cons _ _⟩
    exact ⟨_, _, clauseT_text hq.values (assign_text hR) h2, clauseT_text hq.where_ (cond_text hR) h3, assemble_cons _ _⟩
  exact ⟨_, trimmed_closed (by decide) ⟨L!"UPDAT", 'E', by decide, by decide⟩
    (upd_closed (quote_cases cx) G key) ht, key⟩

theorem delete_text {cx : Ctx} {n : Nat} {T : Texts} (G : Good cx.backend.quote T)
    (hR : Read (shapes cx n) cx n T) {q : Delete} {t : Str} (hq : TidyDelete cx n q)
    (h : DeleteStatement cx n q t) : ∃ u, t = L!"DELETE" ++ u ∧ DelT cx.backend.quote T
      (q.ignore, q.tables, (), q.references, q.where_) u := by
  obtain ⟨a, b, c, h1, h2, h3, ht⟩ := h
  have key : DelT cx.backend.quote T (q.ignore, q.tables, (), q.references, q.where_)
      (assemble [wordIf q.ignore L!"IGNORE", a, some L!"FROM", b, c]) := by
    refine ⟨_, _, flag_text _ _, ?_, assemble_cons _ _⟩
    refine ⟨_, _, clauseT_text hq.tables (table_text hR) h1, ?_, assemble_cons _ _⟩
    refine ⟨_, _, rfl, ?_, assemble_cons _ _⟩
    exact ⟨_, _, clauseT_text hq.references (table_text hR) h2, clauseT_text hq.where_ (cond_text hR) h3, assemble_cons _ _⟩
  exact ⟨_, trimmed_closed (by decide) ⟨L!"DELET", 'E', by decide, by decide⟩
    (del_closed (quote_cases cx) G key) ht, key⟩

theorem update_distinct {cx : Ctx} {n m : Nat} {q r : Update} {t : Str} (hq : TidyUpdate cx n q)
    (hr : TidyUpdate cx m r) (h1 : UpdateStatement cx n q t) (h2 : UpdateStatement cx m r t) :
    q = { r with allowAll := q.allowAll } := by
  have G := good_texts (quote_cases cx) (max n m)
  obtain ⟨u, rfl, h3⟩ := update_text G (read_all cx n (max n m) (Nat.le_max_left ..)) hq h1
  obtain ⟨v, e, h4⟩ := update_text G (read_all cx m (max n m) (Nat.le_max_right ..)) hr h2
  obtain rfl := List.append_cancel_left e
  have hs : ∀ w ∈ updateStops cx.backend.quote, w ≠ [] := by
    rcases quote_cases cx with h | h <;> rw [h] <;> decide
  obtain ⟨h5, _⟩ := upd_uniq (quote_cases cx) G h3 h4 (ok_end hs) (ok_end hs) rfl
  obtain ⟨a, b, c, d, e⟩ := q
  obtain ⟨a', b', c', d', e'⟩ := r
  simp only [Prod.mk.injEq, true_and] at h5
  obtain ⟨rfl, rfl, rfl, rfl⟩ := h5
  rfl

theorem delete_distinct {cx : Ctx} {n m : Nat} {q r : Delete} {t : Str} (hq : TidyDelete cx n q)
    (hr : TidyDelete cx m r) (h1 : DeleteStatement cx n q t) (h2 : DeleteStatement cx m r t) :
    q = { r with allowAll := q.allowAll } := by
  have G := good_texts (quote_cases cx) (max n m)
  obtain ⟨u, rfl, h3⟩ := delete_text G (read_all cx n (max n m) (Nat.le_max_left ..)) hq h1
  obtain ⟨v, e, h4⟩ := delete_text G (read_all cx m (max n m) (Nat.le_max_right ..)) hr h2
  obtain rfl := List.append_cancel_left e
  have hs : ∀ w ∈ deleteStops cx.backend.quote, w ≠ [] := by
    rcases quote_cases cx with h | h <;> rw [h] <;> decide
  obtain ⟨h5, _⟩ := del_uniq (quote_cases cx) G h3 h4 (ok_end hs) (ok_end hs) rfl
  obtain ⟨a, b, c, d, e⟩ := q
  obtain ⟨a', b', c', d', e'⟩ := r
  simp only [Prod.mk.injEq, true_and] at h5
  obtain ⟨rfl, rfl, rfl, rfl⟩ := h5
  rfl

/-- An UPDATE that is rendered has a condition or may change all rows. -/
theorem update_guard {cx : Ctx} {n : Nat} {q : Update} {t : Str} (h : (sem cx (n + 1)).str (.update q) = .ok t) :
    q.where_ ≠ [] ∨ q.allowAll = true := by
  have h : updateText cx (sem cx n) q = .ok t := h
  unfold updateText at h
  split at h
  · cases h
  · rename_i hg
    cases hw : q.where_ with
    | nil => cases ha : q.allowAll <;> simp_all
    | cons _ _ => exact .inl (by simp)

theorem delete_guard {cx : Ctx} {n : Nat} {q : Delete} {t : Str} (h : (sem cx (n + 1)).str (.delete q) = .ok t) :
    q.where_ ≠ [] ∨ q.allowAll = true := by
  have h : deleteText cx (sem cx n) q = .ok t := h
  unfold deleteText at h
  split at h
  · cases h
  · rename_i hg
    cases hw : q.where_ with
    | nil => cases ha : q.allowAll <;> simp_all
    | cons _ _ => exact .inl (by simp)

end SqlPuzzle
