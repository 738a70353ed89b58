import Verif.Proofs.Groups
import Verif.Props.Answers
import Verif.Props.Sources

/-!
C72: what a server answers to a SELECT that groups rows, computes aggregates or merges equal rows.
-/

namespace SqlPuzzle

open Spec

private def cx0 : Ctx := ⟨.sql, ⟨id, id, fun _ => true, fun _ => [], fun _ => []⟩⟩

/-- C21 for columns and aggregates of columns: after any calls the column list has exactly the columns and aggregates
given, each once, in the order of first use. -/
theorem C21_aggregates_partial (cx : Ctx) (n : Nat) {column : Str → List Tok} (ops : List SelectOp)
    (uses : List (List (Obj × Obj))) (hg : List.Forall₂ ColumnNames ops uses)
    (hp : ∀ ps ∈ uses, ∀ p ∈ ps, AnswerColumn cx.backend.quote column p) :
    FirstUses uses.flatten
      ((runOps (selectStep cx (sem cx (n + 2))) {} ops).columns.map fun c => (c.name, c.alias)) := by
  have h := history_uses (f := SelectS.columns) (P := CountedColumn cx.backend.quote)
    (E := AnswerColumn cx.backend.quote column)
    (conv := fun p => (⟨p.1, p.2⟩ : Column)) (Gives := ColumnNames)
    (step := selectStep cx (sem cx (n + 2)))
    ?_ hg hp {} [] .nil (by simp)
  · have h2 := h.map_inj (g := fun c : Column => (c.name, c.alias)) fun a b e => by
      cases a; cases b; simp_all
    simpa [Function.comp_def] using h2
  intro q op ps given h he hs hf
  have skip : ∀ q' : Select, q'.columns = q.columns → ps = [] →
      FirstUses (given ++ ps.map fun p => (⟨p.1, p.2⟩ : Column)) q'.columns ∧
        ∀ c ∈ q'.columns, CountedColumn cx.backend.quote c := by
    rintro q' h2 rfl
    rw [h2, List.map_nil, List.append_nil]
    exact ⟨hf, hs⟩
  cases op with
  | columns a => exact counted_step cx n h he hs hf
  | str =>
    refine skip _ ?_ h
    show (selectStr cx _ q).1.columns = _
    unfold selectStr; split <;> rfl
  | _ => exact skip _ rfl h

/-- C20 for HAVING with aggregates: after any calls the clause has exactly the conditions given, on columns and on
aggregates, each once, in the order of first use. -/
theorem C20_having_aggregates_partial (cx : Ctx) (n : Nat) (ops : List SelectOp)
    (uses : List (List (Obj × Obj))) (hg : List.Forall₂ HavingPairs ops uses)
    (hp : ∀ ps ∈ uses, ∀ p ∈ ps, GroupCond cx.backend.quote p) :
    FirstUses (uses.flatten.map fun p => condOf p.1 p.2)
      (runOps (selectStep cx (sem cx (n + 2))) {} ops).having := by
  refine history_uses (f := SelectS.having) (P := CountedCond cx.backend.quote) (E := GroupCond cx.backend.quote)
    (Gives := HavingPairs) ?_ hg hp {} [] .nil (by simp)
  intro q op ps given h he hs hf
  have skip : ∀ q' : Select, q'.having = q.having → ps = [] →
      FirstUses (given ++ ps.map fun p => condOf p.1 p.2) q'.having ∧
        ∀ c ∈ q'.having, CountedCond cx.backend.quote c := by
    rintro q' h2 rfl
    rw [h2, List.map_nil, List.append_nil]
    exact ⟨hf, hs⟩
  cases op with
  | having a => exact groupConds_step cx n h he hs hf
  | str =>
    refine skip _ ?_ h
    show (selectStr cx _ q).1.having = _
    unfold selectStr; split <;> rfl
  | _ => exact skip _ rfl h

/-- C22 for columns and aggregates of columns: after any calls, ORDER BY has every column and every aggregate once, in
the order of first use, with the direction of its last use. -/
theorem C22_order_by_aggregates (cx : Ctx) (n : Nat) (ops : List SelectOp) (uss : List (List Use))
    (hg : List.Forall₂ (OrderKeys cx) ops uss) :
    let os := (runOps (selectStep cx (sem cx (n + 2))) {} ops).orderBy
    FirstUses (uss.flatten.map Prod.fst) (os.map OrderS.col) ∧
      ∀ o ∈ os, LastValue uss.flatten o.col o.desc := by
  have h : ∀ {ops : List SelectOp} {uss : List (List Use)}, List.Forall₂ (OrderKeys cx) ops uss →
      ∀ (q : Select) (uses : List Use), CountedOrders cx.backend.quote uses q.orderBy →
      CountedOrders cx.backend.quote (uses ++ uss.flatten)
        (runOps (selectStep cx (sem cx (n + 2))) q ops).orderBy := by
    intro ops uss hg
    induction hg with
    | nil => intro q uses h; simpa [runOps] using h
    | @cons op us ops uss h1 _ ih =>
      intro q uses h
      rw [runOps_cons, List.flatten_cons, ← List.append_assoc]
      refine ih _ _ ?_
      have skip : ∀ q' : Select, q'.orderBy = q.orderBy → us = [] →
          CountedOrders cx.backend.quote (uses ++ us) q'.orderBy := by
        rintro q' h2 rfl
        rw [h2, List.append_nil]
        exact h
      cases op with
      | orderBy a =>
        obtain ⟨ps, h2, h3⟩ := h1
        exact countedOrders_step cx n h2 h3 h
      | str =>
        refine skip _ ?_ h1
        show (selectStr cx _ q).1.orderBy = _
        unfold selectStr; split <;> rfl
      | _ => exact skip _ rfl h1
  have h := h hg {} [] ⟨.nil, by simp, by simp⟩
  exact ⟨h.first, h.last⟩

section
variable {cx : Ctx} {d : Dialect} {V : Type} {sv : Server V} {column : Str → List Tok}

theorem no_file (S : Sem) {ops : List SelectOp} (hk : ∀ op ∈ ops, NoFile op) (q : Select)
    (hq : q.outfile.file = none) : (runOps (selectStep cx S) q ops).outfile.file = none := by
  induction ops generalizing q with
  | nil => exact hq
  | cons op ops ih =>
    refine ih (fun o ho => hk o (List.mem_cons_of_mem _ ho)) _ ?_
    have hop := hk op List.mem_cons_self
    cases op with
    | str =>
      show (selectStr cx S q).1.outfile.file = none
      unfold selectStr
      split <;> exact hq
    | outfile f v =>
      show (outfileSet q.outfile f v).1.file = none
      cases f with
      | file => exact hop.elim
      | _ =>
        unfold outfileSet withR
        cases checkType [.str] v <;> exact hq
    | _ => exact hq

theorem merged_latest (cx : Ctx) (S : Sem) (ops : List SelectOp) :
    ((runOps (selectStep cx S) {} ops).opts.duplicated == .distinct ||
      (runOps (selectStep cx S) {} ops).opts.duplicated == .distinctrow) = (latest saysMerge ops).getD false := by
  refine runOps_latest (step := selectStep cx S) (f := fun q : Select => q.opts.duplicated == .distinct ||
    q.opts.duplicated == .distinctrow) (tells := saysMerge) (fun q o => ?_) {} ops
  cases o with
  | option k allow =>
    show ((q.opts.set k allow.truthy).duplicated == .distinct || (q.opts.set k allow.truthy).duplicated == .distinctrow) = _
    cases k <;> first
      | rfl
      | (show _ = allow.truthy
         cases allow.truthy <;> rfl)
      | (show _ = false
         cases allow.truthy <;> rfl)
  | str =>
    obtain ⟨ts, h⟩ := selectStr_eq cx S q
    show ((selectStr cx S q).1.opts.duplicated == .distinct || (selectStr cx S q).1.opts.duplicated == .distinctrow) = _
    rw [h]; rfl
  | _ => rfl

private theorem distinct_words (o : SelectOptions) :
    (L!"DISTINCT" ∈ o.words ∨ L!"DISTINCTROW" ∈ o.words) ↔
      (o.duplicated == .distinct || o.duplicated == .distinctrow) = true := by
  obtain ⟨c, dup, b1, b2, b3, b4, b5, b6⟩ := o
  cases dup <;> cases c <;> cases b1 <;> cases b2 <;> cases b3 <;> cases b4 <;> cases b5 <;> cases b6 <;> decide

/-- The tokens of a column of an answer. -/
private theorem answer_toks (hf : Fits cx d) (hc : NamesSeen cx d column) {c : Obj} {m : Nat}
    (hs : safeRef cx.backend.quote (Safe cx.backend.quote m) c)
    (h : (∃ s, c = .str s ∧ '(' ∉ s ∧ (column s).getLast? ≠ some (.sym '*')) ∨ TidyAggregate cx.backend.quote c) :
    refToksOf cx (toks cx d m) c = seenColumn column c ∧
    (computes c = isAggregate (seenColumn column c)) ∧
    (seenColumn column c).getLast? ≠ some (.sym '*') ∧
    (∀ w ∈ selectWords, (seenColumn column c).head? ≠ some (.word w)) ∧ seenColumn column c ≠ [] ∧
    Whole (.sym ',') (seenColumn column c) ∧ Whole (.word L!"AS") (seenColumn column c) := by
  rcases h with ⟨s, rfl, _, hstar⟩ | ⟨f, dist, s, rfl, _⟩
  · have e : column s = refToks (refParts cx.backend.quote s) := column_toks hf hc hs
    have e2 : seenColumn column (.str s) = column s := rfl
    have hne := refToks_ne (refParts_ne hs.1 hs.2)
    rw [e2]
    rw [e] at hstar ⊢
    have hh : ∀ w, (refToks (refParts cx.backend.quote s)).head? ≠ some (.word w) := by
      intro w hw
      cases hx : refToks (refParts cx.backend.quote s) with
      | nil => exact hne hx
      | cons t ts =>
        rw [hx] at hw
        injection hw with hw
        rw [hw] at hx
        exact head_ref hx
    refine ⟨rfl, ?_, hstar, fun w _ => hh w, hne, whole_names (by decide) _, whole_ref _⟩
    show false = isAggregate _
    cases hx : refToks (refParts cx.backend.quote s) with
    | nil => rfl
    | cons t ts =>
      cases t <;> first | rfl | exact absurd (by rw [hx]; rfl) (hh _)
  · cases m with
    | zero => exact hs.2.elim
    | succ m =>
      have hs' : SafeName cx.backend.quote s := hs.2
      have e : column s = refToks (refParts cx.backend.quote s) := column_toks hf hc hs'
      rw [agg_seen, e]
      refine ⟨rfl, ?_, ?_, ?_, by simp [aggToks], whole_agg (by simp), whole_agg (by intro f; cases f <;> decide)⟩
      · cases f <;> rfl
      · have : aggToks f dist (refToks (refParts cx.backend.quote s)) = (.word f.text :: .sym '(' ::
            (optToks dist (words [L!"DISTINCT"]) ++ refToks (refParts cx.backend.quote s))) ++ [.sym ')'] := by
          unfold aggToks paren; simp only [List.cons_append, List.append_assoc]
        rw [this, List.getLast?_concat]
        simp
      · intro w hw
        show some (Tok.word f.text) ≠ _
        have : f.text ∉ selectWords := by cases f <;> decide
        intro e
        injection e with e
        injection e with e
        exact this (e ▸ hw)

private theorem number_read {i : Option Int} (h : ∀ k, i = some k → 0 ≤ k) :
    (match (i.map intToks).getD [] with
      | [] => some none
      | [.num s] => (readNat s).map some
      | _ => none : Option (Option Nat)) = some (i.map Int.toNat) := by
  cases i with
  | none => rfl
  | some k =>
    cases k with
    | ofNat n =>
      show (readNat (natText n)).map some = _
      rw [readNat_natText]
      rfl
    | negSucc n => exact absurd (h _ rfl) (by simp)

/-- The tokens of a column or of an aggregate to sort by. -/
private theorem key_toks (hf : Fits cx d) (hc : NamesSeen cx d column) {c : Obj} {m : Nat}
    (hs : safeRef cx.backend.quote (Safe cx.backend.quote m) c)
    (h : (∃ s, c = .str s) ∨ TidyAggregate cx.backend.quote c) :
    refToksOf cx (toks cx d m) c = seenColumn column c ∧ computes c = isAggregate (seenColumn column c) ∧
    (seenColumn column c).getLast? ≠ some (.word L!"DESC") ∧ Whole (.sym ',') (seenColumn column c) := by
  rcases h with ⟨s, rfl⟩ | ⟨f, dist, s, rfl, _⟩
  · have e : column s = refToks (refParts cx.backend.quote s) := column_toks hf hc hs
    have e2 : seenColumn column (.str s) = column s := rfl
    rw [e2, e]
    refine ⟨rfl, ?_, refToks_last _, whole_names (by decide) _⟩
    show false = isAggregate _
    cases hx : refToks (refParts cx.backend.quote s) with
    | nil => rfl
    | cons t ts =>
      cases t <;> first | rfl | exact absurd hx head_ref
  · cases m with
    | zero => exact hs.2.elim
    | succ m =>
      have hs' : SafeName cx.backend.quote s := hs.2
      have e : column s = refToks (refParts cx.backend.quote s) := column_toks hf hc hs'
      rw [agg_seen, e]
      refine ⟨rfl, by cases f <;> rfl, ?_, whole_agg (by simp)⟩
      have : aggToks f dist (refToks (refParts cx.backend.quote s)) = (.word f.text :: .sym '(' ::
          (optToks dist (words [L!"DISTINCT"]) ++ refToks (refParts cx.backend.quote s))) ++ [.sym ')'] := by
        unfold aggToks paren; simp only [List.cons_append, List.append_assoc]
      rw [this, List.getLast?_concat]
      simp

private theorem keys_read (hf : Fits cx d) (hc : NamesSeen cx d column) {m : Nat} {os : List Order}
    (hords : ∀ o ∈ os, (∃ s, o.col = .str s) ∨ TidyAggregate cx.backend.quote o.col)
    (hs : ∀ o ∈ os, safeRef cx.backend.quote (Safe cx.backend.quote m) o.col) :
    (match (present (!os.isEmpty) (.word L!"BY" :: commas (os.map (orderToks cx (toks cx d m))))).getD [] with
      | .word w :: r => if w = L!"BY" then (pieces (.sym ',') r).map readKey else []
      | _ => []) = os.map (fun o => (seenColumn column o.col, o.desc)) := by
  cases ho : os with
  | nil => rfl
  | cons o os' =>
    show (if L!"BY" = L!"BY" then (pieces (.sym ',') (commas ((o :: os').map (orderToks cx (toks cx d m))))).map
      readKey else []) = _
    have one : ∀ {o : Order}, o ∈ os → orderToks cx (toks cx d m) o =
        seenColumn column o.col ++ (if o.desc then [.word L!"DESC"] else []) := by
      intro o hm
      rw [← (key_toks hf hc (hs o hm) (hords o hm)).1]
      obtain ⟨c, desc⟩ := o
      cases desc <;> rfl
    have hp : pieces (.sym ',') (commas (os.map (orderToks cx (toks cx d m)))) =
        os.map (orderToks cx (toks cx d m)) := by
      refine pieces_joinT (by rw [ho]; simp) ?_ (by decide) (by decide)
      intro x hx
      obtain ⟨o, hm, rfl⟩ := List.mem_map.mp hx
      rw [one hm]
      refine (key_toks hf hc (hs o hm) (hords o hm)).2.2.2.append ?_
      cases o.desc with
      | false => exact whole_nil _
      | true => exact .cons (by decide) (by decide) (by decide) (whole_nil _)
    rw [if_pos rfl, ← ho, hp, List.map_map]
    refine List.map_congr_left fun o hm => ?_
    show readKey (orderToks cx (toks cx d m) o) = _
    rw [one hm]
    have hl := (key_toks hf hc (hs o hm) (hords o hm)).2.2.1
    unfold readKey
    cases o.desc with
    | false =>
      rw [if_neg (show ¬ (false = true) by simp), List.append_nil, if_neg hl]
    | true =>
      rw [if_pos rfl, List.getLast?_append, if_pos (by rfl), List.dropLast_concat]

/-- One column in the list. -/
private theorem shown_read (hf : Fits cx d) (hc : NamesSeen cx d column) {m : Nat} {c : Column}
    (hs : safeColumn cx.backend.quote (Safe cx.backend.quote m) c)
    (h : AnswerColumn cx.backend.quote column (c.name, c.alias)) :
    columnToks cx (toks cx d m) c = seenShown column (c.name, c.alias) ∧
    (∀ row : Tuple V, cellOf row (seenShown column (c.name, c.alias)) = cellShown column row (c.name, c.alias)) ∧
    computes c.name = isAggregate (seenShown column (c.name, c.alias)) ∧
    (∀ w ∈ selectWords, (seenShown column (c.name, c.alias)).head? ≠ some (.word w)) ∧
    seenShown column (c.name, c.alias) ≠ [] ∧ Whole (.sym ',') (seenShown column (c.name, c.alias)) := by
  obtain ⟨n, a⟩ := c
  obtain ⟨k1, k2⟩ := hs
  obtain ⟨h1, h2⟩ := h
  obtain ⟨e1, e2, e3, e4, e5, e6, e7⟩ := answer_toks hf hc k1 h1
  simp only at e1 e2 e3 e4 e5 e6 e7 h2 k1 k2 ⊢
  have headA : ∀ r, (seenColumn column n ++ r).head? = (seenColumn column n).head? := by
    intro r
    cases hx : seenColumn column n with
    | nil => exact absurd hx e5
    | cons t ts => rfl
  rcases h2 with rfl | ⟨a, rfl, hane, hastar⟩
  · refine ⟨?_, fun row => ?_, e2, e4, e5, e6⟩
    · rw [columnToks_named, e1]
      exact List.append_nil _
    · show cellOf row (seenColumn column n) = .named (seenColumn column n) (row (seenColumn column n))
      unfold cellOf
      rw [if_neg e3, e7.one]
  · have htr : (Obj.str a).truthy = true := by cases a <;> simp_all [Obj.truthy]
    have k2 : SafeName cx.backend.quote a := k2 htr
    have ea : column a = refToks (refParts cx.backend.quote a) := column_toks hf hc k2
    have es : seenShown column (n, .str a) = seenColumn column n ++ (.word L!"AS" :: column a) := rfl
    have hne : column a ≠ [] := by
      rw [ea]
      exact refToks_ne (refParts_ne k2.1 k2.2)
    have hlast : (seenColumn column n ++ (.word L!"AS" :: column a)).getLast? = (column a).getLast? := by
      rw [List.getLast?_append, List.getLast?_cons]
      cases hl : (column a).getLast? with
      | none => exact absurd (List.getLast?_eq_none_iff.mp hl) hne
      | some t => rfl
    have hw2 : Whole (.word L!"AS") (column a) := by rw [ea]; exact whole_ref _
    rw [es]
    refine ⟨?_, fun row => ?_, ?_, ?_, by simp, ?_⟩
    · rw [columnToks_named, e1, htr, ea]
      rfl
    · show _ = Cell.named (column a) (row (seenColumn column n))
      unfold cellOf
      rw [hlast, if_neg hastar, e7.cut (by decide) (by decide), hw2.one]
    · rw [e2]
      cases hx : seenColumn column n with
      | nil => exact absurd hx e5
      | cons t ts =>
        cases ts with
        | nil =>
          show isAggregate [t] = isAggregate (t :: .word L!"AS" :: column a)
          cases t <;> rfl
        | cons t' ts => cases t <;> first | rfl | (cases t' <;> rfl)
    · intro w hw
      rw [headA]
      exact e4 w hw
    · refine e6.append (.cons (by decide) (by decide) (by decide) ?_)
      rw [ea]
      exact whole_names (by decide) _

/-- The parts that a server reads in a SELECT. -/
private theorem grouped_read (hf : Fits cx d) (hc : NamesSeen cx d column) {q : Select} {n : Nat} {t : Str}
    (hfile : q.outfile.file = none)
    (hcols : ∀ c ∈ q.columns, AnswerColumn cx.backend.quote column (c.name, c.alias))
    (hords : ∀ o ∈ q.orderBy, (∃ s, o.col = .str s) ∨ TidyAggregate cx.backend.quote o.col)
    (hgrps : ∀ o ∈ q.groupBy, ∃ s, o.col = .str s)
    (hl : ∀ i, q.limit.limit = some i → 0 ≤ i) (hoff : ∀ i, q.limit.offset = some i → 0 ≤ i)
    (h : NoRaw cx.backend.quote .stmt (.select q)) (e : (sem cx n).str (.select q) = .ok t) :
    clauseBody selectClauses L!"INTO" (lex d t) = [] ∧
    (q.where_ = [] ↔ clauseBody selectClauses L!"WHERE" (lex d t) = []) ∧
    (q.groupBy = [] ↔ clauseBody selectClauses L!"GROUP" (lex d t) = []) ∧
    (q.having = [] ↔ clauseBody selectClauses L!"HAVING" (lex d t) = []) ∧
    rowNumber L!"LIMIT" (lex d t) = some (q.limit.limit.map Int.toNat) ∧
    rowNumber L!"OFFSET" (lex d t) = some (q.limit.offset.map Int.toNat) ∧
    (readKeys (lex d t) = q.orderBy.map (fun o => (seenColumn column o.col, o.desc)) ∧
      (readKeys (lex d t)).any (fun k => isAggregate k.1) = q.orderBy.any fun o => computes o.col) ∧
    groupKeys (lex d t) = q.groupBy.map (fun o => (seenColumn column o.col, o.desc)) ∧
    isMerged (lex d t) = (q.opts.duplicated == .distinct || q.opts.duplicated == .distinctrow) ∧
    selectedColumns (lex d t) = (if q.columns = [] then [[.sym '*']]
      else (q.columns.map fun c => (c.name, c.alias)).map (seenShown column)) ∧
    (selectedColumns (lex d t)).any isAggregate = q.columns.any (fun c => computes c.name) ∧
    (∀ row : Tuple V, (selectedColumns (lex d t)).map (cellOf row) =
      if q.columns = [] then [.whole row]
      else (q.columns.map fun c => (c.name, c.alias)).map (cellShown column row)) := by
  obtain ⟨m, hs, he, r⟩ := stmt_level hf h e
  have hs : safeSelect cx.backend.quote (Safe cx.backend.quote m) q := hs
  have hr : toks cx d (m + 1) (.select q) = selectToks cx (sem cx m) d (toks cx d m) q := rfl
  rw [r, hr]
  have ih := phrases_sem cx d m
  have part : ∀ {w : Str} {o : Option (List Tok)}, (w, o) ∈ selectParts cx (sem cx m) d (toks cx d m) q →
      clauseBody selectClauses w (selectToks cx (sem cx m) d (toks cx d m) q) = o.getD [] :=
    fun hm => select_part ih hs hm
  have hwords : ∀ u ∈ sortBy strLe q.opts.words, u ∈ selectWords :=
    fun u hu => words_mem q.opts ((sortBy_perm strLe q.opts.words).mem_iff.mp hu)
  have one : ∀ c ∈ q.columns, _ := fun c hm => shown_read (V := V) hf hc (hs.1 c hm) (hcols c hm)
  have hmapc : q.columns.map (columnToks cx (toks cx d m)) =
      (q.columns.map fun c => (c.name, c.alias)).map (seenShown column) := by
    rw [List.map_map]
    exact List.map_congr_left fun c hm => (one c hm).1
  have hhead : ∀ w ∈ selectWords, (columnsToks cx (toks cx d m) q.columns).head? ≠ some (.word w) := by
    intro w hw
    cases hcs : q.columns with
    | nil => simp [columnsToks]
    | cons c cs =>
      obtain ⟨k1, _, _, k4, k5, _⟩ := one c (by rw [hcs]; simp)
      have h2 : ∃ r, columnsToks cx (toks cx d m) (c :: cs) = seenShown column (c.name, c.alias) ++ r := by
        rw [← k1]
        cases cs with
        | nil => exact ⟨[], (List.append_nil _).symm⟩
        | cons c' cs => exact ⟨_, rfl⟩
      obtain ⟨r, h2⟩ := h2
      rw [h2]
      cases hx : seenShown column (c.name, c.alias) with
      | nil => exact absurd hx k5
      | cons t ts =>
        have := k4 w hw
        rw [hx] at this
        exact this
  have hsel : clauseBody selectClauses L!"SELECT" (selectToks cx (sem cx m) d (toks cx d m) q) =
      words (sortBy strLe q.opts.words) ++ columnsToks cx (toks cx d m) q.columns :=
    part (o := some _) (.head _)
  have hdw := dropWhile_words hwords hhead
  have hcolumns : selectedColumns (selectToks cx (sem cx m) d (toks cx d m) q) =
      (if q.columns = [] then [[.sym '*']]
      else (q.columns.map fun c => (c.name, c.alias)).map (seenShown column)) := by
    unfold selectedColumns
    rw [hsel, hdw.2]
    cases hcs : q.columns with
    | nil => rfl
    | cons c0 cs0 =>
      rw [if_neg (by simp), ← hcs, ← hmapc]
      unfold columnsToks
      have hb : q.columns.isEmpty = false := by rw [hcs]; rfl
      rw [hb]
      refine pieces_joinT (by rw [hcs]; simp) ?_ (by decide) (by decide)
      intro x hx
      obtain ⟨c, hm, rfl⟩ := List.mem_map.mp hx
      rw [(one c hm).1]
      exact (one c hm).2.2.2.2.2
  refine ⟨?_, ⟨fun hw => ?_, fun hw => ?_⟩, ⟨fun hw => ?_, fun hw => ?_⟩, ⟨fun hw => ?_, fun hw => ?_⟩, ?_, ?_, ?_, ?_, ?_,
    hcolumns, ?_, fun row => ?_⟩
  · rw [part (w := L!"INTO") (o := none) (by simp [selectParts, hfile])]
    rfl
  · rw [part (.tail _ (.tail _ (.head _))), hw]
    rfl
  · by_contra hne
    rw [where_select ih hs hne] at hw
    exact conj_ne hne hs.2.2.1 hw
  · rw [part (.tail _ (.tail _ (.tail _ (.head _)))), hw]
    rfl
  · by_contra hne
    rw [part (.tail _ (.tail _ (.tail _ (.head _))))] at hw
    cases hg : q.groupBy with
    | nil => exact hne hg
    | cons o os =>
      rw [hg] at hw
      cases hw
  · rw [part (.tail _ (.tail _ (.tail _ (.tail _ (.head _))))), hw]
    rfl
  · by_contra hne
    rw [having_select ih hs hne] at hw
    exact conj_ne hne hs.2.2.2.2.1 hw
  · unfold rowNumber
    rw [part (.tail _ (.tail _ (.tail _ (.tail _ (.tail _ (.tail _ (.head _)))))))]
    exact number_read hl
  · unfold rowNumber
    rw [part (.tail _ (.tail _ (.tail _ (.tail _ (.tail _ (.tail _ (.tail _ (.head _))))))))]
    exact number_read hoff
  · have hkeys : readKeys (selectToks cx (sem cx m) d (toks cx d m) q) =
        q.orderBy.map (fun o => (seenColumn column o.col, o.desc)) := by
      unfold readKeys
      rw [part (.tail _ (.tail _ (.tail _ (.tail _ (.tail _ (.head _))))))]
      exact keys_read hf hc hords hs.2.2.2.2.2.1
    refine ⟨hkeys, ?_⟩
    rw [hkeys, List.any_map, Bool.eq_iff_iff, List.any_eq_true, List.any_eq_true]
    constructor
    · rintro ⟨o, hm, hx⟩
      exact ⟨o, hm, (key_toks hf hc (hs.2.2.2.2.2.1 o hm) (hords o hm)).2.1.trans hx⟩
    · rintro ⟨o, hm, hx⟩
      exact ⟨o, hm, (key_toks hf hc (hs.2.2.2.2.2.1 o hm) (hords o hm)).2.1.symm.trans hx⟩
  · unfold groupKeys
    rw [part (.tail _ (.tail _ (.tail _ (.head _))))]
    exact keys_read hf hc (fun o hm => .inl (hgrps o hm)) hs.2.2.2.1
  · unfold isMerged optionWords
    rw [hsel, hdw.1, Bool.eq_iff_iff, ← distinct_words]
    have hmem : ∀ w : Str, Tok.word w ∈ words (sortBy strLe q.opts.words) ↔ w ∈ q.opts.words := by
      intro w
      unfold words
      rw [← (sortBy_perm strLe q.opts.words).mem_iff]
      constructor
      · intro hm
        obtain ⟨u, hu, eu⟩ := List.mem_map.mp hm
        cases eu
        exact hu
      · exact fun hm => List.mem_map_of_mem hm
    rw [Bool.or_eq_true, decide_eq_true_eq, decide_eq_true_eq, hmem, hmem]
  · rw [hcolumns]
    cases hcs : q.columns with
    | nil => rfl
    | cons c0 cs0 =>
      rw [if_neg (by simp), ← hcs, List.map_map, List.any_map, Bool.eq_iff_iff, List.any_eq_true, List.any_eq_true]
      constructor
      · rintro ⟨c, hm, hx⟩
        exact ⟨c, hm, ((one c hm).2.2.1).trans hx⟩
      · rintro ⟨c, hm, hx⟩
        exact ⟨c, hm, ((one c hm).2.2.1).symm.trans hx⟩
  · rw [hcolumns]
    cases hcs : q.columns with
    | nil => rfl
    | cons c0 cs0 =>
      rw [if_neg (by simp), if_neg (by simp), ← hcs, List.map_map, List.map_map, List.map_map]
      exact List.map_congr_left fun c hm => (one c hm).2.1 row

private theorem all_true : ∀ xs : List Tri, Tri.all xs = .t ↔ ∀ x ∈ xs, x = .t
  | [] => by simp [Tri.all]
  | x :: xs => by
    have ih := all_true xs
    have e : Tri.all (x :: xs) = x.and (Tri.all xs) := rfl
    rw [e, List.forall_mem_cons, ← ih]
    cases x <;> cases Tri.all xs <;> decide

/-- C72: any calls on a SELECT except `into_outfile`. The tables are listed and joined by name, each listed once and each
joined once (C71); columns are names or aggregates of columns; conditions of `where` compare a column with a value,
those of `having` a column or an aggregate; rows are grouped by columns and sorted by columns and
aggregates. Then the server answers exactly what the calls ask for. -/
theorem C72_rows_partial (hf : Fits cx d) {holds : Tuple V → Obj → Tri} {src : Sources V} (hc : NamesSeen cx d column)
    (hh : ConditionsSeen cx d sv holds) (hm : MirrorsAgree sv) (sort : Sorter V) (gr : Grouper V) {n m : Nat}
    {ops : List SelectOp} (hk : ∀ op ∈ ops, NoFile op)
    {es : List TableEvent} (h0 : List.Forall₂ (SelectEvent cx) ops es) (hne : listedTables es ≠ [])
    (hd : (listedTables es).Nodup) (hj : DistinctJoins es) {cols conds havings : List (List (Obj × Obj))}
    {orders groups : List (List Use)}
    (h1 : List.Forall₂ ColumnNames ops cols) (h1e : ∀ ps ∈ cols, ∀ p ∈ ps, AnswerColumn cx.backend.quote column p)
    (h2 : List.Forall₂ WherePairs ops conds) (h2e : ∀ ps ∈ conds, ∀ p ∈ ps, ExactCond p)
    (h3 : List.Forall₂ HavingPairs ops havings) (h3e : ∀ ps ∈ havings, ∀ p ∈ ps, GroupCond cx.backend.quote p)
    (h4 : List.Forall₂ (OrderKeys cx) ops orders)
    (h5 : List.Forall₂ (GroupUses cx) ops groups) (h5e : ∀ us ∈ groups, ∀ u ∈ us, ∃ c, u.1 = .str c)
    (hl : ∀ i, latest saysLimit ops = some (some i) → 0 ≤ i)
    (ho : ∀ i, latest saysOffset ops = some (some i) → 0 ≤ i) {t : Str}
    (h : NoRaw cx.backend.quote .stmt (.select (runOps (selectStep cx (sem cx (n + 2))) {} ops)))
    (e : (sem cx m).str (.select (runOps (selectStep cx (sem cx (n + 2))) {} ops)) = .ok t) :
    ∃ (shown : List (Obj × Obj)) (keys by_ : List Use),
      FirstUses cols.flatten shown ∧
      (FirstUses (orders.flatten.map Prod.fst) (keys.map Prod.fst) ∧ ∀ k ∈ keys, LastValue orders.flatten k.1 k.2) ∧
      (FirstUses (groups.flatten.map Prod.fst) (by_.map Prod.fst) ∧ ∀ k ∈ by_, LastValue groups.flatten k.1 k.2) ∧
      groupedAnswer sv sort gr (lex d t) (fromRows sv src) = some (answerAsked sort gr column holds shown keys by_
        conds.flatten havings.flatten ((latest saysMerge ops).getD false) ((latest saysLimit ops).getD none)
        ((latest saysOffset ops).getD none) (sourcesSeen src column holds (tablesAsked es))) := by
  have k1 := C21_aggregates_partial cx n ops cols h1 h1e
  have k2 := C20_first_use_partial cx n ops conds h2 h2e
  have k3 := C20_having_aggregates_partial cx n ops havings h3 h3e
  have k4 := C22_order_by_aggregates cx n ops orders h4
  have k5 := C22_group_by cx (n + 1) ops groups h5
  have k6 := C25_latest cx (sem cx (n + 2)) ops
  have k7 := merged_latest cx (sem cx (n + 2)) ops
  have k8 := no_file (cx := cx) (sem cx (n + 2)) hk {} rfl
  have k9 := C71_select_partial (src := src) hf hc hh hm h0 hne hd hj h e
  have w1 := fun row hne => C56_select_partial hf (hh row) h2e hne (n := n) (m := m) h2 h e
  have w2 := fun row hne => having_kept hf (hh row) k3 hne h e
  dsimp only at k4 k5
  generalize runOps (selectStep cx (sem cx (n + 2))) {} ops = q at *
  have k4 : FirstUses (orders.flatten.map Prod.fst) (q.orderBy.map OrderS.col) ∧
    ∀ o ∈ q.orderBy, LastValue orders.flatten o.col o.desc := k4
  have k5 : FirstUses (groups.flatten.map Prod.fst) (q.groupBy.map OrderS.col) ∧
    ∀ o ∈ q.groupBy, LastValue groups.flatten o.col o.desc := k5
  have neg : ∀ (x : Option (Option Int)), (∀ i, x = some (some i) → 0 ≤ i) → ∀ i, x.getD none = some i → 0 ≤ i := by
    intro x hx i hi
    cases x with
    | none => cases hi
    | some y => exact hx i (by rw [show y = some i from hi])
  have named : ∀ {us : List (List Use)} {os : List Order}, (∀ u ∈ us, ∀ v ∈ u, ∃ c, v.1 = .str c) →
      FirstUses (us.flatten.map Prod.fst) (os.map OrderS.col) → ∀ o ∈ os, ∃ s, o.col = .str s := by
    intro us os hu hf o hm
    obtain ⟨u, hu', e'⟩ := List.mem_map.mp ((hf.mem_iff _).mp (List.mem_map_of_mem (f := OrderS.col) hm))
    obtain ⟨us', hus, hu'⟩ := List.mem_flatten.mp hu'
    obtain ⟨c, hc⟩ := hu us' hus u hu'
    exact ⟨c, by rw [← e', hc]⟩
  have hkey : ∀ {ops : List SelectOp} {uss : List (List Use)}, List.Forall₂ (OrderKeys cx) ops uss →
      ∀ u ∈ uss.flatten, (∃ s, u.1 = .str s) ∨ TidyAggregate cx.backend.quote u.1 := by
    intro ops uss hg
    induction hg with
    | nil => simp
    | @cons op us ops uss h1 _ ih =>
      intro u hu
      rcases List.mem_append.mp (List.flatten_cons ▸ hu) with hu | hu
      · cases op with
        | orderBy a =>
          obtain ⟨ps, h0, h3⟩ := h1
          clear h0
          clear ih
          induction h3 with
          | nil => cases hu
          | @cons p v ps us hp _ ih =>
            rcases List.mem_cons.mp hu with rfl | hu
            · rw [hp.2.1]
              exact hp.1.imp (fun ⟨s, hs, _⟩ => ⟨s, hs⟩) id
            · exact ih (by simp [hu]) hu
        | _ =>
          have h1 : us = [] := h1
          rw [h1] at hu
          cases hu
      · exact ih u hu
  have hord : ∀ o ∈ q.orderBy, (∃ s, o.col = .str s) ∨ TidyAggregate cx.backend.quote o.col := by
    intro o hm
    obtain ⟨u, hu, e'⟩ := List.mem_map.mp ((k4.1.mem_iff _).mp (List.mem_map_of_mem (f := OrderS.col) hm))
    rw [← e']
    exact hkey h4 u hu
  obtain ⟨r1, r2, r3, r4, r5, r6, r7, r8, r9, r10, r11, r12⟩ := grouped_read (V := V) hf hc k8
    (fun c hm => by
      obtain ⟨ps, hps, hp⟩ := List.mem_flatten.mp ((k1.mem_iff _).mp
        (List.mem_map_of_mem (f := fun c : Column => (c.name, c.alias)) hm))
      exact h1e ps hps _ hp)
    hord (named h5e k5.1) (by rw [k6]; exact neg _ hl) (by rw [k6]; exact neg _ ho) h e
  -- conditions
  have empties : ∀ {ps : List (Obj × Obj)} {cs : List Cond}, FirstUses (ps.map fun p => condOf p.1 p.2) cs →
      (cs = [] ↔ ps = []) := by
    intro ps cs hu
    constructor
    · rintro rfl
      cases ps with
      | nil => rfl
      | cons p ps => cases (hu.mem_iff (condOf p.1 p.2)).mpr (by simp)
    · rintro rfl
      cases cs with
      | nil => rfl
      | cons c cs => cases (hu.mem_iff c).mp (by simp)
  have value : ∀ {ps : List (Obj × Obj)} {body : List Tok} (row : Tuple V), (ps = [] ↔ body = []) →
      (ps ≠ [] → truth (sv.predicate row) body = Tri.all (ps.map fun p => holds row (.conds [condOf p.1 p.2]))) →
      (decide (body = []) || decide (truth (sv.predicate row) body = .t)) =
        decide (∀ p ∈ ps, holds row (.conds [condOf p.1 p.2]) = .t) := by
    intro ps body row h1 h2
    by_cases hps : ps = []
    · rw [decide_eq_true (h1.mp hps), hps]
      simp
    · rw [h2 hps, decide_eq_false (fun hb => hps (h1.mpr hb)), Bool.false_or]
      exact decide_eq_decide.mpr ((all_true _).trans List.forall_mem_map)
  have hw : chooses sv selectClauses (lex d t) = fun row =>
      decide (∀ p ∈ conds.flatten, holds row (.conds [condOf p.1 p.2]) = .t) :=
    funext fun row => value row ((empties k2).symm.trans r2) (w1 row)
  have hhv : keepsGroup sv (lex d t) = fun row =>
      decide (∀ p ∈ havings.flatten, holds row (.conds [condOf p.1 p.2]) = .t) :=
    funext fun row => value row ((empties k3).symm.trans r4) (w2 row)
  refine ⟨q.columns.map fun c => (c.name, c.alias), q.orderBy.map fun o => (o.col, o.desc),
    q.groupBy.map fun o => (o.col, o.desc), k1, ⟨?_, ?_⟩, ⟨?_, ?_⟩, ?_⟩
  · rw [List.map_map]; exact k4.1
  · intro k hk
    obtain ⟨o, ho, rfl⟩ := List.mem_map.mp hk
    exact k4.2 o ho
  · rw [List.map_map]; exact k5.1
  · intro k hk
    obtain ⟨o, ho, rfl⟩ := List.mem_map.mp hk
    exact k5.2 o ho
  · have hg : isGrouped (lex d t) = (!(q.groupBy.map fun o => (o.col, o.desc)).isEmpty || !havings.flatten.isEmpty ||
        ((q.columns.map fun c => (c.name, c.alias)).any fun p => computes p.1) ||
        (q.orderBy.map fun o => (o.col, o.desc)).any fun k => computes k.1) := by
      unfold isGrouped
      rw [r11, r7.2, List.any_map, List.any_map]
      have b1 : decide (clauseBody selectClauses L!"GROUP" (lex d t) ≠ []) =
          !(q.groupBy.map fun o => (o.col, o.desc)).isEmpty := by
        rw [Bool.eq_iff_iff, decide_eq_true_eq, ne_eq, ← r3]
        cases q.groupBy <;> simp
      have b2 : decide (clauseBody selectClauses L!"HAVING" (lex d t) ≠ []) = !havings.flatten.isEmpty := by
        have := (empties k3).symm.trans r4
        rw [Bool.eq_iff_iff, decide_eq_true_eq, ne_eq, ← this]
        cases havings.flatten <;> simp
      rw [b1, b2]
      rfl
    unfold groupedAnswer answerAsked
    rw [r1, r5, r6, r7.1, r8, r9, k7, hg, k6, k9, hw, hhv]
    simp only [r12]
    simp only [r10, List.map_eq_nil_iff, List.map_map]
    rfl

end

/-- A statement that does not group, merge or compute is answered as in C69. -/
theorem C72_plain {V : Type} (sv : Server V) (sort : Sorter V) (gr : Grouper V) (ts : List Tok) (db : Database V)
    (h : isPlain ts = true) (ha : (selectedColumns ts).any isAggregate = false)
    (hk : (readKeys ts).any (fun k => isAggregate k.1) = false) :
    groupedAnswer sv sort gr ts db = answerOf sv sort ts db := by
  have hp := h
  unfold isPlain at hp
  simp only [Bool.and_eq_true, decide_eq_true_eq, Bool.not_eq_true', decide_eq_false_iff_not] at hp
  obtain ⟨⟨⟨⟨h1, h2⟩, h3⟩, h4⟩, h5⟩ := hp
  have hg : isGrouped ts = false := by
    unfold isGrouped
    rw [h1, h2, ha, hk]
    rfl
  have hm : isMerged ts = false := by
    unfold isMerged
    rw [decide_eq_false h4, decide_eq_false h5]
    rfl
  unfold groupedAnswer answerOf
  rw [h, h3, hg, hm]
  cases rowNumber L!"LIMIT" ts with
  | none => rfl
  | some l =>
    cases rowNumber L!"OFFSET" ts with
    | none => rfl
    | some o =>
      simp only [Bool.false_eq_true, if_false, Option.some.injEq]
      unfold pageOf
      cases l with
      | none => simp only [List.map_drop]
      | some l => simp only [List.map_take, List.map_drop]

/-- C72 in full for the columns: whatever the names are, the columns and aggregates given are selected. -/
def C72_claim : Prop :=
  ∀ (cx : Ctx) (d : Dialect) (column : Str → List Tok) (n m : Nat) (ops : List SelectOp)
    (cols : List (List (Obj × Obj))) (t : Str), Fits cx d → NamesSeen cx d column →
    List.Forall₂ ColumnNames ops cols →
    (∀ ps ∈ cols, ∀ p ∈ ps, (∃ c, p = (.str c, .none)) ∨ ∃ f c, p = (.func f false (.str c), .none)) →
    cols.flatten ≠ [] →
    NoRaw cx.backend.quote .stmt (.select (runOps (selectStep cx (sem cx (n + 2))) {} ops)) →
    (sem cx m).str (.select (runOps (selectStep cx (sem cx (n + 2))) {} ops)) = .ok t →
    ∃ shown, FirstUses cols.flatten shown ∧ selectedColumns (lex d t) = shown.map (seenShown column)

private theorem names_seen0 : NamesSeen cx0 standardDialect fun c => lex standardDialect (reference '"' c) := by
  intro c n u e
  cases n with
  | zero => cases e
  | succ n => cases e; rfl

private theorem oneTable : ListsTables { pos := [.str L!"t"] } [(.str L!"t", .none)] := by
  refine ⟨.usual (ps := [(.str L!"t", .none)]) (by rintro _ ⟨⟩) (.cons (.name (by rintro _ ⟨⟩)) .nil)
    ⟨[], .nil, .nil, rfl⟩ (by simp [KwFree]), by simp, ?_⟩
  intro p hp
  cases List.mem_singleton.mp hp
  exact ⟨⟨_, by decide, rfl⟩, .inl rfl⟩

/-- It is false: `columns(count('id'), 'COUNT("id")')` selects the aggregate only; the column with this name is
taken for it, as the comparison is by text. -/
theorem C72_refuted : ¬ C72_claim := by
  intro h
  obtain ⟨shown, h1, h2⟩ := h cx0 standardDialect _ 2 6
    [.from_ { pos := [.str L!"t"] }, .columns { pos := [.func .count false (.str L!"id"), .str L!"COUNT(\"id\")"] }]
    [[], [(.func .count false (.str L!"id"), .none), (.str L!"COUNT(\"id\")", .none)]]
    L!"SELECT COUNT(\"id\") FROM \"t\"" rfl names_seen0
    (.cons rfl (.cons (.usual (ps := [(.func .count false (.str L!"id"), .none), (.str L!"COUNT(\"id\")", .none)])
      (by rintro _ ⟨⟩) (.cons (.name (by rintro _ ⟨⟩)) (.cons (.name (by rintro _ ⟨⟩)) .nil))
      ⟨[], .nil, .nil, rfl⟩ (by simp [KwFree])) .nil))
    (by
      intro ps hps p hp
      simp only [List.mem_cons, List.not_mem_nil, or_false] at hps
      rcases hps with rfl | rfl
      · cases hp
      · simp only [List.mem_cons, List.not_mem_nil, or_false] at hp
        rcases hp with rfl | rfl
        · exact .inr ⟨_, _, rfl⟩
        · exact .inl ⟨_, rfl⟩)
    (by simp) ⟨6, by decide +kernel⟩ (by decide +kernel)
  have hlen : (selectedColumns (lex standardDialect L!"SELECT COUNT(\"id\") FROM \"t\"")).length = 1 := by
    decide +kernel
  rw [h2, List.length_map] at hlen
  match shown, hlen with
  | [x], _ =>
    have m1 := (h1.mem_iff (.func .count false (.str L!"id"), .none)).mpr (by simp)
    have m2 := (h1.mem_iff (.str L!"COUNT(\"id\")", .none)).mpr (by simp)
    rw [List.mem_singleton] at m1 m2
    rw [← m1] at m2
    cases m2

/-- Calls that meet the hypotheses: `from_('t').columns('kind', (count('*'), 'n'), sum_distinct('t.size'))` and then
`.where('size', 3).group_by('kind').having((('n', 2), (count('*'), GT(1)))).order_by((avg('size'), 'DESC'), 'n').distinct().limit(10)`. -/
private def counted : List SelectOp :=
  [.from_ { pos := [.str L!"t"] },
   .columns { pos := [.str L!"kind", .tuple [.func .count false (.str L!"*"), .str L!"n"],
     .func .sum true (.str L!"t.size")] },
   .where_ { pos := [.str L!"size", .int 3] }, .groupBy { pos := [.str L!"kind"] },
   .having { pos := [.tuple [.tuple [.str L!"n", .int 2],
     .tuple [.func .count false (.str L!"*"), .rel .gt (.int 1)]]] },
   .orderBy { pos := [.tuple [.func .avg false (.str L!"size"), .str L!"DESC"], .str L!"n"] },
   .option .distinct (.bool true), .limit (.int 10) .none]

private def countedText : Str :=
  L!"SELECT DISTINCT \"kind\", COUNT(*) AS \"n\", SUM(DISTINCT \"t\".\"size\") FROM \"t\" WHERE \"size\" = 3 " ++
    L!"GROUP BY \"kind\" HAVING \"n\" = 2 AND COUNT(*) > 1 ORDER BY AVG(\"size\") DESC, \"n\" LIMIT 10"

example : (∀ op ∈ counted, NoFile op) ∧
    List.Forall₂ (SelectEvent cx0) counted
      [.tables [(.str L!"t", .none)], .other, .other, .other, .other, .other, .other, .other] ∧
    List.Forall₂ ColumnNames counted [[], [(.str L!"kind", .none), (.func .count false (.str L!"*"), .str L!"n"),
      (.func .sum true (.str L!"t.size"), .none)], [], [], [], [], [], []] ∧
    (∀ p ∈ [((.str L!"kind", .none) : Obj × Obj), (.func .count false (.str L!"*"), .str L!"n"),
      (.func .sum true (.str L!"t.size"), .none)],
      AnswerColumn '"' (fun c => lex standardDialect (reference '"' c)) p) ∧
    List.Forall₂ WherePairs counted [[], [], [(.str L!"size", .int 3)], [], [], [], [], []] ∧
    List.Forall₂ HavingPairs counted [[], [], [], [], [(.str L!"n", .int 2),
      (.func .count false (.str L!"*"), .rel .gt (.int 1))], [], [], []] ∧
    ExactCond (.str L!"size", .int 3) ∧ (∀ p ∈ [((.str L!"n", .int 2) : Obj × Obj),
      (.func .count false (.str L!"*"), .rel .gt (.int 1))], GroupCond '"' p) ∧
    List.Forall₂ (OrderKeys cx0) counted [[], [], [], [], [], [(.func .avg false (.str L!"size"), true),
      (.str L!"n", false)], [], []] ∧
    List.Forall₂ (GroupUses cx0) counted [[], [], [], [(.str L!"kind", false)], [], [], [], []] ∧
    latest saysLimit counted = some (some 10) ∧ latest saysOffset counted = none ∧
    latest saysMerge counted = some true ∧
    NoRaw '"' .stmt (.select (runOps (selectStep cx0 (sem cx0 4)) {} counted)) ∧
    (sem cx0 6).str (.select (runOps (selectStep cx0 (sem cx0 4)) {} counted)) = .ok countedText := by
  refine ⟨?_, .cons (.from_ oneTable) (.cons (.other trivial) (.cons (.other trivial) (.cons (.other trivial)
    (.cons (.other trivial) (.cons (.other trivial) (.cons (.other trivial) (.cons (.other trivial) .nil))))))),
    .cons rfl (.cons ?_ (.cons rfl (.cons rfl (.cons rfl (.cons rfl (.cons rfl (.cons rfl .nil))))))), ?_,
    .cons rfl (.cons rfl (.cons ?_ (.cons rfl (.cons rfl (.cons rfl (.cons rfl (.cons rfl .nil))))))),
    .cons rfl (.cons rfl (.cons rfl (.cons rfl (.cons ?_ (.cons rfl (.cons rfl (.cons rfl .nil))))))),
    ⟨⟨_, rfl⟩, trivial⟩, ?_,
    .cons rfl (.cons rfl (.cons rfl (.cons rfl (.cons rfl (.cons ?_ (.cons rfl (.cons rfl .nil))))))),
    .cons rfl (.cons rfl (.cons rfl (.cons ?_ (.cons rfl (.cons rfl (.cons rfl (.cons rfl .nil))))))), rfl, rfl, rfl,
    ⟨6, by decide +kernel⟩, by decide +kernel⟩
  · intro op hop
    simp only [counted, List.mem_cons, List.not_mem_nil, or_false] at hop
    rcases hop with rfl | rfl | rfl | rfl | rfl | rfl | rfl | rfl <;> trivial
  · exact .usual (ps := [(.str L!"kind", .none), (.func .count false (.str L!"*"), .str L!"n"),
      (.func .sum true (.str L!"t.size"), .none)]) (by rintro _ ⟨⟩)
      (.cons (.name (by rintro _ ⟨⟩)) (.cons (.pair (.two (.tuple _))) (.cons (.name (by rintro _ ⟨⟩)) .nil)))
      ⟨[], .nil, .nil, rfl⟩ (by simp [KwFree])
  · intro p hp
    simp only [List.mem_cons, List.not_mem_nil, or_false] at hp
    rcases hp with rfl | rfl | rfl
    · exact ⟨.inl ⟨_, rfl, by decide, by decide +kernel⟩, .inl rfl⟩
    · exact ⟨.inr ⟨_, _, _, rfl, .inl rfl⟩, .inr ⟨_, rfl, by decide, by decide +kernel⟩⟩
    · refine ⟨.inr ⟨_, _, _, rfl, .inr ⟨L!"t", [L!"size"], ?_, by decide, by decide⟩⟩, .inl rfl⟩
      intro x hx
      simp only [List.mem_cons, List.not_mem_nil, or_false] at hx
      rcases hx with rfl | rfl <;> exact ⟨by decide, by decide, by decide⟩
  · exact .usual (ps := [(.str L!"size", .int 3)]) (.direct _ (by rintro _ ⟨⟩)) ⟨[], .nil, .nil, rfl⟩ (by simp [KwFree])
  · exact .usual (ps := [(.str L!"n", .int 2), (.func .count false (.str L!"*"), .rel .gt (.int 1))])
      (.listed (.tuple _) (.cons (.two (.tuple _)) (.cons (.two (.tuple _)) .nil))) ⟨[], .nil, .nil, rfl⟩
      (by simp [KwFree])
  · intro p hp
    simp only [List.mem_cons, List.not_mem_nil, or_false] at hp
    rcases hp with rfl | rfl
    · exact ⟨.inl ⟨_, rfl, by decide⟩, trivial⟩
    · exact ⟨.inr ⟨_, _, _, rfl, .inl rfl⟩, trivial⟩
  · refine ⟨[(.func .avg false (.str L!"size"), .str L!"DESC"), (.str L!"n", .none)],
      .usual (ps := [(.func .avg false (.str L!"size"), .str L!"DESC"), (.str L!"n", .none)]) (by rintro _ ⟨⟩)
      (.cons (.pair (.two (.tuple _))) (.cons (.name (by rintro _ ⟨⟩)) .nil)) ⟨[], .nil, .nil, rfl⟩ (by simp [KwFree]),
      .cons ⟨.inr ⟨_, _, _, rfl, .inr ⟨L!"size", [], ?_, by decide, by decide⟩⟩, rfl, .inr ⟨_, rfl, .inr ⟨rfl, rfl⟩⟩⟩
        (.cons ⟨.inl ⟨_, rfl, by decide⟩, rfl, .inl ⟨rfl, rfl⟩⟩ .nil)⟩
    intro x hx
    rw [List.mem_singleton.mp hx]
    exact ⟨by decide, by decide, by decide⟩
  · refine ⟨[(.str L!"kind", .none)], .usual (ps := [(.str L!"kind", .none)]) (by rintro _ ⟨⟩)
      (.cons (.name (by rintro _ ⟨⟩)) .nil) ⟨[], .nil, .nil, rfl⟩ (by simp [KwFree]),
      .cons ⟨.inl ⟨_, rfl⟩, rfl, .inl ⟨rfl, rfl⟩⟩ .nil⟩

/-- What the server reads in this statement. -/
example : groupKeys (lex standardDialect countedText) = [([.ident L!"kind"], false)] ∧
    readKeys (lex standardDialect countedText) =
      [([.word L!"AVG", .sym '(', .ident L!"size", .sym ')'], true), ([.ident L!"n"], false)] ∧
    isGrouped (lex standardDialect countedText) = true ∧ isMerged (lex standardDialect countedText) = true ∧
    selectedColumns (lex standardDialect countedText) = [[.ident L!"kind"],
      [.word L!"COUNT", .sym '(', .sym '*', .sym ')', .word L!"AS", .ident L!"n"],
      [.word L!"SUM", .sym '(', .word L!"DISTINCT", .ident L!"t", .sym '.', .ident L!"size", .sym ')']] := by
  decide +kernel

end SqlPuzzle
