import Verif.Proofs.Answers
import Verif.Props.Effects
import Verif.Props.Settings

/-!
C69: what a server answers to a SELECT.
-/

namespace SqlPuzzle

open Spec

private def cx0 : Ctx := ⟨.sql, ⟨id, id, fun _ => true, fun _ => [], fun _ => []⟩⟩

section
variable {cx : Ctx} {d : Dialect} {V : Type} {sv : Server V}

/-- The rows of the answer are rows of the tables. -/
structure PlainQuery (q : Select) : Prop where
  group : q.groupBy = []
  having : q.having = []
  file : q.outfile.file = none
  opts : q.opts.duplicated ≠ .distinct ∧ q.opts.duplicated ≠ .distinctrow

theorem plain_select (S : Sem) {ops : List SelectOp} (hk : ∀ op ∈ ops, KeepsAnswer op) (q : Select)
    (hq : PlainQuery q) : PlainQuery (runOps (selectStep cx S) q ops) := by
  induction ops generalizing q with
  | nil => exact hq
  | cons op ops ih =>
    refine ih (fun o ho => hk o (List.mem_cons_of_mem _ ho)) _ ?_
    have hop := hk op List.mem_cons_self
    cases op with
    | str =>
      show PlainQuery (selectStr cx S q).1
      unfold selectStr
      split
      · exact hq
      · exact ⟨hq.group, hq.having, hq.file, hq.opts⟩
    | option k allow =>
      refine ⟨hq.group, hq.having, hq.file, ?_⟩
      show (q.opts.set k allow.truthy).duplicated ≠ _ ∧ _
      have h0 := hq.opts
      cases k <;> first
        | exact h0
        | exact absurd rfl hop.1
        | exact absurd rfl hop.2
        | (show (if allow.truthy then DupOpt.all else .off) ≠ DupOpt.distinct ∧
             (if allow.truthy then DupOpt.all else .off) ≠ DupOpt.distinctrow
           cases allow.truthy <;> exact ⟨by decide, by decide⟩)
    | groupBy a => exact hop.elim
    | having a => exact hop.elim
    | _ => first | exact ⟨hq.group, hq.having, hq.file, hq.opts⟩ | exact hop.elim

private theorem keeps_table (S : Sem) {ts : List Table} (ht : ∀ t ∈ ts, t.joins = []) {ops : List SelectOp}
    (hk : ∀ op ∈ ops, KeepsRows op) (q : Select) (hq : q.tables = ts) :
    (runOps (selectStep cx S) q ops).tables = ts := by
  induction ops generalizing q with
  | nil => exact hq
  | cons op ops ih =>
    refine ih (fun o ho => hk o (List.mem_cons_of_mem _ ho)) _ ?_
    have hop := hk op List.mem_cons_self
    cases op with
    | str =>
      show (selectStr cx S q).1.tables = ts
      unfold selectStr
      split
      · exact hq
      · rw [← hq] at ht ⊢
        exact RenderCalls.noJoins_str cx S ht
    | _ => first | exact hq | exact hop.elim

private theorem not_distinct {o : SelectOptions} (h : o.duplicated ≠ .distinct ∧ o.duplicated ≠ .distinctrow) :
    L!"DISTINCT" ∉ o.words ∧ L!"DISTINCTROW" ∉ o.words := by
  obtain ⟨c, dup, b1, b2, b3, b4, b5, b6⟩ := o
  obtain ⟨h1, h2⟩ := h
  cases dup with
  | distinct => exact absurd rfl h1
  | distinctrow => exact absurd rfl h2
  | _ =>
    cases c <;> cases b1 <;> cases b2 <;> cases b3 <;> cases b4 <;> cases b5 <;> cases b6 <;>
      exact ⟨by decide, by decide⟩

/-- The number of a clause that was set to a number that is not negative. -/
private theorem number_read {i : Option Int} (h : ∀ k, i = some k → 0 ≤ k) :
    (match (i.map intToks).getD [] with
      | [] => some none
      | [.num s] => (readNat s).map some
      | _ => none : Option (Option Nat)) = some (i.map Int.toNat) := by
  cases i with
  | none => rfl
  | some k =>
    cases k with
    | ofNat n =>
      show (readNat (natText n)).map some = _
      rw [readNat_natText]
      rfl
    | negSucc n => exact absurd (h _ rfl) (by simp)

/-- The parts that a server reads in a SELECT. -/
private theorem select_read (hf : Fits cx d) {column : Str → List Tok} (hc : NamesSeen cx d column) {q : Select}
    {n : Nat} {t : Str} (hq : PlainQuery q)
    (hcols : ∀ c ∈ q.columns, NamedColumn column (c.name, c.alias)) (hords : ∀ o ∈ q.orderBy, ∃ s, o.col = .str s)
    (hl : ∀ i, q.limit.limit = some i → 0 ≤ i) (hoff : ∀ i, q.limit.offset = some i → 0 ≤ i)
    (h : NoRaw cx.backend.quote .stmt (.select q)) (e : (sem cx n).str (.select q) = .ok t) :
    isPlain (lex d t) = true ∧ (q.where_ = [] ↔ clauseBody selectClauses L!"WHERE" (lex d t) = []) ∧
    rowNumber L!"LIMIT" (lex d t) = some (q.limit.limit.map Int.toNat) ∧
    rowNumber L!"OFFSET" (lex d t) = some (q.limit.offset.map Int.toNat) ∧
    readKeys (lex d t) = q.orderBy.map (fun o => (seenName column o.col, o.desc)) ∧
    (∀ row : Tuple V, (selectedColumns (lex d t)).map (cellOf row) =
      if q.columns = [] then [.whole row]
      else (q.columns.map fun c => (c.name, c.alias)).map (cellSeen column row)) := by
  obtain ⟨m, hs, he, r⟩ := stmt_level hf h e
  have hs : safeSelect cx.backend.quote (Safe cx.backend.quote m) q := hs
  have hr : toks cx d (m + 1) (.select q) = selectToks cx (sem cx m) d (toks cx d m) q := rfl
  rw [r, hr]
  have ih := phrases_sem cx d m
  have part : ∀ {w : Str} {o : Option (List Tok)}, (w, o) ∈ selectParts cx (sem cx m) d (toks cx d m) q →
      clauseBody selectClauses w (selectToks cx (sem cx m) d (toks cx d m) q) = o.getD [] :=
    fun hm => select_part ih hs hm
  have hname : ∀ {s : Str}, safeRef cx.backend.quote (Safe cx.backend.quote m) (.str s) →
      refToksOf cx (toks cx d m) (.str s) = column s := fun h => (column_toks hf hc h).symm
  have hwords : ∀ u ∈ sortBy strLe q.opts.words, u ∈ selectWords :=
    fun u hu => words_mem q.opts ((sortBy_perm strLe q.opts.words).mem_iff.mp hu)
  have hhead : ∀ w ∈ selectWords, (columnsToks cx (toks cx d m) q.columns).head? ≠ some (.word w) := by
    refine fun w _ => columns_head fun c hm => ?_
    obtain ⟨s, hs1, _⟩ := (hcols c hm).1
    have h2 := (hs.1 c hm).1
    simp only at hs1
    rw [hs1] at h2
    exact ⟨s, hs1, refParts_ne h2.1 h2.2⟩
  have hsel : clauseBody selectClauses L!"SELECT" (selectToks cx (sem cx m) d (toks cx d m) q) =
      words (sortBy strLe q.opts.words) ++ columnsToks cx (toks cx d m) q.columns :=
    part (o := some _) (.head _)
  have hdw := dropWhile_words hwords hhead
  refine ⟨?_, ⟨fun hw => ?_, fun hw => ?_⟩, ?_, ?_, ?_, fun row => ?_⟩
  · unfold isPlain optionWords
    rw [part (w := L!"GROUP") (o := none) (by simp [selectParts, hq.group, present]),
      part (w := L!"HAVING") (o := none) (by simp [selectParts, hq.having, present]),
      part (w := L!"INTO") (o := none) (by simp [selectParts, hq.file]), hsel, hdw.1]
    have hnd := not_distinct hq.opts
    have hmem : ∀ w : Str, w ∉ q.opts.words → Tok.word w ∉ words (sortBy strLe q.opts.words) := by
      intro w hw hm
      obtain ⟨u, hu, eu⟩ := List.mem_map.mp hm
      cases eu
      exact hw ((sortBy_perm strLe q.opts.words).mem_iff.mp hu)
    rw [decide_eq_false (hmem _ hnd.1), decide_eq_false (hmem _ hnd.2)]
    rfl
  · have := part (.tail _ (.tail _ (.head _)))
    rw [this, hw]
    rfl
  · by_contra hne
    rw [where_select ih hs hne] at hw
    exact conj_ne hne hs.2.2.1 hw
  · unfold rowNumber
    rw [part (.tail _ (.tail _ (.tail _ (.tail _ (.tail _ (.tail _ (.head _)))))))]
    exact number_read hl
  · unfold rowNumber
    rw [part (.tail _ (.tail _ (.tail _ (.tail _ (.tail _ (.tail _ (.tail _ (.head _))))))))]
    exact number_read hoff
  · unfold readKeys
    rw [part (.tail _ (.tail _ (.tail _ (.tail _ (.tail _ (.head _))))))]
    cases ho : q.orderBy with
    | nil => rfl
    | cons o os =>
      show (if L!"BY" = L!"BY" then (pieces (.sym ',') (commas ((o :: os).map (orderToks cx (toks cx d m))))).map
        readKey else []) = _
      rw [if_pos rfl, ← ho, orders_pieces (by rw [ho]; simp) hords, List.map_map]
      refine List.map_congr_left fun o hm => ?_
      obtain ⟨c, desc⟩ := o
      obtain ⟨s, hs'⟩ := hords _ hm
      cases hs'
      have h6 := hs.2.2.2.2.2.1 _ hm
      show readKey (orderToks cx (toks cx d m) ⟨.str s, desc⟩) = (column s, desc)
      rw [readKey_order, column_toks hf hc h6]
  · unfold selectedColumns
    rw [hsel, hdw.2]
    cases hcs : q.columns with
    | nil => rfl
    | cons c0 cs0 =>
      rw [if_neg (by simp), ← hcs]
      have hnames : ∀ c ∈ q.columns, (∃ s, c.name = .str s) ∧ (c.alias.truthy = true → ∃ s, c.alias = .str s) := by
        intro c hm
        obtain ⟨⟨s, hs1, _⟩, h2⟩ := hcols c hm
        refine ⟨⟨s, hs1⟩, fun ht => ?_⟩
        rcases h2 with h2 | ⟨a, ha, _⟩
        · simp only at h2
          rw [h2] at ht
          cases ht
        · exact ⟨a, ha⟩
      rw [columns_pieces (by rw [hcs]; simp) hnames, List.map_map, List.map_map]
      refine List.map_congr_left fun c hm => ?_
      obtain ⟨cn, ca⟩ := c
      obtain ⟨⟨s, hs1, hstar⟩, h2⟩ := hcols _ hm
      obtain ⟨k1, k2⟩ := hs.1 _ hm
      simp only at hs1 h2
      subst hs1
      have e1 := hname k1
      show cellOf row (columnToks cx (toks cx d m) ⟨.str s, ca⟩) = cellSeen column row (.str s, ca)
      rcases h2 with rfl | ⟨a, rfl, hane, hastar⟩
      · have et : columnToks cx (toks cx d m) ⟨.str s, .none⟩ = column s := by
          rw [columnToks_named, e1]
          exact List.append_nil _
        unfold cellOf
        rw [et, if_neg hstar]
        have hw : Whole (.word L!"AS") (column s) := by rw [← e1]; exact whole_ref _
        rw [hw.one]
        rfl
      · have htr : (Obj.str a).truthy = true := by cases a <;> simp_all [Obj.truthy]
        have e2 := hname (k2 htr)
        have et : columnToks cx (toks cx d m) ⟨.str s, .str a⟩ = column s ++ (.word L!"AS" :: column a) := by
          rw [columnToks_named, e1, e2, htr]
          rfl
        unfold cellOf
        have hne : column a ≠ [] := by
          rw [← e2]
          exact refToks_ne (refParts_ne (k2 htr).1 (k2 htr).2)
        have hlast : (column s ++ (.word L!"AS" :: column a)).getLast? = (column a).getLast? := by
          rw [List.getLast?_append, List.getLast?_cons]
          cases hl : (column a).getLast? with
          | none => exact absurd (List.getLast?_eq_none_iff.mp hl) hne
          | some t => rfl
        rw [et, hlast, if_neg hastar]
        have hw : Whole (.word L!"AS") (column s) := by rw [← e1]; exact whole_ref _
        have hw2 : Whole (.word L!"AS") (column a) := by rw [← e2]; exact whole_ref _
        rw [hw.cut (by decide) (by decide), hw2.one]
        rfl

private theorem latest_skip {ω α : Type} {tells : ω → Option α} {op : ω} (h : tells op = none) (ops : List ω) :
    latest tells (op :: ops) = latest tells ops := by
  unfold latest
  rw [List.reverse_cons, List.findSome?_append, List.findSome?_singleton, h]
  cases ops.reverse.findSome? tells <;> rfl

/-- The answer in terms of the query that the calls leave. -/
theorem answer_from (hf : Fits cx d) {column : Str → List Tok} {holds : Tuple V → Obj → Tri}
    (hc : NamesSeen cx d column) (hh : ConditionsSeen cx d sv holds) (sort : Sorter V) {n m : Nat}
    {ops : List SelectOp} (hk : ∀ op ∈ ops, KeepsAnswer op) {cols conds : List (List (Obj × Obj))}
    {orders : List (List Use)}
    (h1 : List.Forall₂ ColumnNames ops cols) (h1e : ∀ ps ∈ cols, ∀ p ∈ ps, NamedColumn column p)
    (h2 : List.Forall₂ WherePairs ops conds) (h2e : ∀ ps ∈ conds, ∀ p ∈ ps, ExactCond p)
    (h3 : List.Forall₂ (OrderUses cx) ops orders) (h3e : ∀ us ∈ orders, ∀ u ∈ us, ∃ c, u.1 = .str c)
    (hl : ∀ i, latest saysLimit ops = some (some i) → 0 ≤ i)
    (ho : ∀ i, latest saysOffset ops = some (some i) → 0 ≤ i) {t : Str} {q : Select}
    (hrun : runOps (selectStep cx (sem cx (n + 2))) {} ops = q)
    (h : NoRaw cx.backend.quote .stmt (.select q)) (e : (sem cx m).str (.select q) = .ok t) (db : Database V) :
    FirstUses cols.flatten (q.columns.map fun c => (c.name, c.alias)) ∧
    FirstUses (orders.flatten.map Prod.fst) (q.orderBy.map OrderS.col) ∧
    (∀ o ∈ q.orderBy, LastValue orders.flatten o.col o.desc) ∧
    answerOf sv sort (lex d t) db = some ((pageOf (((latest saysLimit ops).getD none).map Int.toNat)
      ((((latest saysOffset ops).getD none).map Int.toNat).getD 0)
      (sort (q.orderBy.map fun o => (seenName column o.col, o.desc))
        ((db (clauseBody selectClauses L!"FROM" (lex d t))).filter fun row =>
        decide (Tri.all (conds.flatten.map fun p => holds row (.conds [condOf p.1 p.2])) = .t)))).map fun row =>
          if q.columns = [] then [.whole row]
          else (q.columns.map fun c => (c.name, c.alias)).map (cellSeen column row)) := by
  have hplain : PlainQuery q := by
    rw [← hrun]
    exact plain_select (sem cx (n + 2)) hk {} ⟨rfl, rfl, rfl, (by decide : DupOpt.off ≠ _), (by decide : DupOpt.off ≠ _)⟩
  have exact1 : ∀ p : Obj × Obj, NamedColumn column p → ExactColumn p := by
    rintro p ⟨⟨c, hc, _⟩, h⟩
    refine ⟨.inl ⟨c, hc⟩, ?_⟩
    rcases h with h | ⟨a, ha, _⟩
    · exact .inl h
    · exact .inr ⟨a, ha⟩
  have k1 := C21_columns_partial cx (n + 1) ops cols h1 (fun ps hps p hp => exact1 p (h1e ps hps p hp))
  have k2 := C20_first_use_partial cx n ops conds h2 h2e
  have k3 := C22_order_by cx (n + 1) ops orders h3
  have k4 := C25_latest cx (sem cx (n + 2)) ops
  rw [hrun] at k1 k2 k4
  dsimp only at k3
  rw [hrun] at k3
  have k1 : FirstUses cols.flatten (q.columns.map fun c => (c.name, c.alias)) := k1
  have k3 : FirstUses (orders.flatten.map Prod.fst) (q.orderBy.map OrderS.col) ∧
    ∀ o ∈ q.orderBy, LastValue orders.flatten o.col o.desc := k3
  refine ⟨k1, k3.1, k3.2, ?_⟩
  have neg : ∀ (x : Option (Option Int)), (∀ i, x = some (some i) → 0 ≤ i) → ∀ i, x.getD none = some i → 0 ≤ i := by
    intro x hx i hi
    cases x with
    | none => cases hi
    | some y => exact hx i (by rw [show y = some i from hi])
  obtain ⟨r1, r3, r4, r5, r6, r7⟩ := select_read (V := V) hf hc hplain
    (fun c hm => by
      obtain ⟨ps, hps, hp⟩ := List.mem_flatten.mp ((k1.mem_iff _).mp
        (List.mem_map_of_mem (f := fun c : Column => (c.name, c.alias)) hm))
      exact h1e ps hps _ hp)
    (fun o hm => by
      obtain ⟨u, hu, e'⟩ := List.mem_map.mp ((k3.1.mem_iff _).mp (List.mem_map_of_mem (f := OrderS.col) hm))
      obtain ⟨us, hus, hu⟩ := List.mem_flatten.mp hu
      obtain ⟨c, hc⟩ := h3e us hus u hu
      exact ⟨c, by rw [← e', hc]⟩)
    (by rw [k4]; exact neg _ hl) (by rw [k4]; exact neg _ ho) h e
  have hch : ∀ row, chooses sv selectClauses (lex d t) row =
      decide (Tri.all (conds.flatten.map fun p => holds row (.conds [condOf p.1 p.2])) = .t) := by
    intro row
    by_cases hne : conds.flatten = []
    · have hw0 : q.where_ = [] := by
        rw [hne] at k2
        generalize hg : q.where_ = ws at k2
        cases ws with
        | nil => rfl
        | cons w ws =>
          have := (k2.mem_iff w).mp (by simp)
          cases this
      unfold chooses
      rw [r3.mp hw0, hne]
      rfl
    · have hlen : clauseBody selectClauses L!"WHERE" (lex d t) ≠ [] := fun h0 => by
        rw [r3.mpr h0] at k2
        obtain ⟨p, hp⟩ := List.exists_mem_of_ne_nil _ hne
        have := (k2.mem_iff (condOf p.1 p.2)).mpr
          (List.mem_map_of_mem (f := fun p : Obj × Obj => condOf p.1 p.2) hp)
        cases this
      have key := C56_select_partial hf (hh row) h2e (n := n) (m := m) (t := t) (by exact hne)
        (ops := ops) h2 (by rw [hrun]; exact h) (by rw [hrun]; exact e)
      unfold chooses
      simp only [key, hlen, decide_false, Bool.false_or]
  unfold answerOf
  rw [r1, r4, r5, r6, k4]
  simp only [r7, funext hch]

/-- The answer to a query of one table. -/
private theorem answer_query (hf : Fits cx d) {column : Str → List Tok} {holds : Tuple V → Obj → Tri}
    (hc : NamesSeen cx d column) (hh : ConditionsSeen cx d sv holds) (sort : Sorter V) {name : Str}
    (hname : name ≠ []) {n m : Nat}
    {q0 : Select} (hq : mkSelectFrom cx (sem cx (n + 2)) { pos := [.str name] } = .ok q0) {ops : List SelectOp}
    (hk : ∀ op ∈ ops, KeepsRows op) {cols conds : List (List (Obj × Obj))} {orders : List (List Use)}
    (h1 : List.Forall₂ ColumnNames ops cols) (h1e : ∀ ps ∈ cols, ∀ p ∈ ps, NamedColumn column p)
    (h2 : List.Forall₂ WherePairs ops conds) (h2e : ∀ ps ∈ conds, ∀ p ∈ ps, ExactCond p)
    (h3 : List.Forall₂ (OrderUses cx) ops orders) (h3e : ∀ us ∈ orders, ∀ u ∈ us, ∃ c, u.1 = .str c)
    (hl : ∀ i, latest saysLimit ops = some (some i) → 0 ≤ i)
    (ho : ∀ i, latest saysOffset ops = some (some i) → 0 ≤ i) {t : Str} {q : Select}
    (hrun : runOps (selectStep cx (sem cx (n + 2))) q0 ops = q)
    (h : NoRaw cx.backend.quote .stmt (.select q)) (e : (sem cx m).str (.select q) = .ok t) (db : Database V) :
    FirstUses cols.flatten (q.columns.map fun c => (c.name, c.alias)) ∧
    FirstUses (orders.flatten.map Prod.fst) (q.orderBy.map OrderS.col) ∧
    (∀ o ∈ q.orderBy, LastValue orders.flatten o.col o.desc) ∧
    answerOf sv sort (lex d t) db = some ((pageOf (((latest saysLimit ops).getD none).map Int.toNat)
      ((((latest saysOffset ops).getD none).map Int.toNat).getD 0)
      (sort (q.orderBy.map fun o => (seenName column o.col, o.desc)) ((db (column name)).filter fun row =>
        decide (Tri.all (conds.flatten.map fun p => holds row (.conds [condOf p.1 p.2])) = .t)))).map fun row =>
          if q.columns = [] then [.whole row]
          else (q.columns.map fun c => (c.name, c.alias)).map (cellSeen column row)) := by
  obtain ⟨ch, cs, rfl⟩ := List.exists_cons_of_ne_nil hname
  have h0 : q0 = { tables := [⟨.str (ch :: cs), .none, []⟩] } := by injection hq with hq; exact hq.symm
  have hrun' : q = runOps (selectStep cx (sem cx (n + 2))) {} (.from_ { pos := [.str (ch :: cs)] } :: ops) := by
    rw [← hrun, h0]; rfl
  have nilCons : ∀ {α : Type} {Q : α → Prop} {xs : List (List α)}, (∀ ps ∈ xs, ∀ p ∈ ps, Q p) →
      ∀ ps ∈ [] :: xs, ∀ p ∈ ps, Q p := by
    intro α Q xs hx ps hps p hp
    rcases List.mem_cons.mp hps with rfl | hps
    · cases hp
    · exact hx ps hps p hp
  have key := answer_from hf hc hh sort (n := n) (m := m) (ops := .from_ { pos := [.str (ch :: cs)] } :: ops)
    (fun op hop => by
      rcases List.mem_cons.mp hop with rfl | hop
      · trivial
      · have := hk op hop
        cases op <;> first | exact this | exact this.elim)
    (.cons rfl h1) (nilCons h1e) (.cons rfl h2) (nilCons h2e) (.cons rfl h3) (nilCons h3e)
    (by rw [latest_skip rfl]; exact hl) (by rw [latest_skip rfl]; exact ho) hrun'.symm h e db
  rw [latest_skip rfl, latest_skip rfl] at key
  have ht : q.tables = [⟨.str (ch :: cs), .none, []⟩] := by
    rw [← hrun, h0]
    exact keeps_table (sem cx (n + 2)) (by simp) hk _ rfl
  have hfrom : clauseBody selectClauses L!"FROM" (lex d t) = column (ch :: cs) := by
    obtain ⟨m, hs, he, r⟩ := stmt_level hf h e
    have hs : safeSelect cx.backend.quote (Safe cx.backend.quote m) q := hs
    have htab : safeTable cx.backend.quote (Safe cx.backend.quote m) ⟨.str (ch :: cs), .none, []⟩ :=
      hs.2.1 _ (by rw [ht]; simp)
    rw [r]
    refine (select_part (phrases_sem cx d m) hs (.tail _ (.head _))).trans ?_
    rw [ht]
    show tablesToks cx (sem cx m) d (toks cx d m) [] [⟨.str (ch :: cs), .none, []⟩] = _
    rw [tablesToks_one, column_toks hf hc htab.1.1]
  rw [hfrom] at key
  exact key

/-- C69: `select_from(table)`, then any calls of `columns`, `where`, `order_by`, `limit`, `offset`, `for_update` and of
the options other than `distinct`. The server answers with the rows of the table in which all the conditions given are
true, and no others, sorted by the columns given, each in the direction given last; it skips as many as the offset
in force says and takes at most as many as the limit in force says; of every row it shows the columns given, each
once, in the order of first use and under its alias, or all columns if none were given. -/
theorem C69_rows_partial (hf : Fits cx d) {column : Str → List Tok} {holds : Tuple V → Obj → Tri}
    (hc : NamesSeen cx d column) (hh : ConditionsSeen cx d sv holds) (sort : Sorter V) {name : Str}
    (hname : name ≠ []) {n m : Nat}
    {q0 : Select} (hq : mkSelectFrom cx (sem cx (n + 2)) { pos := [.str name] } = .ok q0) {ops : List SelectOp}
    (hk : ∀ op ∈ ops, KeepsRows op) {cols conds : List (List (Obj × Obj))} {orders : List (List Use)}
    (h1 : List.Forall₂ ColumnNames ops cols) (h1e : ∀ ps ∈ cols, ∀ p ∈ ps, NamedColumn column p)
    (h2 : List.Forall₂ WherePairs ops conds) (h2e : ∀ ps ∈ conds, ∀ p ∈ ps, ExactCond p)
    (h3 : List.Forall₂ (OrderUses cx) ops orders) (h3e : ∀ us ∈ orders, ∀ u ∈ us, ∃ c, u.1 = .str c)
    (hl : ∀ i, latest saysLimit ops = some (some i) → 0 ≤ i)
    (ho : ∀ i, latest saysOffset ops = some (some i) → 0 ≤ i) {t : Str}
    (h : NoRaw cx.backend.quote .stmt (.select (runOps (selectStep cx (sem cx (n + 2))) q0 ops)))
    (e : (sem cx m).str (.select (runOps (selectStep cx (sem cx (n + 2))) q0 ops)) = .ok t) (db : Database V) :
    ∃ (shown : List (Obj × Obj)) (keys : List Use),
      FirstUses cols.flatten shown ∧ FirstUses (orders.flatten.map Prod.fst) (keys.map Prod.fst) ∧
      (∀ k ∈ keys, LastValue orders.flatten k.1 k.2) ∧
      answerOf sv sort (lex d t) db = some ((pageOf (((latest saysLimit ops).getD none).map Int.toNat)
        ((((latest saysOffset ops).getD none).map Int.toNat).getD 0)
        (sort (keys.map fun k => (seenName column k.1, k.2)) ((db (column name)).filter fun row =>
          decide (Tri.all (conds.flatten.map fun p => holds row (.conds [condOf p.1 p.2])) = .t)))).map fun row =>
            if shown = [] then [.whole row] else shown.map (cellSeen column row)) := by
  obtain ⟨a1, a2, a3, a4⟩ := answer_query hf hc hh sort hname hq hk h1 h1e h2 h2e h3 h3e hl ho rfl h e db
  generalize runOps (selectStep cx (sem cx (n + 2))) q0 ops = q at *
  refine ⟨q.columns.map fun c => (c.name, c.alias), q.orderBy.map fun o => (o.col, o.desc), a1, ?_, ?_, ?_⟩
  · rw [List.map_map]; exact a2
  · intro k hk
    obtain ⟨o, ho, rfl⟩ := List.mem_map.mp hk
    exact a3 o ho
  · rw [a4, List.map_map]
    simp only [List.map_eq_nil_iff]
    rfl

private theorem pages_all {α : Type} (size : Nat) (rows : List α) : ∀ k, rows.length ≤ k * size →
    ((List.range k).flatMap fun i => (rows.drop (i * size)).take size) = rows := by
  have step : ∀ k, ((List.range k).flatMap fun i => (rows.drop (i * size)).take size) = rows.take (k * size) := by
    intro k
    induction k with
    | zero => simp
    | succ k ih =>
      rw [List.range_succ, List.flatMap_append, ih, List.flatMap_singleton, Nat.succ_mul, List.take_add]
  intro k hk
  rw [step, List.take_of_length_le hk]

/-- C69, pages: the answers to `query.limit(size, i * size)` for `i = 0, 1, …` are the consecutive pieces of `size` rows
of the answer to the query without limit, and enough of them give all its rows, in order, each once. -/
theorem C69_pages_partial (hf : Fits cx d) {column : Str → List Tok} {holds : Tuple V → Obj → Tri}
    (hc : NamesSeen cx d column) (hh : ConditionsSeen cx d sv holds) (sort : Sorter V) {name : Str}
    (hname : name ≠ []) {n m : Nat}
    {q0 : Select} (hq : mkSelectFrom cx (sem cx (n + 2)) { pos := [.str name] } = .ok q0) {ops : List SelectOp}
    (hk : ∀ op ∈ ops, KeepsRows op) {cols conds : List (List (Obj × Obj))} {orders : List (List Use)}
    (h1 : List.Forall₂ ColumnNames ops cols) (h1e : ∀ ps ∈ cols, ∀ p ∈ ps, NamedColumn column p)
    (h2 : List.Forall₂ WherePairs ops conds) (h2e : ∀ ps ∈ conds, ∀ p ∈ ps, ExactCond p)
    (h3 : List.Forall₂ (OrderUses cx) ops orders) (h3e : ∀ us ∈ orders, ∀ u ∈ us, ∃ c, u.1 = .str c)
    (hl : ∀ op ∈ ops, saysLimit op = none) (ho : ∀ op ∈ ops, saysOffset op = none) {t : Str}
    (h : NoRaw cx.backend.quote .stmt (.select (runOps (selectStep cx (sem cx (n + 2))) q0 ops)))
    (e : (sem cx m).str (.select (runOps (selectStep cx (sem cx (n + 2))) q0 ops)) = .ok t) (size : Nat)
    {page : Nat → Str}
    (hp : ∀ i, NoRaw cx.backend.quote .stmt (.select (runOps (selectStep cx (sem cx (n + 2))) q0
      (ops ++ [.limit (.int size) (.int (i * size : Nat))]))))
    (ep : ∀ i, (sem cx m).str (.select (runOps (selectStep cx (sem cx (n + 2))) q0
      (ops ++ [.limit (.int size) (.int (i * size : Nat))]))) = .ok (page i)) (db : Database V) :
    ∃ rows, answerOf sv sort (lex d t) db = some rows ∧
      (∀ i, answerOf sv sort (lex d (page i)) db = some ((rows.drop (i * size)).take size)) ∧
      ∀ k, rows.length ≤ k * size →
        ((List.range k).flatMap fun i => (answerOf sv sort (lex d (page i)) db).getD []) = rows := by
  have l0 : latest saysLimit ops = none := latest_eq_none.mpr hl
  have o0 : latest saysOffset ops = none := latest_eq_none.mpr ho
  have full := (answer_query hf hc hh sort hname hq hk h1 h1e h2 h2e h3 h3e (by rw [l0]; simp) (by rw [o0]; simp)
    rfl h e db).2.2.2
  rw [l0, o0] at full
  have snocF : ∀ {β : Type} {R : SelectOp → β → Prop} {xs : List β} {op : SelectOp} {b : β},
      List.Forall₂ R ops xs → R op b → List.Forall₂ R (ops ++ [op]) (xs ++ [b]) := by
    intro β R xs op b hx hb
    exact List.rel_append hx (.cons hb .nil)
  have snocE : ∀ {β : Type} {Q : β → Prop} {xs : List (List β)}, (∀ ps ∈ xs, ∀ p ∈ ps, Q p) →
      ∀ ps ∈ xs ++ [[]], ∀ p ∈ ps, Q p := by
    intro β Q xs hx ps hps p hp
    rcases List.mem_append.mp hps with hps | hps
    · exact hx ps hps p hp
    · rw [List.mem_singleton.mp hps] at hp
      cases hp
  have each : ∀ i, answerOf sv sort (lex d (page i)) db =
      (answerOf sv sort (lex d t) db).map fun rows => (rows.drop (i * size)).take size := by
    intro i
    have ll : latest saysLimit (ops ++ [.limit (.int size) (.int (i * size : Nat))]) = some (some (size : Int)) := by
      unfold latest
      rw [List.reverse_append]
      rfl
    have oo : latest saysOffset (ops ++ [.limit (.int size) (.int (i * size : Nat))]) =
        some (offsetOf ((i * size : Nat) : Int)) := by
      unfold latest
      rw [List.reverse_append]
      rfl
    have := (answer_query hf hc hh sort hname hq (ops := ops ++ [.limit (.int size) (.int (i * size : Nat))])
      (fun op hop => by
        rcases List.mem_append.mp hop with hop | hop
        · exact hk op hop
        · rw [List.mem_singleton.mp hop]; trivial)
      (snocF (b := []) h1 (by exact rfl)) (snocE h1e) (snocF (b := []) h2 (by exact rfl)) (snocE h2e)
      (snocF (b := []) h3 (by exact rfl)) (snocE h3e)
      (by rw [ll]; intro j hj; cases hj; exact Int.natCast_nonneg _)
      (by
        rw [oo]; intro j hj
        have hj : offsetOf ((i * size : Nat) : Int) = some j := by injection hj
        unfold offsetOf at hj
        split at hj
        · cases hj
        · injection hj with hj; rw [← hj]; exact Int.natCast_nonneg _)
      rfl (hp i) (ep i) db).2.2.2
    rw [this, full, ll, oo]
    have hoff : (((some (offsetOf ((i * size : Nat) : Int))).getD none).map Int.toNat).getD 0 = i * size := by
      show ((offsetOf ((i * size : Nat) : Int)).map Int.toNat).getD 0 = i * size
      unfold offsetOf
      split
      · rename_i hz
        have : i * size = 0 := by exact_mod_cast hz
        rw [this]; rfl
      · rfl
    have hrun : runOps (selectStep cx (sem cx (n + 2))) q0 (ops ++ [.limit (.int size) (.int (i * size : Nat))]) =
        (selectStep cx (sem cx (n + 2)) (runOps (selectStep cx (sem cx (n + 2))) q0 ops)
          (.limit (.int size) (.int (i * size : Nat)))).1 := by
      unfold runOps
      rw [List.foldl_append]
      rfl
    have hcols : (runOps (selectStep cx (sem cx (n + 2))) q0
        (ops ++ [.limit (.int size) (.int (i * size : Nat))])).columns =
        (runOps (selectStep cx (sem cx (n + 2))) q0 ops).columns := by rw [hrun]; rfl
    have hords : (runOps (selectStep cx (sem cx (n + 2))) q0
        (ops ++ [.limit (.int size) (.int (i * size : Nat))])).orderBy =
        (runOps (selectStep cx (sem cx (n + 2))) q0 ops).orderBy := by rw [hrun]; rfl
    have hcf : (conds ++ [[]]).flatten = conds.flatten := by simp
    rw [hcols, hords, hoff, hcf]
    simp [pageOf]
  refine ⟨_, full, fun i => ?_, fun k hk => ?_⟩
  · rw [each i, full]; rfl
  · simp only [each, full, Option.map_some, Option.getD_some]
    exact pages_all size _ k hk

end

/-- C69 in full for limits: whatever limit is accepted, the server has an answer. -/
def C69_claim : Prop :=
  ∀ (cx : Ctx) (d : Dialect) (V : Type) (sv : Server V) (sort : Sorter V) (name : Str) (limit : Int) (n m : Nat)
    (q0 q : Select) (t : Str) (db : Database V),
    Fits cx d → name ≠ [] → mkSelectFrom cx (sem cx (n + 2)) { pos := [.str name] } = .ok q0 →
    selectStep cx (sem cx (n + 2)) q0 (.limit (.int limit) .none) = (q, none) →
    NoRaw cx.backend.quote .stmt (.select q) → (sem cx m).str (.select q) = .ok t →
    ∃ rows, answerOf sv sort (lex d t) db = some rows

private def anyServer : Server Unit := ⟨fun _ => (), fun _ _ => .t, fun _ => ()⟩

/-- It is false: `select_from('t').limit(-1)` is accepted and writes `LIMIT -1`. -/
theorem C69_refuted : ¬ C69_claim := by
  intro h
  obtain ⟨rows, hr⟩ := h cx0 standardDialect Unit anyServer (fun _ rs => rs) L!"t" (-1) 2 6
    { tables := [⟨.str L!"t", .none, []⟩] } { tables := [⟨.str L!"t", .none, []⟩], limit := ⟨some (-1), none⟩ }
    L!"SELECT * FROM \"t\" LIMIT -1" (fun _ => []) rfl (by decide) rfl rfl ⟨6, by decide +kernel⟩ (by decide +kernel)
  have hn : rowNumber L!"LIMIT" (lex standardDialect L!"SELECT * FROM \"t\" LIMIT -1") = none := by decide +kernel
  unfold answerOf at hr
  rw [hn] at hr
  split at hr
  · rename_i h1 h2 _; cases h2
  · cases hr

/-- Calls that meet the hypotheses: `select_from('t').columns(('a', 'x'), 'b').where('b', 'x')` and then
`order_by('c', ('a', 'DESC')).order_by(('c', 'DESC')).limit(2, 4)`. -/
private def asked : List SelectOp :=
  [.columns { pos := [.tuple [.str L!"a", .str L!"x"], .str L!"b"] }, .where_ { pos := [.str L!"b", .str L!"x"] },
   .orderBy { pos := [.str L!"c", .tuple [.str L!"a", .str L!"DESC"]] },
   .orderBy { pos := [.tuple [.str L!"c", .str L!"DESC"]] }, .limit (.int 2) (.int 4)]

private theorem whereB : GivesPairs { pos := [.str L!"b", .str L!"x"] } [(.str L!"b", .str L!"x")] :=
  .usual (ps := [(.str L!"b", .str L!"x")]) (.direct _ (by rintro _ ⟨⟩)) ⟨[], .nil, .nil, rfl⟩ (by simp [KwFree])

example : mkSelectFrom cx0 (sem cx0 4) { pos := [.str L!"t"] } = .ok { tables := [⟨.str L!"t", .none, []⟩] } ∧
    (∀ op ∈ asked, KeepsRows op) ∧
    List.Forall₂ ColumnNames asked [[(.str L!"a", .str L!"x"), (.str L!"b", .none)], [], [], [], []] ∧
    NamedColumn (fun c => lex standardDialect (reference '"' c)) (.str L!"a", .str L!"x") ∧
    NamedColumn (fun c => lex standardDialect (reference '"' c)) (.str L!"b", .none) ∧
    List.Forall₂ WherePairs asked [[], [(.str L!"b", .str L!"x")], [], [], []] ∧
    ExactCond (.str L!"b", .str L!"x") ∧
    List.Forall₂ (OrderUses cx0) asked
      [[], [], [(.str L!"c", false), (.str L!"a", true)], [(.str L!"c", true)], []] ∧
    latest saysLimit asked = some (some 2) ∧ latest saysOffset asked = some (some 4) ∧
    NoRaw '"' .stmt (.select (runOps (selectStep cx0 (sem cx0 4)) { tables := [⟨.str L!"t", .none, []⟩] } asked)) ∧
    (sem cx0 6).str (.select (runOps (selectStep cx0 (sem cx0 4)) { tables := [⟨.str L!"t", .none, []⟩] } asked)) =
      .ok (L!"SELECT \"a\" AS \"x\", \"b\" FROM \"t\" WHERE \"b\" = 'x' " ++
        L!"ORDER BY \"c\" DESC, \"a\" DESC LIMIT 2 OFFSET 4") := by
  refine ⟨rfl, ?_, .cons ?_ (.cons rfl (.cons rfl (.cons rfl (.cons rfl .nil)))),
    ⟨⟨_, rfl, by decide +kernel⟩, .inr ⟨_, rfl, by decide, by decide +kernel⟩⟩,
    ⟨⟨_, rfl, by decide +kernel⟩, .inl rfl⟩,
    .cons rfl (.cons whereB (.cons rfl (.cons rfl (.cons rfl .nil)))), ⟨⟨_, rfl⟩, trivial⟩,
    .cons rfl (.cons rfl (.cons ?_ (.cons ?_ (.cons rfl .nil)))), rfl, rfl, ⟨6, by decide +kernel⟩, by decide +kernel⟩
  · intro op hop
    simp only [asked, List.mem_cons, List.not_mem_nil, or_false] at hop
    rcases hop with rfl | rfl | rfl | rfl | rfl <;> trivial
  · exact .usual (ps := [(.str L!"a", .str L!"x"), (.str L!"b", .none)]) (by rintro _ ⟨⟩)
      (.cons (.pair (.two (.tuple _))) (.cons (.name (by rintro _ ⟨⟩)) .nil)) ⟨[], .nil, .nil, rfl⟩ (by simp [KwFree])
  · refine ⟨[(.str L!"c", .none), (.str L!"a", .str L!"DESC")], .usual
      (ps := [(.str L!"c", .none), (.str L!"a", .str L!"DESC")]) (by rintro _ ⟨⟩)
      (.cons (.name (by rintro _ ⟨⟩)) (.cons (.pair (.two (.tuple _))) .nil)) ⟨[], .nil, .nil, rfl⟩ (by simp [KwFree]),
      .cons ⟨.inl ⟨_, rfl⟩, rfl, .inl ⟨rfl, rfl⟩⟩ (.cons ⟨.inl ⟨_, rfl⟩, rfl, .inr ⟨_, rfl, .inr ⟨rfl, rfl⟩⟩⟩ .nil)⟩
  · refine ⟨[(.str L!"c", .str L!"DESC")], .usual (ps := [(.str L!"c", .str L!"DESC")]) (by rintro _ ⟨⟩)
      (.cons (.pair (.two (.tuple _))) .nil) ⟨[], .nil, .nil, rfl⟩ (by simp [KwFree]),
      .cons ⟨.inl ⟨_, rfl⟩, rfl, .inr ⟨_, rfl, .inr ⟨rfl, rfl⟩⟩⟩ .nil⟩

/-- What the server reads in this statement. -/
example : readKeys (lex standardDialect (L!"SELECT \"a\" AS \"x\", \"b\" FROM \"t\" WHERE \"b\" = 'x' " ++
      L!"ORDER BY \"c\" DESC, \"a\" DESC LIMIT 2 OFFSET 4")) = [([.ident L!"c"], true), ([.ident L!"a"], true)] ∧
    selectedColumns (lex standardDialect (L!"SELECT \"a\" AS \"x\", \"b\" FROM \"t\" WHERE \"b\" = 'x' " ++
      L!"ORDER BY \"c\" DESC, \"a\" DESC LIMIT 2 OFFSET 4")) =
        [[.ident L!"a", .word L!"AS", .ident L!"x"], [.ident L!"b"]] := by
  decide +kernel

end SqlPuzzle
