import Verif.Proofs.UniqStatement
import Verif.Proofs.Inserts

/-!
An INSERT whose text can be read in one way only.
-/

namespace SqlPuzzle

open Spec

/-- A column of the column list and its text. -/
def ColumnNameT (q : Char) (c t : Str) : Prop := NameT q (.str c) t

theorem columnName_uniq {q : Char} (hq : q = '"' ∨ q = '`') : Uniq (ColumnNameT q) [] := by
  intro a b s t x y h1 h2 hx hy e
  obtain ⟨h3, e⟩ := name_uniq hq h1 h2 hx hy e
  cases h3
  exact ⟨rfl, e⟩

/-- A list in parentheses. -/
def ParenT {α : Type} (T : α → Str → Prop) (xs : List α) (t : Str) : Prop :=
  ∃ s, ListT T L!", " xs s ∧ t = '(' :: (s ++ [')'])

theorem ok_paren (r : Str) : Ok [L!", "] (')' :: r) := by
  refine ⟨.inr ⟨')', r, rfl, .inr (.inr rfl)⟩, fun w hw hp => ?_⟩
  rw [List.mem_singleton.mp hw] at hp
  obtain ⟨_, e⟩ := hp
  cases e

theorem paren_uniq {α : Type} {T : α → Str → Prop} (h : Uniq T []) {xs ys : List α} {s t x y : Str}
    (h1 : ParenT T xs s) (h2 : ParenT T ys t) (e : s ++ x = t ++ y) : xs = ys ∧ x = y := by
  obtain ⟨s, h1, rfl⟩ := h1
  obtain ⟨t, h2, rfl⟩ := h2
  simp only [List.cons_append, List.append_assoc, List.cons.injEq, true_and, List.nil_append] at e
  obtain ⟨h3, e⟩ := list_uniq h comma_sep (by simp) h1 h2 (ok_paren x) (ok_paren y) e
  exact ⟨h3, (List.cons.inj e).2⟩

theorem paren_ends {α : Type} {T : α → Str → Prop} {xs : List α} {t : Str} (h : ParenT T xs t) : Ends t := by
  obtain ⟨s, _, rfl⟩ := h
  exact ⟨'(' :: s, ')', rfl, by decide⟩

/-- Column list and rows. -/
def RowsT (q : Char) (T : Texts) (rs : List Row) (t : Str) : Prop :=
  ∃ cols s u, (∀ row ∈ rs, row.map Prod.fst = cols) ∧ ParenT (ColumnNameT q) cols s ∧
    ListT (ParenT T.value) L!", " (rs.map fun row => row.map Prod.snd) u ∧ t = ' ' :: (s ++ (L!" VALUES " ++ u))

theorem rows_eq {cols : List Str} {rs rs' : List Row} (h1 : ∀ row ∈ rs, row.map Prod.fst = cols)
    (h2 : ∀ row ∈ rs', row.map Prod.fst = cols)
    (h : rs.map (fun row => row.map Prod.snd) = rs'.map fun row => row.map Prod.snd) : rs = rs' := by
  induction rs generalizing rs' with
  | nil =>
    cases rs' with
    | nil => rfl
    | cons _ _ => cases h
  | cons a rs ih =>
    cases rs' with
    | nil => cases h
    | cons b rs' =>
      obtain ⟨e1, e2⟩ := List.cons.inj h
      have e3 : a.map Prod.fst = b.map Prod.fst := (h1 a (by simp)).trans (h2 b (by simp)).symm
      have : a = b := by
        clear ih h h1 h2 e2
        induction a generalizing b with
        | nil =>
          cases b with
          | nil => rfl
          | cons _ _ => cases e3
        | cons p a ih =>
          cases b with
          | nil => cases e3
          | cons r b =>
            simp only [List.map_cons, List.cons.injEq] at e1 e3
            rw [ih b e1.2 e3.2, Prod.ext e3.1 e1.1]
      rw [this, ih (fun r hr => h1 r (by simp [hr])) (fun r hr => h2 r (by simp [hr])) e2]

theorem rows_uniq {q : Char} (hq : q = '"' ∨ q = '`') {T : Texts} (G : Good q T) : Uniq (RowsT q T) [L!", "] := by
  rintro rs rs' _ _ x y ⟨cols, s, u, h1, h2, h3, rfl⟩ ⟨cols', s', u', h1', h2', h3', rfl⟩ hx hy e
  simp only [List.cons_append, List.append_assoc, List.cons.injEq, true_and] at e
  obtain ⟨rfl, e⟩ := paren_uniq (columnName_uniq hq) h2 h2' e
  have e := List.append_cancel_left e
  obtain ⟨h4, e⟩ := list_uniq (bad := []) (fun _ _ _ _ _ _ h1 h2 _ _ e => paren_uniq G.value h1 h2 e)
    comma_sep (by simp) h3 h3' hx hy e
  exact ⟨rows_eq h1 h1' h4, e⟩

theorem rows_starts {q : Char} {T : Texts} {rs : List Row} {t : Str} (h : RowsT q T rs t) : ∃ r, t = L!" (" ++ r := by
  obtain ⟨cols, _, u, _, ⟨s, _, rfl⟩, _, rfl⟩ := h
  exact ⟨_, rfl⟩

theorem rows_closed {q : Char} {T : Texts} : ClosedT (RowsT q T) := by
  rintro rs _ ⟨cols, s, u, _, _, h, rfl⟩
  exact .inr ((((list_ends paren_ends h).append _).append _).cons _)

/-- The name of `ON CONFLICT`, if there is one. -/
def ConflictNameT (q : Char) (c : Option Str) (t : Str) : Prop :=
  (c = none ∧ t = []) ∨ ∃ s, c = some s ∧ ColumnNameT q s t

/-- The clause `ON CONFLICT`. -/
def ConflictT (q : Char) (T : Texts) (p : Option Str × List Value) (t : Str) : Prop :=
  (p.1 = none ∧ p.2 = [] ∧ t = []) ∨ ∃ a s, ConflictNameT q p.1 a ∧ ListT (AssignT q T) L!", " p.2 s ∧
    t = L!" ON CONFLICT (" ++ (a ++ (L!") DO UPDATE " ++ s))

theorem conflictName_uniq {q : Char} (hq : q = '"' ∨ q = '`') {c d : Option Str} {s t x y : Str}
    (h1 : ConflictNameT q c s) (h2 : ConflictNameT q d t) (e : s ++ ')' :: x = t ++ ')' :: y) : c = d ∧ x = y := by
  have no : ∀ {u : Str} {a : Str} {z w : Str}, ColumnNameT q u a → ')' :: z = a ++ w → False := by
    intro u a z w h e
    obtain ⟨r, rfl⟩ := name_head h
    rcases hq with rfl | rfl <;> cases e
  have ok : ∀ r, Ok [] (')' :: r) := fun r => ⟨.inr ⟨')', r, rfl, .inr (.inr rfl)⟩, by simp⟩
  rcases h1 with ⟨rfl, rfl⟩ | ⟨u, rfl, h1⟩ <;> rcases h2 with ⟨rfl, rfl⟩ | ⟨v, rfl, h2⟩
  · exact ⟨rfl, (List.cons.inj e).2⟩
  · exact (no h2 e).elim
  · exact (no h1 e.symm).elim
  · obtain ⟨rfl, e⟩ := columnName_uniq hq h1 h2 (ok x) (ok y) e
    exact ⟨rfl, (List.cons.inj e).2⟩

theorem conflict_uniq {q : Char} (hq : q = '"' ∨ q = '`') {T : Texts} (G : Good q T) :
    Uniq (ConflictT q T) [L!" ON CONFLICT (", L!", "] := by
  have stop : ∀ {x r : Str}, Ok [L!" ON CONFLICT (", L!", "] x → x = L!" ON CONFLICT (" ++ r → False :=
    fun hx e => hx.2 _ (by simp) ⟨_, e.symm⟩
  rintro ⟨c, vs⟩ ⟨c', vs'⟩ s t x y (⟨h1, h2, rfl⟩ | ⟨a, s, h1, h2, rfl⟩) (⟨h1', h2', rfl⟩ | ⟨a', s', h1', h2', rfl⟩)
    hx hy e <;> simp only [List.append_assoc, List.nil_append] at h1 h2 h1' h2' e
  · rw [h1, h2, h1', h2']
    exact ⟨rfl, e⟩
  · exact (stop hx e).elim
  · exact (stop hy e.symm).elim
  · have e := List.append_cancel_left e
    obtain ⟨rfl, e⟩ := conflictName_uniq (x := L!" DO UPDATE " ++ (s ++ x)) (y := L!" DO UPDATE " ++ (s' ++ y))
      hq h1 h1' e
    obtain ⟨rfl, e⟩ := list_uniq (assign_uniq hq G) comma_sep (by simp) h2 h2' (ok_sub hx (by simp))
      (ok_sub hy (by simp)) (List.append_cancel_left e)
    exact ⟨rfl, e⟩

theorem conflict_starts {q : Char} {T : Texts} : StartsT (ConflictT q T) [L!" ON CONFLICT ("] := by
  rintro _ _ (⟨_, _, rfl⟩ | ⟨a, s, _, _, rfl⟩)
  · exact .inl rfl
  · exact .inr ⟨sep_blank _, _, by simp, ⟨_, rfl⟩⟩

theorem conflict_closed {q : Char} {T : Texts} (G : Good q T) : ClosedT (ConflictT q T) := by
  rintro _ _ (⟨_, _, rfl⟩ | ⟨a, s, _, h, rfl⟩)
  · exact .inl rfl
  · exact .inr ((((list_ends (assign_ends G) h).append _).append _).append _)

/-- The clauses of an INSERT and their text. -/
abbrev InsT (q : Char) (T B : Texts) :=
  Seq (FlagT L!" IGNORE") <| Seq (WordT L!" INTO") <| Seq (ClauseT [' '] L!", " (TableT q B)) <| Seq (RowsT q T) <|
  Seq (ClauseT L!" ON DUPLICATE KEY UPDATE " L!", " (AssignT q T)) (ConflictT q T)

/-- Words that begin a table that is not a query. -/
def plainWords (q : Char) : List Str := [q] :: aggWords

theorem plain_head {q : Char} {tb : Table} {t : Str} (h : TableT q (texts q 0) tb t) : Begins (plainWords q) t := by
  obtain ⟨a, o, ⟨b, h1, h2⟩, _, rfl⟩ := h
  have hb : Begins (plainWords q) b := by
    rcases h1 with h | h
    · obtain ⟨r, rfl⟩ := name_head h
      exact ⟨[q], by simp [plainWords], ⟨r, rfl⟩⟩
    · exact Begins.sub (ws := aggWords) (fun_head h) fun w hw => ⟨w, by simp [plainWords, hw], List.prefix_rfl⟩
  rcases h2 with ⟨_, rfl⟩ | ⟨c, _, rfl⟩
  · exact hb.append _
  · exact ((hb.append _).append _).append _

/-- What must not follow an INSERT. -/
def insertStops (q : Char) : List Str :=
  [L!" IGNORE"] ++ ([] ++ ((blankWords (plainWords q) ++ L!", " :: tableStops) ++ ([L!", "] ++
    ([L!" ON DUPLICATE KEY UPDATE ", L!", "] ++ [L!" ON CONFLICT (", L!", "]))))

theorem ins_uniq {q : Char} (hq : q = '"' ∨ q = '`') {T : Texts} (G : Good q T) :
    Uniq (InsT q T (texts q 0)) (insertStops q) := by
  have s2 := seq_starts (clause_starts (kw := L!" ON DUPLICATE KEY UPDATE ") (sep := L!", ") (T := AssignT q T)
    ⟨sep_blank _, by decide⟩) (conflict_starts (q := q) (T := T)) (by decide)
  have s3 : StartsT (Seq (RowsT q T) (Seq (ClauseT L!" ON DUPLICATE KEY UPDATE " L!", " (AssignT q T)) (ConflictT q T)))
      [L!" ("] := by
    rintro ⟨a, b⟩ _ ⟨s, u, h, _, rfl⟩
    obtain ⟨r, rfl⟩ := rows_starts h
    exact .inr ⟨sep_blank _, L!" (", by simp, ⟨r ++ u, by simp⟩⟩
  have s5 : StartsT (Seq (WordT L!" INTO") (Seq (ClauseT [' '] L!", " (TableT q (texts q 0))) (Seq (RowsT q T)
      (Seq (ClauseT L!" ON DUPLICATE KEY UPDATE " L!", " (AssignT q T)) (ConflictT q T))))) [L!" INTO"] := wordT_first
  have s4 := seq_starts (bare_starts (sep := L!", ") (T := TableT q (texts q 0)) plain_head) s3 (by rcases hq with rfl | rfl <;> decide)
  refine seq_uniq flag_uniq (seq_uniq wordT_uniq (seq_uniq (bare_uniq (table_uniq hq (good_texts hq 0)) plain_head comma_sep
    (by decide)) (seq_uniq (rows_uniq hq G) (seq_uniq (clause_uniq (assign_uniq hq G) comma_sep (by decide))
      (conflict_uniq hq G) conflict_starts ?_) s2 ?_) s3 ?_) s4 ?_) s5 ?_
  all_goals rcases hq with rfl | rfl <;> decide

theorem ins_closed {q : Char} (hq : q = '"' ∨ q = '`') {T : Texts} (G : Good q T) : ClosedT (InsT q T (texts q 0)) :=
  seq_closed (flag_closed ⟨L!" IGNOR", 'E', by decide, by decide⟩) <|
  seq_closed (wordT_closed ⟨L!" INT", 'O', by decide, by decide⟩) <| seq_closed (clause_closed (table_ends hq (good_texts hq 0))) <|
  seq_closed rows_closed <| seq_closed (clause_closed (assign_ends G)) (conflict_closed G)

theorem given_mem {row : Row} {p : Str × Obj} (hn : (row.map Prod.fst).Nodup) (hp : p ∈ row) :
    given row p.1 = p.2 := by
  have : row.filter (fun r => r.1 = p.1) = [p] := by
    induction row with
    | nil => cases hp
    | cons r row ih =>
      rw [List.map_cons, List.nodup_cons] at hn
      rcases List.mem_cons.mp hp with rfl | hp
      · rw [List.filter_cons_of_pos (by simp), List.filter_eq_nil_iff.mpr]
        intro r hr
        simp only [decide_eq_true_eq]
        intro e
        exact hn.1 (List.mem_map.mpr ⟨r, hr, e⟩)
      · rw [List.filter_cons_of_neg, ih hn.2 hp]
        simp only [decide_eq_true_eq]
        intro e
        exact hn.1 (List.mem_map.mpr ⟨p, hp, e.symm⟩)
  unfold given
  rw [this]
  rfl

theorem cells_text {S : Shapes} {cx : Ctx} {n : Nat} {T : Texts} (hR : Read S cx n T) {row full : Row} {cs : List Str} (hn : (full.map Prod.fst).Nodup)
    (hsub : ∀ p ∈ row, p ∈ full) (hv : ∀ p ∈ row, S.value p.2)
    (h : List.Forall₂ (fun c cell => (sem cx (n + 1)).str (.sqlValue (given full c)) = .ok cell)
      (row.map Prod.fst) cs) : List.Forall₂ T.value (row.map Prod.snd) cs := by
  induction row generalizing cs with
  | nil =>
    cases h
    exact .nil
  | cons p row ih =>
    cases h with
    | cons h1 h2 =>
      rw [given_mem hn (hsub p (by simp))] at h1
      exact .cons (hR.value (hv p (by simp)) h1) (ih (fun r hr => hsub r (by simp [hr]))
        (fun r hr => hv r (by simp [hr])) h2)

theorem rows_text {S : Shapes} {cx : Ctx} {n : Nat} {T : Texts} (hR : Read S cx n T) {cols : List Str} {rs : List Row} {t : Str} (hne : cols ≠ [])
    (hs : cols.Pairwise Before) (hn : ∀ c ∈ cols, TidyName cx.backend.quote c) (hr : rs ≠ [])
    (hrow : ∀ row ∈ rs, row.map Prod.fst = cols ∧ ∀ p ∈ row, S.value p.2)
    (h : RowsText cx n rs t) : RowsT cx.backend.quote T rs (' ' :: t) := by
  obtain ⟨cols', names, cells, h1, h2, h3, rfl⟩ := h
  have hc : ColumnList rs cols := by
    refine ⟨hs, fun c => ?_⟩
    constructor
    · intro h
      obtain ⟨row, rs, rfl⟩ := List.exists_cons_of_ne_nil hr
      rw [← (hrow row (by simp)).1] at h
      obtain ⟨p, hp, rfl⟩ := List.mem_map.mp h
      exact ⟨row, by simp, p.2, hp⟩
    · rintro ⟨row, hr, v, hv⟩
      rw [← (hrow row hr).1]
      exact List.mem_map.mpr ⟨_, hv, rfl⟩
  obtain rfl := columnList_unique h1 hc
  have nd : cols'.Nodup := hs.imp fun {a b} hab => (before_iff.mp hab).2
  refine ⟨cols', _, joinS L!", " (cells.map tupleOf), fun row h => (hrow row h).1,
    ⟨joinS L!", " names, ⟨hne, names, ?_, rfl⟩, rfl⟩, ⟨by simpa using hr, _, ?_, rfl⟩, by simp [tupleOf]⟩
  · clear h1 h3 hc nd hrow hs hne
    induction h2 with
    | nil => exact .nil
    | cons h4 _ ih => exact .cons (name_text (hn _ (by simp)) h4) (ih fun c hc => hn c (by simp [hc]))
  · clear h1 h2 hc hr hs hn
    induction h3 with
    | nil => exact .nil
    | @cons row cs rs cells h4 _ ih =>
      refine .cons ⟨joinS L!", " cs, ⟨?_, cs, ?_, rfl⟩, rfl⟩ (ih fun r hr => hrow r (by simp [hr]))
      · have := (hrow row (by simp)).1
        intro e
        rw [List.map_eq_nil_iff] at e
        rw [e] at this
        exact hne this.symm
      · have := hrow row (by simp)
        refine cells_text hR (n := n) (full := row) (this.1 ▸ nd) (fun p hp => hp) this.2 ?_
        rw [this.1]
        exact h4

theorem rowOf_inj {a b : List Row} (h : a.map rowOf = b.map rowOf) : a = b := by
  have inj : Function.Injective rowOf := by
    intro r s h
    unfold rowOf at h
    refine List.map_injective_iff.mpr ?_ h
    rintro ⟨x, y⟩ ⟨z, w⟩ e
    cases e
    rfl
  exact List.map_injective_iff.mpr inj h

theorem read_base (cx : Ctx) (n : Nat) : Read (shapes cx 0) cx n (texts cx.backend.quote 0) :=
  ⟨column_text, value_text, fun h => h.elim, fun h => h.elim, fun h => h.elim, fun h => h.elim, value_iter⟩

theorem insert_text {cx : Ctx} {n : Nat} {T : Texts} (G : Good cx.backend.quote T)
    (hR : Read (shapes cx n) cx n T) {q : Insert} {t : Str} (hq : TidyInsert cx n q)
    (h : InsertStatement cx n q t) : ∃ u rs, t = (if q.isReplace then L!"REPLACE" else L!"INSERT") ++ u ∧
      q.rows = rs.map rowOf ∧ InsT cx.backend.quote T (texts cx.backend.quote 0)
      (q.ignore, (), q.tables, rs, q.onDup, (q.conflict, q.onConflict)) u := by
  obtain ⟨tables, rows, words, onc, ond, h1, h2, h3, h4, h5, ht⟩ := h
  obtain ⟨cols, rs, r1, r2, r3, r4, r5, r6⟩ := hq.rows
  rcases h2 with ⟨h2, _⟩ | ⟨_, rs', u, h2, h2', rfl⟩
  · rw [r5, List.map_eq_nil_iff] at h2
    exact absurd h2 r4
  obtain rfl : rs = rs' := rowOf_inj (r5 ▸ h2)
  have key : InsT cx.backend.quote T (texts cx.backend.quote 0) (q.ignore, (), q.tables, rs, q.onDup, (q.conflict, q.onConflict))
      (assemble [wordIf q.ignore L!"IGNORE", some L!"INTO", tables, some u, ond, onc]) := by
    refine ⟨_, _, flag_text _ _, ?_, assemble_cons _ _⟩
    refine ⟨_, _, rfl, ?_, assemble_cons _ _⟩
    refine ⟨_, _, clauseT_text hq.tables (table_text (read_base cx n)) h1, ?_, assemble_cons _ _⟩
    refine ⟨' ' :: u, assemble [ond, onc], rows_text hR r1 r2 r3 r4 r6 h2', ?_, by simp [assemble]⟩
    refine ⟨_, _, clauseT_text hq.onDup (assign_text hR) h3, ?_, assemble_cons _ _⟩
    rcases clauseT_text hq.onConflict (assign_text hR) h5 with ⟨h6, h7⟩ | ⟨s, h6, h7⟩
    · exact .inl ⟨hq.conflict.2 h6, h6, h7⟩
    · rw [h7]
      cases hc : q.conflict with
      | none =>
        rw [hc] at h4
        refine .inr ⟨[], s, .inl ⟨rfl, rfl⟩, h6, ?_⟩
        rw [show words = _ from h4]
        rfl
      | some c =>
        rw [hc] at h4
        obtain ⟨a, h8, rfl⟩ := h4
        refine .inr ⟨a, s, .inr ⟨c, rfl, name_text (hq.conflict.1 c hc) h8⟩, h6, ?_⟩
        simp only [List.append_assoc, List.cons_append]
        rfl
  refine ⟨_, rs, ?_, r5, key⟩
  have hk := ins_closed (quote_cases cx) G key
  cases hr : q.isReplace with
  | false =>
    rw [hr] at ht
    exact trimmed_closed (by decide) ⟨L!"INSER", 'T', by decide, by decide⟩ hk ht
  | true =>
    rw [hr] at ht
    exact trimmed_closed (by decide) ⟨L!"REPLAC", 'E', by decide, by decide⟩ hk ht

theorem insert_distinct {cx : Ctx} {n m : Nat} {q r : Insert} {t : Str} (hq : TidyInsert cx n q)
    (hr : TidyInsert cx m r) (h1 : InsertStatement cx n q t) (h2 : InsertStatement cx m r t) : q = r := by
  have G := good_texts (quote_cases cx) (max n m)
  obtain ⟨u, rs, rfl, h3, h4⟩ := insert_text G (read_all cx n (max n m) (Nat.le_max_left ..)) hq h1
  obtain ⟨v, rs', e, h3', h4'⟩ := insert_text G (read_all cx m (max n m) (Nat.le_max_right ..)) hr h2
  have : q.isReplace = r.isReplace ∧ u = v := by
    cases ha : q.isReplace <;> cases hb : r.isReplace <;> rw [ha, hb] at e
    · exact ⟨rfl, List.append_cancel_left e⟩
    · cases e
    · cases e
    · exact ⟨rfl, List.append_cancel_left e⟩
  obtain ⟨e0, rfl⟩ := this
  have hs : ∀ w ∈ insertStops cx.backend.quote, w ≠ [] := by
    rcases quote_cases cx with h | h <;> rw [h] <;> decide
  obtain ⟨h5, _⟩ := ins_uniq (quote_cases cx) G h4 h4' (ok_end hs) (ok_end hs) rfl
  simp only [Prod.mk.injEq, true_and] at h5
  obtain ⟨e1, e2, rfl, e4, e5, e6⟩ := h5
  obtain ⟨a, b, c, d, f, g, i⟩ := q
  obtain ⟨a', b', c', d', f', g', i'⟩ := r
  simp only at e0 e1 e2 e4 e5 e6 h3 h3'
  rw [e0, e1, e2, e4, e5, e6, h3, h3']

end SqlPuzzle
