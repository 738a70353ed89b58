import Verif.Proofs.TokensMain
import Verif.Proofs.Mono

/-!
The tokens of objects without raw SQL form phrases of the grammar.
-/

namespace SqlPuzzle

open Spec

/-! ### Phrases -/

theorem Spec.G.conjAppend {ts us : List Tok} (h : G .conj ts) (k : G .conj us) :
    G .conj (ts ++ ([.word L!"AND"] ++ us)) := by
  generalize hc : Cat.conj = c at h
  induction h with
  | conjOne h _ => exact .conjMore h k
  | conjMore h h' _ ih =>
    have := G.conjMore h (ih rfl)
    simpa only [List.append_assoc] using this
  | _ => cases hc

/-- Kinds of objects as categories of phrases. -/
def Spec.Kind.cat : Kind → Cat
  | .expr => .expr
  | .cond => .conj
  | .query => .query
  | .stmt => .stmt

theorem g_list {c : Cat} {xs : List (List Tok)} (hne : xs ≠ []) (h : ∀ x ∈ xs, G c x) :
    G (.list c) (commas xs) := by
  induction xs with
  | nil => exact absurd rfl hne
  | cons x xs ih =>
    cases xs with
    | nil => exact .one (h x (by simp))
    | cons y ys =>
      exact .more (h x (by simp)) (ih (by simp) fun z hz => h z (List.mem_cons_of_mem _ hz))

theorem g_conj {xs : List (List Tok)} (hne : xs ≠ []) (h : ∀ x ∈ xs, G .conj x) :
    G .conj (joinT [.word L!"AND"] xs) := by
  induction xs with
  | nil => exact absurd rfl hne
  | cons x xs ih =>
    cases xs with
    | nil => exact h x (by simp)
    | cons y ys =>
      exact (h x (by simp)).conjAppend (ih (by simp) fun z hz => h z (List.mem_cons_of_mem _ hz))

theorem g_opt {kw ts : List Tok} {c : Cat} (b : Bool) (h : b = true → G c ts) :
    G (.opt kw c) (optToks b (kw ++ ts)) := by
  cases b with
  | false => exact .absent
  | true => exact .present (h rfl)

theorem g_flag {kw : List Tok} (b : Bool) : G (.flag kw) (optToks b kw) := by
  cases b with
  | false => exact .off
  | true => exact .on

theorem g_int (i : Int) : G .int (intToks i) := by
  cases i with
  | ofNat n => exact .nat
  | negSucc n => exact .negInt

theorem g_intExpr (i : Int) : G .expr (intToks i) := by
  cases i with
  | ofNat n => exact .lit (.num _)
  | negSucc n => exact .neg

theorem g_fixed (neg : Bool) (s : Str) : G .expr (fixedToks neg s) := by
  cases neg with
  | false => exact .lit (.num s)
  | true => exact .neg

theorem g_bool (b : Backend) (x : Bool) : G .expr [boolTok b x] := by
  cases b <;> cases x <;> first
    | exact .lit (.num _)
    | exact .lit .true
    | exact .lit .false

theorem g_bytes (b : Backend) (x : List UInt8) : G .expr [bytesTok b x] := by
  cases b <;> first
    | exact .lit (.hex _)
    | exact .lit (.str _)

theorem relToks_mem (k : Rel) : relToks k ∈ relations := by
  cases k <;> decide

theorem map_isEmpty_ne {α β : Type} {f : α → β} {xs : List α} (h : (!xs.isEmpty) = true) :
    xs.map f ≠ [] := by
  cases xs with
  | nil => cases h
  | cons x xs => simp

section
variable {cx : Ctx} {S : Sem} {d : Dialect} {T : Obj → List Tok} {P : Kind → Obj → Prop}

/-- The tokens of inner objects are phrases. -/
def Phrases (T : Obj → List Tok) (P : Kind → Obj → Prop) : Prop := ∀ k o, P k o → G k.cat (T o)

theorem g_listToks (ih : Phrases T P) {xs : List Obj} (hne : xs ≠ [])
    (h : ∀ x ∈ xs, P .expr (.sqlValue x)) : G .expr (listToks T xs) := by
  refine .tuple (g_list (by simpa using hne) ?_)
  intro x hx
  obtain ⟨y, hy, rfl⟩ := List.mem_map.mp hx
  exact ih _ _ (h y hy)

theorem g_val (ih : Phrases T P) {v : Obj} (h : safeVal cx.backend.quote P v) :
    G .expr (valToks cx d T v) := by
  cases v
  case none => exact .lit .null
  case bool b => exact g_bool _ _
  case int i => exact g_intExpr i
  case float f => obtain ⟨neg, m, e, rfl⟩ := h; exact g_fixed _ _
  case decimal f => obtain ⟨neg, m, e, rfl⟩ := h; exact g_fixed _ _
  case str s => exact .lit (.str _)
  case bytes b => exact g_bytes _ _
  case date v => exact .lit (.str _)
  case datetime v => exact .lit (.str _)
  case list xs => exact g_listToks ih h.1 h.2
  case tuple xs => exact g_listToks ih h.1 h.2
  case set xs => exact g_listToks ih h.1 h.2
  case frozenset xs => exact g_listToks ih h.1 h.2
  case gen xs => exact g_listToks ih h.1 h.2
  case range xs =>
    refine g_listToks ih (by simpa using h.1) ?_
    intro x hx
    obtain ⟨y, hy, rfl⟩ := List.mem_map.mp hx
    exact h.2 y hy
  case select s => exact .subquery (ih .query _ h)
  case union a b all => exact .subquery (ih .query _ h)
  case dict => exact absurd h.1 (by simp [Obj.isSql])
  case «opaque» => exact absurd h.1 (by simp [Obj.isSql])
  all_goals exact ih .expr _ h.2

theorem g_ref (ih : Phrases T P) {v : Obj} (h : safeRef cx.backend.quote P v) :
    G .expr (refToksOf cx T v) := by
  cases v
  case str s => exact .name (refParts_ne h.1 h.2)
  case int i => exact g_intExpr i
  case select s => exact .subquery (ih .query _ h)
  case union a b all => exact .subquery (ih .query _ h)
  all_goals exact ih .expr _ h.2

theorem g_aliased (ih : Phrases T P) {n a : Obj} (h : safeAliased cx.backend.quote P n a) :
    G .column (aliasedToks cx T n a) :=
  .column (g_ref ih h.1) (g_opt _ fun e => g_ref ih (h.2 e))

theorem g_column (ih : Phrases T P) {c : Column} (h : safeColumn cx.backend.quote P c) :
    G .column (columnToks cx T c) := g_aliased ih h

theorem g_order (ih : Phrases T P) {o : Order} (h : safeRef cx.backend.quote P o.col) :
    G .order (orderToks cx T o) := .order (g_ref ih h) (g_flag _)

theorem g_plainCond (ih : Phrases T P) {col v : Obj} {vt : Obj → List Tok} (k : Rel)
    (hc : safeRef cx.backend.quote P col) (hv : G .expr (vt v)) :
    G .cond (plainCondToks cx T col k vt v) := .compare (g_ref ih hc) (relToks_mem k) hv

theorem g_null (ih : Phrases T P) {col : Obj} (k : Rel) (hc : safeRef cx.backend.quote P col) :
    G .cond (refToksOf cx T col ++ (relToks k ++ [.word L!"NULL"])) :=
  .compare (g_ref ih hc) (relToks_mem k) (.lit .null)

theorem g_inCond (ih : Phrases T P) {col v : Obj} {vt : Obj → List Tok} (k nk : Rel) (glue : Str)
    (hg : glue = L!"OR" ∨ glue = L!"AND") (hc : safeRef cx.backend.quote P col)
    (hv : v.iterate = none → G .expr (vt v))
    (hx : ∀ xs, v.iterate = some xs → xs ≠ [] ∧ (xs.filter (fun x => !x.isNone) ≠ [] →
      G .expr (vt (.list (xs.filter fun x => !x.isNone))))) :
    G .cond (inCondToks cx T col k nk glue vt v) := by
  unfold inCondToks
  cases e : v.iterate with
  | none => exact g_plainCond ih k hc (hv e)
  | some xs =>
    obtain ⟨hne, hl⟩ := hx xs e
    dsimp only
    split
    · split
      · exact g_null ih nk hc
      · rename_i hv'
        have h1 := g_plainCond ih k hc (hl (by simpa using hv'))
        rcases hg with rfl | rfl
        · exact .either (.conjOne h1) (.conjOne (g_null ih nk hc))
        · exact .both (.conjOne h1) (.conjOne (g_null ih nk hc))
    · rename_i hany
      refine g_plainCond ih k hc (hl ?_)
      cases xs with
      | nil => exact absurd rfl hne
      | cons x xs =>
        have : x.isNone = false := by
          cases hb : x.isNone with
          | false => rfl
          | true => exact absurd (by simp [hb]) hany
        simp [this]

theorem g_cond (ih : Phrases T P) {c : Cond} (h : safeCond cx.backend.quote P c) :
    G .conj (condToks cx d T c) := by
  cases c with
  | item o => exact ih .cond o h
  | cond on col k v =>
    obtain ⟨hc, h⟩ := h
    refine .conjOne ?_
    have key : (∀ ys, v.iterate = some ys → (on && v.isStr) = false ∧ ys ≠ [] ∧
        ∀ x ∈ ys, x.isNone = false → P .expr (.sqlValue x)) →
        ∀ xs, v.iterate = some xs → xs ≠ [] ∧ (xs.filter (fun x => !x.isNone) ≠ [] →
          G .expr ((if on && v.isStr then refToksOf cx T else valToks cx d T)
            (.list (xs.filter fun x => !x.isNone)))) := by
      intro hh xs e
      obtain ⟨h1, h2, h3⟩ := hh xs e
      refine ⟨h2, fun hne => ?_⟩
      rw [h1]
      refine g_listToks ih hne ?_
      intro x hx
      obtain ⟨hx1, hx2⟩ := List.mem_filter.mp hx
      exact h3 x hx1 (by simpa using hx2)
    have keyN : v.iterate = none → safeVal cx.backend.quote P v →
        G .expr ((if on && v.isStr then refToksOf cx T else valToks cx d T) v) := by
      intro e hv
      have : v.isStr = false := by cases v <;> first | rfl | cases e
      rw [this, Bool.and_false]
      exact g_val ih hv
    have keyP : (if on && v.isStr then safeRef cx.backend.quote P v else safeVal cx.backend.quote P v) →
        G .expr ((if on && v.isStr then refToksOf cx T else valToks cx d T) v) := by
      intro hv
      cases hb : on && v.isStr with
      | true => rw [hb] at hv; exact g_ref ih hv
      | false => rw [hb] at hv; exact g_val ih hv
    cases k <;> first
      | exact g_plainCond ih _ hc (keyP h)
      | (refine g_inCond ih _ _ _ (by simp) hc (fun e => keyN e ?_) (key fun ys e => ?_)
         · simp only [e] at h; exact h
         · simp only [e] at h; exact h)

theorem g_conds (ih : Phrases T P) {ps : List Cond} (hne : ps ≠ [])
    (h : safeConds cx.backend.quote P ps) : G .conj (conjToks cx d T ps) := by
  refine g_conj (by simpa using hne) ?_
  intro x hx
  obtain ⟨p, hp, rfl⟩ := List.mem_map.mp hx
  exact g_cond ih (h p hp)

theorem g_condsOpt (ih : Phrases T P) {ps : List Cond} (kw : List Str)
    (h : safeConds cx.backend.quote P ps) : G (.opt (words kw) .conj) (condsToks cx d T kw ps) :=
  g_opt _ fun e => g_conds ih (by cases ps <;> simp_all) h

theorem g_columns (ih : Phrases T P) {cs : List Column} (h : ∀ c ∈ cs, safeColumn cx.backend.quote P c) :
    G .columns (columnsToks cx T cs) := by
  unfold columnsToks
  split
  · exact .star
  · rename_i he
    refine .columns (g_list (by simpa using he) ?_)
    intro x hx
    obtain ⟨c, hc, rfl⟩ := List.mem_map.mp hx
    exact g_column ih (h c hc)

theorem g_orders (ih : Phrases T P) {os : List Order} (kw : List Str)
    (h : ∀ o ∈ os, safeRef cx.backend.quote P o.col) :
    G (.opt (words kw) (.list .order)) (ordersToks cx T kw os) := by
  refine g_opt _ fun e => g_list (map_isEmpty_ne e) ?_
  intro x hx
  obtain ⟨o, ho, rfl⟩ := List.mem_map.mp hx
  exact g_order ih (h o ho)

theorem g_joins (ih : Phrases T P) {js : List Join} (h : ∀ j ∈ js, safeJoin cx.backend.quote P j) :
    G .joins (js.map (joinToks cx d T)).flatten := by
  induction js with
  | nil => exact .noJoin
  | cons j js ih' =>
    have hj := h j (by simp)
    have h2 := ih' fun i hi => h i (by simp [hi])
    have h1 : G (.opt (words [L!"ON"]) .conj)
        (optToks (!j.ons.isEmpty) (words [L!"ON"] ++ conjToks cx d T j.ons)) :=
      g_condsOpt ih [L!"ON"] hj.2
    have hk : joinTypeToks j.type ∈ joinWords := by cases j.type <;> decide
    have := G.join hk (g_aliased ih hj.1) h1 h2
    simpa only [List.map_cons, List.flatten_cons, joinToks, List.append_assoc] using this

theorem g_table (ih : Phrases T P) {t : Table} (h : safeTable cx.backend.quote P t) :
    G .table (tableToks cx S d T t) := by
  refine .table (g_aliased ih h.1) (g_joins ih ?_)
  intro j hj
  unfold keptJoins at hj
  split at hj
  · rename_i js e
    obtain ⟨j0, h0, a1, a2, a3⟩ := minimizeJoins_mem cx S e hj
    have := h.2 j0 h0
    unfold safeJoin at this ⊢
    rw [a1, a2, a3]; exact this
  · cases hj

theorem g_tables (ih : Phrases T P) {ts : List Table} (kw : List Str)
    (h : ∀ t ∈ ts, safeTable cx.backend.quote P t) :
    G (.opt (words kw) (.list .table)) (tablesToks cx S d T kw ts) := by
  refine g_opt _ fun e => g_list (map_isEmpty_ne e) ?_
  intro x hx
  obtain ⟨o, ho, rfl⟩ := List.mem_map.mp hx
  exact g_table ih (h o ho)

theorem g_assign (ih : Phrases T P) {v : Value} (h : safeAssign cx.backend.quote P v) :
    G .assign (assignToks cx d T v) := by
  cases v with
  | item o => exact h.elim
  | value c x => exact .assign (g_ref ih h.1) (g_val ih h.2)

theorem g_assignList (ih : Phrases T P) {vs : List Value} (hne : vs ≠ [])
    (h : ∀ v ∈ vs, safeAssign cx.backend.quote P v) :
    G (.list .assign) (commas (vs.map (assignToks cx d T))) := by
  refine g_list (by simpa using hne) ?_
  intro x hx
  obtain ⟨o, ho, rfl⟩ := List.mem_map.mp hx
  exact g_assign ih (h o ho)

theorem g_assigns (ih : Phrases T P) {vs : List Value} (kw : List Tok)
    (h : ∀ v ∈ vs, safeAssign cx.backend.quote P v) :
    G (.opt kw (.list .assign)) (assignsToks cx d T kw vs) :=
  g_opt _ fun e => g_assignList ih (by cases vs <;> simp_all) h

theorem g_intOpt (kw : List Str) (i : Option Int) : G (.opt (words kw) .int) (intOptToks kw i) := by
  cases i with
  | none => exact .absent
  | some i => exact .present (g_int i)

theorem g_phrase (ih : Phrases T P) (kw : List Str) {v : Option Obj}
    (h : safeOpt cx.backend.quote P v) : G (.opt (words kw) .expr) (phraseToks cx d T kw v) := by
  cases v with
  | none => exact .absent
  | some v => exact .present (g_val ih h)

theorem g_select (ih : Phrases T P) {q : Select} (h : safeSelect cx.backend.quote P q) :
    G .select (selectToks cx S d T q) := by
  obtain ⟨h1, h2, h3, h4, h5, h6, h7, h8, h9, h10⟩ := h
  have hw : ∀ w ∈ sortBy strLe q.opts.words, w ∈ selectWords := fun w hw =>
    words_mem q.opts ((sortBy_perm strLe q.opts.words).mem_iff.mp hw)
  have hn : (sortBy strLe q.opts.words).Nodup :=
    (sortBy_perm strLe q.opts.words).nodup_iff.mpr (words_nodup q.opts)
  unfold selectToks outfileToks
  cases hb : q.outfile.file.isSome with
  | true =>
    have := G.select hw hn (g_columns ih h1) (g_tables ih (S := S) (d := d) [L!"FROM"] h2)
      (g_condsOpt ih (d := d) [L!"WHERE"] h3) (g_orders ih [L!"GROUP", L!"BY"] h4)
      (g_condsOpt ih (d := d) [L!"HAVING"] h5) (g_orders ih [L!"ORDER", L!"BY"] h6)
      (g_intOpt [L!"LIMIT"] q.limit.limit) (g_intOpt [L!"OFFSET"] q.limit.offset)
      (g_phrase ih (d := d) [L!"INTO", L!"OUTFILE"] h7)
      (g_phrase ih (d := d) [L!"FIELDS", L!"TERMINATED", L!"BY"] h8)
      (g_phrase ih (d := d) [L!"LINES", L!"TERMINATED", L!"BY"] h9)
      (g_phrase ih (d := d) [L!"OPTIONALLY", L!"ENCLOSED", L!"BY"] h10)
      (g_flag q.forUpdate)
    simpa only [optToks, if_true, List.append_assoc] using this
  | false =>
    have := G.select hw hn (g_columns ih h1) (g_tables ih (S := S) (d := d) [L!"FROM"] h2)
      (g_condsOpt ih (d := d) [L!"WHERE"] h3) (g_orders ih [L!"GROUP", L!"BY"] h4)
      (g_condsOpt ih (d := d) [L!"HAVING"] h5) (g_orders ih [L!"ORDER", L!"BY"] h6)
      (g_intOpt [L!"LIMIT"] q.limit.limit) (g_intOpt [L!"OFFSET"] q.limit.offset)
      .absent .absent .absent .absent (g_flag q.forUpdate)
    simpa only [optToks, Bool.false_eq_true, if_false, List.nil_append] using this

theorem g_rows (ih : Phrases T P) {rows : List (List Value)}
    (h : ∀ r ∈ rows, safeRow cx.backend.quote P r) : G (.opt [] .rows) (rowsToks cx d T rows) := by
  unfold rowsToks
  refine g_opt (kw := []) _ fun e => ?_
  have hne : rows ≠ [] := by rintro rfl; cases e
  obtain ⟨_, hc, hs⟩ := insertColumns_spec h hne
  refine .rows (g_list (by simpa using hc) ?_) (g_list (by simpa using hne) ?_)
  · intro x hx
    obtain ⟨c, hc, rfl⟩ := List.mem_map.mp hx
    exact .name (refParts_ne (hs c hc).1 (hs c hc).2)
  · intro x hx
    obtain ⟨r, hr, rfl⟩ := List.mem_map.mp hx
    refine .row (g_list (by simpa using hc) ?_)
    intro y hy
    obtain ⟨c, _, rfl⟩ := List.mem_map.mp hy
    exact g_val ih (safe_lookup c (h r hr).2)

theorem g_insert (ih : Phrases T P) {q : Insert} (h : safeInsert cx.backend.quote P q) :
    G .stmt (insertToks cx S d T q) := by
  obtain ⟨h1, h2, h3, h4, h5, h6⟩ := h
  have hig : G (.flag (words [L!"IGNORE"])) (optToks q.ignore (words [L!"IGNORE"])) := g_flag _
  have ht := g_tables ih (S := S) (d := d) [] h1
  have hr := g_rows ih (d := d) h2
  unfold insertToks
  cases hrep : q.isReplace with
  | true =>
    obtain ⟨e1, e2⟩ := h6 hrep
    rw [e1, e2]
    simpa only [assignsToks, List.isEmpty_nil, Bool.not_true, optToks, Bool.false_eq_true, if_false, if_true, List.append_nil]
      using G.replace hig ht hr
  | false =>
    by_cases hc : q.onConflict = []
    · rw [hc]
      simpa only [assignsToks, List.isEmpty_nil, Bool.not_true, optToks, Bool.false_eq_true, if_false, List.append_nil]
        using G.insert hig ht hr (g_assigns ih (d := d) (words [L!"ON", L!"DUPLICATE", L!"KEY", L!"UPDATE"]) h3)
    · obtain ⟨e1, c, e2, hs⟩ := h5 hc
      rw [e1, e2]
      have hb : q.onConflict.isEmpty = false := by simpa using hc
      have := G.insertConflict hig ht hr (.name (refParts_ne hs.1 hs.2)) (g_assignList ih (d := d) hc h4)
      simpa only [assignsToks, List.isEmpty_nil, Bool.not_true, optToks, Bool.false_eq_true, if_false, hb, Bool.not_false, if_true,
        List.nil_append, List.append_assoc, Option.getD_some] using this

theorem g_update (ih : Phrases T P) {q : Update} (h : safeUpdate cx.backend.quote P q) :
    G .stmt (updateToks cx S d T q) :=
  .update (g_flag _) (g_tables ih [] h.1) (g_assigns ih [] h.2.1) (g_condsOpt ih [L!"WHERE"] h.2.2)

theorem g_delete (ih : Phrases T P) {q : Delete} (h : safeDelete cx.backend.quote P q) :
    G .stmt (deleteToks cx S d T q) :=
  .delete (g_flag _) (g_tables ih [] h.1) (g_tables ih [] h.2.1) (g_condsOpt ih [L!"WHERE"] h.2.2)

theorem g_arg (ih : Phrases T P) {a : Obj} (h : safeArg cx.backend.quote P a) :
    G (.list .expr) (argToks cx T a) := by
  have hl : ∀ xs : List Obj, (xs ≠ [] ∧ ∀ x ∈ xs, safeRef cx.backend.quote P x) →
      G (.list .expr) (commas (xs.map (refToksOf cx T))) := by
    intro xs hx
    refine g_list (by simpa using hx.1) ?_
    intro y hy
    obtain ⟨x, hx', rfl⟩ := List.mem_map.mp hy
    exact g_ref ih (hx.2 x hx')
  cases hb : a.isListTuple with
  | false =>
    obtain ⟨e1, e2, _⟩ := arg_plain cx (sem cx 0) T P hb
    rw [e1] at h
    rw [e2]
    exact .one (g_ref ih h)
  | true =>
    cases a <;> first | cases hb; done | exact hl _ h

theorem agg_mem (f : Agg) : f.text ∈ aggregates := by cases f <;> decide

theorem g_expr (ih : Phrases T P) {o : Obj} (h : safeExpr cx.backend.quote P o) :
    G .expr (toksF cx S d T o) := by
  cases o
  case sqlValue v => exact g_val ih h
  case sqlRef v => exact g_ref ih h
  case func f dist e =>
    cases dist with
    | false => exact .aggregate (agg_mem f) (g_arg ih h)
    | true => exact .aggregateDistinct (agg_mem f) (g_arg ih h)
  case concat cs => exact .concat (g_columns ih h)
  case groupConcat cs os sep =>
    exact .groupConcat (g_columns ih h.1) (g_orders ih _ h.2.1)
      (g_opt _ fun e => g_val ih (h.2.2 e))
  case convert e ty =>
    obtain ⟨h1, w, hw, rfl⟩ := h
    exact .convert hw (g_arg ih h1)
  case exists_ e =>
    cases e <;> first
      | exact .exists_ (ih .query _ h)
      | exact h.elim
  all_goals exact h.elim

theorem g_query (ih : Phrases T P) {o : Obj} (h : safeQuery cx.backend.quote P o) :
    G .query (toksF cx S d T o) := by
  cases o
  case select q => exact .single (g_select ih h)
  case union a b all =>
    cases all with
    | true => exact .unionAll (ih .query _ h.1) (ih .query _ h.2)
    | false => exact .union (ih .query _ h.1) (ih .query _ h.2)
  all_goals exact h.elim

theorem g_operand (ih : Phrases T P) {o : Obj} (h : P .cond o) : G .conj (operandToks T o) := by
  unfold operandToks
  split
  · exact .conjOne (.group (ih .cond o h))
  · exact ih .cond o h

theorem g_condObj (ih : Phrases T P) {o : Obj} (h : safeF cx.backend.quote P .cond o) :
    G .conj (toksF cx S d T o) := by
  cases o
  case conds ps => exact g_conds ih h.1 h.2
  case cofc l r op =>
    cases op with
    | and => exact .conjOne (.both (g_operand ih h.1) (g_operand ih h.2))
    | or => exact .conjOne (.either (g_operand ih h.1) (g_operand ih h.2))
  case not_ ps => exact .conjOne (.not (ih .cond _ h))
  all_goals exact .conjOne (.test (g_expr (S := S) (d := d) ih h))

end

/-- Objects without raw SQL are phrases of the grammar. -/
theorem g_main (cx : Ctx) (d : Dialect) (n : Nat) {k : Kind} {o : Obj}
    (h : Safe cx.backend.quote n k o) : G k.cat (toks cx d n o) := by
  induction n generalizing k o with
  | zero => exact h.elim
  | succ n ih =>
    have ih' : Phrases (toks cx d n) (Safe cx.backend.quote n) := fun k o h => ih h
    cases k with
    | expr => exact g_expr ih' h
    | cond => exact g_condObj ih' h
    | query => exact g_query ih' h
    | stmt =>
      cases o <;> first
        | exact g_insert ih' h
        | exact g_update ih' h
        | exact g_delete ih' h
        | exact .query (g_query ih' h)

end SqlPuzzle
