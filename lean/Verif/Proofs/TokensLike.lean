import Verif.Spec.Like
import Verif.Proofs.TokensMain

/-!
Objects that differ only in literal values have the same tokens up to the contents of literals.
-/

namespace SqlPuzzle

open Spec

/-- Same tokens up to the contents of literals. -/
def BE (ts us : List Tok) : Prop := ts.map Tok.blank = us.map Tok.blank

theorem BE.refl (ts : List Tok) : BE ts ts := rfl

theorem BE.append {ts us ts' us' : List Tok} (h : BE ts ts') (k : BE us us') :
    BE (ts ++ us) (ts' ++ us') := by
  unfold BE at *
  rw [List.map_append, List.map_append, h, k]

theorem BE.cons (t : Tok) {us us' : List Tok} (k : BE us us') : BE (t :: us) (t :: us') := by
  unfold BE at *
  rw [List.map_cons, List.map_cons, k]

theorem BE.paren {ts ts' : List Tok} (h : BE ts ts') : BE (paren ts) (paren ts') :=
  (h.append (.refl _)).cons _

theorem BE.joinT (sep : List Tok) {xs ys : List (List Tok)} (h : List.Forall₂ BE xs ys) :
    BE (joinT sep xs) (joinT sep ys) := by
  induction h with
  | nil => exact .refl _
  | @cons x y xs ys h1 h2 ih =>
    cases h2 with
    | nil => exact h1
    | cons _ _ => exact h1.append ((BE.refl _).append ih)

theorem BE.flatten {xs ys : List (List Tok)} (h : List.Forall₂ BE xs ys) :
    BE xs.flatten ys.flatten := by
  induction h with
  | nil => exact .refl _
  | cons h1 _ ih => exact h1.append ih

theorem forall₂_map_map {α β γ δ : Type} {R : α → β → Prop} {Q : γ → δ → Prop} {f : α → γ} {g : β → δ}
    {xs : List α} {ys : List β} (h : List.Forall₂ R xs ys) (k : ∀ x y, R x y → Q (f x) (g y)) :
    List.Forall₂ Q (xs.map f) (ys.map g) := by
  induction h with
  | nil => exact .nil
  | cons h1 _ ih => exact .cons (k _ _ h1) ih

theorem BE.opt {ts ts' : List Tok} (b b' : Bool) (e : b = b') (h : BE ts ts') :
    BE (optToks b ts) (optToks b' ts') := by
  subst e
  cases b with
  | false => exact .refl _
  | true => exact h

theorem forall₂_isEmpty {α β : Type} {R : α → β → Prop} {xs : List α} {ys : List β}
    (h : List.Forall₂ R xs ys) : xs.isEmpty = ys.isEmpty := by
  cases h <;> rfl

/-- Objects whose text goes into parentheses when used as a value. -/
def subq : Obj → Bool
  | .select _ | .union .. => true
  | _ => false

section
variable {cx : Ctx} {S : Sem} {d : Dialect} {T : Obj → List Tok} {P : Obj → Obj → Prop}

/-- What is known about inner objects. -/
structure InnerLike (T : Obj → List Tok) (P : Obj → Obj → Prop) : Prop where
  toks : ∀ o p, P o p → BE (T o) (T p)
  subq : ∀ o p, P o p → subq o = subq p
  brackets : ∀ o p, P o p → needsBrackets o = needsBrackets p

theorem be_sign (s : Bool) (a b : Str) : BE (fixedToks s a) (fixedToks s b) := by
  cases s <;> rfl

theorem be_int {i j : Int} (h : i < 0 ↔ j < 0) : BE (intToks i) (intToks j) := by
  cases i with
  | ofNat a =>
    cases j with
    | ofNat b => rfl
    | negSucc b => exact absurd (h.mpr (Int.negSucc_lt_zero b)) (Int.not_lt.mpr (Int.natCast_nonneg a))
  | negSucc a =>
    cases j with
    | ofNat b => exact absurd (h.mp (Int.negSucc_lt_zero a)) (Int.not_lt.mpr (Int.natCast_nonneg b))
    | negSucc b => rfl

/-- The blanked tokens of a literal. -/
def signBlank (s : Bool) : List Tok := if s then [.sym '-', .str []] else [.str []]

theorem literal_blank {v : Obj} {s : Bool} (h : literalSign v = some s) :
    (valToks cx d T v).map Tok.blank = signBlank s := by
  cases v <;> simp only [literalSign, Option.some.injEq, reduceCtorEq] at h
  case bool b => subst h; unfold valToks; cases cx.backend <;> cases b <;> rfl
  case int i =>
    subst h
    cases i with
    | ofNat a => rfl
    | negSucc a => rw [decide_eq_true (Int.negSucc_lt_zero a)]; rfl
  case float f =>
    cases f <;> simp only [Option.some.injEq, reduceCtorEq] at h
    subst h
    rename_i neg _ _
    cases neg <;> rfl
  case decimal f =>
    cases f <;> simp only [Option.some.injEq, reduceCtorEq] at h
    subst h
    rename_i neg _ _
    cases neg <;> rfl
  case str => subst h; rfl
  case bytes b => subst h; unfold valToks; cases cx.backend <;> rfl
  case date => subst h; rfl
  case datetime => subst h; rfl

theorem be_listToks (ih : InnerLike T P) {xs ys : List Obj}
    (h : List.Forall₂ (fun x y => P (.sqlValue x) (.sqlValue y)) xs ys) :
    BE (listToks T xs) (listToks T ys) :=
  (BE.joinT _ (forall₂_map_map h fun _ _ h => ih.toks _ _ h)).paren

theorem listItems_toks {v : Obj} {xs : List Obj} (h : listItems v = some xs) :
    valToks cx d T v = listToks T xs := by
  cases v <;> simp only [listItems, Option.some.injEq, reduceCtorEq] at h <;> subst h <;> rfl

theorem isSql_toks {v : Obj} (h : v.isSql = true) :
    valToks cx d T v = if subq v then paren (T v) else T v := by
  cases v <;> first | rfl | cases h

theorem isSql_refToks {v : Obj} (h : v.isSql = true) :
    refToksOf cx T v = if subq v then paren (T v) else T v := by
  cases v <;> first | rfl | cases h

theorem be_sql (ih : InnerLike T P) {v w : Obj} (h : P v w) :
    BE (if subq v then paren (T v) else T v) (if subq w then paren (T w) else T w) := by
  rw [ih.subq v w h]
  split
  · exact (ih.toks _ _ h).paren
  · exact ih.toks _ _ h

theorem be_val (ih : InnerLike T P) {v w : Obj} (h : likeVal P v w) :
    BE (valToks cx d T v) (valToks cx d T w) := by
  rcases h with ⟨s, h1, h2⟩ | ⟨xs, ys, h1, h2, h3⟩ | ⟨h1, h2, h3⟩ | rfl
  · unfold BE; rw [literal_blank h1, literal_blank h2]
  · rw [listItems_toks h1, listItems_toks h2]; exact be_listToks ih h3
  · rw [isSql_toks h1, isSql_toks h2]; exact be_sql ih h3
  · exact .refl _

theorem be_ref (ih : InnerLike T P) {v w : Obj} (h : likeRef P v w) :
    BE (refToksOf cx T v) (refToksOf cx T w) := by
  rcases h with rfl | ⟨h1, h2, h3⟩
  · exact .refl _
  · rw [isSql_refToks h1, isSql_refToks h2]; exact be_sql ih h3

theorem be_aliased (ih : InnerLike T P) {n a n' a' : Obj} (h : likeAliased P n a n' a') :
    BE (aliasedToks cx T n a) (aliasedToks cx T n' a') :=
  (be_ref ih h.1).append (BE.opt _ _ h.2.1 ((BE.refl _).append (be_ref ih h.2.2)))

theorem be_order (ih : InnerLike T P) {o o' : Order} (h : likeOrder P o o') :
    BE (orderToks cx T o) (orderToks cx T o') :=
  (be_ref ih h.1).append (BE.opt _ _ h.2 (.refl _))

theorem be_plainCond (ih : InnerLike T P) {c c' v v' : Obj} (k : Rel) {vt : Obj → List Tok}
    (hc : likeRef P c c') (hv : BE (vt v) (vt v')) :
    BE (plainCondToks cx T c k vt v) (plainCondToks cx T c' k vt v') :=
  (be_ref ih hc).append ((BE.refl _).append hv)

theorem filter_none {R : Obj → Obj → Prop} {xs ys : List Obj}
    (h : List.Forall₂ (fun x y => x.isNone = y.isNone ∧ R x y) xs ys) :
    List.Forall₂ R (xs.filter fun x => !x.isNone) (ys.filter fun x => !x.isNone) ∧
      xs.any Obj.isNone = ys.any Obj.isNone := by
  induction h with
  | nil => exact ⟨.nil, rfl⟩
  | @cons x y xs ys h1 _ ih =>
    refine ⟨?_, ?_⟩
    · cases hn : y.isNone with
      | true => simp only [List.filter_cons, h1.1, hn, Bool.not_true]; exact ih.1
      | false =>
        simp only [List.filter_cons, h1.1, hn, Bool.not_false, if_true]
        exact .cons h1.2 ih.1
    · rw [List.any_cons, List.any_cons, h1.1, ih.2]

theorem be_inCond (ih : InnerLike T P) {c c' v v' : Obj} (k nk : Rel) (glue : Str)
    {vt : Obj → List Tok} (hc : likeRef P c c')
    (h0 : v.iterate = none → v'.iterate = none ∧ BE (vt v) (vt v'))
    (h1 : ∀ xs, v.iterate = some xs → ∃ ys, v'.iterate = some ys ∧
      xs.any Obj.isNone = ys.any Obj.isNone ∧
      (xs.filter fun x => !x.isNone).isEmpty = (ys.filter fun x => !x.isNone).isEmpty ∧
      BE (vt (.list (xs.filter fun x => !x.isNone))) (vt (.list (ys.filter fun x => !x.isNone)))) :
    BE (inCondToks cx T c k nk glue vt v) (inCondToks cx T c' k nk glue vt v') := by
  unfold inCondToks
  cases e : v.iterate with
  | none =>
    obtain ⟨e', hv⟩ := h0 e
    rw [e']
    exact be_plainCond ih k hc hv
  | some xs =>
    obtain ⟨ys, e', ha, he, hv⟩ := h1 xs e
    rw [e']
    dsimp only
    rw [ha, he]
    have hn : BE (refToksOf cx T c ++ (relToks nk ++ [Tok.word L!"NULL"]))
        (refToksOf cx T c' ++ (relToks nk ++ [Tok.word L!"NULL"])) := (be_ref ih hc).append (.refl _)
    split
    · split
      · exact hn
      · exact ((be_plainCond ih k hc hv).append (hn.cons _)).paren
    · exact be_plainCond ih k hc hv

theorem be_cond (ih : InnerLike T P) {c c' : Cond} (h : likeCond P c c') :
    BE (condToks cx d T c) (condToks cx d T c') := by
  cases c with
  | item o =>
    cases c' with
    | item p => exact ih.toks _ _ h
    | cond _ _ _ _ => exact h.elim
  | cond on c k v =>
    cases c' with
    | item p => exact h.elim
    | cond on' c' k' v' =>
      obtain ⟨rfl, rfl, hc, hv⟩ := h
      rcases hv with rfl | ⟨b1, b2, hv⟩
      · -- same value
        have key : ∀ nk glue (vt : Obj → List Tok),
            BE (inCondToks cx T c k nk glue vt v) (inCondToks cx T c' k nk glue vt v) :=
          fun nk glue vt => be_inCond ih k nk glue hc (fun e => ⟨e, .refl _⟩)
            fun xs e => ⟨xs, e, rfl, rfl, .refl _⟩
        cases k <;> first
          | exact key _ _ _
          | exact be_plainCond ih _ hc (.refl _)
      · have plain : likeVal P v v' → BE (plainCondToks cx T c k (valToks cx d T) v)
            (plainCondToks cx T c' k (valToks cx d T) v') :=
          fun h => be_plainCond ih k hc (be_val ih h)
        have key : (match v.iterate, v'.iterate with
            | some xs, some ys =>
              List.Forall₂ (fun x y => x.isNone = y.isNone ∧ P (.sqlValue x) (.sqlValue y)) xs ys
            | none, none => likeVal P v v'
            | _, _ => False) → ∀ nk glue,
            BE (inCondToks cx T c k nk glue (valToks cx d T) v)
              (inCondToks cx T c' k nk glue (valToks cx d T) v') := by
          intro hh nk glue
          refine be_inCond ih k nk glue hc (fun e => ?_) fun xs e => ?_
          · rw [e] at hh
            cases e' : v'.iterate with
            | none => rw [e'] at hh; exact ⟨rfl, be_val ih hh⟩
            | some ys => rw [e'] at hh; exact hh.elim
          · rw [e] at hh
            cases e' : v'.iterate with
            | none => rw [e'] at hh; exact hh.elim
            | some ys =>
              rw [e'] at hh
              obtain ⟨f1, f2⟩ := filter_none hh
              exact ⟨ys, rfl, f2, forall₂_isEmpty f1, be_listToks ih f1⟩
        unfold condToks
        simp only [b1, b2, Bool.false_eq_true, if_false]
        cases k <;> first
          | exact plain hv
          | (refine key ?_ _ _
             cases e1 : v.iterate <;> cases e2 : v'.iterate <;> simp only [e1, e2] at hv ⊢ <;> exact hv)

theorem be_conj (ih : InnerLike T P) {ps qs : List Cond} (h : likeConds P ps qs) :
    BE (conjToks cx d T ps) (conjToks cx d T qs) :=
  BE.joinT _ (forall₂_map_map h fun _ _ h => be_cond ih h)

theorem be_conds (ih : InnerLike T P) (kw : List Str) {ps qs : List Cond} (h : likeConds P ps qs) :
    BE (condsToks cx d T kw ps) (condsToks cx d T kw qs) :=
  BE.opt _ _ (by rw [forall₂_isEmpty h]) ((BE.refl _).append (be_conj ih h))

theorem be_columns (ih : InnerLike T P) {cs cs' : List Column}
    (h : List.Forall₂ (likeColumn P) cs cs') : BE (columnsToks cx T cs) (columnsToks cx T cs') := by
  unfold columnsToks
  rw [forall₂_isEmpty h]
  split
  · exact .refl _
  · exact BE.joinT _ (forall₂_map_map h fun _ _ h => be_aliased ih h)

theorem be_orders (ih : InnerLike T P) (kw : List Str) {os os' : List Order}
    (h : List.Forall₂ (likeOrder P) os os') : BE (ordersToks cx T kw os) (ordersToks cx T kw os') :=
  BE.opt _ _ (by rw [forall₂_isEmpty h])
    ((BE.refl _).append (BE.joinT _ (forall₂_map_map h fun _ _ h => be_order ih h)))

theorem be_join (ih : InnerLike T P) {j j' : Join} (h : likeJoin P j j') :
    BE (joinToks cx d T j) (joinToks cx d T j') := by
  unfold joinToks
  rw [h.1]
  exact (BE.refl _).append ((be_aliased ih h.2.1).append
    (BE.opt _ _ (by rw [forall₂_isEmpty h.2.2]) ((BE.refl _).append (be_conj ih h.2.2))))

theorem keptJoins_short {t : Table} (h : t.joins.length ≤ 1) : keptJoins cx S t = t.joins := by
  unfold keptJoins
  match hj : t.joins, h with
  | [], _ => rfl
  | [j], _ => rfl

theorem be_table (ih : InnerLike T P) {t t' : Table} (h : likeTable P t t') :
    BE (tableToks cx S d T t) (tableToks cx S d T t') := by
  refine (be_aliased ih h.1).append (BE.flatten ?_)
  rcases h.2 with e | ⟨hl, hj⟩
  · unfold keptJoins
    rw [e]
    exact List.forall₂_same.mpr fun _ _ => .refl _
  · rw [keptJoins_short hl, keptJoins_short (hj.length_eq ▸ hl)]
    exact forall₂_map_map hj fun _ _ h => be_join ih h

theorem be_tables (ih : InnerLike T P) (kw : List Str) {ts ts' : List Table}
    (h : List.Forall₂ (likeTable P) ts ts') :
    BE (tablesToks cx S d T kw ts) (tablesToks cx S d T kw ts') :=
  BE.opt _ _ (by rw [forall₂_isEmpty h])
    ((BE.refl _).append (BE.joinT _ (forall₂_map_map h fun _ _ h => be_table ih h)))

theorem be_assign (ih : InnerLike T P) {v v' : Value} (h : likeAssign P v v') :
    BE (assignToks cx d T v) (assignToks cx d T v') := by
  cases v <;> cases v' <;> first
    | exact h.elim
    | exact ih.toks _ _ h
    | exact (be_ref ih h.1).append ((be_val ih h.2).cons _)

theorem be_assigns (ih : InnerLike T P) (kw : List Tok) {vs vs' : List Value}
    (h : List.Forall₂ (likeAssign P) vs vs') :
    BE (assignsToks cx d T kw vs) (assignsToks cx d T kw vs') :=
  BE.opt _ _ (by rw [forall₂_isEmpty h])
    ((BE.refl _).append (BE.joinT _ (forall₂_map_map h fun _ _ h => be_assign ih h)))

theorem be_intOpt (kw : List Str) {i j : Option Int} (h : likeInt i j) :
    BE (intOptToks kw i) (intOptToks kw j) := by
  cases i <;> cases j <;> first
    | exact .refl _
    | exact h.elim
    | exact (BE.refl _).append (be_int h)

theorem be_phrase (ih : InnerLike T P) (kw : List Str) {v w : Option Obj} (h : likeOpt P v w) :
    BE (phraseToks cx d T kw v) (phraseToks cx d T kw w) := by
  cases v <;> cases w <;> first
    | exact .refl _
    | exact h.elim
    | exact (BE.refl _).append (be_val ih h)

theorem be_select (ih : InnerLike T P) {s s' : Select} (h : likeSelect P s s') :
    BE (selectToks cx S d T s) (selectToks cx S d T s') := by
  obtain ⟨h0, h1, h2, h3, h4, h5, h6, h7, h8, h9, h10, h11, h12, h13⟩ := h
  have hf : s.outfile.file.isSome = s'.outfile.file.isSome := by
    cases e : s.outfile.file <;> cases e' : s'.outfile.file <;> simp only [e, e'] at h9 ⊢ <;>
      first | rfl | exact h9.elim
  unfold selectToks
  rw [h0, h13]
  exact BE.cons _ <| (BE.refl _).append <| (be_columns ih h1).append <| (be_tables ih _ h2).append <|
    (be_conds ih _ h3).append <| (be_orders ih _ h4).append <| (be_conds ih _ h5).append <|
    (be_orders ih _ h6).append <| (be_intOpt _ h7).append <| (be_intOpt _ h8).append <|
    (BE.opt _ _ hf ((be_phrase ih _ h9).append ((be_phrase ih _ h10).append
      ((be_phrase ih _ h11).append (be_phrase ih _ h12))))).append (.refl _)

/-- Rows with the same columns. -/
theorem like_rowColumns {r r' : List Value} (h : likeRow P r r') : rowColumns r = rowColumns r' := by
  induction h with
  | nil => rfl
  | cons h1 _ ih =>
    obtain ⟨c, x, y, rfl, rfl, _⟩ := h1
    unfold rowColumns
    rw [ih]

theorem like_allColumns {rs rs' : List (List Value)} (h : List.Forall₂ (likeRow P) rs rs') :
    allColumns rs = allColumns rs' := by
  have : mapR rowColumns rs = mapR rowColumns rs' := by
    induction h with
    | nil => rfl
    | cons h1 _ ih => unfold mapR; rw [like_rowColumns h1, ih]
  unfold allColumns
  rw [this]

theorem like_any {f : Value → Bool} {r r' : List Value} (h : likeRow P r r')
    (hf : ∀ c x y, f (.value (.str c) x) = f (.value (.str c) y)) : r.any f = r'.any f := by
  induction h with
  | nil => rfl
  | cons h1 _ ih =>
    obtain ⟨c', x, y, rfl, rfl, _⟩ := h1
    rw [List.any_cons, List.any_cons, ih, hf c' x y]

theorem like_lookup (c : Str) {r r' : List Value} (h : likeRow P r r') :
    likeVal P (lookupValue c r) (lookupValue c r') := by
  induction h with
  | nil => exact Or.inr (Or.inr (Or.inr rfl))
  | @cons v w r r' h1 h2 ih =>
    obtain ⟨c', x, y, rfl, rfl, hxy⟩ := h1
    unfold lookupValue
    rw [like_any h2]
    split
    · exact ih
    · split
      · exact hxy
      · exact ih
    · exact fun _ _ _ => rfl

theorem be_rows (ih : InnerLike T P) {rs rs' : List (List Value)}
    (h : List.Forall₂ (likeRow P) rs rs') : BE (rowsToks cx d T rs) (rowsToks cx d T rs') := by
  unfold rowsToks insertColumns
  rw [like_allColumns h]
  refine BE.opt _ _ (by rw [forall₂_isEmpty h]) ((BE.refl _).append (BE.cons _ (BE.joinT _ ?_)))
  refine forall₂_map_map h fun r r' hr => ?_
  refine BE.paren (BE.joinT _ (forall₂_map_map (R := Eq) (List.forall₂_same.mpr fun _ _ => rfl) ?_))
  rintro c _ rfl
  exact be_val ih (like_lookup c hr)

theorem be_insert (ih : InnerLike T P) {i i' : Insert} (h : likeInsert P i i') :
    BE (insertToks cx S d T i) (insertToks cx S d T i') := by
  obtain ⟨h1, h2, h3, h4, h5, h6, h7⟩ := h
  unfold insertToks
  rw [h1, h2, h6]
  exact BE.cons _ <| (BE.refl _).append <| BE.cons _ <| (be_tables ih _ h3).append <|
    (be_rows ih h4).append <| (be_assigns ih _ h5).append (be_assigns ih _ h7)

theorem be_update (ih : InnerLike T P) {u u' : Update} (h : likeUpdate P u u') :
    BE (updateToks cx S d T u) (updateToks cx S d T u') := by
  obtain ⟨h1, h2, h3, h4⟩ := h
  unfold updateToks
  rw [h1]
  exact BE.cons _ <| (BE.refl _).append <| (be_tables ih _ h2).append <| BE.cons _ <|
    (be_assigns ih _ h3).append (be_conds ih _ h4)

theorem be_delete (ih : InnerLike T P) {u u' : Delete} (h : likeDelete P u u') :
    BE (deleteToks cx S d T u) (deleteToks cx S d T u') := by
  obtain ⟨h1, h2, h3, h4⟩ := h
  unfold deleteToks
  rw [h1]
  exact BE.cons _ <| (BE.refl _).append <| (be_tables ih _ h2).append <| BE.cons _ <|
    (be_tables ih _ h3).append (be_conds ih _ h4)

theorem be_arg (ih : InnerLike T P) {e e' : Obj} (h : likeArg P e e') :
    BE (argToks cx T e) (argToks cx T e') := by
  rcases h with h | ⟨xs, ys, rfl, rfl, h⟩
  · rcases h with rfl | ⟨h1, h2, h3⟩
    · exact .refl _
    · have key : ∀ v : Obj, v.isSql = true → argToks cx T v = refToksOf cx T v := by
        intro v hv
        cases v <;> first | rfl | cases hv
      rw [key _ h1, key _ h2]
      exact be_ref ih (Or.inr ⟨h1, h2, h3⟩)
  · exact BE.joinT _ (forall₂_map_map h fun _ _ h => be_ref ih h)

theorem be_operand (ih : InnerLike T P) {o p : Obj} (h : P o p) :
    BE (operandToks T o) (operandToks T p) := by
  unfold operandToks
  rw [ih.brackets _ _ h]
  split
  · exact (ih.toks _ _ h).paren
  · exact ih.toks _ _ h

theorem be_toksF (ih : InnerLike T P) {o p : Obj} (h : likeF P o p) :
    BE (toksF cx S d T o) (toksF cx S d T p) := by
  unfold likeF at h
  split at h
  · exact be_val ih h
  · exact be_ref ih h
  · exact be_conj ih h
  · obtain ⟨h1, h2, rfl⟩ := h
    exact ((be_operand ih h1).append ((be_operand ih h2).cons _)).paren
  · exact BE.cons _ (ih.toks _ _ h).paren
  · obtain ⟨rfl, rfl, h⟩ := h
    exact BE.cons _ ((BE.refl _).append (be_arg ih h)).paren
  · exact BE.cons _ (be_columns ih h).paren
  · obtain ⟨h1, h2, h3, h4⟩ := h
    exact BE.cons _ ((be_columns ih h1).append ((be_orders ih _ h2).append
      (BE.opt _ _ h3 ((BE.refl _).append (be_val ih h4))))).paren
  · obtain ⟨h1, rfl⟩ := h
    exact BE.cons _ ((be_arg ih h1).append (.refl _)).paren
  · exact BE.cons _ (ih.toks _ _ h).paren
  · exact be_select ih h
  · obtain ⟨h1, h2, rfl⟩ := h
    exact (ih.toks _ _ h1).append ((BE.refl _).append (ih.toks _ _ h2))
  · exact be_insert ih h
  · exact be_update ih h
  · exact be_delete ih h
  · exact h.elim

end

theorem like_shape {n : Nat} {o p : Obj} (h : Like n o p) :
    subq o = subq p ∧ needsBrackets o = needsBrackets p := by
  cases n with
  | zero => cases h; exact ⟨rfl, rfl⟩
  | succ n =>
    rcases h with rfl | h
    · exact ⟨rfl, rfl⟩
    · unfold likeF at h
      split at h <;> first
        | exact ⟨rfl, rfl⟩
        | exact h.elim
        | exact ⟨rfl, by simp only [needsBrackets]; rw [List.Forall₂.length_eq h]⟩

theorem be_main (cx : Ctx) (d : Dialect) (n : Nat) {m : Nat} {o p : Obj} (h : Like m o p) :
    BE (toks cx d n o) (toks cx d n p) := by
  induction n generalizing m o p with
  | zero => exact .refl _
  | succ n ih =>
    cases m with
    | zero => cases h; exact .refl _
    | succ m =>
      rcases h with rfl | h
      · exact .refl _
      · exact be_toksF ⟨fun _ _ h => ih h, fun _ _ h => (like_shape h).1,
          fun _ _ h => (like_shape h).2⟩ h

end SqlPuzzle
