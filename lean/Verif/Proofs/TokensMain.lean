import Verif.Proofs.TokensStmt

/-!
Every object without raw SQL is read as its tokens.
-/

namespace SqlPuzzle

open Spec

theorem reference_star (b : Backend) : reference b.quote ['*'] = ['*'] := by cases b <;> rfl

/-- `count` writes `*` for an argument that equals `'*'`; the general rule would write the same. -/
theorem star_text {cx : Ctx} {n : Nat} {e : Obj} (h : (sem cx n).eq e (.str ['*']) = .ok true) :
    forceText cx (sem cx n) e = exprText cx (sem cx n) e := by
  cases n with
  | zero => cases h
  | succ n =>
    cases e <;> first | rfl | skip
    case str s =>
      have hs : (s == ['*']) = true := by injection h
      have hs : s = ['*'] := by simpa using hs
      subst hs
      show (.ok ['*'] : R Str) = .ok (reference cx.backend.quote ['*'])
      rw [reference_star]
    case float f => cases f <;> (injection h with h; cases h)
    case decimal f => cases f <;> (injection h with h; cases h)
    all_goals (injection h with h; cases h)

/-- The text of an aggregate function. -/
theorem funcText_ok {cx : Ctx} {n : Nat} {f : Agg} {dist : Bool} {a : Obj} {t : Str}
    (e : funcText cx (sem cx n) f dist a = .ok t) :
    ∃ x, exprText cx (sem cx n) a = .ok x ∧
      t = f.text ++ '(' :: (if dist then L!"DISTINCT " else []) ++ x ++ [')'] := by
  have plain : ∀ {f : Agg}, (exprText cx (sem cx n) a >>= fun t => (.ok (f.text ++ '(' ::
      (if dist then L!"DISTINCT " else []) ++ t ++ [')']) : R Str)) = .ok t →
      ∃ x, exprText cx (sem cx n) a = .ok x ∧
        t = f.text ++ '(' :: (if dist then L!"DISTINCT " else []) ++ x ++ [')'] := by
    intro f e
    rw [bind_ok] at e
    obtain ⟨x, e1, e⟩ := e
    injection e with e
    exact ⟨x, e1, e.symm⟩
  cases f with
  | count =>
    simp only [funcText] at e
    rw [bind_ok] at e
    obtain ⟨star, e1, e⟩ := e
    cases star with
    | false => exact plain e
    | true => rw [if_pos rfl, star_text e1] at e; exact plain e
  | _ => exact plain e

section
variable {cx : Ctx} {d : Dialect} {T : Obj → List Tok} {P : Kind → Obj → Prop}

theorem rt_func (hf : Fits cx d) {n : Nat} (ih : Inner d (sem cx n) T P) {f : Agg} {dist : Bool}
    {a : Obj} {t : Str} (h : safeArg cx.backend.quote P a)
    (e : funcText cx (sem cx n) f dist a = .ok t) :
    RT d t (.word f.text :: paren (optToks dist (words [L!"DISTINCT"]) ++ argToks cx T a)) := by
  have hq := hf.known
  obtain ⟨x, e3, rfl⟩ := funcText_ok e
  have hx := rt_arg hf ih h e3
  have hy : RT d ((if dist then L!"DISTINCT " else []) ++ x)
      (optToks dist (words [L!"DISTINCT"]) ++ argToks cx T a) := by
    cases dist with
    | false => exact hx
    | true =>
      have k : ReadsAny d L!"DISTINCT " (words [L!"DISTINCT"]) := any_rfl hq
      exact RT.pre k hx
  have k : ReadsAny d (f.text ++ ['(']) [.word f.text, .sym '('] := by
    cases f <;> exact any_rfl hq
  have := rt_call hq k hy
  simpa only [List.append_assoc, List.cons_append] using this

theorem groupConcatText_ok {S : Sem} {cs : List Column} {os : List Order} {sep : Obj} {t : Str}
    (e : groupConcatText cx S cs os sep = .ok t) :
    ∃ x y z, columnsText cx S cs = .ok x ∧
      clause (!os.isEmpty) (ordersText cx S L!"ORDER BY" os) = .ok y ∧
      (if sep.truthy then (sqlValueText cx S sep >>= fun t => .ok (L!" SEPARATOR " ++ t))
       else .ok [] : R Str) = .ok z ∧
      t = L!"GROUP_CONCAT(" ++ x ++ y ++ z ++ [')'] := by
  unfold groupConcatText at e
  rw [bind_ok] at e
  obtain ⟨x, e1, e⟩ := e
  rw [bind_ok] at e
  obtain ⟨y, e2, e⟩ := e
  cases hs : sep.truthy with
  | false =>
    rw [hs] at e
    injection e with e
    exact ⟨x, y, [], e1, e2, rfl, e.symm⟩
  | true =>
    rw [hs] at e
    simp only [if_true, bind_ok] at e
    obtain ⟨u, e3, z, e4, e⟩ := e
    injection e with e
    refine ⟨x, y, z, e1, e2, ?_, e.symm⟩
    rw [if_pos rfl, e3]; exact e4

theorem rt_groupConcat (hf : Fits cx d) {S : Sem} (ih : Inner d S T P) {cs : List Column}
    {os : List Order} {sep : Obj} {t : Str} (h1 : ∀ c ∈ cs, safeColumn cx.backend.quote P c)
    (h2 : ∀ o ∈ os, safeRef cx.backend.quote P o.col)
    (h3 : sep.truthy = true → safeVal cx.backend.quote P sep)
    (e : groupConcatText cx S cs os sep = .ok t) :
    RT d t (.word L!"GROUP_CONCAT" :: paren (columnsToks cx T cs ++
      (ordersToks cx T [L!"ORDER", L!"BY"] os ++
       optToks sep.truthy (words [L!"SEPARATOR"] ++ valToks cx d T sep)))) := by
  have hq := hf.known
  obtain ⟨x, y, z, e1, e2, e3, rfl⟩ := groupConcatText_ok e
  have r1 := rt_columns hf ih h1 e1
  have r2 := rt_orders (ks := [L!"ORDER", L!"BY"]) hf ih ⟨by decide, any_rfl hq⟩ h2 e2
  have r3 : ClauseR d z (optToks sep.truthy (words [L!"SEPARATOR"] ++ valToks cx d T sep)) := by
    cases hs : sep.truthy with
    | false =>
      rw [if_neg (by simp [hs])] at e3
      injection e3 with e3
      subst e3; exact clauseR_none
    | true =>
      rw [if_pos hs, bind_ok] at e3
      obtain ⟨w, e4, e5⟩ := e3
      injection e5 with e5
      subst e5
      have k : ReadsAny d L!"SEPARATOR " (words [L!"SEPARATOR"]) := any_rfl hq
      exact clauseR_some (RT.pre k (rt_val hf ih (h3 hs) e4))
  have k : ReadsAny d (L!"GROUP_CONCAT" ++ ['(']) [.word L!"GROUP_CONCAT", .sym '('] := any_rfl hq
  have key := rt_call hq k ((r1.clause hq r2).clause hq r3)
  have e6 : L!"GROUP_CONCAT" ++ '(' :: ((x ++ y ++ z) ++ [')']) =
      L!"GROUP_CONCAT(" ++ x ++ y ++ z ++ [')'] := by
    simp only [List.append_assoc]
    rfl
  rw [e6] at key
  simpa only [List.append_assoc] using key

theorem rt_castType (hq : d.Known) {w : Str} (h : w ∈ castTypes) : RT d w [.word w] := by
  simp only [castTypes, List.mem_cons, List.not_mem_nil, or_false] at h
  rcases h with rfl | rfl | rfl | rfl | rfl | rfl | rfl | rfl <;>
    exact RT.fixed hq _ _ fixed_rfl rfl

theorem rt_expr (hf : Fits cx d) {n : Nat} (ih : Inner d (sem cx n) T P) {o : Obj} {t : Str}
    (h : safeExpr cx.backend.quote P o) (e : renderF cx (sem cx n) o = .ok t) :
    RT d t (toksF cx (sem cx n) d T o) := by
  have hq := hf.known
  have ex : ∀ {k : Kind} {q : Obj}, P k q → (sem cx n).str q = forceText cx (sem cx n) q →
      renderF cx (sem cx n) (.exists_ q) = .ok t →
      RT d t (.word L!"EXISTS" :: paren (T q)) := by
    intro k q hp hs e
    simp only [renderF, bind_ok, ← hs] at e
    obtain ⟨x, e1, e⟩ := e
    injection e with e
    subst e
    have key := rt_call hq (show ReadsAny d (L!"EXISTS" ++ ['(']) [.word L!"EXISTS", .sym '('] from
      any_rfl hq) (ih _ _ _ hp e1)
    have e6 : L!"EXISTS" ++ '(' :: (x ++ [')']) = L!"EXISTS(" ++ x ++ [')'] := by
      simp only [List.append_assoc]; rfl
    rw [e6] at key
    exact key
  cases o with
  | sqlValue v => exact rt_val hf ih h e
  | sqlRef v => exact rt_ref hf ih h e
  | func f dist a => exact rt_func hf ih h e
  | concat cs =>
    simp only [renderF, bind_ok] at e
    obtain ⟨x, e1, e⟩ := e
    injection e with e
    subst e
    have key := rt_call hq (show ReadsAny d (L!"CONCAT" ++ ['(']) [.word L!"CONCAT", .sym '('] from
      any_rfl hq) (rt_columns hf ih h e1)
    have e6 : L!"CONCAT" ++ '(' :: (x ++ [')']) = L!"CONCAT(" ++ x ++ [')'] := by
      simp only [List.append_assoc]; rfl
    rw [e6] at key
    exact key
  | groupConcat cs os sep => exact rt_groupConcat hf ih h.1 h.2.1 h.2.2 e
  | convert a ty =>
    obtain ⟨ha, w, hw, rfl⟩ := h
    simp only [renderF, bind_ok] at e
    obtain ⟨x, e1, e⟩ := e
    injection e with e
    subst e
    have r := (rt_arg hf ih ha e1).mid (g := L!", ") sepStart_comma (readsAny_comma hq)
      (rt_castType hq hw)
    have key := rt_call hq (show ReadsAny d (L!"CONVERT" ++ ['(']) [.word L!"CONVERT", .sym '('] from
      any_rfl hq) r
    have e6 : L!"CONVERT" ++ '(' :: ((x ++ (L!", " ++ w)) ++ [')']) =
        L!"CONVERT(" ++ x ++ L!", " ++ (some w).getD L!"None" ++ [')'] := by
      simp only [List.append_assoc]; rfl
    rw [e6] at key
    exact key
  | exists_ q =>
    cases q with
    | select s => exact ex (k := .query) (q := .select s) h rfl e
    | union a b all => exact ex (k := .query) (q := .union a b all) h rfl e
    | _ => exact h.elim
  | _ => exact h.elim

theorem rt_query (hf : Fits cx d) {n : Nat} (ih : Inner d (sem cx n) T P) {o : Obj} {t : Str}
    (h : safeQuery cx.backend.quote P o) (e : renderF cx (sem cx n) o = .ok t) :
    RT d t (toksF cx (sem cx n) d T o) := by
  have hq := hf.known
  cases o with
  | select q => exact rt_select hf ih h e
  | union a b all =>
    simp only [renderF, bind_ok] at e
    obtain ⟨x, e1, y, e2, e⟩ := e
    injection e with e
    subst e
    have ra := ih _ _ _ h.1 e1
    have rb := ih _ _ _ h.2 e2
    cases all with
    | true =>
      have k : ReadsAny d L!" UNION ALL " (words [L!"UNION", L!"ALL"]) := any_rfl hq
      have key := ra.mid (g := L!" UNION ALL ") sepStart_blank k rb
      have e6 : x ++ (L!" UNION ALL " ++ y) =
          x ++ ' ' :: (if true then L!"UNION ALL" else L!"UNION") ++ ' ' :: y := by
        simp only [List.append_assoc]; rfl
      rw [e6] at key
      exact key
    | false =>
      have k : ReadsAny d L!" UNION " (words [L!"UNION"]) := any_rfl hq
      have key := ra.mid (g := L!" UNION ") sepStart_blank k rb
      have e6 : x ++ (L!" UNION " ++ y) =
          x ++ ' ' :: (if false then L!"UNION ALL" else L!"UNION") ++ ' ' :: y := by
        simp only [List.append_assoc]; rfl
      rw [e6] at key
      exact key
  | _ => exact h.elim

theorem rt_operand (hq : d.Known) {S : Sem} (ih : Inner d S T P) {k : Kind} {o : Obj} {t : Str}
    (h : P k o) (e : operandText S o = .ok t) : RT d t (operandToks T o) := by
  simp only [operandText, bind_ok] at e
  obtain ⟨x, e1, e⟩ := e
  injection e with e
  subst e
  have hx := ih _ _ _ h e1
  unfold operandToks
  split
  · exact rt_paren hq hx
  · exact hx

theorem readsAny_boolOp (hq : d.Known) (op : BoolOp) :
    ReadsAny d (' ' :: (op.text ++ [' '])) [boolOpToks op] := by
  cases op <;> exact any_rfl hq

theorem rt_condObj (hf : Fits cx d) {n : Nat} (ih : Inner d (sem cx n) T P) {o : Obj} {t : Str}
    (h : safeF cx.backend.quote P .cond o) (e : renderF cx (sem cx n) o = .ok t) :
    RT d t (toksF cx (sem cx n) d T o) := by
  have hq := hf.known
  cases o with
  | conds ps =>
    have := rt_parts (kt := []) (Or.inl ⟨rfl, rfl⟩) sepStart_blank (readsAny_and hq) h.1
      (fun p hp u hu => rt_cond hf ih (h.2 p hp) hu) e
    exact this
  | cofc l r op =>
    simp only [renderF, bind_ok] at e
    obtain ⟨x, e1, y, e2, e⟩ := e
    injection e with e
    subst e
    have ra := rt_operand hq ih h.1 e1
    have rb := rt_operand hq ih h.2 e2
    have key := rt_paren hq (ra.mid sepStart_blank (readsAny_boolOp hq op) rb)
    have e6 : '(' :: (x ++ (' ' :: (op.text ++ [' ']) ++ y) ++ [')']) =
        '(' :: (x ++ ' ' :: op.text ++ ' ' :: y ++ [')']) := by
      simp only [List.append_assoc, List.cons_append, List.nil_append]
    rw [e6] at key
    exact key
  | not_ ps =>
    simp only [renderF, bind_ok] at e
    obtain ⟨x, e1, e⟩ := e
    injection e with e
    subst e
    have key := rt_call hq (show ReadsAny d (L!"NOT" ++ ['(']) [.word L!"NOT", .sym '('] from
      any_rfl hq) (ih _ _ _ h e1)
    have e6 : L!"NOT" ++ '(' :: (x ++ [')']) = L!"NOT(" ++ x ++ [')'] := by
      simp only [List.append_assoc]; rfl
    rw [e6] at key
    exact key
  | _ => exact rt_expr hf ih h e

end

/-- The text of an object without raw SQL is read, on every server that quotes names the way the
backend does, as the tokens of the object. -/
theorem rt_main {cx : Ctx} {d : Dialect} (hf : Fits cx d) (n : Nat) {k : Kind} {o : Obj} {t : Str}
    (h : Safe cx.backend.quote n k o) (e : (sem cx n).str o = .ok t) : RT d t (toks cx d n o) := by
  induction n generalizing k o t with
  | zero => cases e
  | succ n ih =>
    have ih' : Inner d (sem cx n) (toks cx d n) (Safe cx.backend.quote n) :=
      fun k o t h e => ih h e
    cases k with
    | expr => exact rt_expr hf ih' h e
    | cond => exact rt_condObj hf ih' h e
    | query => exact rt_query hf ih' h e
    | stmt =>
      cases o with
      | insert q => exact rt_insert hf ih' h e
      | update q => exact rt_update hf ih' h e
      | delete q => exact rt_delete hf ih' h e
      | _ => exact rt_query hf ih' h e

end SqlPuzzle
