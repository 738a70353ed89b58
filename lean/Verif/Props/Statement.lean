import Verif.Proofs.Inserts

/-!
C52: a rendered statement consists of exactly its clauses, in fixed order, with one blank before each;
a clause without content leaves nothing.
-/

namespace SqlPuzzle

open Spec

private def cx0 : Ctx := ⟨.sql, ⟨id, id, fun _ => true, fun _ => [], fun _ => []⟩⟩

/-- C52. The text of a SELECT, whatever its state: options, columns, FROM, WHERE, GROUP BY, HAVING,
ORDER BY, LIMIT, INTO OUTFILE, FOR UPDATE, in this order. -/
theorem C52_select (cx : Ctx) (n : Nat) (q : Select) (t : Str) :
    (sem cx (n + 1)).str (.select q) = .ok t ↔ SelectStatement cx n q t :=
  selectStatement_iff cx n

/-- C52. The text of an INSERT or REPLACE. -/
theorem C52_insert (cx : Ctx) (n : Nat) (q : Insert) (t : Str) :
    (sem cx (n + 1)).str (.insert q) = .ok t ↔ InsertStatement cx n q t :=
  insertStatement_iff cx n

/-- C52. The text of an UPDATE that may be rendered (C23). -/
theorem C52_update (cx : Ctx) (n : Nat) (q : Update) (t : Str)
    (hq : q.where_ ≠ [] ∨ q.allowAll = true) :
    (sem cx (n + 1)).str (.update q) = .ok t ↔ UpdateStatement cx n q t :=
  updateStatement_iff cx n hq

/-- C52. The text of a DELETE that may be rendered (C24). -/
theorem C52_delete (cx : Ctx) (n : Nat) (q : Delete) (t : Str)
    (hq : q.where_ ≠ [] ∨ q.allowAll = true) :
    (sem cx (n + 1)).str (.delete q) = .ok t ↔ DeleteStatement cx n q t :=
  deleteStatement_iff cx n hq

/-- C52. No statement begins or ends with white space. -/
theorem C52_trimmed (cx : Ctx) (n : Nat) (o : Obj) (t : Str)
    (ho : (∃ q, o = .select q) ∨ (∃ q, o = .insert q) ∨ (∃ q, o = .update q) ∨ ∃ q, o = .delete q)
    (h : (sem cx (n + 1)).str o = .ok t) :
    (∀ c, t.head? = some c → isWhite c = false) ∧ (∀ c, t.getLast? = some c → isWhite c = false) := by
  have ends : ∀ {s}, Trimmed isWhite s t →
      (∀ c, t.head? = some c → isWhite c = false) ∧ (∀ c, t.getLast? = some c → isWhite c = false) := by
    rintro s ⟨pre, post, _, _, _, h3, h4⟩
    exact ⟨h3, h4⟩
  rcases ho with ⟨q, rfl⟩ | ⟨q, rfl⟩ | ⟨q, rfl⟩ | ⟨q, rfl⟩
  · obtain ⟨p, _, h⟩ := (selectStatement_iff cx n).mp h
    exact ends h
  · obtain ⟨_, _, _, _, _, _, _, _, _, _, h⟩ := (insertStatement_iff cx n).mp h
    exact ends h
  · by_cases hq : q.where_ ≠ [] ∨ q.allowAll = true
    · obtain ⟨_, _, _, _, _, _, h⟩ := (updateStatement_iff cx n hq).mp h
      exact ends h
    · have h : updateText cx (sem cx n) q = .ok t := h
      simp only [not_or, not_not, Bool.not_eq_true] at hq
      simp [updateText, hq.1, hq.2] at h
  · by_cases hq : q.where_ ≠ [] ∨ q.allowAll = true
    · obtain ⟨_, _, _, _, _, _, h⟩ := (deleteStatement_iff cx n hq).mp h
      exact ends h
    · have h : deleteText cx (sem cx n) q = .ok t := h
      simp only [not_or, not_not, Bool.not_eq_true] at hq
      simp [deleteText, hq.1, hq.2] at h

/-- C52. The statement begins with the word for its kind, on any history of calls. -/
theorem C52_keyword (cx : Ctx) (n : Nat) (o : Obj) (t : Str) (h : (sem cx (n + 1)).str o = .ok t) :
    (∀ q, o = .select q → L!"SELECT" <+: t) ∧
    (∀ q : Insert, o = .insert q → (if q.isReplace then L!"REPLACE" else L!"INSERT") <+: t) ∧
    (∀ q, o = .update q → L!"UPDATE" <+: t) ∧ (∀ q, o = .delete q → L!"DELETE" <+: t) := by
  have pre : ∀ {k r : Str} {c : Char}, isSpace c = false → (∀ x ∈ k, isSpace x = false) →
      Trimmed isWhite (c :: k ++ r) t → c :: k <+: t := by
    intro k r c hc hk ht
    rw [← strip_iff] at ht
    rw [← ht, List.cons_append, strip_of_head hc]
    have : ∃ d e, c :: k = d ++ [e] ∧ isSpace e = false := by
      rcases List.eq_nil_or_concat k with rfl | ⟨d, e, rfl⟩
      · exact ⟨[], c, rfl, hc⟩
      · exact ⟨c :: d, e, by simp, hk e (by simp)⟩
    obtain ⟨d, e, h1, h2⟩ := this
    rw [← List.cons_append, h1, List.append_assoc, rstrip_append ⟨e, by simp, h2⟩]
    unfold rstrip
    rw [List.reverse_append, List.dropWhile_append]
    split
    · refine ⟨[], ?_⟩
      simp [h2]
    · refine ⟨(r.reverse.dropWhile isSpace).reverse, ?_⟩
      simp
  refine ⟨?_, ?_, ?_, ?_⟩
  · rintro q rfl
    obtain ⟨p, _, h⟩ := (selectStatement_iff cx n).mp h
    exact pre (by decide) (by decide) h
  · rintro q rfl
    obtain ⟨_, _, _, _, _, _, _, _, _, _, h⟩ := (insertStatement_iff cx n).mp h
    cases hq : q.isReplace <;> rw [hq] at h
    · exact pre (c := 'I') (k := L!"NSERT") (by decide) (by decide) h
    · exact pre (c := 'R') (k := L!"EPLACE") (by decide) (by decide) h
  · rintro q rfl
    by_cases hq : q.where_ ≠ [] ∨ q.allowAll = true
    · obtain ⟨_, _, _, _, _, _, h⟩ := (updateStatement_iff cx n hq).mp h
      exact pre (by decide) (by decide) h
    · have h : updateText cx (sem cx n) q = .ok t := h
      simp only [not_or, not_not, Bool.not_eq_true] at hq
      simp [updateText, hq.1, hq.2] at h
  · rintro q rfl
    by_cases hq : q.where_ ≠ [] ∨ q.allowAll = true
    · obtain ⟨_, _, _, _, _, _, h⟩ := (deleteStatement_iff cx n hq).mp h
      exact pre (by decide) (by decide) h
    · have h : deleteText cx (sem cx n) q = .ok t := h
      simp only [not_or, not_not, Bool.not_eq_true] at hq
      simp [deleteText, hq.1, hq.2] at h

/-- C52. A `Q` object: its conditions joined by AND. -/
theorem C52_q (cx : Ctx) (n : Nat) (ps : List Cond) (t : Str) :
    (sem cx (n + 1)).str (.conds ps) = .ok t ↔
      ∃ ts, List.Forall₂ (ConditionText cx n) ps ts ∧ t = joinS L!" AND " ts := by
  have single : ∀ (c : Cond) (u : Str), ConditionText cx n c u ↔ condText cx (sem cx n) c = .ok u := by
    intro c u
    show condsText cx (sem cx n) [] [c] = .ok u ↔ _
    unfold condsText partsText
    cases h : condText cx (sem cx n) c with
    | ok v => simp [mapR, h, joinS]
    | error e => simp [mapR, h]
  show condsText cx (sem cx n) [] ps = .ok t ↔ _
  unfold condsText partsText
  have maps : ∀ us, mapR (condText cx (sem cx n)) ps = .ok us ↔ List.Forall₂ (ConditionText cx n) ps us := by
    intro us
    rw [mapR_ok_iff]
    constructor
    · exact fun h => h.imp fun c u => (single c u).mpr
    · exact fun h => h.imp fun c u => (single c u).mp
  cases ps with
  | nil =>
    constructor
    · intro h
      cases h
      exact ⟨[], .nil, rfl⟩
    · rintro ⟨ts, h, rfl⟩
      cases h
      rfl
  | cons c ps =>
    simp only [List.isEmpty_cons, Bool.false_eq_true, if_false, bind_ok]
    constructor
    · rintro ⟨us, h1, h2⟩
      cases h2
      exact ⟨us, (maps us).mp h1, rfl⟩
    · rintro ⟨us, h1, rfl⟩
      exact ⟨us, (maps us).mpr h1, rfl⟩

private theorem operand_iff (cx : Ctx) (n : Nat) (o : Obj) (t : Str) :
    operandText (sem cx n) o = .ok t ↔ OperandText cx n o t := by
  have hb : needsBrackets o = true ↔ ∃ c d ps, o = .conds (c :: d :: ps) := by
    unfold needsBrackets
    split
    · rename_i ps
      match ps with
      | [] => simp
      | [_] => simp
      | c :: d :: ps => simp
    · rename_i h
      simp only [Bool.false_eq_true, false_iff, not_exists]
      exact fun c d ps e => h _ e
  unfold operandText OperandText
  rw [← hb, bind_ok]
  cases needsBrackets o <;> simp [eq_comm]

/-- C52. Conditions combined by `|` and `&`: the two operands with the word between them, in brackets. -/
theorem C52_combined (cx : Ctx) (n : Nat) (l r : Obj) (op : BoolOp) (t : Str) :
    (sem cx (n + 1)).str (.cofc l r op) = .ok t ↔ ∃ a b, OperandText cx n l a ∧ OperandText cx n r b ∧
      t = L!"(" ++ a ++ (if op = .and then L!" AND " else L!" OR ") ++ b ++ L!")" := by
  show (do
    let a ← operandText (sem cx n) l
    let b ← operandText (sem cx n) r
    Except.ok ('(' :: (a ++ ' ' :: op.text ++ ' ' :: b ++ [')']))) = .ok t ↔ _
  have e : ∀ a b : Str, '(' :: (a ++ ' ' :: op.text ++ ' ' :: b ++ [')']) =
      L!"(" ++ a ++ (if op = .and then L!" AND " else L!" OR ") ++ b ++ L!")" := by
    intro a b
    cases op <;> simp [BoolOp.text]
  simp only [bind_ok, operand_iff, e]
  constructor
  · rintro ⟨a, h1, b, h2, h3⟩
    cases h3
    exact ⟨a, b, h1, h2, rfl⟩
  · rintro ⟨a, b, h1, h2, rfl⟩
    exact ⟨a, h1, b, h2, rfl⟩

/-- C52. A negated condition. -/
theorem C52_not (cx : Ctx) (n : Nat) (ps : List Cond) (t : Str) :
    (sem cx (n + 1)).str (.not_ ps) = .ok t ↔
      ∃ u, (sem cx n).str (.conds ps) = .ok u ∧ t = L!"NOT(" ++ u ++ L!")" := by
  show ((sem cx n).str (.conds ps) >>= fun u => Except.ok (L!"NOT(" ++ u ++ [')'])) = .ok t ↔ _
  rw [bind_ok]
  constructor
  · rintro ⟨u, h1, h2⟩
    cases h2
    exact ⟨u, h1, rfl⟩
  · rintro ⟨u, h1, rfl⟩
    exact ⟨u, h1, rfl⟩

/-- C52. A union. -/
theorem C52_union (cx : Ctx) (n : Nat) (a b : Obj) (all : Bool) (t : Str) :
    (sem cx (n + 1)).str (.union a b all) = .ok t ↔
      ∃ u v, (sem cx n).str a = .ok u ∧ (sem cx n).str b = .ok v ∧
        t = u ++ (if all then L!" UNION ALL " else L!" UNION ") ++ v := by
  show (do
    let x ← (sem cx n).str a
    let y ← (sem cx n).str b
    Except.ok (x ++ ' ' :: (if all then L!"UNION ALL" else L!"UNION") ++ ' ' :: y)) = .ok t ↔ _
  have e : ∀ x y : Str, x ++ ' ' :: (if all then L!"UNION ALL" else L!"UNION") ++ ' ' :: y =
      x ++ (if all then L!" UNION ALL " else L!" UNION ") ++ y := by
    intro x y
    cases all <;> simp
  simp only [bind_ok, e]
  constructor
  · rintro ⟨u, h1, v, h2, h3⟩
    cases h3
    exact ⟨u, v, h1, h2, rfl⟩
  · rintro ⟨u, v, h1, h2, rfl⟩
    exact ⟨u, h1, v, h2, rfl⟩

/-- C52. `exists(query)`. -/
theorem C52_exists (cx : Ctx) (n : Nat) (q : Select) (t : Str) :
    (sem cx (n + 1)).str (.exists_ (.select q)) = .ok t ↔
      ∃ u, (sem cx n).str (.select q) = .ok u ∧ t = L!"EXISTS(" ++ u ++ L!")" := by
  show ((sem cx n).str (.select q) >>= fun u => Except.ok (L!"EXISTS(" ++ u ++ [')'])) = .ok t ↔ _
  rw [bind_ok]
  constructor
  · rintro ⟨u, h1, h2⟩
    cases h2
    exact ⟨u, h1, rfl⟩
  · rintro ⟨u, h1, rfl⟩
    exact ⟨u, h1, rfl⟩

/-- `(Q(a=1, b=2) | Q(c=3)) & Q(d=4)` -/
example : (sem cx0 8).str (.cofc (.cofc (.conds [.cond false (.str L!"a") .eq (.int 1), .cond false (.str L!"b") .eq (.int 2)])
    (.conds [.cond false (.str L!"c") .eq (.int 3)]) .or) (.conds [.cond false (.str L!"d") .eq (.int 4)]) .and) =
    .ok L!"(((\"a\" = 1 AND \"b\" = 2) OR \"c\" = 3) AND \"d\" = 4)" := by
  decide +kernel

/-- The clauses of a query with an option, two columns, a table with a join, a condition, an order and
a limit, and their texts. -/
example : (sem cx0 4).str (.select
    { columns := [⟨.str L!"a", .none⟩, ⟨.str L!"b", .str L!"c"⟩]
      tables := [⟨.str L!"t", .none, [⟨.left, .str L!"u", .none, []⟩]⟩]
      where_ := [.cond false (.str L!"a") .eq (.int 1)], orderBy := [⟨.str L!"a", true⟩]
      limit := ⟨some 3, none⟩, forUpdate := true }) =
    .ok L!"SELECT \"a\", \"b\" AS \"c\" FROM \"t\" LEFT JOIN \"u\" WHERE \"a\" = 1 ORDER BY \"a\" DESC LIMIT 3 FOR UPDATE" := by
  decide

end SqlPuzzle
