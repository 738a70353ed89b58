import Verif.Proofs.ClauseFacts
import Verif.Proofs.SafeMono
import Verif.Proofs.SafeDecide
import Verif.Proofs.TokensLike
import Verif.Model.Queries

/-!
C27 (clauses of a statement), C41 (tokens of a statement), C42 (parentheses), first part.

`NoRaw q k o` (`Spec/Safe.lean`) describes objects without custom SQL; `G` (`Spec/Grammar.lean`) is
the grammar of SQL; `lex` (`Spec/Lexer.lean`) is how the server reads a statement.
-/

namespace SqlPuzzle

open Spec

private def cx0 : Ctx := ⟨.sql, ⟨id, id, fun _ => true, fun _ => [], fun _ => []⟩⟩

/-- `select(Count('id').as_('n')).from_('user').join('country').on('user.c', 'country.id')
.where(name=name).where('id', (1, None)).where('x', sub).group_by('a').limit(10)` with
`sub = select('y').from_('t') | select(1)`. -/
private def sample (name : Str) (i : Int) : Obj :=
  .select {
    columns := [⟨.func .count false (.str L!"id"), .str L!"n"⟩]
    tables := [⟨.str L!"user", .none,
      [⟨.inner, .str L!"country", .none, [.cond true (.str L!"user.c") .eq (.str L!"country.id")]⟩]⟩]
    where_ := [.cond false (.str L!"name") .eq (.str name),
      .cond false (.str L!"id") .in_ (.tuple [.int i, .none]),
      .cond false (.str L!"x") .eq
        (.union (.select { columns := [⟨.str L!"y", .none⟩], tables := [⟨.str L!"t", .none, []⟩] })
          (.select { columns := [⟨.int 1, .none⟩] }) true)]
    groupBy := [⟨.str L!"a", true⟩]
    limit := { limit := some 10 } }

/-- The statement of `sample`. -/
private def sampleText : Str :=
  L!"SELECT COUNT(\"id\") AS \"n\" FROM \"user\" JOIN \"country\" ON \"user\".\"c\" = \"country\".\"id\" WHERE \"name\" = 'O''Brien; --' AND (\"id\" IN (1) OR \"id\" IS NULL) AND \"x\" = (SELECT \"y\" FROM \"t\" UNION ALL SELECT 1) GROUP BY \"a\" DESC LIMIT 10"

private theorem sample_noRaw : NoRaw cx0.backend.quote .stmt (sample L!"O'Brien; --" 1) :=
  ⟨5, by decide +kernel⟩

private theorem sample_str : (sem cx0 4).str (sample L!"O'Brien; --" 1) = .ok sampleText := by
  decide +kernel

private theorem sample_fits : Fits cx0 standardDialect := rfl

/-- Everything that is known about the text of an object without raw SQL. -/
theorem read_noRaw {cx : Ctx} {d : Dialect} (hf : Fits cx d) {k : Kind} {o : Obj} {n : Nat} {t : Str}
    (h : NoRaw cx.backend.quote k o) (e : (sem cx n).str o = .ok t) :
    ∃ N, Safe cx.backend.quote N k o ∧ ∀ m ≥ N, lex d t = toks cx d m o := by
  obtain ⟨m, hm⟩ := h
  refine ⟨max m n, safe_le (Nat.le_max_left m n) hm, fun N hN => ?_⟩
  have hs : Safe cx.backend.quote N k o := safe_le (Nat.le_trans (Nat.le_max_left m n) hN) hm
  have ht := ((sem_le cx (Nat.le_trans (Nat.le_max_right m n) hN)).str o).ok e
  exact (rt_main hf N hs ht).reads.lex

theorem read_grammar {cx : Ctx} {d : Dialect} (hf : Fits cx d) {k : Kind} {o : Obj} {n : Nat} {t : Str}
    (h : NoRaw cx.backend.quote k o) (e : (sem cx n).str o = .ok t) : G k.cat (lex d t) := by
  obtain ⟨N, hs, hl⟩ := read_noRaw hf h e
  rw [hl N (Nat.le_refl _)]
  exact g_main cx d N hs

theorem read_built {cx : Ctx} {d : Dialect} (hf : Fits cx d) {k : Kind} {o : Obj} {n : Nat} {t : Str}
    (h : NoRaw cx.backend.quote k o) (e : (sem cx n).str o = .ok t) : ∃ b, Built b (lex d t) :=
  ⟨_, g_built (read_grammar hf h e) (by cases k <;> trivial)⟩

/-! ### C41 -/

/-- C41. A statement without raw SQL is read by the server as a sentence of the SQL grammar. -/
theorem C41_grammar {cx : Ctx} {d : Dialect} (hf : Fits cx d) {o : Obj} {n : Nat} {t : Str}
    (h : NoRaw cx.backend.quote .stmt o) (e : (sem cx n).str o = .ok t) : G .stmt (lex d t) :=
  read_grammar hf h e

/-- C41. The same for expressions, conditions and queries on their own. -/
theorem C41_grammar_parts {cx : Ctx} {d : Dialect} (hf : Fits cx d) {o : Obj} {n : Nat} {t : Str}
    (e : (sem cx n).str o = .ok t) :
    (NoRaw cx.backend.quote .expr o → G .expr (lex d t)) ∧
    (NoRaw cx.backend.quote .cond o → G .conj (lex d t)) ∧
    (NoRaw cx.backend.quote .query o → G .query (lex d t)) :=
  ⟨fun h => read_grammar hf h e, fun h => read_grammar hf h e, fun h => read_grammar hf h e⟩

/-- C41. Every token is a literal, a quoted identifier, a number, or a word or symbol of a fixed
list. -/
theorem C41_vocabulary {cx : Ctx} {d : Dialect} (hf : Fits cx d) {k : Kind} {o : Obj} {n : Nat}
    {t : Str} (h : NoRaw cx.backend.quote k o) (e : (sem cx n).str o = .ok t) :
    ∀ x ∈ lex d t, Expected x :=
  let ⟨_, hb⟩ := read_built hf h e
  built_expected hb

/-- C41. No quote or comment is left open, and there is no comment and no semicolon. -/
theorem C41_complete {cx : Ctx} {d : Dialect} (hf : Fits cx d) {k : Kind} {o : Obj} {n : Nat}
    {t : Str} (h : NoRaw cx.backend.quote k o) (e : (sem cx n).str o = .ok t) :
    Tok.bad ∉ lex d t ∧ Tok.comment ∉ lex d t ∧ Tok.sym ';' ∉ lex d t := by
  have hv := C41_vocabulary hf h e
  exact ⟨fun hm => hv _ hm, fun hm => hv _ hm, fun hm => absurd (hv _ hm) (by decide)⟩

/-- C41. The tokens, apart from the contents of literals, do not depend on the values. -/
theorem C41_values {cx : Ctx} {d : Dialect} (hf : Fits cx d) {k k' : Kind} {o o' : Obj} {n n' : Nat}
    {t t' : Str} (h : NoRaw cx.backend.quote k o) (h' : NoRaw cx.backend.quote k' o')
    (hl : Alike o o') (e : (sem cx n).str o = .ok t) (e' : (sem cx n').str o' = .ok t') :
    (lex d t).map Tok.blank = (lex d t').map Tok.blank := by
  obtain ⟨N, _, r⟩ := read_noRaw hf h e
  obtain ⟨N', _, r'⟩ := read_noRaw hf h' e'
  obtain ⟨m, hm⟩ := hl
  rw [r (max N N') (Nat.le_max_left _ _), r' (max N N') (Nat.le_max_right _ _)]
  exact be_main cx d _ hm

example : G .stmt (lex standardDialect sampleText) :=
  C41_grammar sample_fits sample_noRaw sample_str

example : ∀ x ∈ lex standardDialect sampleText, Expected x :=
  C41_vocabulary sample_fits sample_noRaw sample_str

/-- The name and the number can be replaced. -/
example : Alike (sample L!"O'Brien; --" 1) (sample L!"x" 2) := by
  refine ⟨2, Or.inr ?_⟩
  refine ⟨rfl, List.forall₂_same.mpr fun _ _ => ⟨Or.inl rfl, rfl, Or.inl rfl⟩,
    List.forall₂_same.mpr fun _ _ => ⟨⟨Or.inl rfl, rfl, Or.inl rfl⟩, Or.inl rfl⟩,
    .cons ⟨rfl, rfl, Or.inl rfl, Or.inr ⟨rfl, rfl, Or.inl ⟨false, rfl, rfl⟩⟩⟩
      (.cons ⟨rfl, rfl, Or.inl rfl, Or.inr ⟨rfl, rfl, ?_⟩⟩ (.cons ⟨rfl, rfl, Or.inl rfl, Or.inl rfl⟩ .nil)),
    List.forall₂_same.mpr fun _ _ => ⟨Or.inl rfl, rfl⟩, .nil, .nil, Iff.rfl, trivial, trivial, trivial,
    trivial, trivial, rfl⟩
  exact .cons ⟨rfl, Or.inr (Or.inl ⟨false, rfl, rfl⟩)⟩ (.cons ⟨rfl, Or.inl rfl⟩ .nil)

/-- Quotes and comments in the value stay inside the literal. -/
example : Tok.bad ∉ lex standardDialect sampleText ∧ Tok.comment ∉ lex standardDialect sampleText ∧
    Tok.sym ';' ∉ lex standardDialect sampleText :=
  C41_complete sample_fits sample_noRaw sample_str

/-- `NoRaw` excludes the target type of `CONVERT` because it is written as it is. -/
theorem C41_convert_raw (cx : Ctx) (n : Nat) (ty : Str) :
    ∃ a, (sem cx (n + 1)).str (.sqlRef (.str L!"a")) = .ok a ∧
      (sem cx (n + 1)).str (.convert (.str L!"a") (some ty)) =
        .ok (L!"CONVERT(" ++ a ++ L!", " ++ ty ++ [')']) := ⟨_, rfl, rfl⟩

/-- `NoRaw` excludes infinite numbers: they are written as words that are no literals of SQL. -/
theorem C41_infinite (cx : Ctx) (n : Nat) :
    (sem cx (n + 1)).str (.sqlValue (.float (.inf false))) = .ok L!"inf" := rfl

/-- `NoRaw` excludes an empty `Q()`: an operand is missing. -/
theorem C41_empty_q (cx : Ctx) (n : Nat) :
    (sem cx (n + 2)).str (.cofc (.conds []) (.conds []) .or) = .ok L!"( OR )" := rfl

/-! ### C42, on tokens -/

/-- C42. Parentheses match. -/
theorem C42_balanced {cx : Ctx} {d : Dialect} (hf : Fits cx d) {k : Kind} {o : Obj} {n : Nat}
    {t : Str} (h : NoRaw cx.backend.quote k o) (e : (sem cx n).str o = .ok t) : Balanced (lex d t) :=
  let ⟨_, hb⟩ := read_built hf h e
  built_balanced hb

/-- C42. Every `SELECT` opens the statement, opens a parenthesis or continues a union. -/
theorem C42_select_placed {cx : Ctx} {d : Dialect} (hf : Fits cx d) {k : Kind} {o : Obj} {n : Nat}
    {t : Str} (h : NoRaw cx.backend.quote k o) (e : (sem cx n).str o = .ok t) :
    SelectPlaced (lex d t) :=
  let ⟨_, hb⟩ := read_built hf h e
  built_selectPlaced hb

example : Balanced (lex standardDialect sampleText) :=
  C42_balanced sample_fits sample_noRaw sample_str

example : SelectPlaced (lex standardDialect sampleText) :=
  C42_select_placed sample_fits sample_noRaw sample_str

/-! ### C27: clauses -/

theorem phrases_safe (cx : Ctx) (d : Dialect) (n : Nat) :
    Phrases (toks cx d n) (Safe cx.backend.quote n) := fun _ _ h => g_main cx d n h

/-- C27. The clauses of a rendered `SELECT` come in the order of SQL, each at most once, and exactly
those for which something was given. -/
theorem C27_select {cx : Ctx} {d : Dialect} (hf : Fits cx d) {q : Select} {n : Nat} {t : Str}
    (h : NoRaw cx.backend.quote .stmt (.select q)) (e : (sem cx n).str (.select q) = .ok t) :
    clauses selectClauses (lex d t) =
      [L!"SELECT"] ++ clauseIf (!q.tables.isEmpty) L!"FROM" ++ clauseIf (!q.where_.isEmpty) L!"WHERE" ++
      clauseIf (!q.groupBy.isEmpty) L!"GROUP" ++ clauseIf (!q.having.isEmpty) L!"HAVING" ++
      clauseIf (!q.orderBy.isEmpty) L!"ORDER" ++ clauseIf q.limit.limit.isSome L!"LIMIT" ++
      clauseIf q.limit.offset.isSome L!"OFFSET" ++ clauseIf q.outfile.file.isSome L!"INTO" ++
      clauseIf q.forUpdate L!"FOR" := by
  obtain ⟨N, hs, hl⟩ := read_noRaw hf h e
  cases N with
  | zero => exact hs.elim
  | succ N =>
    rw [hl (N + 1) (Nat.le_refl _)]
    have := clauses_select (S := sem cx N) (d := d) (phrases_safe cx d N) hs
    refine Eq.trans this ?_
    simp only [List.append_assoc, List.cons_append, List.nil_append]

/-- C27. The same for `UPDATE`: the keyword, `SET`, and `WHERE` if there is a condition. -/
theorem C27_update {cx : Ctx} {d : Dialect} (hf : Fits cx d) {q : Update} {n : Nat} {t : Str}
    (h : NoRaw cx.backend.quote .stmt (.update q)) (e : (sem cx n).str (.update q) = .ok t) :
    clauses updateClauses (lex d t) =
      [L!"UPDATE", L!"SET"] ++ clauseIf (!q.where_.isEmpty) L!"WHERE" := by
  obtain ⟨N, hs, hl⟩ := read_noRaw hf h e
  cases N with
  | zero => exact hs.elim
  | succ N =>
    rw [hl (N + 1) (Nat.le_refl _)]
    exact clauses_update (S := sem cx N) (d := d) (phrases_safe cx d N) hs

/-- C27. The same for `DELETE`. -/
theorem C27_delete {cx : Ctx} {d : Dialect} (hf : Fits cx d) {q : Delete} {n : Nat} {t : Str}
    (h : NoRaw cx.backend.quote .stmt (.delete q)) (e : (sem cx n).str (.delete q) = .ok t) :
    clauses deleteClauses (lex d t) =
      [L!"DELETE", L!"FROM"] ++ clauseIf (!q.where_.isEmpty) L!"WHERE" := by
  obtain ⟨N, hs, hl⟩ := read_noRaw hf h e
  cases N with
  | zero => exact hs.elim
  | succ N =>
    rw [hl (N + 1) (Nat.le_refl _)]
    exact clauses_delete (S := sem cx N) (d := d) (phrases_safe cx d N) hs

example : clauses selectClauses (lex standardDialect sampleText) =
    [L!"SELECT", L!"FROM", L!"WHERE", L!"GROUP", L!"LIMIT"] :=
  C27_select sample_fits sample_noRaw sample_str

/-! ### C27: calls on different clauses -/

/-- The clauses of a `SELECT`. -/
inductive SelectClause where
  | columns | tables | where_ | having | groupBy | orderBy | limit | outfile | options | lock
deriving DecidableEq, Repr

/-- The clause a method of `Select` is about; `none` for rendering. -/
def clauseOf : SelectOp → Option SelectClause
  | .columns _ => some .columns
  | .from_ _ | .fromTable .. | .join .. | .on _ => some .tables
  | .where_ _ => some .where_
  | .having _ => some .having
  | .groupBy _ => some .groupBy
  | .orderBy _ => some .orderBy
  | .limit .. | .offset _ => some .limit
  | .outfile .. => some .outfile
  | .option .. => some .options
  | .forUpdate _ => some .lock
  | .str => none

/-- C27. Two calls that concern different clauses can be exchanged: the query is the same, and each
call raises what it would raise without the other. -/
theorem C27_commute (cx : Ctx) (S : Sem) (q : Select) (a b : SelectOp) (ha : a ≠ .str) (hb : b ≠ .str)
    (h : clauseOf a ≠ clauseOf b) :
    (selectStep cx S (selectStep cx S q a).1 b).1 = (selectStep cx S (selectStep cx S q b).1 a).1 ∧
    (selectStep cx S (selectStep cx S q a).1 b).2 = (selectStep cx S q b).2 := by
  cases a <;> cases b <;> first
    | exact absurd rfl h
    | exact absurd rfl ha
    | exact absurd rfl hb
    | exact ⟨rfl, rfl⟩

theorem run_move {cx : Ctx} {S : Sem} (a : SelectOp) (ha : a ≠ .str) :
    ∀ (pre : List SelectOp) (q : Select) (post : List SelectOp),
      (∀ b ∈ pre, b ≠ .str ∧ clauseOf b ≠ clauseOf a) →
      runOps (selectStep cx S) q (pre ++ a :: post) = runOps (selectStep cx S) q (a :: (pre ++ post))
  | [], _, _, _ => rfl
  | b :: pre, q, post, h => by
    have hb := h b (by simp)
    have ih := run_move (cx := cx) (S := S) a ha pre (selectStep cx S q b).1 post
      fun c hc => h c (List.mem_cons_of_mem _ hc)
    show runOps (selectStep cx S) (selectStep cx S q b).1 (pre ++ a :: post) = _
    rw [ih]
    show runOps (selectStep cx S) (selectStep cx S (selectStep cx S q b).1 a).1 (pre ++ post) =
      runOps (selectStep cx S) (selectStep cx S (selectStep cx S q a).1 b).1 (pre ++ post)
    rw [(C27_commute cx S q a b ha hb.1 fun e => hb.2 e.symm).1]

/-- C27. The query depends only on the sequence of calls for each clause: any reordering that keeps
the calls of every clause in order gives the same query. -/
theorem C27_order (cx : Ctx) (S : Sem) (xs ys : List SelectOp) (q : Select)
    (hx : .str ∉ xs) (hy : .str ∉ ys)
    (h : ∀ c, (xs.filter fun a => clauseOf a == c) = ys.filter fun a => clauseOf a == c) :
    runOps (selectStep cx S) q xs = runOps (selectStep cx S) q ys := by
  induction xs generalizing ys q with
  | nil =>
    cases ys with
    | nil => rfl
    | cons y ys =>
      have := h (clauseOf y)
      simp at this
  | cons x xs ih =>
    have hm : (ys.filter fun a => clauseOf a == clauseOf x) =
        x :: xs.filter fun a => clauseOf a == clauseOf x := by
      rw [← h (clauseOf x)]; simp
    obtain ⟨pre, post, rfl, hpre, _, hpost⟩ := List.filter_eq_cons_iff.mp hm
    have hne : ∀ b ∈ pre, b ≠ .str ∧ clauseOf b ≠ clauseOf x := fun b hb =>
      ⟨fun e => hy (by rw [← e]; simp [hb]), fun e => hpre b hb (by simp [e])⟩
    rw [run_move x (fun e => hx (by simp [e])) pre q post hne]
    show runOps (selectStep cx S) (selectStep cx S q x).1 xs =
      runOps (selectStep cx S) (selectStep cx S q x).1 (pre ++ post)
    refine ih (pre ++ post) _ (fun e => hx (by simp [e])) (fun e => hy ?_) fun c => ?_
    · rcases List.mem_append.mp e with e | e <;> simp [e]
    · have hc := h c
      rw [List.filter_append, List.filter_cons] at hc
      rw [List.filter_append]
      by_cases e : clauseOf x = c
      · subst e
        have hp : (pre.filter fun a => clauseOf a == clauseOf x) = [] := by
          rw [List.filter_eq_nil_iff]; exact hpre
        rw [hp, List.nil_append]
        exact hpost.symm
      · have e' : (clauseOf x == c) = false := by simpa using e
        rw [List.filter_cons] at hc
        simpa only [e', Bool.false_eq_true, if_false] using hc

/-- `where(...)`, `limit(10)`, `columns('a')` and the same calls in another order. -/
example (cx : Ctx) (S : Sem) (w : Args) :
    runOps (selectStep cx S) {} [.where_ w, .limit (.int 10) .none, .columns { pos := [.str L!"a"] }] =
    runOps (selectStep cx S) {} [.columns { pos := [.str L!"a"] }, .where_ w, .limit (.int 10) .none] := by
  refine C27_order cx S _ _ {} (by simp) (by simp) fun c => ?_
  rcases c with _ | c
  · rfl
  · cases c <;> rfl

end SqlPuzzle
