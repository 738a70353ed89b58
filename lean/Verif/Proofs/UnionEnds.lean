import Verif.Proofs.UnionFacts
import Verif.Proofs.Answers
import Verif.Spec.UnionEnds

/-!
The clauses behind the last select of a union.
-/

namespace SqlPuzzle

open Spec

section
variable {cx : Ctx} {S : Sem} {d : Dialect} {T : Obj → List Tok} {P : Kind → Obj → Prop}

/-- The tokens of `ORDER BY`, `LIMIT`, … of a select. -/
def tailToks (cx : Ctx) (d : Dialect) (T : Obj → List Tok) (q : Select) : List Tok :=
  ordersToks cx T [L!"ORDER", L!"BY"] q.orderBy ++ (intOptToks [L!"LIMIT"] q.limit.limit ++
    (intOptToks [L!"OFFSET"] q.limit.offset ++ (outfileToks cx d T q.outfile ++
    optToks q.forUpdate (words [L!"FOR", L!"UPDATE"]))))

theorem tail_split (q : Select) :
    selectToks cx S d T q = selectToks cx S d T (Select.withoutTail q) ++ tailToks cx d T q := by
  have e : selectToks cx S d T (Select.withoutTail q) = .word L!"SELECT" :: (words (sortBy strLe q.opts.words) ++
      (columnsToks cx T q.columns ++ (tablesToks cx S d T [L!"FROM"] q.tables ++
      (condsToks cx d T [L!"WHERE"] q.where_ ++ (ordersToks cx T [L!"GROUP", L!"BY"] q.groupBy ++
      (condsToks cx d T [L!"HAVING"] q.having ++ [])))))) := rfl
  rw [e]
  unfold selectToks tailToks
  simp only [List.cons_append, List.append_assoc, List.nil_append]

theorem withoutTail_noTail (q : Select) : Select.NoTail (Select.withoutTail q) := ⟨rfl, rfl, rfl, rfl, rfl⟩

theorem ending_starts (q : Select) : Starts tailWords (tailToks cx d T q) := by
  have hi : ∀ (w : Str) (i : Option Int), w ∈ tailWords → Starts tailWords (intOptToks [w] i) := by
    intro w i hm
    cases i with
    | none => exact .inl rfl
    | some i => exact .inr ⟨w, hm, rfl⟩
  have ho : Starts tailWords (outfileToks cx d T q.outfile) := by
    unfold outfileToks
    cases q.outfile.file with
    | none => exact .inl rfl
    | some v => exact .inr ⟨L!"INTO", by decide, rfl⟩
  exact (starts_opt (by decide)).append
    ((hi _ _ (by decide)).append ((hi _ _ (by decide)).append (ho.append (starts_opt (by decide)))))

theorem tail_nil (q : Select) (h : tailToks cx d T q = []) : Select.NoTail q := by
  unfold tailToks at h
  simp only [List.append_eq_nil_iff] at h
  obtain ⟨h1, h2, h3, h4, h5⟩ := h
  refine ⟨?_, ?_, ?_, ?_, ?_⟩
  · cases ho : q.orderBy with
    | nil => rfl
    | cons a b => rw [ho] at h1; cases h1
  · cases ho : q.limit.limit with
    | none => rfl
    | some a => rw [ho] at h2; cases h2
  · cases ho : q.limit.offset with
    | none => rfl
    | some a => rw [ho] at h3; cases h3
  · cases ho : q.outfile.file with
    | none => rfl
    | some a => unfold outfileToks at h4; rw [ho] at h4; cases h4
  · cases ho : q.forUpdate with
    | false => rfl
    | true => rw [ho] at h5; cases h5

theorem tail_quiet (ih : Phrases T P) {q : Select} (h : safeSelect cx.backend.quote P q) :
    Quiet [L!"UNION"] (tailToks cx d T q) := by
  obtain ⟨h1, h2, h3, h4, h5, h6, h7, h8, h9, h10⟩ := h
  have hw : ∀ w ∈ [L!"UNION"], w ∉ innerWords := by decide
  have hi : ∀ (w : Str) (i : Option Int), w ≠ L!"UNION" → Quiet [L!"UNION"] (intOptToks [w] i) := by
    intro w i hm
    cases i with
    | none => exact quiet_nil
    | some i => exact .word (by simpa using hm) (quiet_int i)
  have p : ∀ (kw : List Str) {v : Option Obj}, safeOpt cx.backend.quote P v →
      PlainWords (words kw) → (∀ w ∈ [L!"UNION"], .word w ∉ words kw) →
      Quiet [L!"UNION"] (phraseToks cx d T kw v) := fun kw v hv hk hk' =>
    g_quiet hw (g_phrase ih kw hv) ⟨hk, trivial, rfl⟩ ⟨hk', trivial⟩
  have ho : Quiet [L!"UNION"] (outfileToks cx d T q.outfile) := by
    unfold outfileToks
    cases q.outfile.file.isSome with
    | false => exact quiet_nil
    | true =>
      exact (p _ h7 (plainWords_words (by decide)) (by decide)).append
        ((p _ h8 (plainWords_words (by decide)) (by decide)).append
          ((p _ h9 (plainWords_words (by decide)) (by decide)).append
          (p _ h10 (plainWords_words (by decide)) (by decide))))
  have hl : Quiet [L!"UNION"] (optToks q.forUpdate (words [L!"FOR", L!"UPDATE"])) := by
    cases q.forUpdate with
    | false => exact quiet_nil
    | true => exact .word (by decide) (.word (by decide) quiet_nil)
  exact (quiet_opt hw (g_orders ih [L!"ORDER", L!"BY"] h6) (by simp [words]) (by fine) trivial (by decide)).append
    ((hi _ _ (by decide)).append ((hi _ _ (by decide)).append (ho.append hl)))

theorem withoutTail_safe {q : Select} (h : safeSelect cx.backend.quote P q) :
    safeSelect cx.backend.quote P (Select.withoutTail q) := by
  obtain ⟨h1, h2, h3, h4, h5, h6, h7, h8, h9, h10⟩ := h
  exact ⟨h1, h2, h3, h4, h5, by simp [Select.withoutTail], trivial, trivial, trivial, trivial⟩

theorem withoutTail_text {q : Select} {t : Str} (e : selectText cx S q = .ok t) :
    ∃ t', selectText cx S (Select.withoutTail q) = .ok t' := by
  unfold selectText at e
  simp only [bind_ok] at e
  obtain ⟨a, e1, b, e2, c, e3, f, e4, g, e5, o, e6, u, e7, i, e8, j, e9, k, e10, _⟩ := e
  refine ⟨strip (L!"SELECT" ++ i ++ a ++ j ++ k ++ b ++ c ++ [] ++ [] ++ [] ++ []), ?_⟩
  unfold selectText
  simp only [bind_ok]
  exact ⟨a, e1, b, e2, c, e3, [], rfl, [], rfl, [], rfl, [], rfl, i, e8, j, e9, k, e10, rfl⟩

end

section
variable {cx : Ctx} {d : Dialect}

theorem endOf_append {A B : List Tok} (hA : Quiet tailWords A) (hB : Starts tailWords B) (r : List Tok)
    (hr : B = [] → r = []) : endOf (A ++ (B ++ r)) = B ++ r := by
  have f := hA.facts (w := L!"ORDER") (by decide)
  have hs : Starts tailWords (B ++ r) := by
    rcases hB with rfl | h
    · rw [hr rfl]; exact .inl rfl
    · obtain ⟨w, hw, h⟩ := h
      cases B with
      | nil => cases h
      | cons b B => exact .inr ⟨w, hw, h⟩
  unfold endOf
  rw [beforeAt_split A _ 0 f.1, f.2, hs.before, List.append_nil]
  simp

theorem union_quiet {tr : UnionTree} {n : Nat} (h : Safe cx.backend.quote n .query tr.obj) (ht : tr.NoTail) :
    Quiet tailWords (toks cx d n tr.obj) := by
  obtain ⟨p1, p2⟩ := parts_union (d := d) tr n h ht
  rw [toks_union cx d tr n h]
  exact p1.2.1.append (rest_quiet p2)

/-- Only the last select has such clauses: they stand at the end. -/
theorem ends_last (hf : Fits cx d) : ∀ (tr : UnionTree) (n : Nat) (t : Str), Safe cx.backend.quote n .query tr.obj →
    (sem cx n).str tr.obj = .ok t → tr.OnlyLastTail →
    ∃ (m : Nat) (u : Str) (tail : List Tok), (sem cx m).str (.select tr.last) = .ok u ∧
      Safe cx.backend.quote n .query tr.withoutTail.obj ∧ tr.withoutTail.NoTail ∧
      (∃ t', (sem cx n).str tr.withoutTail.obj = .ok t') ∧
      toks cx d n tr.obj = toks cx d n tr.withoutTail.obj ++ tail ∧ tail = endOf (lex d u) ∧
      Starts tailWords tail ∧ Quiet [L!"UNION"] tail ∧ (tail = [] → tr.NoTail)
  | .sel q, 0, t, h, _, _ => h.elim
  | .sel q, n + 1, t, h, e, _ => by
    have h' : safeSelect cx.backend.quote (Safe cx.backend.quote n) q := h
    have hw : Safe cx.backend.quote (n + 1) .query (.select (Select.withoutTail q)) := withoutTail_safe h'
    have hp := part_select (d := d) hw (withoutTail_noTail q)
    refine ⟨n + 1, t, tailToks cx d (toks cx d n) q, e, hw, withoutTail_noTail q, withoutTail_text e,
      tail_split q, ?_, ending_starts q, tail_quiet (phrases_sem cx d n) h', tail_nil q⟩
    have e2 : lex d t = toks cx d (n + 1) (.select (Select.withoutTail q)) ++ (tailToks cx d (toks cx d n) q ++ []) := by
      rw [(rt_main hf (n + 1) (h : Safe cx.backend.quote (n + 1) .query (.select q)) e).reads.lex, List.append_nil]
      exact tail_split q
    rw [e2, endOf_append hp.2.1 (ending_starts q) [] fun _ => rfl, List.append_nil]
  | .all l r, 0, t, h, _, _ => h.elim
  | .all l r, n + 1, t, h, e, ⟨o1, o2⟩ => by
    simp only [UnionTree.obj, sem, renderF, bind_ok] at e
    obtain ⟨x, e1, y, e2, _⟩ := e
    obtain ⟨m, u, tail, a1, a2, a3, ⟨t', a4⟩, a5, a6, a7, a8, a9⟩ := ends_last hf r n y (safe_union h).2 e2 o2
    refine ⟨m, u, tail, a1, ⟨(safe_union h).1, a2⟩, ⟨o1, a3⟩, ?_, ?_, a6, a7, a8, fun k => ⟨o1, a9 k⟩⟩
    · simp only [UnionTree.withoutTail, UnionTree.obj, sem, renderF, bind_ok]
      exact ⟨_, x, e1, t', a4, rfl⟩
    · show toks cx d n l.obj ++ (words [L!"UNION", L!"ALL"] ++ toks cx d n r.obj) =
        (toks cx d n l.obj ++ (words [L!"UNION", L!"ALL"] ++ toks cx d n r.withoutTail.obj)) ++ tail
      rw [a5]
      simp
  | .distinct l r, 0, t, h, _, _ => h.elim
  | .distinct l r, n + 1, t, h, e, ⟨o1, o2⟩ => by
    simp only [UnionTree.obj, sem, renderF, bind_ok] at e
    obtain ⟨x, e1, y, e2, _⟩ := e
    obtain ⟨m, u, tail, a1, a2, a3, ⟨t', a4⟩, a5, a6, a7, a8, a9⟩ := ends_last hf r n y (safe_union h).2 e2 o2
    refine ⟨m, u, tail, a1, ⟨(safe_union h).1, a2⟩, ⟨o1, a3⟩, ?_, ?_, a6, a7, a8, fun k => ⟨o1, a9 k⟩⟩
    · simp only [UnionTree.withoutTail, UnionTree.obj, sem, renderF, bind_ok]
      exact ⟨_, x, e1, t', a4, rfl⟩
    · show toks cx d n l.obj ++ (words [L!"UNION"] ++ toks cx d n r.obj) =
        (toks cx d n l.obj ++ (words [L!"UNION"] ++ toks cx d n r.withoutTail.obj)) ++ tail
      rw [a5]
      simp

/-- `UNION` follows such a clause. -/
def UnionInside (ts : List Tok) : Prop :=
  ∃ A B C, ts = A ++ (B ++ (.word L!"UNION" :: C)) ∧ Quiet tailWords A ∧ B ≠ [] ∧ Starts tailWords B ∧
    Quiet [L!"UNION"] B

private theorem inside_connect (hf : Fits cx d) {l r : UnionTree} {n : Nat} {x : Str} {w : List Str}
    (hl : Safe cx.backend.quote n .query l.obj) (e : (sem cx n).str l.obj = .ok x)
    (hw : Quiet tailWords (words (L!"UNION" :: w)))
    (ihl : ¬ l.OnlyLastTail → UnionInside (toks cx d n l.obj))
    (ihr : ¬ r.OnlyLastTail → UnionInside (toks cx d n r.obj)) (h : ¬ (l.NoTail ∧ r.OnlyLastTail)) :
    UnionInside (toks cx d n l.obj ++ (words (L!"UNION" :: w) ++ toks cx d n r.obj)) := by
  by_cases h1 : l.NoTail
  · obtain ⟨A, B, C, k, k1, k2, k3, k4⟩ := ihr fun k => h ⟨h1, k⟩
    exact ⟨toks cx d n l.obj ++ (words (L!"UNION" :: w) ++ A), B, C, by rw [k]; simp,
      (union_quiet hl h1).append (hw.append k1), k2, k3, k4⟩
  · by_cases h2 : l.OnlyLastTail
    · obtain ⟨m, u, tail, a1, a2, a3, a4, a5, a6, a7, a8, a9⟩ := ends_last hf l n x hl e h2
      exact ⟨toks cx d n l.withoutTail.obj, tail, words w ++ toks cx d n r.obj, by rw [a5]; simp [words],
        union_quiet a2 a3, fun k => h1 (a9 k), a7, a8⟩
    · obtain ⟨A, B, C, k, k1, k2, k3, k4⟩ := ihl h2
      exact ⟨A, B, C ++ (words (L!"UNION" :: w) ++ toks cx d n r.obj), by rw [k]; simp, k1, k2, k3, k4⟩

theorem ends_inside (hf : Fits cx d) : ∀ (tr : UnionTree) (n : Nat) (t : Str), Safe cx.backend.quote n .query tr.obj →
    (sem cx n).str tr.obj = .ok t → ¬ tr.OnlyLastTail → UnionInside (toks cx d n tr.obj)
  | .sel q, n, t, _, _, k => absurd trivial k
  | .all l r, 0, t, h, _, _ => h.elim
  | .all l r, n + 1, t, h, e, k => by
    simp only [UnionTree.obj, sem, renderF, bind_ok] at e
    obtain ⟨x, e1, y, e2, _⟩ := e
    exact inside_connect hf (w := [L!"ALL"]) (safe_union h).1 e1 (quiet_words (by decide))
      (ends_inside hf l n x (safe_union h).1 e1) (ends_inside hf r n y (safe_union h).2 e2) k
  | .distinct l r, 0, t, h, _, _ => h.elim
  | .distinct l r, n + 1, t, h, e, k => by
    simp only [UnionTree.obj, sem, renderF, bind_ok] at e
    obtain ⟨x, e1, y, e2, _⟩ := e
    exact inside_connect hf (w := []) (safe_union h).1 e1 (quiet_words (by decide))
      (ends_inside hf l n x (safe_union h).1 e1) (ends_inside hf r n y (safe_union h).2 e2) k

theorem withoutTail_only (tr : UnionTree) : tr.withoutTail.onlyAll = tr.onlyAll := by
  induction tr with
  | sel q => rfl
  | all l r _ ih => simp only [UnionTree.withoutTail, UnionTree.onlyAll, ih]
  | distinct l r _ _ => rfl

theorem withoutTail_distinct (tr : UnionTree) : tr.withoutTail.endsDistinct = tr.endsDistinct := by
  induction tr with
  | sel q => rfl
  | all l r _ ih =>
    cases r with
    | sel q => rfl
    | all a b => exact ih
    | distinct a b => exact ih
  | distinct l r _ ih => exact ih

theorem withoutTail_regular {tr : UnionTree} (h : tr.Regular) : tr.withoutTail.Regular := by
  cases tr with
  | sel q => trivial
  | all l r => exact ⟨h.1, (withoutTail_only r).trans h.2⟩
  | distinct l r => exact (withoutTail_distinct r).trans h

end

end SqlPuzzle
