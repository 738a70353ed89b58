import Verif.Proofs.Sources
import Verif.Spec.Written

/-!
The items of the lists of a statement, for all expressions.
-/

namespace SqlPuzzle

open Spec

theorem paren_last (ts : List Tok) : (paren ts).getLast? = some (.sym ')') := by
  have e : paren ts = (.sym '(' :: ts) ++ [.sym ')'] := by simp [paren]
  rw [e, List.getLast?_append]
  rfl

theorem whole_fn {w f : Str} {ts : List Tok} {b : Bool} (hf : w ≠ f) (h : Built b ts) :
    Whole (.word w) (.word f :: paren ts) :=
  .cons (by simp) (by simp) (by simpa using Ne.symm hf) (whole_paren h)

/-- The words that an expression may begin or end with. -/
def exprWords : List Str :=
  [L!"NULL", L!"true", L!"false", L!"CONCAT", L!"GROUP_CONCAT", L!"CONVERT", L!"EXISTS"] ++ aggregates

/-- A word that is in no expression, outside parentheses. -/
theorem expr_word {w : Str} (hw : w ∉ exprWords) {ts : List Tok} (h : G .expr ts) :
    Whole (.word w) ts ∧ ts ≠ [] ∧ ts.head? ≠ some (.word w) ∧ ts.getLast? ≠ some (.word w) := by
  simp only [exprWords, List.mem_append, List.mem_cons, List.not_mem_nil, or_false, not_or] at hw
  obtain ⟨⟨n1, n2, n3, n4, n5, n6, n7⟩, n8⟩ := hw
  have call : ∀ {f : Str} {us : List Tok} {b : Bool}, w ≠ f → Built b us →
      Whole (.word w) (.word f :: paren us) ∧ Tok.word f :: paren us ≠ [] ∧
      (Tok.word f :: paren us).head? ≠ some (.word w) ∧ (Tok.word f :: paren us).getLast? ≠ some (.word w) := by
    intro f us b hf hb
    refine ⟨whole_fn hf hb, by simp, by simpa using Ne.symm hf, ?_⟩
    have e : (Tok.word f :: paren us).getLast? = some (.sym ')') := by
      rw [List.getLast?_cons, paren_last]
      rfl
    rw [e]
    simp
  have group : ∀ {us : List Tok} {b : Bool}, Built b us →
      Whole (.word w) (paren us) ∧ paren us ≠ [] ∧
      (paren us).head? ≠ some (.word w) ∧ (paren us).getLast? ≠ some (.word w) := by
    intro us b hb
    refine ⟨whole_paren hb, by simp [paren], by simp [paren], ?_⟩
    rw [paren_last]
    simp
  have agg : ∀ {f : Str}, f ∈ aggregates → w ≠ f := fun hf e => n8 (e ▸ hf)
  cases h with
  | @name ps h =>
    refine ⟨whole_ref _, refToks_ne h, fun e => ?_, refToks_last _⟩
    cases hx : refToks ps with
    | nil => rw [hx] at e; cases e
    | cons t r =>
      rw [hx] at e
      simp only [List.head?_cons, Option.some.injEq] at e
      rw [e] at hx
      exact head_ref hx
  | lit h =>
    have one : ∀ {t : Tok}, t ≠ .sym '(' → t ≠ .sym ')' → t ≠ .word w →
        Whole (.word w) [t] ∧ [t] ≠ [] ∧ [t].head? ≠ some (.word w) ∧ [t].getLast? ≠ some (.word w) := by
      intro t h1 h2 h3
      exact ⟨.cons h1 h2 h3 (whole_nil _), by simp, by simpa using h3, by simpa using h3⟩
    cases h with
    | str => exact one (by simp) (by simp) (by simp)
    | num => exact one (by simp) (by simp) (by simp)
    | hex => exact one (by simp) (by simp) (by simp)
    | null => exact one (by simp) (by simp) (fun e => n1 (by injection e with e; exact e.symm))
    | true => exact one (by simp) (by simp) (fun e => n2 (by injection e with e; exact e.symm))
    | false => exact one (by simp) (by simp) (fun e => n3 (by injection e with e; exact e.symm))
  | neg =>
    exact ⟨.cons (by simp) (by simp) (by simp) (.cons (by simp) (by simp) (by simp) (whole_nil _)), by simp, by simp,
      by simp⟩
  | tuple h => exact group (g_built h (by fine))
  | subquery h => exact group (g_built h trivial)
  | aggregate hf h => exact call (agg hf) (g_built h (by fine))
  | aggregateDistinct hf h => exact call (agg hf) (Built.cons (b := false) (by decide) (g_built h (by fine)))
  | concat h => exact call n4 (g_built h trivial)
  | groupConcat h1 h2 h3 =>
    exact call n5 (.append (g_built h1 trivial) (.append (g_built h2 (by fine)) (g_built h3 (by fine))))
  | convert hw h =>
    exact call n6 (.append (g_built h (by fine)) (.cons (by decide) (built_one (plain_castType hw))))
  | exists_ h => exact call n7 (g_built h trivial)

section
variable {cx : Ctx} {S : Sem} {d : Dialect} {T : Obj → List Tok} {P : Kind → Obj → Prop} {V : Type}
  {src : Sources V}

theorem aliased_pieces (ih : Phrases T P) {n a : Obj} (h : safeAliased cx.backend.quote P n a) :
    pieces (.word L!"AS") (aliasedToks cx T n a) =
      if a.truthy then [refToksOf cx T n, refToksOf cx T a] else [refToksOf cx T n] := by
  have h1 := (expr_word (w := L!"AS") (by decide) (g_ref ih h.1)).1
  unfold aliasedToks
  cases hb : a.truthy with
  | false => simpa [optToks] using h1.one
  | true =>
    show pieces _ (_ ++ (.word L!"AS" :: refToksOf cx T a)) = _
    rw [h1.cut (by decide) (by decide), (expr_word (w := L!"AS") (by decide) (g_ref ih (h.2 hb))).1.one]
    rfl

theorem columns_items (ih : Phrases T P) {cs : List Column} (hne : cs ≠ [])
    (h : ∀ c ∈ cs, safeColumn cx.backend.quote P c) :
    pieces (.sym ',') (columnsToks cx T cs) = cs.map (columnToks cx T) := by
  unfold columnsToks
  have : cs.isEmpty = false := by simpa using hne
  rw [this]
  refine pieces_joinT (by simpa using hne) ?_ (by decide) (by decide)
  intro x hx
  obtain ⟨c, hc, rfl⟩ := List.mem_map.mp hx
  exact (aliased_facts ih (h c hc)).1 _ (by decide)

theorem columns_first (ih : Phrases T P) {cs : List Column} (h : ∀ c ∈ cs, safeColumn cx.backend.quote P c)
    {w : Str} (hw : w ∉ exprWords) : (columnsToks cx T cs).head? ≠ some (.word w) := by
  cases cs with
  | nil => simp [columnsToks]
  | cons c cs =>
    have hc := expr_word hw (g_ref ih (h c (by simp)).1)
    have h2 : ∃ r, columnsToks cx T (c :: cs) = refToksOf cx T c.name ++ r := by
      cases cs with
      | nil => exact ⟨_, rfl⟩
      | cons c' cs => exact ⟨_, List.append_assoc _ _ _⟩
    obtain ⟨r, h2⟩ := h2
    rw [h2]
    cases hx : refToksOf cx T c.name with
    | nil => exact absurd hx hc.2.1
    | cons t ts =>
      have := hc.2.2.1
      rw [hx] at this
      exact this

theorem orders_items (ih : Phrases T P) {os : List Order} (hne : os ≠ [])
    (h : ∀ o ∈ os, safeRef cx.backend.quote P o.col) :
    pieces (.sym ',') (commas (os.map (orderToks cx T))) = os.map (orderToks cx T) := by
  refine pieces_joinT (by simpa using hne) ?_ (by decide) (by decide)
  intro x hx
  obtain ⟨⟨c, desc⟩, hc, rfl⟩ := List.mem_map.mp hx
  refine (expr_facts (by decide) (g_ref ih (h _ hc))).1.append ?_
  cases desc with
  | false => exact whole_nil _
  | true => exact .cons (by decide) (by decide) (by decide) (whole_nil _)

theorem readKey_item (ih : Phrases T P) {o : Order} (h : safeRef cx.backend.quote P o.col) :
    readKey (orderToks cx T o) = (refToksOf cx T o.col, o.desc) := by
  obtain ⟨c, desc⟩ := o
  have hw := expr_word (w := L!"DESC") (by decide) (g_ref ih h)
  unfold readKey
  cases desc with
  | false =>
    have e : orderToks cx T ⟨c, false⟩ = refToksOf cx T c := List.append_nil _
    rw [e, if_neg hw.2.2.2]
  | true =>
    have e : orderToks cx T ⟨c, true⟩ = refToksOf cx T c ++ [.word L!"DESC"] := rfl
    rw [e, List.getLast?_append, if_pos (by rfl), List.dropLast_concat]

end

end SqlPuzzle
