import Verif.Props.Accumulate
import Verif.Props.Conditions

/-!
C56: what a WHERE clause built by several calls means.
-/

namespace SqlPuzzle

open Spec

private def cx0 : Ctx := ⟨.sql, ⟨id, id, fun _ => true, fun _ => [], fun _ => []⟩⟩

private theorem and_idem_all {v : Tri} {vs : List Tri} (h : v ∈ vs) : v.and (Tri.all vs) = Tri.all vs := by
  induction vs with
  | nil => cases h
  | cons w ws ih =>
    show v.and (w.and (Tri.all ws)) = w.and (Tri.all ws)
    rcases List.mem_cons.mp h with rfl | h
    · generalize Tri.all ws = r
      cases v <;> cases r <;> rfl
    · have e := ih h
      revert e
      generalize Tri.all ws = r
      cases v <;> cases w <;> cases r <;> first | (intro _; rfl) | (intro e; cases e)

private theorem all_snoc (vs : List Tri) (v : Tri) : Tri.all (vs ++ [v]) = v.and (Tri.all vs) := by
  induction vs with
  | nil => cases v <;> rfl
  | cons w ws ih =>
    show w.and (Tri.all (ws ++ [v])) = v.and (w.and (Tri.all ws))
    rw [ih]
    generalize Tri.all ws = r
    cases v <;> cases w <;> cases r <;> rfl

/-- The conjunction over a list is the conjunction over its items of first use. -/
private theorem all_firstUses {α : Type} (f : α → Tri) {given kept : List α}
    (h : FirstUses given kept) : Tri.all (kept.map f) = Tri.all (given.map f) := by
  induction h with
  | nil => rfl
  | old x _ hx ih =>
    rw [List.map_append, List.map_singleton, all_snoc, ← ih]
    exact (and_idem_all (List.mem_map_of_mem hx)).symm
  | new x _ hx ih =>
    rw [List.map_append, List.map_append, List.map_singleton, all_snoc, all_snoc, ih]

/-- The conjunction depends only on which values occur. -/
private theorem all_congr {vs ws : List Tri} (h : ∀ v, v ∈ vs ↔ v ∈ ws) : Tri.all vs = Tri.all ws := by
  have key : ∀ us : List Tri, Tri.all us = if .f ∈ us then .f else if .u ∈ us then .u else .t := by
    intro us
    induction us with
    | nil => rfl
    | cons v vs ih =>
      show v.and (Tri.all vs) = _
      rw [ih]
      by_cases h1 : Tri.f ∈ vs <;> by_cases h2 : Tri.u ∈ vs <;> cases v <;> simp [h1, h2, Tri.and]
  rw [key, key]
  simp only [h]

private theorem condOf_form (p : Obj × Obj) : ∃ k w, condOf p.1 p.2 = .cond false p.1 k w := by
  unfold condOf
  split <;> exact ⟨_, _, rfl⟩

/-- Conditions as trees of one condition each. -/
private def treeOf : Cond → CondTree
  | .cond _ c k v => .cond c k v
  | .item o => .other o

private theorem trees_of {leaf : Obj → Tri} {cs : List Cond}
    (h : ∀ c ∈ cs, ∃ col k w, c = .cond false col k w) :
    CondTree.parts (cs.map treeOf) = cs ∧
      CondTree.values leaf (cs.map treeOf) = cs.map fun c => leaf (.conds [c]) := by
  induction cs with
  | nil => exact ⟨by simp [CondTree.parts], by simp [CondTree.values]⟩
  | cons c cs ih =>
    obtain ⟨h1, h2⟩ := ih fun c hc => h c (List.mem_cons_of_mem _ hc)
    obtain ⟨col, k, w, rfl⟩ := h c (by simp)
    constructor
    · simp only [List.map_cons, treeOf, CondTree.parts, h1]
    · simp only [List.map_cons, treeOf, CondTree.values, CondTree.value, h2]

private theorem kept_form {uses : List (Obj × Obj)} {kept : List Cond}
    (h : FirstUses (uses.map fun p => condOf p.1 p.2) kept) :
    ∀ c ∈ kept, ∃ col k w, c = .cond false col k w := by
  intro c hc
  have := (h.mem_iff c).mp hc
  obtain ⟨p, _, rfl⟩ := List.mem_map.mp this
  obtain ⟨k, w, e⟩ := condOf_form p
  exact ⟨_, k, w, e⟩

/-- What the kept conditions are, as trees, and what they are worth. -/
private theorem kept_trees (leaf : Obj → Tri) {uses : List (Obj × Obj)} {kept : List Cond}
    (h : FirstUses (uses.map fun p => condOf p.1 p.2) kept) (hne : uses ≠ []) :
    kept = CondTree.parts (kept.map treeOf) ∧ kept.map treeOf ≠ [] ∧
      Tri.all (CondTree.values leaf (kept.map treeOf)) =
        Tri.all (uses.map fun p => leaf (.conds [condOf p.1 p.2])) := by
  obtain ⟨h1, h2⟩ := trees_of (leaf := leaf) (kept_form h)
  refine ⟨h1.symm, fun e => ?_, ?_⟩
  · obtain ⟨p, ps, rfl⟩ := List.exists_cons_of_ne_nil hne
    have := (h.mem_iff (condOf p.1 p.2)).mpr (by simp)
    rw [List.map_eq_nil_iff.mp e] at this
    cases this
  · rw [h2, all_firstUses _ h, List.map_map]
    rfl

/-- What a HAVING clause is worth when it has exactly the conditions given. -/
theorem having_kept {cx : Ctx} {d : Dialect} (hf : Fits cx d) {pred : List Tok → Tri} {leaf : Obj → Tri}
    (hl : LeafTruth cx d pred leaf) {m : Nat} {t : Str} {q : Select} {uses : List (Obj × Obj)}
    (hu : FirstUses (uses.map fun p => condOf p.1 p.2) q.having) (hne : uses ≠ [])
    (h : NoRaw cx.backend.quote .stmt (.select q)) (e : (sem cx m).str (.select q) = .ok t) :
    truth pred (clauseBody selectClauses L!"HAVING" (lex d t)) =
      Tri.all (uses.map fun p => leaf (.conds [condOf p.1 p.2])) := by
  obtain ⟨h1, h2, h3⟩ := kept_trees leaf hu hne
  rw [C36_having_select_partial hf hl h2 h1 h e, h3]

section
variable {cx : Ctx} {d : Dialect} (hf : Fits cx d) {pred : List Tok → Tri} {leaf : Obj → Tri}
  (hl : LeafTruth cx d pred leaf) {n m : Nat} {t : Str} {uses : List (List (Obj × Obj))}
  (hp : ∀ ps ∈ uses, ∀ p ∈ ps, ExactCond p) (hne : uses.flatten ≠ [])
include hf hl hp hne

/-- C56. However many calls of `where` built the statement, in whatever order and with whatever other
calls between them, its `WHERE` clause is true in a row exactly where all the conditions given are
true, each written on its own. -/
theorem C56_select_partial {ops : List SelectOp} (hg : List.Forall₂ WherePairs ops uses)
    (h : NoRaw cx.backend.quote .stmt (.select (runOps (selectStep cx (sem cx (n + 2))) {} ops)))
    (e : (sem cx m).str (.select (runOps (selectStep cx (sem cx (n + 2))) {} ops)) = .ok t) :
    truth pred (clauseBody selectClauses L!"WHERE" (lex d t)) =
      Tri.all (uses.flatten.map fun p => leaf (.conds [condOf p.1 p.2])) := by
  obtain ⟨h1, h2, h3⟩ := kept_trees leaf (C20_first_use_partial cx n ops uses hg hp) hne
  rw [C36_where_select_partial hf hl h2 h1 h e, h3]

/-- C56 for HAVING. -/
theorem C56_having_partial {ops : List SelectOp} (hg : List.Forall₂ HavingPairs ops uses)
    (h : NoRaw cx.backend.quote .stmt (.select (runOps (selectStep cx (sem cx (n + 2))) {} ops)))
    (e : (sem cx m).str (.select (runOps (selectStep cx (sem cx (n + 2))) {} ops)) = .ok t) :
    truth pred (clauseBody selectClauses L!"HAVING" (lex d t)) =
      Tri.all (uses.flatten.map fun p => leaf (.conds [condOf p.1 p.2])) := by
  obtain ⟨h1, h2, h3⟩ := kept_trees leaf (C20_having_partial cx n ops uses hg hp) hne
  rw [C36_having_select_partial hf hl h2 h1 h e, h3]

/-- C56 for UPDATE. -/
theorem C56_update_partial {ops : List UpdateOp} (hg : List.Forall₂ UpdatePairs ops uses)
    (h : NoRaw cx.backend.quote .stmt (.update (runOps (updateStep cx (sem cx (n + 2))) {} ops)))
    (e : (sem cx m).str (.update (runOps (updateStep cx (sem cx (n + 2))) {} ops)) = .ok t) :
    truth pred (clauseBody updateClauses L!"WHERE" (lex d t)) =
      Tri.all (uses.flatten.map fun p => leaf (.conds [condOf p.1 p.2])) := by
  obtain ⟨h1, h2, h3⟩ := kept_trees leaf (C20_update_partial cx n ops uses hg hp) hne
  rw [C36_where_update_partial hf hl h2 h1 h e, h3]

/-- C56 for DELETE. -/
theorem C56_delete_partial {ops : List DeleteOp} (hg : List.Forall₂ DeletePairs ops uses)
    (h : NoRaw cx.backend.quote .stmt (.delete (runOps (deleteStep cx (sem cx (n + 2))) {} ops)))
    (e : (sem cx m).str (.delete (runOps (deleteStep cx (sem cx (n + 2))) {} ops)) = .ok t) :
    truth pred (clauseBody deleteClauses L!"WHERE" (lex d t)) =
      Tri.all (uses.flatten.map fun p => leaf (.conds [condOf p.1 p.2])) := by
  obtain ⟨h1, h2, h3⟩ := kept_trees leaf (C20_delete_partial cx n ops uses hg hp) hne
  rw [C36_where_delete_partial hf hl h2 h1 h e, h3]

/-- C56. Two statements built from the same set of conditions, given in different orders, in different
calls and some of them repeatedly, choose the same rows. -/
theorem C56_order_partial {ops ops' : List SelectOp} {uses' : List (List (Obj × Obj))} {m' : Nat} {t' : Str}
    (hsame : ∀ p, p ∈ uses.flatten ↔ p ∈ uses'.flatten)
    (hg : List.Forall₂ WherePairs ops uses) (hg' : List.Forall₂ WherePairs ops' uses')
    (h : NoRaw cx.backend.quote .stmt (.select (runOps (selectStep cx (sem cx (n + 2))) {} ops)))
    (h' : NoRaw cx.backend.quote .stmt (.select (runOps (selectStep cx (sem cx (n + 2))) {} ops')))
    (e : (sem cx m).str (.select (runOps (selectStep cx (sem cx (n + 2))) {} ops)) = .ok t)
    (e' : (sem cx m').str (.select (runOps (selectStep cx (sem cx (n + 2))) {} ops')) = .ok t') :
    truth pred (clauseBody selectClauses L!"WHERE" (lex d t)) =
      truth pred (clauseBody selectClauses L!"WHERE" (lex d t')) := by
  have hp' : ∀ ps ∈ uses', ∀ p ∈ ps, ExactCond p := by
    intro ps hps p hpp
    obtain ⟨qs, hqs, hq⟩ := List.mem_flatten.mp ((hsame p).mpr (List.mem_flatten_of_mem hps hpp))
    exact hp qs hqs p hq
  have hne' : uses'.flatten ≠ [] := by
    obtain ⟨p, hp⟩ := List.exists_mem_of_ne_nil _ hne
    exact List.ne_nil_of_mem ((hsame p).mp hp)
  rw [C56_select_partial hf hl hp hne hg h e, C56_select_partial hf hl hp' hne' hg' h' e']
  refine all_congr fun v => ?_
  simp only [List.mem_map]
  exact exists_congr fun p => and_congr_left' (hsame p)

end

/-- A history that meets the hypotheses: `from_('t').where(a=1).where('b', 'x').where(a=1)`. -/
private def history : List SelectOp :=
  [.from_ { pos := [.str L!"t"] }, .where_ { kw := [(L!"a", .int 1)] },
   .where_ { pos := [.str L!"b", .str L!"x"] }, .where_ { kw := [(L!"a", .int 1)] }]

private def historyUses : List (List (Obj × Obj)) :=
  [[], [(.str L!"a", .int 1)], [(.str L!"b", .str L!"x")], [(.str L!"a", .int 1)]]

example : List.Forall₂ WherePairs history historyUses ∧
    (∀ ps ∈ historyUses, ∀ p ∈ ps, ExactCond p) ∧ historyUses.flatten ≠ [] ∧
    NoRaw '"' .stmt (.select (runOps (selectStep cx0 (sem cx0 (2 + 2))) {} history)) ∧
    (sem cx0 6).str (.select (runOps (selectStep cx0 (sem cx0 (2 + 2))) {} history)) =
      .ok L!"SELECT * FROM \"t\" WHERE \"a\" = 1 AND \"b\" = 'x'" := by
  have one : ∀ v : Obj, GivesPairs { kw := [(L!"a", v)] } [(.str L!"a", v)] := fun v =>
    .usual .nothing ⟨[(L!"a", v)], .refl _, by simp, rfl⟩ (by simp [KwFree])
  refine ⟨.cons rfl (.cons (one _) (.cons ?_ (.cons (one _) .nil))), ?_, by simp [historyUses],
    ⟨6, by decide +kernel⟩, by decide +kernel⟩
  · exact .usual (ps := [(.str L!"b", .str L!"x")]) (.direct _ (by rintro _ ⟨⟩)) ⟨[], .nil, .nil, rfl⟩
      (by simp [KwFree])
  · intro ps hps p hp
    simp only [historyUses, List.mem_cons, List.not_mem_nil, or_false] at hps
    rcases hps with rfl | rfl | rfl | rfl
    · cases hp
    all_goals
      simp only [List.mem_singleton] at hp
      subst hp
      exact ⟨⟨_, rfl⟩, trivial⟩

/-- C56 in full, for two calls of `where` on a SELECT. -/
def C56_claim : Prop :=
  ∀ (cx : Ctx) (d : Dialect) (pred : List Tok → Tri) (leaf : Obj → Tri) (n : Nat) (q0 q1 q2 : Select)
    (a1 a2 : Args) (ps1 ps2 : List (Obj × Obj)) (t : Str), Fits cx d → LeafTruth cx d pred leaf →
    q0.where_ = [] → GivesPairs a1 ps1 → GivesPairs a2 ps2 →
    selectStep cx (sem cx n) q0 (.where_ a1) = (q1, none) →
    selectStep cx (sem cx n) q1 (.where_ a2) = (q2, none) →
    (sem cx n).str (.select q2) = .ok t →
    truth pred (clauseBody selectClauses L!"WHERE" (lex d t)) =
      Tri.all ((ps1 ++ ps2).map fun p => leaf (.conds [condOf p.1 p.2]))

/-- C56 is false: `where(a=C('b')).where(a='b')` also chooses the rows in which `a` is the value of the
column `b` and not the text `b`, because a custom SQL text is equal to the string. -/
theorem C56_refuted : ¬C56_claim := by
  intro h
  have one : ∀ v : Obj, GivesPairs { kw := [(L!"a", v)] } [(.str L!"a", v)] := fun v =>
    .usual .nothing ⟨[(L!"a", v)], .refl _, by simp, rfl⟩ (by simp [KwFree])
  let pred : List Tok → Tri := fun ts => if ts.contains (.word L!"b") then .t else .f
  obtain ⟨leaf, hl⟩ := C36_leaf_exists cx0 standardDialect pred
  let q0 : Select := (selectStep cx0 (sem cx0 6) {} (.from_ { pos := [.str L!"t"] })).1
  have key := h cx0 standardDialect pred leaf 6 q0 (selectStep cx0 (sem cx0 6) q0 (.where_ { kw := [(L!"a", .custom L!"b")] })).1
    (selectStep cx0 (sem cx0 6) (selectStep cx0 (sem cx0 6) q0 (.where_ { kw := [(L!"a", .custom L!"b")] })).1
      (.where_ { kw := [(L!"a", .str L!"b")] })).1
    { kw := [(L!"a", .custom L!"b")] } { kw := [(L!"a", .str L!"b")] } _ _
    L!"SELECT * FROM \"t\" WHERE \"a\" = b" rfl hl rfl (one _) (one _) rfl rfl (by decide +kernel)
  have h2 : leaf (.conds [condOf (.str L!"a") (.str L!"b")]) = .f := by
    rw [hl _ 3 L!"\"a\" = 'b'" (by decide +kernel)]
    decide +kernel
  have h1 : leaf (.conds [condOf (.str L!"a") (.custom L!"b")]) = .t := by
    rw [hl _ 3 L!"\"a\" = b" (by decide +kernel)]
    decide +kernel
  simp only [List.singleton_append, List.map_cons, List.map_nil, h1, h2] at key
  exact absurd key (by decide +kernel)

end SqlPuzzle
