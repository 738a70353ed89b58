import Verif.Proofs.Composed

/-!
What the assignments of an UPDATE are after any history of calls, whatever they are made of.
-/

namespace SqlPuzzle

open Spec

/-- An assignment of a column and a value. -/
abbrev valueOf (p : Obj × Obj) : Value := .value p.1 p.2

theorem appendUnique_values {cx : Ctx} {n : Nat} {given kept : List (Obj × Obj)} {p : Obj × Obj} {vs : List Value}
    (h : KeptBy (EqualColumns cx n) given kept)
    (e : appendUnique (valueEq cx (sem cx n)) (kept.map valueOf) (valueOf p) = (vs, none)) :
    ∃ kept', vs = kept'.map valueOf ∧ KeptBy (EqualColumns cx n) (given ++ [p]) kept' := by
  unfold appendUnique at e
  split at e
  · cases e
  · next e1 =>
    cases e
    obtain ⟨v, hv, e2⟩ := anyR_true_mem e1
    obtain ⟨k, hk, rfl⟩ := List.mem_map.mp hv
    exact ⟨kept, rfl, .old h hk (andR_true.mp e2)⟩
  · next e1 =>
    cases e
    refine ⟨kept ++ [p], by simp, .new h fun k hk e2 => ?_⟩
    have e3 := anyR_false.mp e1 _ (List.mem_map_of_mem (f := valueOf) hk)
    have e4 : valueEq cx (sem cx n) (valueOf k) (valueOf p) = .ok true := andR_true.mpr e2
    rw [e3] at e4
    cases e4

theorem valuesSet_kept {cx : Ctx} {n : Nat} {a : Args} {ps : List (Obj × Obj)} (ha : GivesPairs a ps)
    {given kept : List (Obj × Obj)} {vs : List Value} (h : KeptBy (EqualColumns cx n) given kept)
    (e : valuesSet cx (sem cx n) (kept.map valueOf) a = (vs, none)) :
    ∃ kept', vs = kept'.map valueOf ∧ KeptBy (EqualColumns cx n) (given ++ ps) kept' := by
  obtain ⟨h3, h4⟩ := givesPairs_parse ha (sem cx n)
  unfold valuesSet at e
  rw [h4, givesPairs_custom ha, h3] at e
  simp only [Bool.false_eq_true, if_false] at e
  obtain ⟨_, ⟨⟩, e0⟩ := withR_none e
  clear h3 h4 ha e
  have e := e0
  clear e0
  induction ps generalizing given kept with
  | nil =>
    cases e
    exact ⟨kept, rfl, by rwa [List.append_nil]⟩
  | cons p ps ih =>
    obtain ⟨vs1, e1, e2⟩ := forUpd_none e
    obtain ⟨v, e3, e4⟩ := withR_none e1
    have hv : v = valueOf p := by
      simp only [mkValue, bind_ok] at e3
      obtain ⟨_, _, _, _, e3⟩ := e3
      cases e3
      rfl
    subst hv
    obtain ⟨kept1, rfl, h1⟩ := appendUnique_values h e4
    obtain ⟨kept2, h2, h3⟩ := ih h1 e2
    exact ⟨kept2, h2, by rwa [List.append_assoc] at h3⟩

theorem values_history {cx : Ctx} {n : Nat} {ops : List UpdateOp} {sets : List (List (Obj × Obj))}
    (h : List.Forall₂ SetPairs ops sets) (hn : NoneRaise (updateStep cx (sem cx n)) {} ops) :
    ∃ kept, (runOps (updateStep cx (sem cx n)) {} ops).values = kept.map valueOf ∧
      KeptBy (EqualColumns cx n) sets.flatten kept := by
  refine history_grows (step := updateStep cx (sem cx n)) (Gives := SetPairs)
    (P := fun g q => ∃ kept, q.values = kept.map valueOf ∧ KeptBy (EqualColumns cx n) g kept)
    (fun q op ps g hg hok hk => ?_) h {} [] hn ⟨[], rfl, .nil⟩
  obtain ⟨kept, h1, h2⟩ := hk
  cases op with
  | set a =>
    refine valuesSet_kept (given := g) hg h2 (Prod.ext (y := (_, _)) ?_ ?_)
    · rw [← h1]; rfl
    · rw [← h1]; exact hok
  | str =>
    rw [show ps = [] from hg, List.append_nil]
    refine ⟨kept, ?_, h2⟩
    rw [← h1]
    show (updateStr cx (sem cx n) q).1.values = _
    unfold updateStr
    split <;> rfl
  | _ =>
    rw [show ps = [] from hg, List.append_nil]
    exact ⟨kept, h1, h2⟩

theorem KeptBy.ne_nil {α : Type} {same : α → α → Prop} {given kept : List α} (h : KeptBy same given kept)
    (hg : given ≠ []) : kept ≠ [] := by
  cases h with
  | nil => exact absurd rfl hg
  | old _ hk _ => exact List.ne_nil_of_mem hk
  | new _ _ => simp

end SqlPuzzle
