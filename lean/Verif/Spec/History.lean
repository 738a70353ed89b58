/-!
What a history of calls leaves in force: the most recent call that tells something decides.
-/

namespace SqlPuzzle.Spec

/-- The most recent call (the history is in call order) for which `tells` has an answer. -/
def latest {ω α : Type} (tells : ω → Option α) (ops : List ω) : Option α := ops.reverse.findSome? tells

/-- `latest` is the answer of the last call that has one. -/
theorem latest_eq_some {ω α : Type} {tells : ω → Option α} {ops : List ω} {a : α} :
    latest tells ops = some a ↔
      ∃ before op after, ops = before ++ op :: after ∧ tells op = some a ∧
        ∀ o ∈ after, tells o = none := by
  unfold latest
  rw [List.findSome?_eq_some_iff]
  constructor
  · rintro ⟨l1, op, l2, h, hs, hn⟩
    refine ⟨l2.reverse, op, l1.reverse, ?_, hs, fun o ho => hn o (List.mem_reverse.mp ho)⟩
    have := congrArg List.reverse h
    simpa using this
  · rintro ⟨b, op, c, rfl, hs, hn⟩
    exact ⟨c.reverse, op, b.reverse, by simp, hs, fun o ho => hn o (List.mem_reverse.mp ho)⟩

/-- `latest` is empty iff no call has an answer. -/
theorem latest_eq_none {ω α : Type} {tells : ω → Option α} {ops : List ω} :
    latest tells ops = none ↔ ∀ o ∈ ops, tells o = none := by
  unfold latest
  rw [List.findSome?_eq_none_iff]
  simp

end SqlPuzzle.Spec
