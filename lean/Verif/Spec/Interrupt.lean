import Verif.Spec.RenderThreads

/-!
Words for renderings that are interrupted.
-/

namespace SqlPuzzle.Spec

/-- Thread `i` stands between `self._joins = []` and the end of the loop that fills the list again. -/
def Refilling (w : List TableMem × List Worker) (i : Nat) : Prop :=
  ∃ shown, (∃ gs, w.2[i]? = some (.render shown (.fill gs))) ∨ ∃ xs gs, w.2[i]? = some (.render shown (.push xs gs))

/-- `t'` is `t` as it was, or as a complete rendering leaves it. -/
def Intact (cx : Ctx) (n : Nat) (t t' : Table) : Prop := t' = t ∨ t' = (strTable cx (sem cx n) t).1

/-- `t'` has only the first of the joins that a complete rendering leaves in `t`. -/
def CutOff (cx : Ctx) (n : Nat) (t t' : Table) : Prop :=
  t'.name = t.name ∧ t'.alias = t.alias ∧ t'.joins <+: (strTable cx (sem cx n) t).1.joins

/-- The threads make the given numbers of steps one after the other. -/
def inTurns (cx : Ctx) (n : Nat) (w : List TableMem × List Worker) (turns : List (Nat × Nat)) :
    List TableMem × List Worker :=
  turns.foldl (fun w p => runWorkers cx (sem cx n) w (List.replicate p.2 p.1)) w

/-- No turn ends while the list is being filled. -/
def NeverRefilling (cx : Ctx) (n : Nat) : List TableMem × List Worker → List (Nat × Nat) → Prop
  | _, [] => True
  | w, p :: turns => ¬ Refilling (inTurns cx n w [p]) p.1 ∧ NeverRefilling cx n (inTurns cx n w [p]) turns

end SqlPuzzle.Spec
