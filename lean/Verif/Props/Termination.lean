import Verif.Proofs.Depth

/-!
C47: rendering and comparison of finite objects terminate, and the recursion limit does not
influence the result unless it is reached.

`(sem cx n).str o` is `str(o)` with at most `n` nested calls, `(sem cx n).eq a b` is `a == b`.
-/

namespace SqlPuzzle

private def cx0 : Ctx := ⟨.sql, ⟨id, id, fun _ => true, fun _ => [], fun _ => []⟩⟩

/-- C47: for every object there is a depth, at most twice its size plus 3, from which on rendering
always gives the same text or the same exception, and that exception is not a recursion error. -/
theorem C47_str (cx : Ctx) (o : Obj) :
    ∃ N ≤ 2 * sizeOf o + 3, ∃ r : R Str, r ≠ .error .recursionError ∧
      ∀ n ≥ N, (sem cx n).str o = r :=
  ⟨2 * sizeOf o + 3, Nat.le_refl _, (sem cx (2 * sizeOf o + 3)).str o, str_done cx o (Nat.le_refl _),
    fun _ hn => (((sem_le cx hn).str o).eq_of_done (str_done cx o (Nat.le_refl _))).symm⟩

/-- C47: the same for comparing two objects. -/
theorem C47_eq (cx : Ctx) (a b : Obj) :
    ∃ N ≤ 2 * max (sizeOf a) (sizeOf b) + 3, ∃ r : R Bool, r ≠ .error .recursionError ∧
      ∀ n ≥ N, (sem cx n).eq a b = r :=
  ⟨2 * max (sizeOf a) (sizeOf b) + 3, Nat.le_refl _,
    (sem cx (2 * max (sizeOf a) (sizeOf b) + 3)).eq a b, eq_done cx a b (Nat.le_refl _),
    fun _ hn => (((sem_le cx hn).eq a b).eq_of_done (eq_done cx a b (Nat.le_refl _))).symm⟩

/-- C47: at any two depths, results other than a recursion error are equal. -/
theorem C47_agree (cx : Ctx) (o : Obj) (m n : Nat)
    (hm : (sem cx m).str o ≠ .error .recursionError) (hn : (sem cx n).str o ≠ .error .recursionError) :
    (sem cx m).str o = (sem cx n).str o := by
  rcases Nat.le_total m n with h | h
  · exact ((sem_le cx h).str o).eq_of_done hm
  · exact (((sem_le cx h).str o).eq_of_done hn).symm

/-- C47: the same for comparing two objects. -/
theorem C47_agree_eq (cx : Ctx) (a b : Obj) (m n : Nat)
    (hm : (sem cx m).eq a b ≠ .error .recursionError)
    (hn : (sem cx n).eq a b ≠ .error .recursionError) : (sem cx m).eq a b = (sem cx n).eq a b := by
  rcases Nat.le_total m n with h | h
  · exact ((sem_le cx h).eq a b).eq_of_done hm
  · exact (((sem_le cx h).eq a b).eq_of_done hn).symm

/-- C47: text obtained at some depth is obtained at every larger depth. -/
theorem C47_stable (cx : Ctx) (o : Obj) (t : Str) (m n : Nat) (h : m ≤ n)
    (e : (sem cx m).str o = .ok t) : (sem cx n).str o = .ok t :=
  ((sem_le cx h).str o).ok e

/-- `n` references around a name. -/
private def nested : Nat → Obj
  | 0 => .str L!"a"
  | n + 1 => .sqlRef (nested n)

/-- C47: no depth is enough for all objects, so the depth must depend on the object. -/
theorem C47_no_common_depth (cx : Ctx) (n : Nat) :
    ∃ o : Obj, o.isSql = true ∧ (sem cx n).str o = .error .recursionError := by
  suffices h : ∀ n, (sem cx n).str (nested (n + 1)) = .error .recursionError from
    ⟨nested (n + 1), rfl, h n⟩
  intro n
  induction n with
  | zero => rfl
  | succ n ih => exact ih

/-- A subquery in a condition needs depth 2, and has the same text from there on. -/
example : (sem cx0 1).str (.select { where_ := [.cond false (.str L!"a") .eq (.select {})] })
      = .error .recursionError ∧
    (sem cx0 2).str (.select { where_ := [.cond false (.str L!"a") .eq (.select {})] })
      = .ok L!"SELECT * WHERE \"a\" = (SELECT *)" := by decide +kernel

example : (sem cx0 3).str (.select { where_ := [.cond false (.str L!"a") .eq (.select {})] })
      = .ok L!"SELECT * WHERE \"a\" = (SELECT *)" :=
  C47_stable cx0 _ _ 2 3 (by decide) (by decide +kernel)

end SqlPuzzle
