import Verif.Proofs.State
import Verif.Spec.History
import Mathlib.Data.List.TakeWhile

/-!
Facts about `strip`, and the history lemma behind all last-call-wins properties.
-/

namespace SqlPuzzle

/-- `s.rstrip()`. -/
def rstrip (s : Str) : Str := (s.reverse.dropWhile isSpace).reverse

theorem strip_of_head {c : Char} {s : Str} (h : isSpace c = false) : strip (c :: s) = rstrip (c :: s) := by
  unfold strip rstrip
  rw [List.dropWhile_cons, if_neg (by simp [h])]

theorem rstrip_append {a b : Str} (h : ∃ c ∈ b, isSpace c = false) :
    rstrip (a ++ b) = a ++ rstrip b := by
  unfold rstrip
  rw [List.reverse_append, List.dropWhile_append]
  have : (b.reverse.dropWhile isSpace).isEmpty = false := by
    obtain ⟨c, hc, hs⟩ := h
    cases hd : b.reverse.dropWhile isSpace with
    | nil =>
      have := List.dropWhile_eq_nil_iff.mp hd c (List.mem_reverse.mpr hc)
      rw [hs] at this; cases this
    | cons x xs => rfl
  rw [this]
  simp

theorem rstrip_ne_nil {b : Str} (h : ∃ c ∈ b, isSpace c = false) : rstrip b ≠ [] := by
  unfold rstrip
  intro hd
  obtain ⟨c, hc, hs⟩ := h
  have h1 := List.reverse_eq_nil_iff.mp hd
  have := List.dropWhile_eq_nil_iff.mp h1 c (List.mem_reverse.mpr hc)
  rw [hs] at this; cases this

theorem rstrip_of_last {s : Str} {c : Char} (h : isSpace c = false) : rstrip (s ++ [c]) = s ++ [c] := by
  unfold rstrip
  simp [h]

/-- Nothing to strip at the ends. -/
theorem strip_eq_self {s : Str} (h1 : ∀ c, s.head? = some c → isSpace c = false)
    (h2 : ∀ c, s.getLast? = some c → isSpace c = false) : strip s = s := by
  cases s with
  | nil => rfl
  | cons c s =>
    rw [strip_of_head (h1 c rfl)]
    rcases List.eq_nil_or_concat' (c :: s) with h | ⟨ys, y, h⟩
    · cases h
    · rw [h] at h2 ⊢
      exact rstrip_of_last (h2 y (by simp))

/-- If every call sets an aspect of the state or leaves it alone, the latest setting is in force. -/
theorem runOps_latest {σ ω α : Type} {step : σ → ω → Upd σ} {f : σ → α} {tells : ω → Option α}
    (h : ∀ s o, f (step s o).1 = (tells o).getD (f s)) (s : σ) (ops : List ω) :
    f (runOps step s ops) = (Spec.latest tells ops).getD (f s) := by
  induction ops generalizing s with
  | nil => rfl
  | cons o ops ih =>
    rw [runOps_cons, ih, h]
    unfold Spec.latest
    rw [List.reverse_cons, List.findSome?_append]
    cases List.findSome? tells ops.reverse with
    | some a => rfl
    | none => cases h2 : tells o <;> simp [h2]

end SqlPuzzle
