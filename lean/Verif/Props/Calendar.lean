import Verif.Proofs.Calendar
import Verif.Model.Render

/-!
C40: when two datetimes are equal.
-/

namespace SqlPuzzle

open Spec CalendarFacts

section
variable (cx : Ctx) (n : Nat)

/-- C40: datetimes with a time zone are equal iff they are the same instant. -/
theorem C40_datetimes {d : DateV} {a b : DateTimeV} {s t : TzV} {j k : Nat} (ha : a.tz = some s)
    (hb : b.tz = some t) (hj : DaysLater d j a.date) (hk : DaysLater d k b.date) :
    ∃ e, (sem cx (n + 1)).eq (.datetime a) (.datetime b) = .ok e ∧ (e = true ↔
      86400000000 * j + sinceMidnight a - aheadOfUtc s =
        86400000000 * k + sinceMidnight b - aheadOfUtc t) := by
  refine ⟨a.eq b, rfl, ?_⟩
  unfold DateTimeV.eq
  rw [ha, hb, ← instant_later hj hk]
  exact beq_iff_eq

/-- All dates of the calendar are so many days after the first. -/
theorem C40_all_dates {d : DateV} (h : RealDate d) : ∃ k, DaysLater ⟨1, 1, 1⟩ k d := every_date h

/-- C40: datetimes without a time zone are equal iff they are the same, and none of them equals one
with a time zone. -/
theorem C40_naive (a b : DateTimeV) (ha : a.tz = none) :
    ((sem cx (n + 1)).eq (.datetime a) (.datetime b) = .ok true ↔ a = b) ∧
    (b.tz ≠ none → (sem cx (n + 1)).eq (.datetime a) (.datetime b) = .ok false ∧
      (sem cx (n + 1)).eq (.datetime b) (.datetime a) = .ok false) := by
  have e : ∀ a b : DateTimeV, (sem cx (n + 1)).eq (.datetime a) (.datetime b) = .ok (a.eq b) :=
    fun _ _ => rfl
  rw [e, e]
  unfold DateTimeV.eq
  rw [ha]
  cases hb : b.tz with
  | none => simp
  | some t =>
    constructor
    · simp only [Except.ok.injEq, Bool.false_eq_true, false_iff]
      rintro rfl
      rw [ha] at hb
      cases hb
    · intro _; exact ⟨rfl, rfl⟩

end

/-- New Year's Eve 2020 is a date, and so is 29 February 2024. -/
example : RealDate ⟨2020, 12, 31⟩ ∧ RealDate ⟨2024, 2, 29⟩ ∧
    DaysLater ⟨2020, 12, 31⟩ 1 ⟨2021, 1, 1⟩ :=
  ⟨⟨by decide, 31, .long (by decide), by decide, by decide⟩,
   ⟨by decide, 29, .leap ⟨by decide, .inl (by decide)⟩, by decide, by decide⟩,
   .succ .zero (.nextYear (by decide))⟩

end SqlPuzzle
