import Verif.Model.Types

/-!
The calendar and the instant an aware datetime denotes, day by day.
-/

namespace SqlPuzzle.Spec

/-- A year with a 29 February. -/
def LeapYear (y : Nat) : Prop := 4 ∣ y ∧ (¬100 ∣ y ∨ 400 ∣ y)

/-- `MonthHas y m n`: month `m` of year `y` has `n` days. -/
inductive MonthHas (y : Nat) : Nat → Nat → Prop
  | long {m} : m ∈ [1, 3, 5, 7, 8, 10, 12] → MonthHas y m 31
  | short {m} : m ∈ [4, 6, 9, 11] → MonthHas y m 30
  | february : ¬LeapYear y → MonthHas y 2 28
  | leap : LeapYear y → MonthHas y 2 29

/-- The day after a day. -/
inductive NextDay : DateV → DateV → Prop
  | sameMonth {y m d n} : MonthHas y m n → d < n → NextDay ⟨y, m, d⟩ ⟨y, m, d + 1⟩
  | nextMonth {y m n} : MonthHas y m n → m < 12 → NextDay ⟨y, m, n⟩ ⟨y, m + 1, 1⟩
  | nextYear {y} : 0 < y → NextDay ⟨y, 12, 31⟩ ⟨y + 1, 1, 1⟩

/-- So many days later. -/
inductive DaysLater : DateV → Nat → DateV → Prop
  | zero {d} : DaysLater d 0 d
  | succ {d k d' d''} : DaysLater d k d' → NextDay d' d'' → DaysLater d (k + 1) d''

/-- A date of the calendar. -/
def RealDate (d : DateV) : Prop :=
  0 < d.year ∧ ∃ n, MonthHas d.year d.month n ∧ 1 ≤ d.day ∧ d.day ≤ n

/-- Microseconds since midnight. -/
def sinceMidnight (d : DateTimeV) : Int :=
  3600000000 * d.hour + 60000000 * d.minute + 1000000 * d.second + d.micro

/-- Microseconds the clock of the time zone is ahead of UTC. -/
def aheadOfUtc (t : TzV) : Int :=
  (if t.neg then -1 else 1) *
    (3600000000 * t.hours + 60000000 * t.minutes + 1000000 * t.seconds + t.micros)

end SqlPuzzle.Spec
