import Verif.Model.Number
import Verif.Spec.Calendar

/-!
Ordinals of dates count the days.
-/

namespace SqlPuzzle.CalendarFacts

open SqlPuzzle Spec

theorem leap_iff (y : Nat) : isLeap y = true ↔ LeapYear y := by
  unfold isLeap LeapYear
  simp only [Bool.and_eq_true, Bool.or_eq_true, beq_iff_eq, bne_iff_ne, ne_eq,
    Nat.dvd_iff_mod_eq_zero]

theorem month_days {y m n : Nat} (h : MonthHas y m n) (hm : m < 12) :
    daysBeforeMonth y (m + 1) = daysBeforeMonth y m + n := by
  have key : ∀ b : Bool, isLeap y = b → daysBeforeMonth y (m + 1) = daysBeforeMonth y m + n := by
    intro b hb
    unfold daysBeforeMonth
    rw [hb]
    cases h with
    | long h =>
      simp only [List.mem_cons, List.not_mem_nil, or_false] at h
      rcases h with rfl | rfl | rfl | rfl | rfl | rfl | rfl <;>
        first | omega | (cases b <;> decide)
    | short h =>
      simp only [List.mem_cons, List.not_mem_nil, or_false] at h
      rcases h with rfl | rfl | rfl | rfl <;> cases b <;> decide
    | february h =>
      cases b with
      | true => exact absurd ((leap_iff y).mp hb) h
      | false => decide
    | leap h =>
      rw [(leap_iff y).mpr h] at hb
      cases hb
      decide
  exact key _ rfl

theorem year_days {y : Nat} (h : 0 < y) :
    (y - 1) * 365 + (y - 1) / 4 - (y - 1) / 100 + (y - 1) / 400 + daysBeforeMonth y 12 + 31 + 1 =
      y * 365 + y / 4 - y / 100 + y / 400 + daysBeforeMonth (y + 1) 1 + 1 := by
  have e1 : daysBeforeMonth (y + 1) 1 = 0 := by
    unfold daysBeforeMonth
    simp
  have e2 : daysBeforeMonth y 12 = 334 + if isLeap y then 1 else 0 := by
    unfold daysBeforeMonth
    rw [show (List.take (12 - 1) [31, 28, 31, 30, 31, 30, 31, 31, 30, 31, 30, 31]).sum = 334 by decide]
    simp
  rw [e1, e2]
  cases hl : isLeap y with
  | true =>
    obtain ⟨h1, h2⟩ := (leap_iff y).mp hl
    simp only [if_true]
    omega
  | false =>
    have : ¬LeapYear y := fun h => by rw [(leap_iff y).mpr h] at hl; cases hl
    unfold LeapYear at this
    simp only [Bool.false_eq_true, if_false]
    omega

theorem next_ordinal {d d' : DateV} (h : NextDay d d') : d'.ordinal = d.ordinal + 1 := by
  cases h with
  | sameMonth => unfold DateV.ordinal; simp only; omega
  | nextMonth h hm =>
    have := month_days h hm
    unfold DateV.ordinal
    simp only
    omega
  | nextYear h =>
    have := year_days h
    unfold DateV.ordinal
    simp only [Nat.add_sub_cancel]
    omega

theorem later_ordinal {d d' : DateV} {k : Nat} (h : DaysLater d k d') :
    d'.ordinal = d.ordinal + k := by
  induction h with
  | zero => rfl
  | succ _ h ih => rw [next_ordinal h, ih]; omega

theorem instant_later {d : DateV} {a b : DateTimeV} {s t : TzV} {j k : Nat}
    (ha : DaysLater d j a.date) (hb : DaysLater d k b.date) :
    a.instant s = b.instant t ↔
      86400000000 * j + sinceMidnight a - aheadOfUtc s =
        86400000000 * k + sinceMidnight b - aheadOfUtc t := by
  have e1 := later_ordinal ha
  have e2 := later_ordinal hb
  have o : ∀ t : TzV, t.offset = aheadOfUtc t := by
    intro t
    unfold TzV.offset aheadOfUtc
    cases t.neg <;> simp <;> omega
  unfold DateTimeV.instant sinceMidnight
  rw [o, o, e1, e2]
  push_cast
  omega

/-! ### All dates -/

theorem later_trans {a b c : DateV} {j k : Nat} (h : DaysLater a j b) (h' : DaysLater b k c) :
    DaysLater a (j + k) c := by
  induction h' with
  | zero => exact h
  | succ _ h2 ih => exact .succ ih h2

theorem in_month {y m n : Nat} (h : MonthHas y m n) : ∀ d, d < n →
    DaysLater ⟨y, m, 1⟩ d ⟨y, m, d + 1⟩ := by
  intro d
  induction d with
  | zero => intro _; exact .zero
  | succ d ih => intro hd; exact .succ (ih (by omega)) (.sameMonth h hd)

theorem month_pos {y m n : Nat} (h : MonthHas y m n) : 0 < n := by cases h <;> decide

theorem month_some (y : Nat) {m : Nat} (h1 : 1 ≤ m) (h2 : m ≤ 12) : ∃ n, MonthHas y m n := by
  have : m = 1 ∨ m = 2 ∨ m = 3 ∨ m = 4 ∨ m = 5 ∨ m = 6 ∨ m = 7 ∨ m = 8 ∨ m = 9 ∨ m = 10 ∨ m = 11 ∨
    m = 12 := by omega
  rcases this with rfl | rfl | rfl | rfl | rfl | rfl | rfl | rfl | rfl | rfl | rfl | rfl
  case inr.inl =>
    by_cases hl : LeapYear y
    · exact ⟨29, .leap hl⟩
    · exact ⟨28, .february hl⟩
  all_goals first
    | exact ⟨31, .long (by decide)⟩
    | exact ⟨30, .short (by decide)⟩

theorem first_of_month (y : Nat) : ∀ m, m < 12 → ∃ k, DaysLater ⟨y, 1, 1⟩ k ⟨y, m + 1, 1⟩ := by
  intro m
  induction m with
  | zero => intro _; exact ⟨0, .zero⟩
  | succ m ih =>
    intro hm
    obtain ⟨k, h⟩ := ih (by omega)
    obtain ⟨n, hn⟩ := month_some y (m := m + 1) (by omega) (by omega)
    have hp := month_pos hn
    have h2 := in_month hn (n - 1) (by omega)
    rw [Nat.sub_add_cancel hp] at h2
    exact ⟨_, .succ (later_trans h h2) (.nextMonth hn hm)⟩

theorem first_of_year : ∀ y, ∃ k, DaysLater ⟨1, 1, 1⟩ k ⟨y + 1, 1, 1⟩ := by
  intro y
  induction y with
  | zero => exact ⟨0, .zero⟩
  | succ y ih =>
    obtain ⟨k, h⟩ := ih
    obtain ⟨j, h1⟩ := first_of_month (y + 1) 11 (by decide)
    have h2 := in_month (MonthHas.long (y := y + 1) (m := 12) (by decide)) 30 (by decide)
    exact ⟨_, .succ (later_trans h (later_trans h1 h2)) (.nextYear (by omega))⟩

theorem every_date {d : DateV} (h : RealDate d) : ∃ k, DaysLater ⟨1, 1, 1⟩ k d := by
  obtain ⟨y, m, d⟩ := d
  obtain ⟨hy, n, hn, h1, h2⟩ := h
  have hm : 1 ≤ m ∧ m ≤ 12 := by
    cases hn with
    | long h =>
      simp only [List.mem_cons, List.not_mem_nil, or_false] at h
      omega
    | short h =>
      simp only [List.mem_cons, List.not_mem_nil, or_false] at h
      omega
    | february | leap => decide
  have hy : 0 < y := hy
  have h1 : 1 ≤ d := h1
  have h2 : d ≤ n := h2
  obtain ⟨i, g1⟩ := first_of_year (y - 1)
  obtain ⟨j, g2⟩ := first_of_month y (m - 1) (by omega)
  have g3 := in_month hn (d - 1) (by omega)
  rw [Nat.sub_add_cancel hy] at g1
  rw [Nat.sub_add_cancel hm.1] at g2
  rw [Nat.sub_add_cancel h1] at g3
  exact ⟨_, later_trans g1 (later_trans g2 g3)⟩

end SqlPuzzle.CalendarFacts
