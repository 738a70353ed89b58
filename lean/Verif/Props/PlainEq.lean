import Verif.Model.Render
import Verif.Spec.PlainEq
import Verif.Props.Numbers

/-!
C40: when two plain values are equal.
-/

namespace SqlPuzzle

open Spec

private def Rep (a : Obj) (v : NumV) : Prop :=
  a.num = some v ∧ ((∃ neg m e, a = .float (.fin neg m e)) ∨ (∃ neg, a = .float (.inf neg)) ∨
    a = .float .nan ∨ (∃ neg m e, a = .decimal (.fin neg m e)) ∨ (∃ neg, a = .decimal (.inf neg)) ∨
    a = .decimal .nan ∨ (∃ b, a = .bool b) ∨ ∃ i, a = .int i)

private theorem eq_num (cx : Ctx) (n : Nat) {a b : Obj} {x y : NumV} (ha : Rep a x) (hb : Rep b y) :
    (sem cx (n + 1)).eq a b = .ok (x.eq y) := by
  obtain ⟨ha, hk⟩ := ha
  obtain ⟨hb, hl⟩ := hb
  have : (sem cx (n + 1)).eq a b = (match a.num, b.num with
      | some x, some y => .ok (x.eq y)
      | _, _ => .ok false) := by
    rcases hk with ⟨_, _, _, rfl⟩ | ⟨_, rfl⟩ | rfl | ⟨_, _, _, rfl⟩ | ⟨_, rfl⟩ | rfl | ⟨_, rfl⟩ |
        ⟨_, rfl⟩ <;>
      rcases hl with ⟨_, _, _, rfl⟩ | ⟨_, rfl⟩ | rfl | ⟨_, _, _, rfl⟩ | ⟨_, rfl⟩ | rfl | ⟨_, rfl⟩ |
        ⟨_, rfl⟩ <;> rfl
  rw [this, ha, hb]

private theorem exact_rep {a : Obj} {x : ℚ} (h : HasValue a x) :
    ∃ neg num den, Rep a (.rat neg num den) ∧ 0 < den ∧
      x = (if neg then -1 else 1) * ((num : ℚ) / den) := by
  cases h with
  | true_ => exact ⟨false, 1, 1, ⟨rfl, by simp⟩, by decide, by norm_num⟩
  | false_ => exact ⟨false, 0, 1, ⟨rfl, by simp⟩, by decide, by norm_num⟩
  | @int i =>
    cases i with
    | ofNat k => exact ⟨false, k, 1, ⟨rfl, by simp⟩, by decide, by simp⟩
    | negSucc k =>
      exact ⟨true, k + 1, 1, ⟨rfl, by simp⟩, by decide, by
        rw [Int.cast_negSucc]; push_cast; simp⟩
  | @float neg m e =>
    obtain ⟨h1, h2⟩ := ratio_spec 2 m (by decide) e
    exact ⟨neg, _, _, ⟨rfl, by simp⟩, h1, by rw [h2]; norm_num⟩
  | @decimal neg m e =>
    obtain ⟨h1, h2⟩ := ratio_spec 10 m (by decide) e
    exact ⟨neg, _, _, ⟨rfl, by simp⟩, h1, by rw [h2]; norm_num⟩

private theorem rat_eq {n1 n2 : Bool} {a1 b1 a2 b2 : Nat} (h1 : 0 < b1) (h2 : 0 < b2) :
    NumV.eq (.rat n1 a1 b1) (.rat n2 a2 b2) = true ↔
      (if n1 then -1 else 1 : ℚ) * ((a1 : ℚ) / b1) = (if n2 then -1 else 1) * ((a2 : ℚ) / b2) := by
  have p1 : (0 : ℚ) < b1 := by exact_mod_cast h1
  have p2 : (0 : ℚ) < b2 := by exact_mod_cast h2
  have q1 : (0 : ℚ) ≤ a1 := by exact_mod_cast Nat.zero_le a1
  have q2 : (0 : ℚ) ≤ a2 := by exact_mod_cast Nat.zero_le a2
  have pos : (a1 : ℚ) / b1 = a2 / b2 ↔ a1 * b2 = a2 * b1 := by
    rw [div_eq_div_iff p1.ne' p2.ne']
    exact_mod_cast Iff.rfl
  have opp : ∀ x y : ℚ, 0 ≤ x → 0 ≤ y → (x = -y ↔ x = 0 ∧ y = 0) := by
    intro x y hx hy
    constructor
    · intro h; constructor <;> linarith
    · rintro ⟨rfl, rfl⟩; simp
  have z1 : (a1 : ℚ) / b1 = 0 ↔ a1 = 0 := by
    rw [div_eq_zero_iff]; simp [p1.ne']
  have z2 : (a2 : ℚ) / b2 = 0 ↔ a2 = 0 := by
    rw [div_eq_zero_iff]; simp [p2.ne']
  have r1 : (0 : ℚ) ≤ a1 / b1 := div_nonneg q1 p1.le
  have r2 : (0 : ℚ) ≤ a2 / b2 := div_nonneg q2 p2.le
  have zero : (a1 * b2 = a2 * b1 ∧ a1 = 0) ↔ a1 = 0 ∧ a2 = 0 := by
    constructor
    · rintro ⟨h, rfl⟩
      refine ⟨rfl, ?_⟩
      rw [Nat.zero_mul] at h
      rcases Nat.mul_eq_zero.mp h.symm with h | h
      · exact h
      · omega
    · rintro ⟨rfl, rfl⟩; simp
  show (a1 * b2 == a2 * b1 && (n1 == n2 || a1 == 0)) = true ↔ _
  cases n1 <;> cases n2 <;>
    simp only [Bool.and_eq_true, Bool.or_eq_true, beq_iff_eq, if_true, Bool.false_eq_true, if_false,
      one_mul, neg_mul, true_or, and_true, false_or, neg_inj, reduceCtorEq]
  · exact pos.symm
  · rw [opp _ _ r1 r2, z1, z2]; exact zero
  · rw [zero, eq_comm (a := -((a1 : ℚ) / b1)), opp _ _ r2 r1, z1, z2, and_comm]
  · exact pos.symm

section
variable (cx : Ctx) (n : Nat)

/-- C40: numbers of whatever type are equal iff they have exactly the same value. -/
theorem C40_numbers {a b : Obj} {x y : ℚ} (ha : HasValue a x) (hb : HasValue b y) :
    ∃ e, (sem cx (n + 1)).eq a b = .ok e ∧ (e = true ↔ x = y) := by
  obtain ⟨n1, a1, b1, h1, p1, rfl⟩ := exact_rep ha
  obtain ⟨n2, a2, b2, h2, p2, rfl⟩ := exact_rep hb
  exact ⟨_, eq_num cx n h1 h2, rat_eq p1 p2⟩

/-- C40: infinities are equal iff they have the same sign; they equal no other number. -/
theorem C40_infinite {a b : Obj} {s : Bool} (ha : Infinite a s) :
    (∀ t, Infinite b t → (sem cx (n + 1)).eq a b = .ok (s == t)) ∧
    (∀ x, HasValue b x → (sem cx (n + 1)).eq a b = .ok false ∧
      (sem cx (n + 1)).eq b a = .ok false) := by
  have rep : ∀ {a s}, Infinite a s → Rep a (.inf s) := by
    intro a s h
    cases h <;> exact ⟨rfl, by simp⟩
  constructor
  · intro t hb; exact eq_num cx n (rep ha) (rep hb)
  · intro x hb
    obtain ⟨_, _, _, h2, _⟩ := exact_rep hb
    exact ⟨eq_num cx n (rep ha) h2, eq_num cx n h2 (rep ha)⟩

private theorem any_rep {b : Obj} (h : AnyNumber b) : ∃ v, Rep b v := by
  cases h with
  | finite h => obtain ⟨_, _, _, h, _⟩ := exact_rep h; exact ⟨_, h⟩
  | infinite h => cases h <;> exact ⟨_, rfl, by simp⟩
  | nan h => cases h <;> exact ⟨_, rfl, by simp⟩

/-- C40: what is no number equals no number, not even itself. -/
theorem C40_nan {a b : Obj} (ha : NotANumber a) (hb : AnyNumber b) :
    (sem cx (n + 1)).eq a b = .ok false ∧ (sem cx (n + 1)).eq b a = .ok false := by
  have h1 : Rep a .nan := by cases ha <;> exact ⟨rfl, by simp⟩
  obtain ⟨v, h2⟩ := any_rep hb
  rw [eq_num cx n h1 h2, eq_num cx n h2 h1]
  cases v <;> exact ⟨rfl, rfl⟩

/-- C40: strings, bytes, dates and `None` equal only themselves. -/
theorem C40_itself {a b : Obj} (ha : Itself a) (hb : Itself b) :
    ∃ e, (sem cx (n + 1)).eq a b = .ok e ∧ (e = true ↔ a = b) := by
  cases ha with
  | none => cases hb <;> exact ⟨_, rfl, by simp⟩
  | @str s =>
    cases hb with
    | @str t =>
      exact ⟨s == t, rfl, by rw [beq_iff_eq, Obj.str.injEq]⟩
    | _ => exact ⟨false, rfl, by simp⟩
  | @bytes s =>
    cases hb with
    | @bytes t =>
      exact ⟨s == t, rfl, by rw [beq_iff_eq, Obj.bytes.injEq]⟩
    | _ => exact ⟨false, rfl, by simp⟩
  | @date s =>
    cases hb with
    | @date t =>
      exact ⟨s == t, rfl, by rw [beq_iff_eq, Obj.date.injEq]⟩
    | _ => exact ⟨false, rfl, by simp⟩

/-- C40: they equal no number. -/
theorem C40_itself_number {a b : Obj} (ha : Itself a) (hb : AnyNumber b) :
    (sem cx (n + 1)).eq a b = .ok false ∧ (sem cx (n + 1)).eq b a = .ok false := by
  obtain ⟨v, _, hl⟩ := any_rep hb
  cases ha <;>
    rcases hl with ⟨_, _, _, rfl⟩ | ⟨_, rfl⟩ | rfl | ⟨_, _, _, rfl⟩ | ⟨_, rfl⟩ | rfl | ⟨_, rfl⟩ |
      ⟨i, rfl⟩ <;> first | exact ⟨rfl, rfl⟩ | (cases i <;> exact ⟨rfl, rfl⟩)

private theorem zip_true {f : Obj → Obj → R Bool} : ∀ xs ys : List Obj, xs.length = ys.length →
    (allR (fun p : Obj × Obj => f p.1 p.2) (xs.zip ys) = .ok true ↔
      List.Forall₂ (fun x y => f x y = .ok true) xs ys)
  | [], [], _ => ⟨fun _ => .nil, fun _ => rfl⟩
  | [], _ :: _, h => by cases h
  | _ :: _, [], h => by cases h
  | x :: xs, y :: ys, h => by
    have ih := zip_true (f := f) xs ys (by simpa using h)
    rw [List.forall₂_cons, ← ih]
    show (do if ← f x y then allR (fun p : Obj × Obj => f p.1 p.2) (xs.zip ys) else .ok false) =
      .ok true ↔ _
    cases f x y with
    | error e => simp [bind, Except.bind]
    | ok b => cases b <;> simp [bind, Except.bind]

private theorem list_true {f : Obj → Obj → R Bool} (xs ys : List Obj) :
    eqListR f xs ys = .ok true ↔ List.Forall₂ (fun x y => f x y = .ok true) xs ys := by
  unfold eqListR
  by_cases h : xs.length = ys.length
  · rw [if_pos h, zip_true xs ys h]
  · rw [if_neg h]
    constructor
    · intro h; cases h
    · intro h'; exact absurd h'.length_eq h

/-- C40: lists are equal iff their items are, one by one, and so are tuples; a list equals no tuple. -/
theorem C40_lists (xs ys : List Obj) :
    ((sem cx (n + 1)).eq (.list xs) (.list ys) = .ok true ↔
      List.Forall₂ (fun x y => (sem cx n).eq x y = .ok true) xs ys) ∧
    ((sem cx (n + 1)).eq (.tuple xs) (.tuple ys) = .ok true ↔
      List.Forall₂ (fun x y => (sem cx n).eq x y = .ok true) xs ys) ∧
    (sem cx (n + 1)).eq (.list xs) (.tuple ys) = .ok false ∧
    (sem cx (n + 1)).eq (.tuple xs) (.list ys) = .ok false :=
  ⟨list_true xs ys, list_true xs ys, rfl, rfl⟩

end

/-- `Decimal('0.5')` and `0.5` have the same value, `Decimal('0.1')` and the float `0.1` have not. -/
example : HasValue (.decimal (.fin false 5 (-1))) (1 / 2) ∧
    HasValue (.float (.fin false 1 (-1))) (1 / 2) := by
  constructor
  · have := HasValue.decimal (neg := false) (c := 5) (e := -1)
    norm_num at this
    exact this
  · have := HasValue.float (neg := false) (m := 1) (e := -1)
    norm_num at this
    exact this

end SqlPuzzle
