import Verif.Proofs.Number
import Verif.Props.Strings
import Mathlib.Algebra.Order.Field.Rat
import Mathlib.Algebra.Order.Field.Basic
import Mathlib.Algebra.Order.AbsoluteValue.Basic
import Mathlib.Tactic.Linarith
import Mathlib.Tactic.FieldSimp
import Mathlib.Tactic.Ring
import Mathlib.Tactic.NormNum

/-!
C07, C08: numbers.
-/

namespace SqlPuzzle

open Spec

/-! ### C07 -/

theorem readInt_intText (i : Int) : readInt (intText i) = some i := by
  cases i with
  | ofNat n =>
    show readInt (natText n) = _
    unfold readInt
    split
    · rename_i cs h
      have := natText_digits n '-' (by rw [h]; simp)
      exact absurd this (by decide)
    · rw [readNat_natText]; rfl
  | negSucc n =>
    show readInt ('-' :: natText (n + 1)) = _
    unfold readInt
    simp only [readNat_natText]
    rfl

/-- C07. The text of an integer reads back as the same integer; it is `-` and digits without
superfluous leading zeros, and a server reads it as one number, after a minus sign if negative. -/
theorem C07_integer (cx : Ctx) (n : Nat) (d : Dialect) (hf : Fits cx d) (i : Int) :
    ∃ t, (sem cx (n + 1)).str (.sqlValue (.int i)) = .ok t ∧
      readInt t = some i ∧
      (∃ ds, t = (if i < 0 then ['-'] else []) ++ ds ∧ readNat ds = some i.natAbs ∧
        NoLeadingZero ds ∧ Reads d t ((if i < 0 then [.sym '-'] else []) ++ [.num ds])) := by
  refine ⟨intText i, rfl, readInt_intText i, ?_⟩
  have hr := reads_intText hf.known i
  cases i with
  | ofNat n =>
    refine ⟨natText n, ?_, readNat_natText n, natText_noLeadingZero n, ?_⟩
    · have : ¬ (Int.ofNat n < 0) := by simp
      rw [if_neg this]; rfl
    · have : ¬ (Int.ofNat n < 0) := by simp
      rw [if_neg this]; exact hr
  | negSucc n =>
    refine ⟨natText (n + 1), ?_, readNat_natText (n + 1), natText_noLeadingZero (n + 1), ?_⟩
    · simp [intText]
    · simpa [intToks] using hr

/-- C07, consequence: different integers have different texts. -/
theorem C07_injective (cx : Ctx) (n : Nat) (i j : Int) (t : Str)
    (hi : (sem cx (n + 1)).str (.sqlValue (.int i)) = .ok t)
    (hj : (sem cx (n + 1)).str (.sqlValue (.int j)) = .ok t) : i = j := by
  have ei : intText i = t := by
    have : Except.ok (intText i) = (Except.ok t : R Str) := hi
    injection this
  have ej : intText j = t := by
    have : Except.ok (intText j) = (Except.ok t : R Str) := hj
    injection this
  have h1 := readInt_intText i
  have h2 := readInt_intText j
  rw [ei] at h1; rw [ej, h1] at h2
  injection h2

example : intText (-1204) = L!"-1204" ∧ intText 0 = L!"0" := by decide

/-! ### C08 -/

theorem roundHalfEven_spec (num den : Nat) (hd : 0 < den) :
    let k := roundHalfEven num den
    2 * num ≤ 2 * k * den + den ∧ 2 * k * den ≤ 2 * num + den ∧
    ((2 * num = 2 * k * den + den ∨ 2 * k * den = 2 * num + den) → k % 2 = 0) := by
  have h := Nat.div_add_mod num den
  have hr := Nat.mod_lt num hd
  unfold roundHalfEven
  generalize num / den = q at h ⊢
  generalize num % den = r at h hr ⊢
  have e1 : 2 * (q + 1) * den = 2 * q * den + 2 * den := by ring
  have e2 : 2 * num = 2 * q * den + 2 * r := by rw [← h]; ring
  simp only
  split
  · refine ⟨by omega, by omega, ?_⟩
    intro h; omega
  · split
    · rw [e1]
      refine ⟨by omega, by omega, ?_⟩
      intro h; omega
    · have : 2 * r = den := by omega
      split
      · refine ⟨by omega, by omega, ?_⟩
        intro _; assumption
      · rw [e1]
        refine ⟨by omega, by omega, ?_⟩
        intro _; omega

theorem fmt5_fixed (neg : Bool) (num den : Nat) :
    FixedPoint 5 (fmt5 neg num den) neg (roundHalfEven (num * 100000) den) := by
  unfold fmt5
  generalize roundHalfEven (num * 100000) den = k
  refine ⟨natText (k / 100000), padText 5 (k % 100000), k / 100000, k % 100000, ?_,
    readNat_natText _, natText_noLeadingZero _, ?_, readNat_padText _ _, ?_⟩
  · simp
  · exact padText_length 4 _ (by norm_num; exact Nat.mod_lt _ (by decide))
  · norm_num; omega

/-- Tokens of `±a.b`. -/
def fixedToks (neg : Bool) (s : Str) : List Tok := (if neg then [.sym '-'] else []) ++ [.num s]

theorem reads_fmt5 {d : Dialect} (hq : d.Known) (neg : Bool) (num den : Nat) :
    ∃ s, fmt5 neg num den = (if neg then ['-'] else []) ++ s ∧
      Reads d (fmt5 neg num den) (fixedToks neg s) := by
  unfold fmt5
  generalize roundHalfEven (num * 100000) den = k
  refine ⟨natText (k / 100000) ++ '.' :: padText 5 (k % 100000), by simp, ?_⟩
  have hd := natText_digits (k / 100000)
  cases hs : natText (k / 100000) with
  | nil => exact absurd hs (natText_ne _)
  | cons c cs =>
    rw [hs] at hd
    have hc := hd c (by simp)
    have hn : NumChars (cs ++ '.' :: padText 5 (k % 100000)) := by
      intro x hx
      rcases List.mem_append.mp hx with h | h
      · exact Or.inl (hd x (by simp [h]))
      · rcases List.mem_cons.mp h with h | h
        · exact Or.inr h
        · exact Or.inl (padText_digits _ _ x h)
    have := reads_num hq hc hn
    cases neg
    · simpa [fixedToks, hs] using this
    · simpa [fixedToks, hs] using reads_minus hq hc this

/-- The exact value of a finite `float`: `± m · 2 ^ e`. -/
def floatValue (neg : Bool) (m : Nat) (e : Int) : ℚ := (if neg then -1 else 1) * (m * 2 ^ e)

/-- The exact value of a finite `Decimal`: `± c · 10 ^ e`. -/
def decimalValue (neg : Bool) (c : Nat) (e : Int) : ℚ := (if neg then -1 else 1) * (c * 10 ^ e)

/-- The value denoted by a numeral `± k / 10 ^ 5`. -/
def fixedValue (neg : Bool) (k : Nat) : ℚ := (if neg then -1 else 1) * (k / 10 ^ 5)

theorem ratio_spec (b m : Nat) (hb : 0 < b) (e : Int) :
    0 < (ratio b m e).2 ∧ ((ratio b m e).1 : ℚ) / (ratio b m e).2 = m * (b : ℚ) ^ e := by
  have hb' : (b : ℚ) ≠ 0 := by exact_mod_cast Nat.pos_iff_ne_zero.mp hb
  cases e with
  | ofNat k => simp [ratio]
  | negSucc k =>
    refine ⟨Nat.pow_pos hb, ?_⟩
    simp only [ratio, zpow_negSucc, Nat.cast_pow]
    field_simp

theorem round_rat (neg : Bool) (num den : Nat) (hd : 0 < den) (v : ℚ)
    (hv : v = (if neg then -1 else 1) * ((num : ℚ) / den)) :
    |fixedValue neg (roundHalfEven (num * 100000) den) - v| ≤ 1 / 2 / 10 ^ 5 ∧
    (|fixedValue neg (roundHalfEven (num * 100000) den) - v| = 1 / 2 / 10 ^ 5 →
      roundHalfEven (num * 100000) den % 2 = 0) := by
  obtain ⟨h1, h2, h3⟩ := roundHalfEven_spec (num * 100000) den hd
  revert h1 h2 h3
  generalize roundHalfEven (num * 100000) den = k
  intro h1 h2 h3
  have hd' : (0 : ℚ) < den := by exact_mod_cast hd
  have key : |fixedValue neg k - v| = |2 * (k : ℚ) * den - 2 * num * 100000| / (2 * den * 100000) := by
    have e : fixedValue neg k - v =
        (if neg then -1 else 1) * ((2 * (k : ℚ) * den - 2 * num * 100000) / (2 * den * 100000)) := by
      rw [hv]; unfold fixedValue; field_simp; ring
    rw [e, abs_mul, abs_div]
    have : |(if neg then -1 else 1 : ℚ)| = 1 := by cases neg <;> simp
    rw [this, one_mul, abs_of_pos (show (0 : ℚ) < 2 * den * 100000 by linarith)]
  have q1 : 2 * ((num : ℚ) * 100000) ≤ 2 * k * den + den := by exact_mod_cast h1
  have q2 : 2 * (k : ℚ) * den ≤ 2 * (num * 100000) + den := by exact_mod_cast h2
  rw [key]
  constructor
  · rw [div_le_div_iff₀ (by linarith) (by norm_num)]
    have : |2 * (k : ℚ) * den - 2 * num * 100000| ≤ den := by
      rw [abs_le]; constructor <;> linarith
    linarith
  · intro h
    apply h3
    rw [div_eq_div_iff (by positivity) (by norm_num)] at h
    have h' : |2 * (k : ℚ) * den - 2 * num * 100000| = den := by linarith
    rcases (abs_eq hd'.le).mp h' with h | h
    · right
      have : (2 * (k : ℚ) * den) = 2 * (num * 100000) + den := by linarith
      exact_mod_cast this
    · left
      have : 2 * ((num : ℚ) * 100000) = 2 * k * den + den := by linarith
      exact_mod_cast this

/-- C08 for floats. The text of a finite float is a numeral with exactly five decimals; its value is
within half a unit of the fifth decimal from the float, and on a tie the last digit is even. A
server reads it as one number, after a minus sign if negative. -/
theorem C08_float (cx : Ctx) (n : Nat) (d : Dialect) (hf : Fits cx d) (neg : Bool) (m : Nat)
    (e : Int) :
    ∃ t k s, (sem cx (n + 1)).str (.sqlValue (.float (.fin neg m e))) = .ok t ∧
      FixedPoint 5 t neg k ∧
      |fixedValue neg k - floatValue neg m e| ≤ 1 / 2 / 10 ^ 5 ∧
      (|fixedValue neg k - floatValue neg m e| = 1 / 2 / 10 ^ 5 → k % 2 = 0) ∧
      t = (if neg then ['-'] else []) ++ s ∧
      Reads d t ((if neg then [.sym '-'] else []) ++ [.num s]) := by
  obtain ⟨s, h1, h2⟩ := reads_fmt5 hf.known neg (ratio 2 m e).1 (ratio 2 m e).2
  obtain ⟨r1, r2⟩ := ratio_spec 2 m (by decide) e
  have hv : floatValue neg m e =
      (if neg then -1 else 1) * (((ratio 2 m e).1 : ℚ) / (ratio 2 m e).2) := by
    rw [r2]; simp [floatValue]
  obtain ⟨b1, b2⟩ := round_rat neg _ _ r1 _ hv
  exact ⟨_, _, s, rfl, fmt5_fixed _ _ _, b1, b2, h1, h2⟩

/-- C08 for decimals. -/
theorem C08_decimal (cx : Ctx) (n : Nat) (d : Dialect) (hf : Fits cx d) (neg : Bool) (c : Nat)
    (e : Int) :
    ∃ t k s, (sem cx (n + 1)).str (.sqlValue (.decimal (.fin neg c e))) = .ok t ∧
      FixedPoint 5 t neg k ∧
      |fixedValue neg k - decimalValue neg c e| ≤ 1 / 2 / 10 ^ 5 ∧
      (|fixedValue neg k - decimalValue neg c e| = 1 / 2 / 10 ^ 5 → k % 2 = 0) ∧
      t = (if neg then ['-'] else []) ++ s ∧
      Reads d t ((if neg then [.sym '-'] else []) ++ [.num s]) := by
  obtain ⟨s, h1, h2⟩ := reads_fmt5 hf.known neg (ratio 10 c e).1 (ratio 10 c e).2
  obtain ⟨r1, r2⟩ := ratio_spec 10 c (by decide) e
  have hv : decimalValue neg c e =
      (if neg then -1 else 1) * (((ratio 10 c e).1 : ℚ) / (ratio 10 c e).2) := by
    rw [r2]; simp [decimalValue]
  obtain ⟨b1, b2⟩ := round_rat neg _ _ r1 _ hv
  exact ⟨_, _, s, rfl, fmt5_fixed _ _ _, b1, b2, h1, h2⟩

/-- C08, exactness: a numeral with five decimals within half a unit of a value that has at most five
decimals is that value. -/
theorem C08_exact (neg : Bool) (k j : Nat) (v : ℚ) (hv : v = (if neg then -1 else 1) * (j / 10 ^ 5))
    (h : |fixedValue neg k - v| ≤ 1 / 2 / 10 ^ 5) : fixedValue neg k = v := by
  have e : |fixedValue neg k - v| = |(k : ℚ) - j| / 10 ^ 5 := by
    have : fixedValue neg k - v = (if neg then -1 else 1) * (((k : ℚ) - j) / 10 ^ 5) := by
      rw [hv]; unfold fixedValue; ring
    rw [this, abs_mul, abs_div]
    have : |(if neg then -1 else 1 : ℚ)| = 1 := by cases neg <;> simp
    rw [this, one_mul, abs_of_pos (show (0 : ℚ) < 10 ^ 5 by norm_num)]
  rw [e, div_le_div_iff_of_pos_right (by norm_num)] at h
  have hk : k = j := by
    obtain ⟨a, b⟩ := abs_le.mp h
    by_contra hne
    rcases Nat.lt_or_gt_of_ne hne with hlt | hlt
    · have : (k : ℚ) + 1 ≤ j := by exact_mod_cast hlt
      linarith
    · have : (j : ℚ) + 1 ≤ k := by exact_mod_cast hlt
      linarith
  rw [hv, hk]; rfl

/-- C08, nearest: no other numeral with five decimals is closer to the value. -/
theorem C08_nearest (w v : ℚ) (k j : Int) (hw : w = k / 10 ^ 5) (h : |w - v| ≤ 1 / 2 / 10 ^ 5) :
    |w - v| ≤ |(j : ℚ) / 10 ^ 5 - v| := by
  by_cases hj : j = k
  · rw [hj, hw]
  · have h1 : (1 : ℚ) ≤ |(j : ℚ) - k| := by
      have : (1 : Int) ≤ |j - k| := Int.one_le_abs (sub_ne_zero.mpr hj)
      exact_mod_cast this
    have h2 : |(j : ℚ) / 10 ^ 5 - w| = |(j : ℚ) - k| / 10 ^ 5 := by
      rw [hw, ← sub_div, abs_div, abs_of_pos (show (0 : ℚ) < 10 ^ 5 by norm_num)]
    have h3 : |(j : ℚ) / 10 ^ 5 - w| ≤ |(j : ℚ) / 10 ^ 5 - v| + |w - v| := by
      have := abs_sub_le ((j : ℚ) / 10 ^ 5) v w
      rwa [abs_sub_comm v w] at this
    have h4 : (1 : ℚ) / 10 ^ 5 ≤ |(j : ℚ) / 10 ^ 5 - w| := by
      rw [h2]
      exact (div_le_div_iff_of_pos_right (by norm_num)).mpr h1
    have : (1 : ℚ) / 2 / 10 ^ 5 + 1 / 2 / 10 ^ 5 = 1 / 10 ^ 5 := by norm_num
    linarith

/-- C08, infinities and NaN are not numbers: a server reads a bare word (after a minus sign if
negative), never a number. -/
theorem C08_nonfinite (cx : Ctx) (n : Nat) (d : Dialect) (hf : Fits cx d) (v : Obj)
    (hv : v = .float .nan ∨ v = .decimal .nan ∨ (∃ b, v = .float (.inf b)) ∨ ∃ b, v = .decimal (.inf b)) :
    ∃ t, (sem cx (n + 1)).str (.sqlValue v) = .ok t ∧ ∀ k ∈ lex d t, ∀ s, k ≠ .num s := by
  have w : ∀ t ∈ [L!"nan", L!"NaN", L!"inf", L!"Infinity"],
      lex d t = [.word t] ∧ lex d ('-' :: t) = [.sym '-', .word t] := by
    have hq := hf.known
    obtain ⟨q, b, dq, hc⟩ := d
    rcases hq with h | h <;>
      (simp only at h; subst h; cases b <;> cases dq <;> cases hc <;> decide)
  have fin : ∀ t u : Str, (t = u ∨ t = '-' :: u) →
      u ∈ [L!"nan", L!"NaN", L!"inf", L!"Infinity"] → ∀ k ∈ lex d t, ∀ s, k ≠ .num s := by
    rintro t u (rfl | rfl) hu k hk s
    · rw [(w t hu).1] at hk; simp at hk; rw [hk]; simp
    · rw [(w u hu).2] at hk; simp at hk; rcases hk with hk | hk <;> (rw [hk]; simp)
  rcases hv with rfl | rfl | ⟨neg, rfl⟩ | ⟨neg, rfl⟩
  · exact ⟨_, rfl, fin _ L!"nan" (Or.inl rfl) (by decide)⟩
  · exact ⟨_, rfl, fin _ L!"NaN" (Or.inl rfl) (by decide)⟩
  · exact ⟨_, rfl, fin _ L!"inf" (by cases neg <;> simp [fltText]) (by decide)⟩
  · exact ⟨_, rfl, fin _ L!"Infinity" (by cases neg <;> simp [decText]) (by decide)⟩

/-- 0.000005 as a decimal is a tie and is rounded to even; 1/2^20 is not representable exactly. -/
example : decText (.fin false 5 (-6)) = L!"0.00000" ∧ decText (.fin true 15 (-6)) = L!"-0.00002" ∧
    fltText (.fin false 1 (-20)) = L!"0.00000" ∧ fltText (.fin true 3 (-1)) = L!"-1.50000" := by
  decide

end SqlPuzzle
