import Verif.Spec.Numeral
import Verif.Model.Number
import Verif.Proofs.Lex

/-!
Lemmas about the text of numbers.
-/

namespace SqlPuzzle

open Spec

theorem digitChar_fin : ∀ k : Fin 10, digitVal (digitChar k.val) = some k.val ∧
    isDigitC (digitChar k.val) = true ∧ (digitChar k.val = '0' ↔ k.val = 0) := by decide

theorem digitChar_mod (n : Nat) : digitChar n = digitChar (n % 10) := by
  unfold digitChar; rw [Nat.mod_mod]

theorem digitVal_digitChar (n : Nat) : digitVal (digitChar n) = some (n % 10) := by
  rw [digitChar_mod]
  exact (digitChar_fin ⟨n % 10, Nat.mod_lt _ (by decide)⟩).1

theorem isDigit_digitChar (n : Nat) : isDigitC (digitChar n) = true := by
  rw [digitChar_mod]
  exact (digitChar_fin ⟨n % 10, Nat.mod_lt _ (by decide)⟩).2.1

theorem digitChar_zero (n : Nat) : digitChar n = '0' ↔ n % 10 = 0 := by
  rw [digitChar_mod]
  exact (digitChar_fin ⟨n % 10, Nat.mod_lt _ (by decide)⟩).2.2

theorem readDigits_append (acc : Nat) (s t : Str) :
    readDigits acc (s ++ t) = (readDigits acc s).bind fun a => readDigits a t := by
  induction s generalizing acc with
  | nil => rfl
  | cons c cs ih =>
    simp only [List.cons_append, readDigits]
    cases digitVal c with
    | none => rfl
    | some v => exact ih _

theorem natTextF_ne (fuel n : Nat) : natTextF (fuel + 1) n ≠ [] := by
  unfold natTextF
  by_cases h : n < 10 <;> simp [h]

theorem natText_ne (n : Nat) : natText n ≠ [] := natTextF_ne n n

theorem readDigits_natTextF (fuel n : Nat) (h : n < fuel) :
    readDigits 0 (natTextF fuel n) = some n := by
  induction fuel generalizing n with
  | zero => omega
  | succ f ih =>
    unfold natTextF
    by_cases hn : n < 10
    · rw [if_pos hn]
      simp only [readDigits, digitVal_digitChar]
      rw [Nat.mod_eq_of_lt hn]; simp
    · rw [if_neg hn, readDigits_append, ih (n / 10) (by omega)]
      simp only [Option.bind_some, readDigits, digitVal_digitChar]
      congr 1
      omega

theorem readDigits_natText (n : Nat) : readDigits 0 (natText n) = some n :=
  readDigits_natTextF _ _ (by omega)

theorem readNat_natText (n : Nat) : readNat (natText n) = some n := by
  unfold readNat
  have : (natText n).isEmpty = false := by simpa using natText_ne n
  rw [this]
  exact readDigits_natText n

theorem natTextF_digits (fuel n : Nat) : ∀ c ∈ natTextF fuel n, isDigitC c = true := by
  induction fuel generalizing n with
  | zero => simp [natTextF]
  | succ f ih =>
    unfold natTextF
    intro c hc
    by_cases hn : n < 10
    · rw [if_pos hn, List.mem_singleton] at hc
      rw [hc]; exact isDigit_digitChar n
    · rw [if_neg hn, List.mem_append, List.mem_singleton] at hc
      rcases hc with hc | hc
      · exact ih _ c hc
      · rw [hc]; exact isDigit_digitChar n

theorem natText_digits (n : Nat) : ∀ c ∈ natText n, isDigitC c = true := natTextF_digits _ n

theorem natTextF_head (fuel n : Nat) (h : n < fuel) (h0 : 0 < n) :
    (natTextF fuel n).head? ≠ some '0' := by
  induction fuel generalizing n with
  | zero => omega
  | succ f ih =>
    unfold natTextF
    by_cases hn : n < 10
    · rw [if_pos hn]
      simp only [List.head?_cons, ne_eq, Option.some.injEq]
      rw [digitChar_zero]
      omega
    · rw [if_neg hn]
      have := ih (n / 10) (by omega) (by omega)
      cases f with
      | zero => omega
      | succ f =>
        cases hs : natTextF (f + 1) (n / 10) with
        | nil => exact absurd hs (natTextF_ne _ _)
        | cons a b => rw [hs] at this; simpa using this

theorem natText_noLeadingZero (n : Nat) : NoLeadingZero (natText n) := by
  cases n with
  | zero => exact Or.inl rfl
  | succ n => exact Or.inr (natTextF_head _ _ (by omega) (by omega))

theorem natTextF_length (w fuel n : Nat) (h : n < 10 ^ (w + 1)) : (natTextF fuel n).length ≤ w + 1 := by
  induction fuel generalizing n w with
  | zero => simp [natTextF]
  | succ f ih =>
    unfold natTextF
    by_cases hn : n < 10
    · rw [if_pos hn]; simp
    · rw [if_neg hn, List.length_append]
      simp only [List.length_singleton]
      cases w with
      | zero => simp at h; omega
      | succ w =>
        have : n / 10 < 10 ^ (w + 1) := by
          rw [Nat.div_lt_iff_lt_mul (by decide)]
          rw [Nat.pow_succ] at h
          exact h
        have := ih w (n / 10) this
        omega

theorem natText_length (w n : Nat) (h : n < 10 ^ (w + 1)) : (natText n).length ≤ w + 1 :=
  natTextF_length w _ n h

theorem readDigits_zeros (k : Nat) (s : Str) :
    readDigits 0 (List.replicate k '0' ++ s) = readDigits 0 s := by
  induction k with
  | zero => rfl
  | succ k ih =>
    rw [List.replicate_succ, List.cons_append]
    show (match digitVal '0' with
      | some v => readDigits (0 * 10 + v) (List.replicate k '0' ++ s)
      | none => none) = _
    have : digitVal '0' = some 0 := by decide
    rw [this]
    exact ih

theorem readNat_padText (w n : Nat) : readNat (padText w n) = some n := by
  unfold readNat
  have : (padText w n).isEmpty = false := by
    unfold padText
    cases h : natText n with
    | nil => exact absurd h (natText_ne n)
    | cons a b => simp
  rw [this]
  show readDigits 0 (padText w n) = _
  unfold padText
  rw [readDigits_zeros]
  exact readDigits_natText n

theorem padText_length (w n : Nat) (h : n < 10 ^ (w + 1)) : (padText (w + 1) n).length = w + 1 := by
  unfold padText
  have := natText_length w n h
  simp only [List.length_append, List.length_replicate]
  omega

theorem padText_digits (w n : Nat) : ∀ c ∈ padText w n, isDigitC c = true := by
  intro c hc
  unfold padText at hc
  rcases List.mem_append.mp hc with h | h
  · rw [List.eq_of_mem_replicate h]; decide
  · exact natText_digits n c h

/-! ### Lexing numbers -/

theorem digit_props {c : Char} (h : isDigitC c = true) :
    isBlank c = false ∧ c ≠ '"' ∧ c ≠ '`' ∧ c ≠ '\'' ∧ c ≠ '#' ∧ c ≠ '-' ∧ c ≠ '/' ∧ c ≠ '\\' ∧ c ≠ '.' := by
  unfold isDigitC at h
  rw [Bool.and_eq_true, decide_eq_true_iff, decide_eq_true_iff] at h
  have h1 : ('0' : Char).toNat ≤ c.toNat := h.1
  have h2 : c.toNat ≤ ('9' : Char).toNat := h.2
  have n0 : ('0' : Char).toNat = 48 := rfl
  have n9 : ('9' : Char).toNat = 57 := rfl
  rw [n0] at h1; rw [n9] at h2
  have ne : ∀ x : Char, (x.toNat < 48 ∨ 57 < x.toNat) → c ≠ x := by
    rintro x hx rfl; omega
  refine ⟨?_, ne _ (by decide), ne _ (by decide), ne _ (by decide), ne _ (by decide),
    ne _ (by decide), ne _ (by decide), ne _ (by decide), ne _ (by decide)⟩
  unfold isBlank
  simp [ne ' ' (by decide), ne '\t' (by decide), ne '\n' (by decide), ne '\r' (by decide)]

theorem start_digit {d : Dialect} (hq : d.Known) {c : Char} (h : isDigitC c = true) :
    start d c = ([], .num [c]) := by
  obtain ⟨h1, h2, h3, h4, h5, h6, h7, _⟩ := digit_props h
  have hi : c ≠ d.identQuote := by rcases hq with e | e <;> rw [e] <;> assumption
  unfold start
  simp [h1, hi, h2, h4, h5, h6, h7, h]

/-- Characters that continue a number. -/
def NumChars (s : Str) : Prop := ∀ c ∈ s, isDigitC c = true ∨ c = '.'

theorem lex_num_body (d : Dialect) (acc s rest : Str) (h : NumChars s) :
    lexFrom d (.num acc) (s ++ rest) = lexFrom d (.num (acc ++ s)) rest := by
  induction s generalizing acc with
  | nil => simp
  | cons c cs ih =>
    have hc := h c (by simp)
    have : step d (.num acc) c = ([], .num (acc ++ [c])) := by
      unfold step
      rcases hc with hc | hc <;> simp [hc]
    rw [List.cons_append, lexFrom_cons, this]
    simp only [List.nil_append]
    rw [ih _ (fun x hx => h x (by simp [hx]))]
    simp

theorem lex_num_end (d : Dialect) (acc rest : Str) (h : Sep rest) :
    lexFrom d (.num acc) rest = .num acc :: lex d rest := by
  rcases h with rfl | ⟨c, cs, rfl, hc⟩
  · rfl
  · have : (isDigitC c || isWordC c || c == '.') = false := by
      rcases hc with rfl | rfl | rfl <;> decide
    simp [lexFrom_cons, step, this, emit, lex]

/-- A digit followed by digits and points is read as one number. -/
theorem reads_num {d : Dialect} (hq : d.Known) {c : Char} {s : Str} (hc : isDigitC c = true)
    (h : NumChars s) : Reads d (c :: s) [.num (c :: s)] := by
  intro rest hr
  rw [List.cons_append]
  show lexFrom d .normal _ = _
  rw [lexFrom_cons]
  simp only [step, start_digit hq hc, List.nil_append]
  rw [lex_num_body d [c] s rest h, lex_num_end d _ rest hr]
  rfl

theorem reads_numText {d : Dialect} (hq : d.Known) {s : Str} (h : ∀ c, s.head? = some c → isDigitC c = true)
    (hn : s ≠ []) (hs : NumChars s) : Reads d s [.num s] := by
  cases s with
  | nil => exact absurd rfl hn
  | cons c cs => exact reads_num hq (h c rfl) (fun x hx => hs x (by simp [hx]))

theorem reads_natText {d : Dialect} (hq : d.Known) (n : Nat) : Reads d (natText n) [.num (natText n)] := by
  apply reads_numText hq
  · intro c hc
    exact natText_digits n c (List.mem_of_mem_head? hc)
  · exact natText_ne n
  · intro c hc; exact Or.inl (natText_digits n c hc)

/-- A minus sign in front of a number is a token of its own. -/
theorem reads_minus {d : Dialect} (hq : d.Known) {c : Char} {s : Str} {ts : List Tok}
    (hc : isDigitC c = true) (h : Reads d (c :: s) ts) : Reads d ('-' :: c :: s) (.sym '-' :: ts) := by
  intro rest hr
  have hm : start d '-' = ([], .dash) := by
    obtain ⟨q, b, dq, hc'⟩ := d
    rcases hq with h | h <;> (simp only at h; subst h; rfl)
  have h1 := h rest hr
  show lexFrom d .normal ('-' :: (c :: s ++ rest)) = _
  rw [lexFrom_cons]
  simp only [step, hm, List.nil_append]
  have hne : c ≠ '-' := (digit_props hc).2.2.2.2.2.1
  rw [List.cons_append, lexFrom_cons]
  have e : lex d (c :: s ++ rest) = (start d c).1 ++ lexFrom d (start d c).2 (s ++ rest) := rfl
  rw [e] at h1
  simp only [step, if_neg hne, emit, List.cons_append, List.nil_append, h1]

/-- Tokens of an integer. -/
def intToks : Int → List Tok
  | .ofNat n => [.num (natText n)]
  | .negSucc n => [.sym '-', .num (natText (n + 1))]

theorem reads_intText {d : Dialect} (hq : d.Known) (i : Int) : Reads d (intText i) (intToks i) := by
  cases i with
  | ofNat n => exact reads_natText hq n
  | negSucc n =>
    have h := reads_natText hq (n + 1)
    show Reads d ('-' :: natText (n + 1)) (.sym '-' :: [.num (natText (n + 1))])
    have hd := natText_digits (n + 1)
    cases hs : natText (n + 1) with
    | nil => exact absurd hs (natText_ne _)
    | cons c cs =>
      rw [hs] at h hd
      exact reads_minus hq (hd c (by simp)) h

end SqlPuzzle
