import Verif.Proofs.Regex
import Verif.Proofs.Lex
import Verif.Spec.Names

/-!
Lemmas about `reference` and `is_reference`.
-/

namespace SqlPuzzle

open Spec Re

theorem Spec.WellQuoted.append {q : Char} {s t : Str} (h : WellQuoted q s) (k : WellQuoted q t) :
    WellQuoted q (s ++ t) := by
  induction h with
  | nil => exact k
  | chr hc _ ih => exact .chr hc ih
  | quoted h1 h2 _ ih => simpa using WellQuoted.quoted h1 h2 ih

theorem wellQuoted_of_notMem {q : Char} {s : Str} (h : q ∉ s) : WellQuoted q s := by
  induction s with
  | nil => exact .nil
  | cons c cs ih =>
    simp only [List.mem_cons, not_or] at h
    exact .chr (fun e => h.1 e.symm) (ih h.2)

/-! ### re.split -/

theorem takeWhile_run {q : Char} {b s : Str} (h : q ∉ b) :
    (b ++ q :: s).takeWhile (· != q) = b := by
  induction b with
  | nil => simp
  | cons c cs ih =>
    simp only [List.mem_cons, not_or] at h
    have : c ≠ q := fun e => h.1 e.symm
    simp [this, ih h.2]

theorem dropWhile_run {q : Char} {b s : Str} (h : q ∉ b) :
    (b ++ q :: s).dropWhile (· != q) = q :: s := by
  induction b with
  | nil => simp
  | cons c cs ih =>
    simp only [List.mem_cons, not_or] at h
    have : c ≠ q := fun e => h.1 e.symm
    simp [this, ih h.2]

theorem refMatch_quoted {q : Char} {b s : Str} (h1 : b ≠ []) (h2 : q ∉ b) :
    refMatch q (q :: (b ++ q :: s)) = some (some b, s) := by
  simp only [refMatch, if_true, takeWhile_run h2, dropWhile_run h2]
  cases b with
  | nil => exact absurd rfl h1
  | cons c cs => rfl

theorem refMatch_dot {q : Char} (hq : q ≠ '.') (s : Str) :
    refMatch q ('.' :: s) = some (none, s) := by
  simp only [refMatch, if_neg (Ne.symm hq), if_true]

theorem refMatch_chr {q c : Char} (h1 : c ≠ q) (h2 : c ≠ '.') (s : Str) :
    refMatch q (c :: s) = none := by
  simp only [refMatch, if_neg h1, if_neg h2]

/-- Every part of well-quoted text is free of quotes. -/
theorem reSplit_wellQuoted {q : Char} {s : Str} (h : WellQuoted q s) :
    ∀ (n : Nat) (acc : Str), s.length < n → q ∉ acc →
      ∀ p ∈ reSplit (refMatch q) n acc s, q ∉ p := by
  induction h with
  | nil =>
    intro n acc hn hacc p hp
    cases n with
    | zero => simp at hn
    | succ n => simp [reSplit] at hp; rw [hp]; exact hacc
  | @chr c s hc _ ih =>
    intro n acc hn hacc p hp
    cases n with
    | zero => simp at hn
    | succ n =>
      have hn' : s.length < n := by simpa using hn
      by_cases hd : c = '.'
      · subst hd
        simp only [reSplit, refMatch_dot (fun e => hc e.symm)] at hp
        simp only [Option.toList, List.nil_append, List.mem_cons] at hp
        rcases hp with rfl | hp
        · exact hacc
        · exact ih n [] hn' (by simp) p hp
      · simp only [reSplit, refMatch_chr hc hd] at hp
        refine ih n (acc ++ [c]) hn' ?_ p hp
        simp only [List.mem_append, List.mem_singleton, not_or]
        exact ⟨hacc, fun e => hc e.symm⟩
  | @quoted b s h1 h2 _ ih =>
    intro n acc hn hacc p hp
    cases n with
    | zero => simp at hn
    | succ n =>
      have hn' : s.length < n := by simp at hn; omega
      simp only [reSplit, refMatch_quoted h1 h2] at hp
      simp only [Option.toList, List.singleton_append, List.mem_cons] at hp
      rcases hp with rfl | rfl | hp
      · exact hacc
      · exact h2
      · exact ih n [] hn' (by simp) p hp

theorem refParts_wellQuoted {q : Char} {s : Str} (h : WellQuoted q s) :
    ∀ p ∈ refParts q s, p ≠ [] ∧ q ∉ p := by
  intro p hp
  unfold refParts at hp
  rw [List.mem_filter] at hp
  refine ⟨by simpa using hp.2, ?_⟩
  exact reSplit_wellQuoted h _ [] (by simp) (by simp) p hp.1

theorem reSplit_nonempty {q : Char} {s : Str} (h : WellQuoted q s) :
    ∀ (n : Nat) (acc : Str), s.length < n → (acc ≠ [] ∨ ∃ c ∈ s, c ≠ '.') →
      ∃ p ∈ reSplit (refMatch q) n acc s, p ≠ [] := by
  induction h with
  | nil =>
    intro n acc hn hacc
    cases n with
    | zero => simp at hn
    | succ n => simpa [reSplit] using hacc
  | @chr c s hc _ ih =>
    intro n acc hn hacc
    cases n with
    | zero => simp at hn
    | succ n =>
      have hn' : s.length < n := by simpa using hn
      by_cases hd : c = '.'
      · subst hd
        simp only [reSplit, refMatch_dot (fun e => hc e.symm), Option.toList, List.nil_append]
        rcases hacc with hacc | ⟨c, hc1, hc2⟩
        · exact ⟨acc, by simp, hacc⟩
        · rcases List.mem_cons.1 hc1 with rfl | hc1
          · exact absurd rfl hc2
          · obtain ⟨p, hp, hne⟩ := ih n [] hn' (.inr ⟨c, hc1, hc2⟩)
            exact ⟨p, by simp [hp], hne⟩
      · simp only [reSplit, refMatch_chr hc hd]
        exact ih n (acc ++ [c]) hn' (.inl (by simp))
  | @quoted b s h1 h2 _ ih =>
    intro n acc hn _
    cases n with
    | zero => simp at hn
    | succ n =>
      simp only [reSplit, refMatch_quoted h1 h2]
      exact ⟨b, by simp, h1⟩

theorem refParts_ne {q : Char} {s : Str} (h : WellQuoted q s) (hs : ∃ c ∈ s, c ≠ '.') :
    refParts q s ≠ [] := by
  obtain ⟨p, hp, hne⟩ := reSplit_nonempty h (s.length + 1) [] (by simp) (.inr hs)
  intro e
  have : p ∈ refParts q s := List.mem_filter.2 ⟨hp, by simpa using hne⟩
  rw [e] at this
  cases this

/-- Whether text is well quoted, reading it from left to right; the state is whether a quoted run is
open and not empty. -/
def wellQuotedB (q : Char) : Option Bool → Str → Bool
  | none, [] => true
  | some _, [] => false
  | none, c :: s => if c = q then wellQuotedB q (some false) s else wellQuotedB q none s
  | some b, c :: s => if c = q then b && wellQuotedB q none s else wellQuotedB q (some true) s

theorem wellQuotedB_iff (q : Char) (s : Str) :
    (wellQuotedB q none s = true ↔ WellQuoted q s) ∧
    ∀ b, (wellQuotedB q (some b) s = true ↔
      ∃ r t, s = r ++ q :: t ∧ q ∉ r ∧ (b = true ∨ r ≠ []) ∧ WellQuoted q t) := by
  induction s with
  | nil => exact ⟨⟨fun _ => .nil, fun _ => rfl⟩, fun b => ⟨fun h => by simp [wellQuotedB] at h,
      by rintro ⟨r, t, h, -⟩; simp at h⟩⟩
  | cons c s ih =>
    refine ⟨?_, fun b => ?_⟩
    · by_cases hc : c = q
      · subst hc
        rw [wellQuotedB, if_pos rfl, ih.2]
        constructor
        · rintro ⟨r, t, rfl, h1, h2, h3⟩
          exact .quoted (h2.resolve_left (by simp)) h1 h3
        · intro h
          cases h with
          | chr h => exact absurd rfl h
          | quoted h1 h2 h3 => exact ⟨_, _, rfl, h2, .inr h1, h3⟩
      · rw [wellQuotedB, if_neg hc, ih.1]
        constructor
        · exact .chr hc
        · intro h
          cases h with
          | chr _ h => exact h
          | quoted => exact absurd rfl hc
    · by_cases hc : c = q
      · subst hc
        rw [wellQuotedB, if_pos rfl, Bool.and_eq_true, ih.1]
        constructor
        · rintro ⟨h1, h2⟩
          exact ⟨[], s, rfl, by simp, .inl h1, h2⟩
        · rintro ⟨r, t, h1, h2, h3, h4⟩
          cases r with
          | nil => cases h1; exact ⟨h3.resolve_right (by simp), h4⟩
          | cons x r => cases h1; simp at h2
      · rw [wellQuotedB, if_neg hc, ih.2]
        constructor
        · rintro ⟨r, t, rfl, h1, h2, h3⟩
          exact ⟨c :: r, t, rfl, by simp [h1, Ne.symm hc], .inr (by simp), h3⟩
        · rintro ⟨r, t, h1, h2, h3, h4⟩
          cases r with
          | nil => cases h1; exact absurd rfl hc
          | cons x r =>
            cases h1
            exact ⟨r, t, rfl, fun h => h2 (by simp [h]), .inl rfl, h4⟩

instance (q : Char) (s : Str) : Decidable (WellQuoted q s) :=
  decidable_of_iff _ (wellQuotedB_iff q s).1

theorem splitDot_ne (s : Str) : splitDot s ≠ [] := by
  cases s with
  | nil => simp [splitDot]
  | cons c cs =>
    unfold splitDot
    by_cases h : c = '.'
    · simp [h]
    · rw [if_neg h]; cases splitDot cs <;> simp

/-- Prefix the first element. -/
def prepend (acc : Str) : List Str → List Str
  | [] => [acc]
  | h :: t => (acc ++ h) :: t

theorem reSplit_plain {q : Char} (hq : q ≠ '.') {s : Str} (h : q ∉ s) :
    ∀ (n : Nat) (acc : Str), s.length < n →
      reSplit (refMatch q) n acc s = prepend acc (splitDot s) := by
  induction s with
  | nil =>
    intro n acc hn
    cases n with
    | zero => simp at hn
    | succ n => simp [reSplit, splitDot, prepend]
  | cons c cs ih =>
    simp only [List.mem_cons, not_or] at h
    have hc : c ≠ q := fun e => h.1 e.symm
    intro n acc hn
    cases n with
    | zero => simp at hn
    | succ n =>
      have hn' : cs.length < n := by simpa using hn
      by_cases hd : c = '.'
      · subst hd
        simp only [reSplit, refMatch_dot hq, Option.toList, List.nil_append, splitDot, if_true,
          prepend, List.append_nil]
        rw [ih h.2 n [] hn']
        cases hs : splitDot cs with
        | nil => exact absurd hs (splitDot_ne cs)
        | cons a b => simp [prepend]
      · simp only [reSplit, refMatch_chr hc hd, splitDot, if_neg hd]
        rw [ih h.2 n (acc ++ [c]) hn']
        cases hs : splitDot cs with
        | nil => exact absurd hs (splitDot_ne cs)
        | cons a b => simp [prepend]

theorem refParts_plain {q : Char} (hq : q ≠ '.') {s : Str} (h : q ∉ s) :
    refParts q s = segments s := by
  unfold refParts segments
  rw [reSplit_plain hq h _ [] (by simp)]
  cases hs : splitDot s with
  | nil => exact absurd hs (splitDot_ne s)
  | cons a b => simp [prepend]

/-! ### Reading references back -/

theorem lex_ident_body (d : Dialect) (p acc rest : Str) (h : d.identQuote ∉ p) :
    lexFrom d (.ident acc) (p ++ d.identQuote :: rest) = lexFrom d (.identEnd (acc ++ p)) rest := by
  induction p generalizing acc with
  | nil => simp [lexFrom_cons, step]
  | cons c cs ih =>
    simp only [List.mem_cons, not_or] at h
    have hc : c ≠ d.identQuote := fun e => h.1 e.symm
    simp [lexFrom_cons, step, hc, ih _ h.2]

theorem start_ident {d : Dialect} (hq : d.Known) : start d d.identQuote = ([], .ident []) := by
  obtain ⟨q, b, dq, hc⟩ := d
  rcases hq with h | h <;> (simp only at h; subst h; rfl)

/-- The text does not continue a quoted identifier. -/
def NoIdent (d : Dialect) (rest : Str) : Prop := ∀ cs, rest ≠ d.identQuote :: cs

theorem lex_identEnd (d : Dialect) (acc rest : Str) (h : NoIdent d rest) :
    lexFrom d (.identEnd acc) rest = .ident acc :: lex d rest := by
  cases rest with
  | nil => rfl
  | cons c cs =>
    have hc : c ≠ d.identQuote := fun e => h cs (by rw [e])
    simp [lexFrom_cons, step, hc, emit, lex]

theorem lex_part {d : Dialect} (hq : d.Known) {p rest : Str} (hp : d.identQuote ∉ p)
    (h : NoIdent d rest) :
    lex d (quotePart d.identQuote p ++ rest) =
      segmentTok p :: lex d rest := by
  unfold quotePart segmentTok
  by_cases hs : p = ['*']
  · subst hs
    simp only [if_true]
    obtain ⟨q, b, dq, hc⟩ := d
    rcases hq with h | h <;> (simp only at h; subst h; rfl)
  · rw [if_neg hs, if_neg hs]
    have e : d.identQuote :: (p ++ [d.identQuote]) ++ rest =
        d.identQuote :: (p ++ d.identQuote :: rest) := by simp
    rw [e]
    show lexFrom d .normal _ = _
    rw [lexFrom_cons]
    simp only [step, start_ident hq, List.nil_append]
    rw [lex_ident_body d p [] rest hp, lex_identEnd d _ rest h]
    simp

theorem Known.dot_ne {d : Dialect} (hq : d.Known) : d.identQuote ≠ '.' := by
  rcases hq with h | h <;> (rw [h]; decide)

theorem lex_dot {d : Dialect} (hq : d.Known) (rest : Str) :
    lex d ('.' :: rest) = .sym '.' :: lex d rest := by
  obtain ⟨q, b, dq, hc⟩ := d
  rcases hq with h | h <;> (simp only at h; subst h; rfl)

theorem lex_refText {d : Dialect} (hq : d.Known) {ps : List Str}
    (hp : ∀ p ∈ ps, d.identQuote ∉ p) {rest : Str} (h : NoIdent d rest) :
    lex d (joinS ['.'] (ps.map (quotePart d.identQuote)) ++ rest) = refToks ps ++ lex d rest := by
  induction ps with
  | nil => rfl
  | cons p ps ih =>
    cases ps with
    | nil =>
      simp only [List.map, joinS, refToks]
      rw [lex_part hq (hp p (by simp)) h]; rfl
    | cons p' ps' =>
      simp only [List.map, joinS, refToks]
      have ih' := ih (fun x hx => hp x (by simp [hx]))
      simp only [List.map] at ih'
      rw [List.append_assoc, List.append_assoc, lex_part hq (hp p (by simp))]
      · simp only [List.singleton_append]
        rw [lex_dot hq, ih']; rfl
      · intro cs e
        simp only [List.singleton_append, List.cons.injEq] at e
        exact Known.dot_ne hq e.1.symm

theorem Spec.Sep.noIdent {d : Dialect} (hq : d.Known) {rest} (h : Sep rest) : NoIdent d rest := by
  intro cs e
  rcases h with rfl | ⟨c, cs', rfl, hc⟩
  · cases e
  · simp only [List.cons.injEq] at e
    obtain ⟨rfl, _⟩ := e
    rcases hq with h | h <;> rw [h] at hc <;> revert hc <;> decide

/-- A reference all of whose segments are free of quotes is read back as those segments. -/
theorem reads_reference {d : Dialect} (hq : d.Known) {s : Str}
    (h : ∀ p ∈ refParts d.identQuote s, d.identQuote ∉ p) :
    Reads d (reference d.identQuote s) (refToks (refParts d.identQuote s)) := by
  intro rest hr
  exact lex_refText hq h (hr.noIdent hq)

/-! ### Quoting what is already quoted -/

theorem reSplit_text {q : Char} (hq : q ≠ '.') {ps : List Str} (h : ∀ p ∈ ps, p ≠ [] ∧ q ∉ p) :
    ∀ n, (joinS ['.'] (ps.map (quotePart q))).length < n →
      (reSplit (refMatch q) n [] (joinS ['.'] (ps.map (quotePart q)))).filter (fun i => !i.isEmpty)
        = ps := by
  induction ps with
  | nil =>
    intro n hn
    cases n with
    | zero => simp at hn
    | succ n => simp [joinS, reSplit]
  | cons p ps ih =>
    intro n hn
    have hps : ∀ p ∈ ps, p ≠ [] ∧ q ∉ p := fun x hx => h x (by simp [hx])
    obtain ⟨hp1, hp2⟩ := h p (by simp)
    -- the text is the quoted first segment followed by nothing or by a dot and the rest
    have key : ∀ (n : Nat) (tail : Str), (quotePart q p ++ tail).length < n →
        (tail = [] ∨ ∃ t, tail = '.' :: t) →
        ∃ m, tail.length < m ∧
          (reSplit (refMatch q) n [] (quotePart q p ++ tail)).filter (fun i => !i.isEmpty) =
            p :: (reSplit (refMatch q) m [] tail).filter (fun i => !i.isEmpty) := by
      intro n tail hn ht
      unfold quotePart at hn ⊢
      by_cases hs : p = ['*']
      · subst hs
        have hsq : ('*' : Char) ≠ q := fun e => hp2 (by rw [← e]; simp)
        simp only [if_true, List.singleton_append] at hn ⊢
        cases n with
        | zero => simp at hn
        | succ n =>
          have hn' : tail.length < n := by simpa using hn
          simp only [reSplit, refMatch_chr hsq (by decide), List.nil_append]
          refine ⟨n, hn', ?_⟩
          cases n with
          | zero => simp at hn'
          | succ n =>
            rcases ht with rfl | ⟨t, rfl⟩
            · simp [reSplit]
            · simp [reSplit, refMatch_dot hq]
      · rw [if_neg hs] at hn ⊢
        have e : q :: (p ++ [q]) ++ tail = q :: (p ++ q :: tail) := by simp
        rw [e] at hn ⊢
        cases n with
        | zero => simp at hn
        | succ n =>
          have hn' : tail.length < n := by simp at hn; omega
          refine ⟨n, hn', ?_⟩
          simp only [reSplit, refMatch_quoted hp1 hp2, Option.toList, List.singleton_append]
          have : p.isEmpty = false := by simpa using hp1
          simp [this]
    cases ps with
    | nil =>
      simp only [List.map, joinS] at hn ⊢
      obtain ⟨m, hm, hk⟩ := key n [] (by simpa using hn) (Or.inl rfl)
      rw [List.append_nil] at hk
      rw [hk]
      cases m with
      | zero => simp at hm
      | succ m => simp [reSplit]
    | cons p' ps' =>
      simp only [List.map, joinS] at hn ⊢
      rw [List.append_assoc, List.singleton_append] at hn ⊢
      obtain ⟨m, hm, hk⟩ := key n _ hn (Or.inr ⟨_, rfl⟩)
      rw [hk]
      cases m with
      | zero => simp at hm
      | succ m =>
        simp only [reSplit, refMatch_dot hq, Option.toList, List.nil_append]
        have := ih hps m (by simp only [List.map]; simpa using hm)
        simp only [List.map] at this
        simp [this]

theorem refParts_text {q : Char} (hq : q ≠ '.') {ps : List Str} (h : ∀ p ∈ ps, p ≠ [] ∧ q ∉ p) :
    refParts q (joinS ['.'] (ps.map (quotePart q))) = ps := by
  unfold refParts
  exact reSplit_text hq h _ (by simp)

end SqlPuzzle
