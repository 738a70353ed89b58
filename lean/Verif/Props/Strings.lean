import Verif.Proofs.RefForm

/-!
C01–C06: string values and names.

`(sem cx (n + 1)).str (.sqlValue (.str s))` is `str(sqlpuzzle.V(s))`, and
`(sem cx (n + 1)).str (.sqlRef (.str s))` is `str(sqlpuzzle.R(s))`, with backend `cx.backend` and
recursion budget `n + 1`.  Servers are described by `Spec.Dialect`.
-/

namespace SqlPuzzle

open Spec

/-- The dialect quotes identifiers the way the configured backend does. -/
def Fits (cx : Ctx) (d : Dialect) : Prop := d.identQuote = cx.backend.quote

theorem Fits.known {cx : Ctx} {d : Dialect} (h : Fits cx d) : d.Known := by
  unfold Fits at h
  unfold Dialect.Known
  rw [h]
  cases cx.backend <;> simp [Backend.quote]

/-- The string is not written in the form of a quoted reference. -/
def NotRefForm (cx : Ctx) (s : Str) : Prop :=
  ∀ r, Trimmed isWhite s r → ¬ RefForm cx.backend.quote r

theorem NotRefForm.isReference {cx : Ctx} {s : Str} (h : NotRefForm cx s) :
    isReference cx.backend.quote s = false := by
  rw [← Bool.not_eq_true, isReference_iff]
  rintro ⟨r, h1, h2⟩
  exact h r h1 h2

theorem notRefForm_of_notMem {cx : Ctx} {s : Str} (h : cx.backend.quote ∉ s) : NotRefForm cx s := by
  rintro r ⟨pre, post, rfl, _⟩ hr
  exact h (by simp [refForm_mem hr])

theorem strValueText_lit {cx : Ctx} {s : Str} (h : NotRefForm cx s) :
    strValueText cx s = '\'' :: (escapeValue s ++ ['\'']) := by
  unfold strValueText
  rw [h.isReference]; rfl

/-- C01. On a server that honours backslash escapes the text of a string value that is not written
as a quoted reference is one literal denoting exactly that string, whatever comes next
(other than a further quote character glued to the literal). -/
theorem C01_literal_backslash (cx : Ctx) (n : Nat) (d : Dialect) (hf : Fits cx d)
    (hb : d.backslash = true) (s : Str) (hs : NotRefForm cx s) :
    ∃ t, (sem cx (n + 1)).str (.sqlValue (.str s)) = .ok t ∧
      ∀ rest, (∀ cs, rest ≠ '\'' :: cs) → lex d (t ++ rest) = .str s :: lex d rest := by
  refine ⟨_, rfl, ?_⟩
  intro rest hr
  rw [strValueText_lit hs, lex_literal d hf.known s rest hr]
  simp [litValue, hb]

/-- A string that contains quotes of both kinds, backslashes and newlines, and is not a reference;
the hypotheses of C01 hold for it with MySQL. -/
example : NotRefForm ⟨.mysql, ⟨id, id, fun _ => true, fun _ => [], fun _ => []⟩⟩
    L!"\\' OR 1=1 -- \n\"" := notRefForm_of_notMem (by decide)
example : Fits ⟨.mysql, ⟨id, id, fun _ => true, fun _ => [], fun _ => []⟩⟩ mysqlDialect ∧
    mysqlDialect.backslash = true := ⟨rfl, rfl⟩

/-- What a server without backslash escapes sees for one character of the value. -/
def asStored (c : Char) : Str :=
  if c = '\\' then ['\\', '\\'] else if c = '\n' then ['\\', 'n'] else [c]

/-- C02, first part. Under standard lexical rules the text is one literal too; the server sees the
string with backslashes doubled and newlines spelled out. -/
theorem C02_literal_standard (cx : Ctx) (n : Nat) (d : Dialect) (hf : Fits cx d)
    (hb : d.backslash = false) (s : Str) (hs : NotRefForm cx s) :
    ∃ t, (sem cx (n + 1)).str (.sqlValue (.str s)) = .ok t ∧
      ∀ rest, (∀ cs, rest ≠ '\'' :: cs) →
        lex d (t ++ rest) = .str (s.flatMap asStored) :: lex d rest := by
  refine ⟨_, rfl, ?_⟩
  intro rest hr
  rw [strValueText_lit hs, lex_literal d hf.known s rest hr]
  simp only [litValue, hb]
  rfl

/-- C02, second part. The server sees the original string exactly when it has neither a backslash
nor a newline. -/
theorem C02_faithful_iff (s : Str) : s.flatMap asStored = s ↔ '\\' ∉ s ∧ '\n' ∉ s := by
  have len : ∀ s : Str, s.length ≤ (s.flatMap asStored).length ∧
      (('\\' ∈ s ∨ '\n' ∈ s) → s.length < (s.flatMap asStored).length) := by
    intro s
    induction s with
    | nil => simp
    | cons c cs ih =>
      simp only [List.flatMap_cons, List.length_append, List.length_cons, List.mem_cons]
      unfold asStored at ih ⊢
      by_cases h1 : c = '\\'
      · simp only [h1, if_true, List.length_cons, List.length_nil]
        exact ⟨by have := ih.1; omega, fun _ => by have := ih.1; omega⟩
      · by_cases h2 : c = '\n'
        · subst h2
          simp only [if_neg h1, if_true, List.length_cons, List.length_nil]
          exact ⟨by have := ih.1; omega, fun _ => by have := ih.1; omega⟩
        · simp only [if_neg h1, if_neg h2, List.length_cons, List.length_nil]
          refine ⟨by have := ih.1; omega, ?_⟩
          rintro ((h | h) | (h | h))
          · exact absurd h.symm h1
          · have := ih.2 (Or.inl h); omega
          · exact absurd h.symm h2
          · have := ih.2 (Or.inr h); omega
  constructor
  · intro h
    have := (len s).2
    rw [h] at this
    constructor <;> intro hm
    · exact absurd (this (Or.inl hm)) (Nat.lt_irrefl _)
    · exact absurd (this (Or.inr hm)) (Nat.lt_irrefl _)
  · rintro ⟨h1, h2⟩
    induction s with
    | nil => rfl
    | cons c cs ih =>
      simp only [List.mem_cons, not_or] at h1 h2
      rw [List.flatMap_cons, ih h1.2 h2.2]
      simp [asStored, Ne.symm h1.1, Ne.symm h2.1]

example : ('\\' ∉ L!"it's" ∧ '\n' ∉ L!"it's") ∧ L!"a\\b".flatMap asStored = L!"a\\\\b" := by decide

/-! ### C03 -/

/-- The claim of C03: whatever string is passed as a value, a server that honours the quoting of the
backend reads one literal, or identifiers, dots and asterisks, and nothing else. -/
def C03_claim : Prop :=
  ∀ (cx : Ctx) (n : Nat) (d : Dialect), Fits cx d → ∀ s t : Str,
    (sem cx (n + 1)).str (.sqlValue (.str s)) = .ok t →
      (∃ v, lex d t = [.str v]) ∨ ∀ k ∈ lex d t, RefTok k

/-- C03 is false: a value that passes `is_reference` puts `; DROP TABLE x; --` outside every
quote. -/
theorem C03_refuted : ¬ C03_claim := by
  intro h
  have := h ⟨.sql, ⟨id, id, fun _ => true, fun _ => [], fun _ => []⟩⟩ 0 standardDialect rfl
    L!"\"\"\"\".\"; DROP TABLE x; --\"" L!"\"\"\"\"\".\".\".\"; DROP TABLE x; --\"\""
    (by decide)
  rcases this with ⟨v, hv⟩ | h
  · have : lex standardDialect L!"\"\"\"\"\".\".\".\"; DROP TABLE x; --\"\"" =
        [.ident L!"\"\".", .sym '.', .ident L!".", .sym ';', .word L!"DROP", .word L!"TABLE",
          .word L!"x", .sym ';', .comment] := by decide
    rw [this] at hv
    cases hv
  · exact h (.sym ';') (by decide) |>.elim (by decide) (by decide)

theorem Known.notSpace {d : Dialect} (hq : d.Known) : isWhite d.identQuote = false := by
  rcases hq with h | h <;> (rw [h]; decide)

theorem segmentTok_refTok (p : Str) : RefTok (segmentTok p) := by
  unfold segmentTok
  by_cases h : p = ['*']
  · rw [if_pos h]; exact Or.inr rfl
  · rw [if_neg h]; exact trivial

theorem refToks_refTok (ps : List Str) : ∀ k ∈ refToks ps, RefTok k := by
  induction ps with
  | nil => simp [refToks]
  | cons p ps ih =>
    cases ps with
    | nil =>
      simp only [refToks, List.mem_singleton]
      rintro k rfl; exact segmentTok_refTok p
    | cons p' ps' =>
      simp only [refToks, List.mem_cons]
      rintro k (rfl | rfl | h)
      · exact segmentTok_refTok p
      · exact Or.inl rfl
      · exact ih k (by simpa using h)

/-- The true part of C03. For every string in which the identifier quote never occurs twice in a
row, the text of the value is one literal, or identifiers, dots and asterisks, whatever separator
follows.  Missing from the full claim: strings with two adjacent identifier quotes, for which
`C03_refuted` shows the claim false. -/
theorem C03_no_injection_partial (cx : Ctx) (n : Nat) (d : Dialect) (hf : Fits cx d) (s : Str)
    (hs : ¬ HasDoubled cx.backend.quote s) :
    ∃ t ts, (sem cx (n + 1)).str (.sqlValue (.str s)) = .ok t ∧ Reads d t ts ∧
      ((∃ v, ts = [.str v]) ∨ ∀ k ∈ ts, RefTok k) := by
  refine ⟨strValueText cx s, ?_⟩
  cases hr : isReference cx.backend.quote s
  · refine ⟨[.str (litValue d s)], rfl, ?_, Or.inl ⟨_, rfl⟩⟩
    unfold strValueText
    rw [hr]
    exact reads_literal hf.known s
  · refine ⟨refToks (refParts cx.backend.quote s), rfl, ?_, Or.inr (refToks_refTok _)⟩
    unfold strValueText
    rw [hr]
    have hw : WellQuoted d.identQuote s := by
      have k := hf.known
      rw [← hf] at hr hs
      exact isReference_wellQuoted (Known.dot_ne k) (Known.notSpace k) hr hs
    rw [if_pos rfl, ← hf]
    exact reads_reference hf.known (fun p hp => (refParts_wellQuoted hw p hp).2)

/-- A reference form without doubled quotes: the second alternative is not empty. -/
example : isReference '"' L!"\"a b\".c" = true ∧ reference '"' L!"\"a b\".c" = L!"\"a b\".\"c\"" := by
  decide
example : ¬ HasDoubled '"' L!"\"a\"" := by
  rintro ⟨a, b, h⟩
  rcases a with _ | ⟨_, _ | ⟨_, _ | ⟨_, a⟩⟩⟩ <;> simp at h

/-! ### C04 -/

/-- C04. A name without the quote character becomes its non-empty segments, each quoted except a
lone asterisk, joined by dots; the server reads back exactly those segments. -/
theorem C04_plain_name (cx : Ctx) (n : Nat) (d : Dialect) (hf : Fits cx d) (s : Str)
    (hs : cx.backend.quote ∉ s) :
    ∃ t, (sem cx (n + 1)).str (.sqlRef (.str s)) = .ok t ∧
      t = dotted ((segments s).map (writeSegment cx.backend.quote)) ∧
      ∀ rest, (∀ cs, rest ≠ cx.backend.quote :: cs) →
        lex d (t ++ rest) = refToks (segments s) ++ lex d rest := by
  have k := hf.known
  have hp : refParts cx.backend.quote s = segments s :=
    refParts_plain (by rw [← hf]; exact Known.dot_ne k) hs
  refine ⟨reference cx.backend.quote s, rfl, ?_, ?_⟩
  · unfold reference
    rw [hp]
    generalize segments s = ps
    have join : ∀ xs : List Str, joinS ['.'] xs = dotted xs := by
      intro xs
      induction xs with
      | nil => rfl
      | cons x xs ih =>
        cases xs with
        | nil => rfl
        | cons y ys => simp only [joinS, dotted, ih]; simp
    rw [join]
    congr 1
    apply List.map_congr_left
    intro p _
    unfold quotePart writeSegment
    by_cases h : p = ['*'] <;> simp [h]
  · intro rest hr
    rw [← hp]
    rw [← hf] at hs hr ⊢
    refine lex_refText k ?_ hr
    intro p hp
    exact (refParts_wellQuoted (wellQuoted_of_notMem hs) p hp).2

example : '"' ∉ L!"db..my table.*" ∧ segments L!"db..my table.*" = [L!"db", L!"my table", L!"*"] ∧
    reference '"' L!"db..my table.*" = L!"\"db\".\"my table\".*" := by decide

/-! ### C05 -/

theorem splitDot_mem {s p : Str} {c : Char} (h : p ∈ splitDot s) (hc : c ∈ p) : c ∈ s := by
  induction s generalizing p with
  | nil => simp [splitDot] at h; subst h; exact hc
  | cons x xs ih =>
    unfold splitDot at h
    by_cases hx : x = '.'
    · simp only [hx, if_true, List.mem_cons] at h ⊢
      rcases h with rfl | h
      · cases hc
      · exact Or.inr (ih h hc)
    · rw [if_neg hx] at h
      cases hs : splitDot xs with
      | nil => exact absurd hs (splitDot_ne xs)
      | cons a b =>
        rw [hs] at h ih
        simp only [List.mem_cons] at h ⊢
        rcases h with rfl | h
        · rcases List.mem_cons.mp hc with rfl | hc
          · exact Or.inl rfl
          · exact Or.inr (ih (by simp) hc)
        · exact Or.inr (ih (by simp [h]) hc)

theorem segments_ok {q : Char} {s : Str} (h : q ∉ s) : ∀ p ∈ segments s, p ≠ [] ∧ q ∉ p := by
  intro p hp
  unfold segments at hp
  rw [List.mem_filter] at hp
  exact ⟨by simpa using hp.2, fun hm => h (splitDot_mem hp.1 hm)⟩

/-- C05, first part. Quoting a name that is already quoted changes nothing. -/
theorem C05_reference_idempotent (cx : Ctx) (n : Nat) (s t : Str) (hs : cx.backend.quote ∉ s)
    (h : (sem cx (n + 1)).str (.sqlRef (.str s)) = .ok t) :
    (sem cx (n + 1)).str (.sqlRef (.str t)) = .ok t := by
  have hq : cx.backend.quote ≠ '.' := by cases cx.backend <;> decide
  have e : t = reference cx.backend.quote s := by
    have : Except.ok (reference cx.backend.quote s) = (Except.ok t : R Str) := h
    injection this with this
    exact this.symm
  show Except.ok (reference cx.backend.quote t) = _
  rw [e]
  unfold reference
  rw [refParts_plain hq hs, refParts_text hq (segments_ok hs)]

theorem quotedBody_of_notMem {q : Char} {p : Str} (h1 : p ≠ []) (h2 : q ∉ p) : QuotedBody q p := by
  induction p with
  | nil => exact absurd rfl h1
  | cons c cs ih =>
    simp only [List.mem_cons, not_or] at h2
    cases cs with
    | nil => exact .one (Ne.symm h2.1)
    | cons c' cs' => exact .chr (Ne.symm h2.1) (ih (by simp) h2.2)

/-- C05, second part. The text of a plain name of one to three segments, the first of which is not
an asterisk, is rendered as that reference when it is passed as a value. -/
theorem C05_value_reference (cx : Ctx) (n : Nat) (s t : Str) (hs : cx.backend.quote ∉ s)
    (h : (sem cx (n + 1)).str (.sqlRef (.str s)) = .ok t)
    (h1 : 1 ≤ (segments s).length) (h3 : (segments s).length ≤ 3)
    (hstar : (segments s).head? ≠ some ['*']) :
    (sem cx (n + 1)).str (.sqlValue (.str t)) = .ok t := by
  have hq : cx.backend.quote ≠ '.' := by cases cx.backend <;> decide
  have hq2 : isWhite cx.backend.quote = false := by cases cx.backend <;> decide
  have hq3 : cx.backend.quote ≠ '*' := by cases cx.backend <;> decide
  have e : t = reference cx.backend.quote s := by
    have : Except.ok (reference cx.backend.quote s) = (Except.ok t : R Str) := h
    injection this with this
    exact this.symm
  have idem : reference cx.backend.quote t = t := by
    have := C05_reference_idempotent cx n s t hs h
    have : Except.ok (reference cx.backend.quote t) = (Except.ok t : R Str) := this
    injection this
  have seg := segments_ok hs
  show Except.ok (strValueText cx t) = _
  have ref : isReference cx.backend.quote t = true := by
    rw [isReference_iff]
    have qs : ∀ p : Str, p ∈ segments s → p ≠ ['*'] →
        QuotedSegment cx.backend.quote (quotePart cx.backend.quote p) := by
      intro p hp hne
      unfold quotePart
      rw [if_neg hne]
      exact ⟨p, quotedBody_of_notMem (seg p hp).1 (seg p hp).2, rfl⟩
    have ts : ∀ p : Str, p ∈ segments s →
        TailSegment cx.backend.quote ('.' :: quotePart cx.backend.quote p) := by
      intro p hp
      refine ⟨_, ?_, rfl⟩
      by_cases hne : p = ['*']
      · right
        unfold quotePart
        rw [if_pos hne, hne]
        refine ⟨by simp, ?_⟩
        intro c hc
        simp only [List.mem_singleton] at hc
        subst hc
        exact ⟨Ne.symm hq3, by decide, by decide⟩
      · exact Or.inl (qs p hp hne)
    have last : ∀ (pre : Str) (p : Str), p ≠ [] → ∀ c,
        (pre ++ quotePart cx.backend.quote p).getLast? = some c → isWhite c = false := by
      intro pre p hp c hc
      unfold quotePart at hc
      by_cases hne : p = ['*']
      · rw [if_pos hne, hne] at hc
        simp at hc
        rw [← hc]; decide
      · rw [if_neg hne] at hc
        have e : pre ++ cx.backend.quote :: (p ++ [cx.backend.quote]) =
            (pre ++ cx.backend.quote :: p) ++ [cx.backend.quote] := by simp
        rw [e, List.getLast?_concat, Option.some.injEq] at hc
        rw [← hc]; exact hq2
    have form : RefForm cx.backend.quote t ∧
        (∀ c, t.getLast? = some c → isWhite c = false) ∧
        (∀ c, t.head? = some c → isWhite c = false) := by
      rw [e]
      unfold reference
      rw [refParts_plain hq hs]
      match hps : segments s, h1, h3 with
      | [a], _, _ =>
        rw [hps] at hstar qs ts seg
        have ha : a ≠ ['*'] := by simpa using hstar
        refine ⟨⟨_, [], [], by simp [joinS], qs a (by simp) ha, Or.inl rfl, Or.inl rfl⟩, ?_, ?_⟩
        · exact last [] a (seg a (by simp)).1
        · intro c hc
          simp only [List.map, joinS, quotePart, if_neg ha, List.head?_cons, Option.some.injEq] at hc
          rw [← hc]; exact hq2
      | [a, b], _, _ =>
        rw [hps] at hstar qs ts seg
        have ha : a ≠ ['*'] := by simpa using hstar
        refine ⟨⟨_, _, [], by simp [joinS], qs a (by simp) ha, Or.inr (ts b (by simp)),
          Or.inl rfl⟩, ?_, ?_⟩
        · simp only [List.map, joinS]
          exact last _ b (seg b (by simp)).1
        · intro c hc
          simp only [List.map, joinS, quotePart, if_neg ha, List.cons_append, List.head?_cons,
            Option.some.injEq] at hc
          rw [← hc]; exact hq2
      | [a, b, c'], _, _ =>
        rw [hps] at hstar qs ts seg
        have ha : a ≠ ['*'] := by simpa using hstar
        refine ⟨⟨_, _, _, by simp [joinS], qs a (by simp) ha, Or.inr (ts b (by simp)),
          Or.inr ⟨by simp, ts c' (by simp)⟩⟩, ?_, ?_⟩
        · simp only [List.map, joinS]
          rw [← List.append_assoc]
          exact last _ c' (seg c' (by simp)).1
        · intro c hc
          simp only [List.map, joinS, quotePart, if_neg ha, List.cons_append, List.head?_cons,
            Option.some.injEq] at hc
          rw [← hc]; exact hq2
      | _ :: _ :: _ :: _ :: _, _, h => exact absurd h (by simp)
    exact ⟨t, ⟨[], [], by simp, by simp, by simp, form.2.2, form.2.1⟩, form.1⟩
  unfold strValueText
  rw [ref, if_pos rfl, idem]

example : '"' ∉ L!"db.my table.*" ∧ (segments L!"db.my table.*").length = 3 ∧
    strValueText ⟨.sql, ⟨id, id, fun _ => true, fun _ => [], fun _ => []⟩⟩
      L!"\"db\".\"my table\".*" = L!"\"db\".\"my table\".*" := by decide

/-! ### C06 -/

/-- The claim of C06: whatever string is used as a name, the text lexes as identifiers, dots and
asterisks only. -/
def C06_claim : Prop :=
  ∀ (cx : Ctx) (n : Nat) (d : Dialect), Fits cx d → ∀ s t : Str,
    (sem cx (n + 1)).str (.sqlRef (.str s)) = .ok t → ∀ k ∈ lex d t, RefTok k

/-- C06 is false: a single quote character in a name ends the identifier. -/
theorem C06_refuted : ¬ C06_claim := by
  intro h
  have := h ⟨.sql, ⟨id, id, fun _ => true, fun _ => [], fun _ => []⟩⟩ 0 standardDialect rfl
    L!"a\" OR 1=1 --" L!"\"a\" OR 1=1 --\"" (by decide) .comment (by decide)
  exact this

/-- The true part of C06. A name in which every quote character belongs to a pair around a
non-empty text (in particular a name without quotes, or a quoted one) yields identifiers, dots and
asterisks only.  Missing from the full claim: names with stray quotes, see `C06_refuted`. -/
theorem C06_names_stay_quoted_partial (cx : Ctx) (n : Nat) (d : Dialect) (hf : Fits cx d) (s : Str)
    (hs : WellQuoted cx.backend.quote s) :
    ∃ t ts, (sem cx (n + 1)).str (.sqlRef (.str s)) = .ok t ∧ Reads d t ts ∧
      ∀ k ∈ ts, RefTok k := by
  refine ⟨reference cx.backend.quote s, refToks (refParts cx.backend.quote s), rfl, ?_,
    refToks_refTok _⟩
  rw [← hf] at hs ⊢
  exact reads_reference hf.known (fun p hp => (refParts_wellQuoted hs p hp).2)

example : WellQuoted '"' L!"t.\"a.b\"" :=
  .chr (by decide) (.chr (by decide) (.quoted (b := L!"a.b") (by decide) (by decide) .nil))

end SqlPuzzle
