import Verif.Spec.Lexer
import Verif.Model.Render

/-!
Lemmas about the lexer of `Spec/Lexer.lean` and the fragments the model produces.
-/

namespace SqlPuzzle

open Spec

/-- The identifier quote is one of the two the supported servers use. -/
def Spec.Dialect.Known (d : Dialect) : Prop := d.identQuote = '"' ∨ d.identQuote = '`'

theorem lex_nil (d : Dialect) : lex d [] = [] := rfl

theorem lexFrom_cons (d : Dialect) (m : Mode) (c : Char) (cs : Str) :
    lexFrom d m (c :: cs) = (step d m c).1 ++ lexFrom d (step d m c).2 cs := rfl

theorem lexFrom_nil (d : Dialect) (m : Mode) : lexFrom d m [] = finish m := rfl

/-! ### Composition of fragments -/

theorem Spec.ReadsAny.reads {d f ts} (h : ReadsAny d f ts) : Reads d f ts := fun rest _ => h rest

theorem Spec.ReadsAny.append {d f g ts us} (h : ReadsAny d f ts) (k : ReadsAny d g us) :
    ReadsAny d (f ++ g) (ts ++ us) := by
  intro rest
  rw [List.append_assoc, h, k, List.append_assoc]

theorem Spec.ReadsAny.append_reads {d f g ts us} (h : ReadsAny d f ts) (k : Reads d g us) :
    Reads d (f ++ g) (ts ++ us) := by
  intro rest hr
  rw [List.append_assoc, h, k rest hr, List.append_assoc]

theorem readsAny_nil (d) : ReadsAny d [] [] := fun _ => rfl

theorem reads_nil (d) : Reads d [] [] := fun _ _ => rfl

/-- Text that begins with a separator. -/
def SepStart (f : Str) : Prop := ∃ c cs, f = c :: cs ∧ (c = ' ' ∨ c = ',' ∨ c = ')')

theorem SepStart.sep {f} (h : SepStart f) (rest : Str) : Sep (f ++ rest) := by
  obtain ⟨c, cs, rfl, h⟩ := h
  exact Or.inr ⟨c, cs ++ rest, rfl, h⟩

theorem Spec.Reads.append_any {d f g ts us} (h : Reads d f ts) (s : SepStart g)
    (k : ReadsAny d g us) : ReadsAny d (f ++ g) (ts ++ us) := by
  intro rest
  rw [List.append_assoc, h _ (s.sep rest), k, List.append_assoc]

theorem Spec.Reads.append {d f g ts us} (h : Reads d f ts) (s : SepStart g)
    (k : Reads d g us) : Reads d (f ++ g) (ts ++ us) := by
  intro rest hr
  rw [List.append_assoc, h _ (s.sep rest), k rest hr, List.append_assoc]

theorem Spec.Reads.lex {d f ts} (h : Reads d f ts) : lex d f = ts := by
  have := h [] (Or.inl rfl)
  simpa [lex_nil] using this

/-! ### Fixed fragments -/

/-- What `reads_fixed` needs to know; proved by `fixed_rfl` for concrete `f` and `ts`. -/
def FixedReads (f : Str) (ts : List Tok) (q : Char) : Prop :=
  ∀ b dq hc cs,
    lex ⟨q, b, dq, hc⟩ (f ++ []) = ts ++ lex ⟨q, b, dq, hc⟩ [] ∧
    lex ⟨q, b, dq, hc⟩ (f ++ ' ' :: cs) = ts ++ lex ⟨q, b, dq, hc⟩ (' ' :: cs) ∧
    lex ⟨q, b, dq, hc⟩ (f ++ ',' :: cs) = ts ++ lex ⟨q, b, dq, hc⟩ (',' :: cs) ∧
    lex ⟨q, b, dq, hc⟩ (f ++ ')' :: cs) = ts ++ lex ⟨q, b, dq, hc⟩ (')' :: cs)

/-- Fixed text that is read as fixed tokens for every known dialect. -/
theorem reads_fixed {d : Dialect} (hq : d.Known) (f : Str) (ts : List Tok)
    (h : FixedReads f ts '"' ∧ FixedReads f ts '`') : Reads d f ts := by
  obtain ⟨q, b, dq, hc⟩ := d
  have key : FixedReads f ts q := by
    rcases hq with e | e <;> (simp only at e; subst e)
    · exact h.1
    · exact h.2
  rintro rest (rfl | ⟨c, cs, rfl, rfl | rfl | rfl⟩)
  · exact (key b dq hc []).1
  · exact (key b dq hc cs).2.1
  · exact (key b dq hc cs).2.2.1
  · exact (key b dq hc cs).2.2.2

/-- Fixed text that is read as fixed tokens whatever follows. -/
theorem readsAny_fixed {d : Dialect} (hq : d.Known) (f : Str) (ts : List Tok)
    (h : ∀ b dq hc cs, lex ⟨'"', b, dq, hc⟩ (f ++ cs) = ts ++ lex ⟨'"', b, dq, hc⟩ cs ∧
      lex ⟨'`', b, dq, hc⟩ (f ++ cs) = ts ++ lex ⟨'`', b, dq, hc⟩ cs) : ReadsAny d f ts := by
  obtain ⟨q, b, dq, hc⟩ := d
  intro rest
  rcases hq with e | e <;> (simp only at e; subst e)
  · exact (h b dq hc rest).1
  · exact (h b dq hc rest).2

/-- Both dialects by computation. -/
macro "fixed_rfl" : term =>
  `(And.intro (fun _ _ _ _ => ⟨rfl, rfl, rfl, rfl⟩) (fun _ _ _ _ => ⟨rfl, rfl, rfl, rfl⟩))

/-! ### String literals -/

/-- `_escape_value` character by character. -/
def escChar (c : Char) : Str :=
  if c = '\\' then ['\\', '\\'] else if c = '\'' then ['\'', '\''] else if c = '\n' then ['\\', 'n']
  else [c]

theorem escapeValue_eq (s : Str) : escapeValue s = s.flatMap escChar := by
  induction s with
  | nil => rfl
  | cons c cs ih =>
    have key : ∀ (a b : Str), escapeValue (a ++ b) = escapeValue a ++ escapeValue b := by
      intro a b; simp [escapeValue, replaceChar, List.flatMap_append]
    have h1 : escapeValue [c] = escChar c := by
      unfold escapeValue replaceChar escChar
      by_cases h1 : c = '\\'
      · subst h1; decide
      · by_cases h2 : c = '\''
        · subst h2; decide
        · by_cases h3 : c = '\n'
          · subst h3; decide
          · simp [h1, h2, h3]
    have := key [c] cs
    simp only [List.singleton_append] at this
    rw [this, h1, ih]; simp

theorem escapeValue_cons (c : Char) (s : Str) : escapeValue (c :: s) = escChar c ++ escapeValue s := by
  simp [escapeValue_eq]

/-- What a server without backslash escapes reads for a character. -/
def stdChar (c : Char) : Str :=
  if c = '\\' then ['\\', '\\'] else if c = '\n' then ['\\', 'n'] else [c]

theorem lex_body_bs (d : Dialect) (s : Str) (acc r : Str) :
    lexFrom d (.str true '\'' acc) (escapeValue s ++ r) = lexFrom d (.str true '\'' (acc ++ s)) r := by
  induction s generalizing acc with
  | nil => simp [escapeValue_eq]
  | cons c cs ih =>
    rw [escapeValue_cons, List.append_assoc]
    unfold escChar
    by_cases h1 : c = '\\'
    · subst h1
      simp only [if_true, List.cons_append, List.nil_append, lexFrom_cons]
      simp [step, unescape, ih]
    · by_cases h2 : c = '\''
      · subst h2
        simp [lexFrom_cons, step, ih]
      · by_cases h3 : c = '\n'
        · subst h3
          simp [lexFrom_cons, step, unescape, ih]
        · simp [h1, h2, h3, lexFrom_cons, step, ih]

theorem lex_body_std (d : Dialect) (s : Str) (acc r : Str) :
    lexFrom d (.str false '\'' acc) (escapeValue s ++ r) =
      lexFrom d (.str false '\'' (acc ++ s.flatMap stdChar)) r := by
  induction s generalizing acc with
  | nil => simp [escapeValue_eq]
  | cons c cs ih =>
    rw [escapeValue_cons, List.append_assoc]
    unfold escChar
    by_cases h1 : c = '\\'
    · subst h1
      simp [lexFrom_cons, step, ih, stdChar]
    · by_cases h2 : c = '\''
      · subst h2
        simp [lexFrom_cons, step, ih, stdChar]
      · by_cases h3 : c = '\n'
        · subst h3
          simp [lexFrom_cons, step, ih, stdChar]
        · simp [h1, h2, h3, lexFrom_cons, step, ih, stdChar]

/-- The contents a server reads in the literal made from `s`. -/
def litValue (d : Dialect) (s : Str) : Str := if d.backslash then s else s.flatMap stdChar

/-- The text does not continue a literal. -/
def NoQuote (rest : Str) : Prop := ∀ cs, rest ≠ '\'' :: cs

theorem lex_strEnd (d : Dialect) (bs : Bool) (acc rest : Str) (h : NoQuote rest) :
    lexFrom d (.strEnd bs '\'' acc) rest = .str acc :: lex d rest := by
  cases rest with
  | nil => rfl
  | cons c cs =>
    have hc : c ≠ '\'' := fun e => h cs (by rw [e])
    simp [lexFrom_cons, step, hc, emit, lex]

theorem start_quote {d : Dialect} (hq : Dialect.Known d) :
    start d '\'' = ([], .str d.backslash '\'' []) := by
  obtain ⟨q, b, dq, hc⟩ := d
  rcases hq with h | h <;> (simp only at h; subst h; rfl)

theorem lex_literal (d : Dialect) (hq : Dialect.Known d) (s rest : Str) (h : NoQuote rest) :
    lex d ('\'' :: (escapeValue s ++ ['\'']) ++ rest) = .str (litValue d s) :: lex d rest := by
  have e : '\'' :: (escapeValue s ++ ['\'']) ++ rest = '\'' :: (escapeValue s ++ '\'' :: rest) := by
    simp
  rw [e]
  show lexFrom d .normal _ = _
  rw [lexFrom_cons]
  simp only [step, start_quote hq, List.nil_append]
  have fin : ∀ bs acc, lexFrom d (.str bs '\'' acc) ('\'' :: rest) = .str acc :: lex d rest := by
    intro bs acc
    rw [lexFrom_cons]
    simp [step, lex_strEnd d bs acc rest h]
  unfold litValue
  cases hb : d.backslash
  · rw [lex_body_std, fin]; simp
  · rw [lex_body_bs, fin]; simp

theorem Spec.Sep.noQuote {rest} (h : Sep rest) : NoQuote rest := by
  intro cs e
  rcases h with rfl | ⟨c, cs', rfl, hc⟩
  · cases e
  · cases e
    rcases hc with h | h | h <;> exact absurd h (by decide)

theorem reads_literal {d : Dialect} (hq : Dialect.Known d) (s : Str) :
    Reads d ('\'' :: (escapeValue s ++ ['\''])) [.str (litValue d s)] := by
  intro rest hr
  rw [lex_literal d hq s rest hr.noQuote]; rfl

end SqlPuzzle
