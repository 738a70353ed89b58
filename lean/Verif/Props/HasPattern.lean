import Verif.Proofs.HasViews
import Verif.Proofs.Pattern

/-!
C64: `has()` takes the value as it is.
-/

namespace SqlPuzzle

open Spec PatternFacts

private def ascii0 : Env :=
  ⟨fun s => s.map Char.toUpper, fun s => s.map Char.toLower, fun c => c.isAlphanum || c == '_',
    fun _ => [], fun _ => []⟩

private def cx0 : Ctx := ⟨.sql, ascii0⟩

private theorem ascii0_ok : AsciiTables ascii0 := ⟨fun _ _ => rfl, fun _ _ => rfl⟩

/-- C64, full statement: `has(clause, value)` is true iff the value occurs in the text of the clause
untouched by word characters, whatever string the value is. -/
def C64_claim : Prop :=
  ∀ (cx : Ctx) (n : Nat) (q : Select) (name : Str) (set : Prop) (text : Str → Prop) (v : Str),
    AsciiTables cx.env → SelectClause cx n q name set text → v ≠ [] →
    (selectHas cx (sem cx n) q name (.str v) = .ok true ↔
      ∃ t, text t ∧ WholeWord cx.env.isWord v t)

/-- The text of the columns of a `SELECT` with one column. -/
private def OneColumn (cx : Ctx) (n : Nat) (q : Select) (t : Str) : Prop :=
  (q.columns = [] ∧ t = ['*']) ∨
    ∃ ts, q.columns ≠ [] ∧ List.Forall₂ (ColumnText cx n) q.columns ts ∧ t = joinS L!", " ts

private theorem oneColumn {cx : Ctx} {n : Nat} {nm : Obj} {a : Str}
    (ha : (sem cx (n + 1)).str (.sqlRef nm) = .ok a) (t : Str) :
    OneColumn cx n { columns := [⟨nm, .none⟩] } t ↔ t = a := by
  constructor
  · rintro (⟨h, _⟩ | ⟨ts, _, h, rfl⟩)
    · cases h
    · cases h with
      | cons h1 h2 =>
        cases h2
        obtain ⟨b, hb, h | h⟩ := h1
        · rw [ha] at hb; cases hb; rw [h.2]; rfl
        · cases h.1
  · rintro rfl
    exact .inr ⟨[t], by simp, .cons ⟨t, ha, .inl ⟨rfl, rfl⟩⟩ .nil, rfl⟩

/-- C64 is false: `select('abc').has('columns', 'a.c')` is true. -/
theorem C64_refuted : ¬C64_claim := by
  intro h
  obtain ⟨t, h1, a, b, h2, _⟩ := (h cx0 3 { columns := [⟨.str L!"abc", .none⟩] } L!"columns" _ _
    L!"a.c" ascii0_ok .columns (by decide)).mp (by decide +kernel)
  rw [(oneColumn (a := L!"\"abc\"") (by decide +kernel) t).mp h1] at h2
  have : '.' ∈ L!"\"abc\"" := by rw [h2]; simp
  revert this
  decide

/-- C64 is false also the other way round: `select(Count('x'))` has the column `COUNT("x")`, but asked
for it by this text, or by `Count('x')`, `has` answers that it has not. -/
theorem C64_refuted_function :
    (∃ set text t, SelectClause cx0 3 { columns := [⟨mkFunc .count false (.str L!"x"), .none⟩] }
      L!"columns" set text ∧ text t ∧ WholeWord cx0.env.isWord L!"COUNT(\"x\")" t) ∧
    selectHas cx0 (sem cx0 3) { columns := [⟨mkFunc .count false (.str L!"x"), .none⟩] }
      L!"columns" (.str L!"COUNT(\"x\")") = .ok false ∧
    selectHas cx0 (sem cx0 3) { columns := [⟨mkFunc .count false (.str L!"x"), .none⟩] }
      L!"columns" (mkFunc .count false (.str L!"x")) = .ok false :=
  ⟨⟨_, _, L!"COUNT(\"x\")", .columns, (oneColumn (by decide +kernel) _).mpr rfl, [], [], by decide +kernel,
    fun c hc => (by cases hc), fun c hc => (by cases hc)⟩, by decide +kernel, by decide +kernel⟩

/-- C64 is false: asking for `COUNT(*)` raises `re.error`, whether or not the column is there. -/
theorem C64_refuted_raises :
    selectHas cx0 (sem cx0 3) {} L!"columns" (.str L!"COUNT(*)") = .error .patternError ∧
    selectHas cx0 (sem cx0 3) { columns := [⟨mkFunc .count false .none, .none⟩] }
      L!"columns" (mkFunc .count false .none) = .error .patternError :=
  ⟨by decide +kernel, by decide +kernel⟩

/-- C64 is false of a dotted name: `select('t.c').has('columns', 't.c')` is false. -/
theorem C64_refuted_dotted :
    selectHas cx0 (sem cx0 3) { columns := [⟨.str L!"t.c", .none⟩] } L!"columns" (.str L!"t.c") =
      .ok false := by decide +kernel

/-! ### What the answer is -/

/-- The model of the search is matching of regular expressions. -/
theorem C64_search (isWord : Char → Bool) (r : Pat) (t : Str) :
    patSearch isWord r t = true ↔ ∃ a b p, t = a ++ b ∧ Matches isWord r (a.isEmpty, b) p :=
  search_iff r t

/-- For a value without special characters, the search for the pattern and the search for the value
are the same. -/
theorem C64_plain (cx : Ctx) (he : AsciiTables cx.env) {v : Str} (hv : Plain v) (t : Str) :
    ∃ r, hasPattern v = .ok r ∧ hasText cx v t = .ok (patSearch cx.env.isWord r t) := by
  have hn : cx.env.isWord '\n' = false := by rw [he.word _ (by decide)]; decide
  have ho : ∀ c ∈ v, Ordinary c := hv.2
  obtain ⟨h1, h2⟩ := plain_parens ho
  obtain ⟨r, h3, h4⟩ := (pattern_simple fun c hc => .inl (ho c hc)).2 h2
  refine ⟨r, h3, ?_⟩
  unfold hasText
  rw [plain_meta hv]
  have : searchFrom cx v false t = patSearch cx.env.isWord r t := by
    rw [Bool.eq_iff_iff, search_whole, h4 _ hn t, h1]
    constructor
    · intro h; exact ⟨v, (dots_plain ho).mpr rfl, h⟩
    · rintro ⟨w, h5, h6⟩; rwa [(dots_plain ho).mp h5] at h6
  rw [this]
  rfl

section
variable (cx : Ctx) (n : Nat)

private theorem view_simple {S : Sem} (he : AsciiTables cx.env) {p : PartView}
    (hu : p.upper = false) {v : Str} (hv : Simple v) (hne : v ≠ []) :
    (ParensMatch v → (viewHas cx S p (.str v) = .ok true ↔
      p.isSet = true ∧ ∃ t, p.text = .ok t ∧
        ∃ w, DotsFor (withoutParens v) w ∧ WholeWord cx.env.isWord w t)) ∧
    (¬ParensMatch v → ∀ t, p.isSet = true ∧ p.text = .ok t →
      viewHas cx S p (.str v) = .error .patternError) := by
  have hn : cx.env.isWord '\n' = false := by rw [he.word _ (by decide)]; decide
  have ht : (Obj.str v).truthy = true := by
    cases v with
    | nil => exact absurd rfl hne
    | cons c v => rfl
  have e : viewHas cx S p (.str v) = if !p.isSet then .ok false else
      (do let s ← p.text; hasText cx v s) := by
    unfold viewHas partHas
    rw [ht, hu]
    rfl
  rw [e]
  constructor
  · intro hp
    cases p.isSet with
    | false => simp
    | true =>
      cases p.text with
      | error e => simp [bind, Except.bind]
      | ok t =>
        obtain ⟨b, h1, h2⟩ := (hasText_simple cx hn hv t).2 hp
        simp only [bind, Except.bind, h1, Bool.not_true, Bool.false_eq_true, if_false,
          Except.ok.injEq, true_and, h2]
        constructor
        · intro h; exact ⟨t, rfl, h⟩
        · rintro ⟨_, rfl, h⟩; exact h
  · rintro hp t ⟨h1, h2⟩
    rw [h1, h2]
    exact (hasText_simple cx hn hv t).1 hp

private theorem selectHas_value (q : Select) (name : Str) {v : Str} (hne : v ≠ []) :
    selectHas cx (sem cx n) q name (.str v) = selectHasBase cx (sem cx n) q name (.str v) := by
  have ht : (Obj.str v).truthy = true := by
    cases v with
    | nil => exact absurd rfl hne
    | cons c v => rfl
  unfold selectHas
  rw [ht]
  cases h : selectHasBase cx (sem cx n) q name (.str v) with
  | error e => rfl
  | ok b => cases b <;> rfl

/-- C64, what holds, SELECT, for values of ordinary characters, dots and parentheses.  If the
parentheses match, they are ignored, and a dot stands for any character but a newline; otherwise
`has` raises `re.error` unless the clause is missing. -/
theorem C64_select_partial (he : AsciiTables cx.env) {q : Select} {name : Str} {set : Prop}
    {text : Str → Prop} (hc : SelectClause cx n q name set text) {v : Str} (hv : Simple v)
    (hne : v ≠ []) :
    (ParensMatch v → (selectHas cx (sem cx n) q name (.str v) = .ok true ↔
      ∃ t, text t ∧ ∃ w, DotsFor (withoutParens v) w ∧ WholeWord cx.env.isWord w t)) ∧
    (¬ParensMatch v → ∀ t, text t →
      selectHas cx (sem cx n) q name (.str v) = .error .patternError) := by
  obtain ⟨x, h1, h2⟩ := select_clause cx n hc
  obtain ⟨p, g1, g2, g3, g4⟩ := select_view cx (sem cx n) h1
  rw [selectHas_value cx n q name hne, g1]
  obtain ⟨h5, h6⟩ := view_simple cx (S := sem cx n) he g2 hv hne
  constructor
  · intro hp
    rw [h5 hp, g3, g4]
    constructor
    · rintro ⟨hs, t, ht, hw⟩; exact ⟨t, (h2 t).mp ⟨hs, ht⟩, hw⟩
    · rintro ⟨t, ht, hw⟩; exact ⟨((h2 t).mpr ht).1, t, ((h2 t).mpr ht).2, hw⟩
  · intro hp t ht
    obtain ⟨h7, h8⟩ := (h2 t).mpr ht
    exact h6 hp t ⟨g3.mpr h7, by rw [g4, h8]⟩

/-- C64, what holds, UPDATE. -/
theorem C64_update_partial (he : AsciiTables cx.env) {q : Update} {name : Str} {set : Prop}
    {text : Str → Prop} (hc : UpdateClause cx n q name set text) {v : Str} (hv : Simple v)
    (hne : v ≠ []) :
    (ParensMatch v → (updateHas cx (sem cx n) q name (.str v) = .ok true ↔
      ∃ t, text t ∧ ∃ w, DotsFor (withoutParens v) w ∧ WholeWord cx.env.isWord w t)) ∧
    (¬ParensMatch v → ∀ t, text t →
      updateHas cx (sem cx n) q name (.str v) = .error .patternError) := by
  obtain ⟨x, h1, h2⟩ := update_clause cx n hc
  obtain ⟨p, g1, g2, g3, g4⟩ := update_view cx (sem cx n) h1
  rw [g1]
  obtain ⟨h5, h6⟩ := view_simple cx (S := sem cx n) he g2 hv hne
  constructor
  · intro hp
    rw [h5 hp, g3, g4]
    constructor
    · rintro ⟨hs, t, ht, hw⟩; exact ⟨t, (h2 t).mp ⟨hs, ht⟩, hw⟩
    · rintro ⟨t, ht, hw⟩; exact ⟨((h2 t).mpr ht).1, t, ((h2 t).mpr ht).2, hw⟩
  · intro hp t ht
    obtain ⟨h7, h8⟩ := (h2 t).mpr ht
    exact h6 hp t ⟨g3.mpr h7, by rw [g4, h8]⟩

/-- C64, what holds, DELETE. -/
theorem C64_delete_partial (he : AsciiTables cx.env) {q : Delete} {name : Str} {set : Prop}
    {text : Str → Prop} (hc : DeleteClause cx n q name set text) {v : Str} (hv : Simple v)
    (hne : v ≠ []) :
    (ParensMatch v → (deleteHas cx (sem cx n) q name (.str v) = .ok true ↔
      ∃ t, text t ∧ ∃ w, DotsFor (withoutParens v) w ∧ WholeWord cx.env.isWord w t)) ∧
    (¬ParensMatch v → ∀ t, text t →
      deleteHas cx (sem cx n) q name (.str v) = .error .patternError) := by
  obtain ⟨x, h1, h2⟩ := delete_clause cx n hc
  obtain ⟨p, g1, g2, g3, g4⟩ := delete_view cx (sem cx n) h1
  rw [g1]
  obtain ⟨h5, h6⟩ := view_simple cx (S := sem cx n) he g2 hv hne
  constructor
  · intro hp
    rw [h5 hp, g3, g4]
    constructor
    · rintro ⟨hs, t, ht, hw⟩; exact ⟨t, (h2 t).mp ⟨hs, ht⟩, hw⟩
    · rintro ⟨t, ht, hw⟩; exact ⟨((h2 t).mpr ht).1, t, ((h2 t).mpr ht).2, hw⟩
  · intro hp t ht
    obtain ⟨h7, h8⟩ := (h2 t).mpr ht
    exact h6 hp t ⟨g3.mpr h7, by rw [g4, h8]⟩

/-- C64, what holds, INSERT. -/
theorem C64_insert_partial (he : AsciiTables cx.env) {q : Insert} {name : Str} {set : Prop}
    {text : Str → Prop} (hc : InsertClause cx n q name set text) {v : Str} (hv : Simple v)
    (hne : v ≠ []) :
    (ParensMatch v → (insertHas cx (sem cx n) q name (.str v) = .ok true ↔
      ∃ t, text t ∧ ∃ w, DotsFor (withoutParens v) w ∧ WholeWord cx.env.isWord w t)) ∧
    (¬ParensMatch v → ∀ t, text t →
      insertHas cx (sem cx n) q name (.str v) = .error .patternError) := by
  obtain ⟨x, h1, h2⟩ := insert_clause cx n hc
  obtain ⟨p, g1, g2, g3, g4⟩ := insert_view cx (sem cx n) h1
  rw [g1]
  obtain ⟨h5, h6⟩ := view_simple cx (S := sem cx n) he g2 hv hne
  constructor
  · intro hp
    rw [h5 hp, g3, g4]
    constructor
    · rintro ⟨hs, t, ht, hw⟩; exact ⟨t, (h2 t).mp ⟨hs, ht⟩, hw⟩
    · rintro ⟨t, ht, hw⟩; exact ⟨((h2 t).mpr ht).1, t, ((h2 t).mpr ht).2, hw⟩
  · intro hp t ht
    obtain ⟨h7, h8⟩ := (h2 t).mpr ht
    exact h6 hp t ⟨g3.mpr h7, by rw [g4, h8]⟩

/-- C64: a value with `(*` or `(+` in it, such as `COUNT(*)`, raises `re.error` unless the clause is
missing. -/
theorem C64_star {q : Select} {name : Str} {set : Prop} {text : Str → Prop}
    (hc : SelectClause cx n q name set text) {a : Str} (ha : Simple a) (b : Str) {x : Char}
    (hx : x = '*' ∨ x = '+') {t : Str} (ht : text t) :
    selectHas cx (sem cx n) q name (.str (a ++ '(' :: x :: b)) = .error .patternError := by
  obtain ⟨y, h1, h2⟩ := select_clause cx n hc
  obtain ⟨p, g1, g2, g3, g4⟩ := select_view cx (sem cx n) h1
  obtain ⟨h7, h8⟩ := (h2 t).mpr ht
  have hne : a ++ '(' :: x :: b ≠ [] := by simp
  have htr : (Obj.str (a ++ '(' :: x :: b)).truthy = true := by
    cases a <;> rfl
  rw [selectHas_value cx n q name hne, g1]
  unfold viewHas partHas
  rw [htr, g2, g4, h8, g3.mpr h7]
  exact hasText_repeat cx ha b hx t

end

/-- `has('columns', 'f(x)')` finds `fx`, and `a.c` is a value with matching parentheses. -/
example : Simple L!"f(x)" ∧ ParensMatch L!"f(x)" ∧ withoutParens L!"f(x)" = L!"fx" ∧
    Simple L!"a.c" ∧ ParensMatch L!"a.c" ∧ DotsFor L!"a.c" L!"abc" := by
  refine ⟨by unfold Simple Ordinary; decide +kernel, (parens_iff _).mpr (by decide +kernel),
    by decide +kernel, by unfold Simple Ordinary; decide +kernel,
    (parens_iff _).mpr (by decide +kernel), ?_⟩
  exact .cons (.inl rfl) (.cons (.inr ⟨rfl, by decide⟩) (.cons (.inl rfl) .nil))

/-- `has('columns', 'f(x')` raises. -/
example : Simple L!"f(x" ∧ ¬ParensMatch L!"f(x" ∧
    selectHas cx0 (sem cx0 3) {} L!"columns" (.str L!"f(x") = .error .patternError :=
  ⟨by unfold Simple Ordinary; decide +kernel,
    fun h => absurd ((parens_iff _).mp h) (by decide +kernel), by decide +kernel⟩

end SqlPuzzle
