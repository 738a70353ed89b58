import Verif.Proofs.RegexText
import Verif.Props.HasPattern

/-!
C64: which regular expression `has()` searches for, and how to ask for a text as it is.
-/

namespace SqlPuzzle

open Spec PatternFacts

private def ascii0 : Env :=
  ⟨fun s => s.map Char.toUpper, fun s => s.map Char.toLower, fun c => c.isAlphanum || c == '_',
    fun _ => [], fun _ => []⟩

private def cx0 : Ctx := ⟨.sql, ascii0⟩

section
variable (cx : Ctx) (n : Nat)

private theorem view_answer {S : Sem} {p : PartView} (hu : p.upper = false) {v : Str}
    (hne : v ≠ []) {P : Str → Prop} (h : ∀ t, ∃ b, hasText cx v t = .ok b ∧ (b = true ↔ P t)) :
    (viewHas cx S p (.str v) = .ok true ↔ p.isSet = true ∧ ∃ t, p.text = .ok t ∧ P t) ∧
    ∀ t, p.text = .ok t → ∃ b, viewHas cx S p (.str v) = .ok b := by
  have ht : (Obj.str v).truthy = true := by
    cases v with
    | nil => exact absurd rfl hne
    | cons c v => rfl
  have e : viewHas cx S p (.str v) = if !p.isSet then .ok false else
      (do let s ← p.text; hasText cx v s) := by
    unfold viewHas partHas
    rw [ht, hu]
    rfl
  rw [e]
  cases p.isSet with
  | false => exact ⟨by simp, fun t _ => ⟨false, rfl⟩⟩
  | true =>
    cases p.text with
    | error e => exact ⟨by simp [bind, Except.bind], fun t h => by cases h⟩
    | ok t =>
      obtain ⟨b, h1, h2⟩ := h t
      constructor
      · simp only [bind, Except.bind, h1, Bool.not_true, Bool.false_eq_true, if_false,
          Except.ok.injEq, true_and, h2]
        constructor
        · intro h; exact ⟨t, rfl, h⟩
        · rintro ⟨_, rfl, h⟩; exact h
      · intro _ _
        exact ⟨b, by simp only [bind, Except.bind, h1, Bool.not_true, Bool.false_eq_true, if_false]⟩

private theorem value_base (q : Select) (name : Str) {v : Str} (hne : v ≠ []) :
    selectHas cx (sem cx n) q name (.str v) = selectHasBase cx (sem cx n) q name (.str v) := by
  have ht : (Obj.str v).truthy = true := by
    cases v with
    | nil => exact absurd rfl hne
    | cons c v => rfl
  unfold selectHas
  rw [ht]
  cases h : selectHasBase cx (sem cx n) q name (.str v) with
  | error e => rfl
  | ok b => cases b <;> rfl

private theorem newline (he : AsciiTables cx.env) : cx.env.isWord '\n' = false := by
  rw [he.word _ (by decide)]; decide

private theorem regex_text (he : AsciiTables cx.env) {v : Str} {r : Pat} (hne : v ≠ [])
    (h : RegexText .alt (L!"([^\\w]|^)" ++ (v ++ L!"([^\\w]|$)")) r) (t : Str) :
    ∃ b, hasText cx v t = .ok b ∧
      (b = true ↔ ∃ a b p, t = a ++ b ∧ Matches cx.env.isWord r (a.isEmpty, b) p) := by
  have e := pattern_regex h
  refine ⟨patSearch cx.env.isWord r t, ?_, C64_search cx.env.isWord r t⟩
  cases hm : v.any isMeta with
  | true =>
    unfold hasText
    rw [hm, e]
    rfl
  | false =>
    obtain ⟨r', h1, h2⟩ := C64_plain cx he (v := v) ⟨hne, no_meta hm⟩ t
    rw [e] at h1
    cases h1
    exact h2

private theorem select_answer {q : Select} {name : Str} {set : Prop} {text : Str → Prop}
    (hc : SelectClause cx n q name set text) {v : Str} (hne : v ≠ []) {P : Str → Prop}
    (h : ∀ t, ∃ b, hasText cx v t = .ok b ∧ (b = true ↔ P t)) :
    (selectHas cx (sem cx n) q name (.str v) = .ok true ↔ ∃ t, text t ∧ P t) ∧
    ∀ t, text t → ∃ b, selectHas cx (sem cx n) q name (.str v) = .ok b := by
  obtain ⟨x, h1, h2⟩ := select_clause cx n hc
  obtain ⟨p, g1, g2, g3, g4⟩ := select_view cx (sem cx n) h1
  rw [value_base cx n q name hne, g1]
  obtain ⟨h5, h6⟩ := view_answer cx (S := sem cx n) g2 hne h
  refine ⟨?_, fun t ht => h6 t (by rw [g4]; exact ((h2 t).mpr ht).2)⟩
  rw [h5, g3, g4]
  constructor
  · rintro ⟨hs, t, ht, hw⟩; exact ⟨t, (h2 t).mp ⟨hs, ht⟩, hw⟩
  · rintro ⟨t, ht, hw⟩; exact ⟨((h2 t).mpr ht).1, t, ((h2 t).mpr ht).2, hw⟩

private theorem update_answer {q : Update} {name : Str} {set : Prop} {text : Str → Prop}
    (hc : UpdateClause cx n q name set text) {v : Str} (hne : v ≠ []) {P : Str → Prop}
    (h : ∀ t, ∃ b, hasText cx v t = .ok b ∧ (b = true ↔ P t)) :
    (updateHas cx (sem cx n) q name (.str v) = .ok true ↔ ∃ t, text t ∧ P t) ∧
    ∀ t, text t → ∃ b, updateHas cx (sem cx n) q name (.str v) = .ok b := by
  obtain ⟨x, h1, h2⟩ := update_clause cx n hc
  obtain ⟨p, g1, g2, g3, g4⟩ := update_view cx (sem cx n) h1
  rw [g1]
  obtain ⟨h5, h6⟩ := view_answer cx (S := sem cx n) g2 hne h
  refine ⟨?_, fun t ht => h6 t (by rw [g4]; exact ((h2 t).mpr ht).2)⟩
  rw [h5, g3, g4]
  constructor
  · rintro ⟨hs, t, ht, hw⟩; exact ⟨t, (h2 t).mp ⟨hs, ht⟩, hw⟩
  · rintro ⟨t, ht, hw⟩; exact ⟨((h2 t).mpr ht).1, t, ((h2 t).mpr ht).2, hw⟩

private theorem delete_answer {q : Delete} {name : Str} {set : Prop} {text : Str → Prop}
    (hc : DeleteClause cx n q name set text) {v : Str} (hne : v ≠ []) {P : Str → Prop}
    (h : ∀ t, ∃ b, hasText cx v t = .ok b ∧ (b = true ↔ P t)) :
    (deleteHas cx (sem cx n) q name (.str v) = .ok true ↔ ∃ t, text t ∧ P t) ∧
    ∀ t, text t → ∃ b, deleteHas cx (sem cx n) q name (.str v) = .ok b := by
  obtain ⟨x, h1, h2⟩ := delete_clause cx n hc
  obtain ⟨p, g1, g2, g3, g4⟩ := delete_view cx (sem cx n) h1
  rw [g1]
  obtain ⟨h5, h6⟩ := view_answer cx (S := sem cx n) g2 hne h
  refine ⟨?_, fun t ht => h6 t (by rw [g4]; exact ((h2 t).mpr ht).2)⟩
  rw [h5, g3, g4]
  constructor
  · rintro ⟨hs, t, ht, hw⟩; exact ⟨t, (h2 t).mp ⟨hs, ht⟩, hw⟩
  · rintro ⟨t, ht, hw⟩; exact ⟨((h2 t).mpr ht).1, t, ((h2 t).mpr ht).2, hw⟩

private theorem insert_answer {q : Insert} {name : Str} {set : Prop} {text : Str → Prop}
    (hc : InsertClause cx n q name set text) {v : Str} (hne : v ≠ []) {P : Str → Prop}
    (h : ∀ t, ∃ b, hasText cx v t = .ok b ∧ (b = true ↔ P t)) :
    (insertHas cx (sem cx n) q name (.str v) = .ok true ↔ ∃ t, text t ∧ P t) ∧
    ∀ t, text t → ∃ b, insertHas cx (sem cx n) q name (.str v) = .ok b := by
  obtain ⟨x, h1, h2⟩ := insert_clause cx n hc
  obtain ⟨p, g1, g2, g3, g4⟩ := insert_view cx (sem cx n) h1
  rw [g1]
  obtain ⟨h5, h6⟩ := view_answer cx (S := sem cx n) g2 hne h
  refine ⟨?_, fun t ht => h6 t (by rw [g4]; exact ((h2 t).mpr ht).2)⟩
  rw [h5, g3, g4]
  constructor
  · rintro ⟨hs, t, ht, hw⟩; exact ⟨t, (h2 t).mp ⟨hs, ht⟩, hw⟩
  · rintro ⟨t, ht, hw⟩; exact ⟨((h2 t).mpr ht).1, t, ((h2 t).mpr ht).2, hw⟩

/-- C64, SELECT: The pattern `([^\w]|^)VALUE([^\w]|$)` is read by the
grammar of regular expressions, and `has(clause, value)` is true iff the expression matches some
stretch of the text of the clause. -/
theorem C64_select_regex (he : AsciiTables cx.env) {q : Select} {name : Str} {set : Prop}
    {text : Str → Prop} (hc : SelectClause cx n q name set text) {v : Str} (hne : v ≠ []) {r : Pat}
    (h : RegexText .alt (L!"([^\\w]|^)" ++ (v ++ L!"([^\\w]|$)")) r) :
    (selectHas cx (sem cx n) q name (.str v) = .ok true ↔
      ∃ t, text t ∧ ∃ a b p, t = a ++ b ∧ Matches cx.env.isWord r (a.isEmpty, b) p) ∧
    ∀ t, text t → ∃ b, selectHas cx (sem cx n) q name (.str v) = .ok b :=
  select_answer cx n hc hne (regex_text cx he hne h)

/-- C64, UPDATE. -/
theorem C64_update_regex (he : AsciiTables cx.env) {q : Update} {name : Str} {set : Prop}
    {text : Str → Prop} (hc : UpdateClause cx n q name set text) {v : Str} (hne : v ≠ []) {r : Pat}
    (h : RegexText .alt (L!"([^\\w]|^)" ++ (v ++ L!"([^\\w]|$)")) r) :
    (updateHas cx (sem cx n) q name (.str v) = .ok true ↔
      ∃ t, text t ∧ ∃ a b p, t = a ++ b ∧ Matches cx.env.isWord r (a.isEmpty, b) p) ∧
    ∀ t, text t → ∃ b, updateHas cx (sem cx n) q name (.str v) = .ok b :=
  update_answer cx n hc hne (regex_text cx he hne h)

/-- C64, DELETE. -/
theorem C64_delete_regex (he : AsciiTables cx.env) {q : Delete} {name : Str} {set : Prop}
    {text : Str → Prop} (hc : DeleteClause cx n q name set text) {v : Str} (hne : v ≠ []) {r : Pat}
    (h : RegexText .alt (L!"([^\\w]|^)" ++ (v ++ L!"([^\\w]|$)")) r) :
    (deleteHas cx (sem cx n) q name (.str v) = .ok true ↔
      ∃ t, text t ∧ ∃ a b p, t = a ++ b ∧ Matches cx.env.isWord r (a.isEmpty, b) p) ∧
    ∀ t, text t → ∃ b, deleteHas cx (sem cx n) q name (.str v) = .ok b :=
  delete_answer cx n hc hne (regex_text cx he hne h)

/-- C64, INSERT. -/
theorem C64_insert_regex (he : AsciiTables cx.env) {q : Insert} {name : Str} {set : Prop}
    {text : Str → Prop} (hc : InsertClause cx n q name set text) {v : Str} (hne : v ≠ []) {r : Pat}
    (h : RegexText .alt (L!"([^\\w]|^)" ++ (v ++ L!"([^\\w]|$)")) r) :
    (insertHas cx (sem cx n) q name (.str v) = .ok true ↔
      ∃ t, text t ∧ ∃ a b p, t = a ++ b ∧ Matches cx.env.isWord r (a.isEmpty, b) p) ∧
    ∀ t, text t → ∃ b, insertHas cx (sem cx n) q name (.str v) = .ok b :=
  insert_answer cx n hc hne (regex_text cx he hne h)

/-- C64, SELECT for a value whose parts each stand for one character:
some text that takes a character for each part occurs untouched by word characters. -/
theorem C64_select_parts (he : AsciiTables cx.env) {q : Select} {name : Str} {set : Prop}
    {text : Str → Prop} (hc : SelectClause cx n q name set text) {v : Str} (hne : v ≠ [])
    {ks : List CharPat} (h : CharParts v ks) :
    (selectHas cx (sem cx n) q name (.str v) = .ok true ↔ ∃ t, text t ∧
      ∃ w, List.Forall₂ (StandsFor cx.env.isWord) ks w ∧ WholeWord cx.env.isWord w t) ∧
    ∀ t, text t → ∃ b, selectHas cx (sem cx n) q name (.str v) = .ok b :=
  select_answer cx n hc hne (hasText_parts cx (newline cx he) h)

/-- C64, UPDATE. -/
theorem C64_update_parts (he : AsciiTables cx.env) {q : Update} {name : Str} {set : Prop}
    {text : Str → Prop} (hc : UpdateClause cx n q name set text) {v : Str} (hne : v ≠ [])
    {ks : List CharPat} (h : CharParts v ks) :
    (updateHas cx (sem cx n) q name (.str v) = .ok true ↔ ∃ t, text t ∧
      ∃ w, List.Forall₂ (StandsFor cx.env.isWord) ks w ∧ WholeWord cx.env.isWord w t) ∧
    ∀ t, text t → ∃ b, updateHas cx (sem cx n) q name (.str v) = .ok b :=
  update_answer cx n hc hne (hasText_parts cx (newline cx he) h)

/-- C64, DELETE. -/
theorem C64_delete_parts (he : AsciiTables cx.env) {q : Delete} {name : Str} {set : Prop}
    {text : Str → Prop} (hc : DeleteClause cx n q name set text) {v : Str} (hne : v ≠ [])
    {ks : List CharPat} (h : CharParts v ks) :
    (deleteHas cx (sem cx n) q name (.str v) = .ok true ↔ ∃ t, text t ∧
      ∃ w, List.Forall₂ (StandsFor cx.env.isWord) ks w ∧ WholeWord cx.env.isWord w t) ∧
    ∀ t, text t → ∃ b, deleteHas cx (sem cx n) q name (.str v) = .ok b :=
  delete_answer cx n hc hne (hasText_parts cx (newline cx he) h)

/-- C64, INSERT. -/
theorem C64_insert_parts (he : AsciiTables cx.env) {q : Insert} {name : Str} {set : Prop}
    {text : Str → Prop} (hc : InsertClause cx n q name set text) {v : Str} (hne : v ≠ [])
    {ks : List CharPat} (h : CharParts v ks) :
    (insertHas cx (sem cx n) q name (.str v) = .ok true ↔ ∃ t, text t ∧
      ∃ w, List.Forall₂ (StandsFor cx.env.isWord) ks w ∧ WholeWord cx.env.isWord w t) ∧
    ∀ t, text t → ∃ b, insertHas cx (sem cx n) q name (.str v) = .ok b :=
  insert_answer cx n hc hne (hasText_parts cx (newline cx he) h)

/-- C64, SELECT: how to ask for any text.  If every special character of the value has a
backslash before it, as `re.escape` does it, `has` is true iff the value occurs in the text of the
clause untouched by word characters. -/
theorem C64_select_escaped (he : AsciiTables cx.env) {q : Select} {name : Str} {set : Prop}
    {text : Str → Prop} (hc : SelectClause cx n q name set text) {v e : Str} (hne : v ≠ [])
    (h : Escaped v e) :
    (selectHas cx (sem cx n) q name (.str e) = .ok true ↔
      ∃ t, text t ∧ WholeWord cx.env.isWord v t) ∧
    ∀ t, text t → ∃ b, selectHas cx (sem cx n) q name (.str e) = .ok b := by
  obtain ⟨h1, h2⟩ := C64_select_parts cx n he hc (escaped_ne h hne) (escaped_parts h)
  refine ⟨?_, h2⟩
  rw [h1]
  simp only [stands_chars, exists_eq_left]

/-- C64, UPDATE. -/
theorem C64_update_escaped (he : AsciiTables cx.env) {q : Update} {name : Str} {set : Prop}
    {text : Str → Prop} (hc : UpdateClause cx n q name set text) {v e : Str} (hne : v ≠ [])
    (h : Escaped v e) :
    (updateHas cx (sem cx n) q name (.str e) = .ok true ↔
      ∃ t, text t ∧ WholeWord cx.env.isWord v t) ∧
    ∀ t, text t → ∃ b, updateHas cx (sem cx n) q name (.str e) = .ok b := by
  obtain ⟨h1, h2⟩ := C64_update_parts cx n he hc (escaped_ne h hne) (escaped_parts h)
  refine ⟨?_, h2⟩
  rw [h1]
  simp only [stands_chars, exists_eq_left]

/-- C64, DELETE. -/
theorem C64_delete_escaped (he : AsciiTables cx.env) {q : Delete} {name : Str} {set : Prop}
    {text : Str → Prop} (hc : DeleteClause cx n q name set text) {v e : Str} (hne : v ≠ [])
    (h : Escaped v e) :
    (deleteHas cx (sem cx n) q name (.str e) = .ok true ↔
      ∃ t, text t ∧ WholeWord cx.env.isWord v t) ∧
    ∀ t, text t → ∃ b, deleteHas cx (sem cx n) q name (.str e) = .ok b := by
  obtain ⟨h1, h2⟩ := C64_delete_parts cx n he hc (escaped_ne h hne) (escaped_parts h)
  refine ⟨?_, h2⟩
  rw [h1]
  simp only [stands_chars, exists_eq_left]

/-- C64, INSERT. -/
theorem C64_insert_escaped (he : AsciiTables cx.env) {q : Insert} {name : Str} {set : Prop}
    {text : Str → Prop} (hc : InsertClause cx n q name set text) {v e : Str} (hne : v ≠ [])
    (h : Escaped v e) :
    (insertHas cx (sem cx n) q name (.str e) = .ok true ↔
      ∃ t, text t ∧ WholeWord cx.env.isWord v t) ∧
    ∀ t, text t → ∃ b, insertHas cx (sem cx n) q name (.str e) = .ok b := by
  obtain ⟨h1, h2⟩ := C64_insert_parts cx n he hc (escaped_ne h hne) (escaped_parts h)
  refine ⟨?_, h2⟩
  rw [h1]
  simp only [stands_chars, exists_eq_left]

private theorem bad_text {v : Str} (h : BadRegex (L!"([^\\w]|^)" ++ (v ++ L!"([^\\w]|$)")))
    (he : AsciiTables cx.env) (hne : v ≠ []) (t : Str) : hasText cx v t = .error .patternError := by
  have e := pattern_bad h
  cases hm : v.any isMeta with
  | true =>
    unfold hasText
    rw [hm, e]
    rfl
  | false =>
    obtain ⟨r', h1, _⟩ := C64_plain cx he (v := v) ⟨hne, no_meta hm⟩ t
    rw [e] at h1
    cases h1

private theorem view_bad {S : Sem} {p : PartView} (hu : p.upper = false) (hs : p.isSet = true)
    {v t : Str} (hne : v ≠ []) (ht : p.text = .ok t) (h : hasText cx v t = .error .patternError) :
    viewHas cx S p (.str v) = .error .patternError := by
  have hv : (Obj.str v).truthy = true := by
    cases v with
    | nil => exact absurd rfl hne
    | cons c v => rfl
  unfold viewHas partHas
  rw [hv, hu, hs, ht]
  exact h

/-- C64, SELECT: a value that makes no regular expression raises `re.error`, whatever the text of
the clause is. -/
theorem C64_select_bad (he : AsciiTables cx.env) {q : Select} {name : Str} {set : Prop}
    {text : Str → Prop} (hc : SelectClause cx n q name set text) {v : Str} (hne : v ≠ [])
    (h : BadRegex (L!"([^\\w]|^)" ++ (v ++ L!"([^\\w]|$)"))) {t : Str} (ht : text t) :
    selectHas cx (sem cx n) q name (.str v) = .error .patternError := by
  obtain ⟨x, h1, h2⟩ := select_clause cx n hc
  obtain ⟨p, g1, g2, g3, g4⟩ := select_view cx (sem cx n) h1
  rw [value_base cx n q name hne, g1]
  obtain ⟨h3, h4⟩ := (h2 t).mpr ht
  exact view_bad cx g2 (g3.mpr h3) hne (g4 ▸ h4) (bad_text cx h he hne t)

/-- C64, UPDATE. -/
theorem C64_update_bad (he : AsciiTables cx.env) {q : Update} {name : Str} {set : Prop}
    {text : Str → Prop} (hc : UpdateClause cx n q name set text) {v : Str} (hne : v ≠ [])
    (h : BadRegex (L!"([^\\w]|^)" ++ (v ++ L!"([^\\w]|$)"))) {t : Str} (ht : text t) :
    updateHas cx (sem cx n) q name (.str v) = .error .patternError := by
  obtain ⟨x, h1, h2⟩ := update_clause cx n hc
  obtain ⟨p, g1, g2, g3, g4⟩ := update_view cx (sem cx n) h1
  rw [g1]
  obtain ⟨h3, h4⟩ := (h2 t).mpr ht
  exact view_bad cx g2 (g3.mpr h3) hne (g4 ▸ h4) (bad_text cx h he hne t)

/-- C64, DELETE. -/
theorem C64_delete_bad (he : AsciiTables cx.env) {q : Delete} {name : Str} {set : Prop}
    {text : Str → Prop} (hc : DeleteClause cx n q name set text) {v : Str} (hne : v ≠ [])
    (h : BadRegex (L!"([^\\w]|^)" ++ (v ++ L!"([^\\w]|$)"))) {t : Str} (ht : text t) :
    deleteHas cx (sem cx n) q name (.str v) = .error .patternError := by
  obtain ⟨x, h1, h2⟩ := delete_clause cx n hc
  obtain ⟨p, g1, g2, g3, g4⟩ := delete_view cx (sem cx n) h1
  rw [g1]
  obtain ⟨h3, h4⟩ := (h2 t).mpr ht
  exact view_bad cx g2 (g3.mpr h3) hne (g4 ▸ h4) (bad_text cx h he hne t)

/-- C64, INSERT. -/
theorem C64_insert_bad (he : AsciiTables cx.env) {q : Insert} {name : Str} {set : Prop}
    {text : Str → Prop} (hc : InsertClause cx n q name set text) {v : Str} (hne : v ≠ [])
    (h : BadRegex (L!"([^\\w]|^)" ++ (v ++ L!"([^\\w]|$)"))) {t : Str} (ht : text t) :
    insertHas cx (sem cx n) q name (.str v) = .error .patternError := by
  obtain ⟨x, h1, h2⟩ := insert_clause cx n hc
  obtain ⟨p, g1, g2, g3, g4⟩ := insert_view cx (sem cx n) h1
  rw [g1]
  obtain ⟨h3, h4⟩ := (h2 t).mpr ht
  exact view_bad cx g2 (g3.mpr h3) hne (g4 ▸ h4) (bad_text cx h he hne t)

/-- Every text can be asked for. -/
theorem C64_escape (v : Str) : ∃ e, Escaped v e := by
  induction v with
  | nil => exact ⟨[], .nil⟩
  | cons c v ih =>
    obtain ⟨e, h⟩ := ih
    by_cases hc : Ordinary c
    · exact ⟨c :: e, .plain hc h⟩
    · refine ⟨'\\' :: c :: e, .escaped ?_ h⟩
      have hm : ∀ d ∈ L!"\\^$.|?*+()[]{}", d.isAlphanum = false := by decide
      exact hm c (Classical.not_not.mp hc)

end

/-- The column `COUNT("x")` is found by its text with backslashes. -/
example : Escaped L!"COUNT(\"x\")" L!"COUNT\\(\"x\"\\)" ∧
    selectHas cx0 (sem cx0 3) { columns := [⟨mkFunc .count false (.str L!"x"), .none⟩] }
      L!"columns" (.str L!"COUNT\\(\"x\"\\)") = .ok true ∧
    selectHas cx0 (sem cx0 3) { columns := [⟨mkFunc .count false (.str L!"x"), .none⟩] }
      L!"columns" (.str L!"COUNT\\(\"y\"\\)") = .ok false := by
  refine ⟨?_, by decide +kernel, by decide +kernel⟩
  iterate 5 refine .plain (by unfold Ordinary; decide) ?_
  refine .escaped (by decide) ?_
  iterate 3 refine .plain (by unfold Ordinary; decide) ?_
  exact .escaped (by decide) .nil

/-- `[a-c]{2}|x` is a value of the grammar.  It is two alternatives of the pattern around it, so one
end of each is not looked at. -/
example : ∃ r, RegexText .alt (L!"([^\\w]|^)" ++ (L!"[a-c]{2}|x" ++ L!"([^\\w]|$)")) r ∧
    selectHas cx0 (sem cx0 3) { columns := [⟨.str L!"abz", .none⟩] } L!"columns"
      (.str L!"[a-c]{2}|x") = .ok true ∧
    selectHas cx0 (sem cx0 3) { columns := [⟨.str L!"adx", .none⟩] } L!"columns"
      (.str L!"[a-c]{2}|x") = .ok true ∧
    selectHas cx0 (sem cx0 3) { columns := [⟨.str L!"adz", .none⟩] } L!"columns"
      (.str L!"[a-c]{2}|x") = .ok false := by
  have nw : CharPart L!"[^\\w]" (.set true [.word]) := .notSet (s := L!"\\w") (.items (.word .nil) (by decide))
  have ac : CharPart L!"[a-c]" (.set false [.range 'a' 'c']) :=
    .set (s := L!"a-c") (.items (.range (s := ['a']) (s' := ['c']) (.plain (by decide))
      (.plain (by decide)) (by decide) .nil) (by decide)) (by decide)
  have two : Decimal ['2'] 2 := .one (by decide) (by decide)
  have x : CharPart ['x'] (.chr 'x') := .plain (.inl (by unfold Ordinary; decide))
  have g1 : RegexText .atom L!"([^\\w]|^)" _ :=
    .group (s := L!"[^\\w]|^") (.or (s := L!"[^\\w]") (.cons (t := []) (.once (.part nw)) .nil)
      (.only (.cons (t := []) .bol .nil)))
  have g2 : RegexText .atom L!"([^\\w]|$)" _ :=
    .group (s := L!"[^\\w]|$") (.or (s := L!"[^\\w]") (.cons (t := []) (.once (.part nw)) .nil)
      (.only (.cons (t := []) .eol .nil)))
  refine ⟨_, .or (s := L!"([^\\w]|^)[a-c]{2}") (t := L!"x([^\\w]|$)")
    (.cons (s := L!"([^\\w]|^)") (.once g1) (.cons (s := L!"[a-c]{2}") (t := [])
      (.rep (s := L!"[a-c]") (.part ac) (.exactly two (by decide))) .nil))
    (.only (.cons (s := ['x']) (.once (.part x)) (.cons (t := []) (.once g2) .nil))),
    by decide +kernel, by decide +kernel, by decide +kernel⟩

/-- `a**`, `a*?*`, `[z-a]`, `[\w-z]`, `{3,2}`, `$*`, `x|*`, `)`, `(`, `\q`, `[\q]` and `\Z*` are no
regular expressions. -/
example : ∀ v ∈ [L!"a**", L!"a*?*", L!"[z-a]", L!"[\\w-z]", L!"{3,2}", L!"$*", L!"x|*", L!")", L!"(",
      L!"\\q", L!"[\\q]", L!"\\Z*"],
    BadRegex (L!"([^\\w]|^)" ++ (v ++ L!"([^\\w]|$)")) ∧
    selectHas cx0 (sem cx0 3) { columns := [⟨.str L!"a", .none⟩] } L!"columns" (.str v) =
      .error .patternError := by
  have nw : CharPart L!"[^\\w]" (.set true [.word]) :=
    .notSet (s := L!"\\w") (.items (.word .nil) (by decide))
  have g1 : RegexText .atom L!"([^\\w]|^)" _ :=
    .group (s := L!"[^\\w]|^") (.or (s := L!"[^\\w]") (.cons (t := []) (.once (.part nw)) .nil)
      (.only (.cons (t := []) .bol .nil)))
  have g2 : RegexText .atom L!"([^\\w]|$)" _ :=
    .group (s := L!"[^\\w]|$") (.or (s := L!"[^\\w]") (.cons (t := []) (.once (.part nw)) .nil)
      (.only (.cons (t := []) .eol .nil)))
  have x : CharPart ['x'] (.chr 'x') := .plain (.inl (by unfold Ordinary; decide))
  have a : CharPart ['a'] (.chr 'a') := .plain (.inl (by unfold Ordinary; decide))
  have s1 : RegexText .alt L!"([^\\w]|^)" _ := .only (.cons (t := []) (.once g1) .nil)
  have s2 : RegexText .alt L!"([^\\w]|$)" _ := .only (.cons (t := []) (.once g2) .nil)
  have s3 : RegexText .alt L!"([^\\w]|^)x" _ :=
    .only (.cons (s := L!"([^\\w]|^)") (.once g1) (.cons (t := []) (.once (.part x)) .nil))
  intro v hv
  simp only [List.mem_cons, List.not_mem_nil, or_false] at hv
  rcases hv with rfl | rfl | rfl | rfl | rfl | rfl | rfl | rfl | rfl | rfl | rfl | rfl
  · exact ⟨.multiple (a := ['a']) (t := ['*']) s1 (.part a) .star, by decide +kernel⟩
  · exact ⟨.multipleLazy (a := ['a']) (t := ['*']) s1 (.part a) .star (by decide),
      by decide +kernel⟩
  · exact ⟨.range (s := ['z']) (s' := ['a']) (y := L!"]([^\\w]|$)") s1 (.plain (by decide))
      (.plain (by decide)) (by decide) (by decide), by decide +kernel⟩
  · exact ⟨.classRange (s := ['z']) (y := L!"]([^\\w]|$)") s1 (.inl rfl) (.plain (by decide)),
      by decide +kernel⟩
  · exact ⟨.count (ds := ['3']) (es := ['2']) (m := 3) (n := 2) s1 (.one (by decide) (by decide))
      (.one (by decide) (by decide)) (by decide) (by decide), by decide +kernel⟩
  · exact ⟨.anchor s1 (.inr rfl) (by decide), by decide +kernel⟩
  · exact ⟨.nothing (u := L!"([^\\w]|^)x") s3 (by decide), by decide +kernel⟩
  · exact ⟨.close s1, by decide +kernel⟩
  · exact ⟨.open_ s1 s2, by decide +kernel⟩
  · exact ⟨.escape s1 (by decide), by decide +kernel⟩
  · exact ⟨.setEscape s1 (by decide), by decide +kernel⟩
  · exact ⟨.escapedAnchor s1 (.inr rfl) (by decide), by decide +kernel⟩

/-- `\Aa\Z` is a regular expression, and one that is not found in a longer text. -/
example : (∃ r, RegexText .seq L!"\\Aa\\Z" r) ∧
    selectHas cx0 (sem cx0 3) { columns := [⟨.str L!"a", .none⟩] } L!"columns"
      (.str L!"\\A\"a\"\\Z") = .ok true ∧
    selectHas cx0 (sem cx0 3) { columns := [⟨.str L!"a", .none⟩, ⟨.str L!"b", .none⟩] } L!"columns"
      (.str L!"\\A\"a\"\\Z") = .ok false :=
  ⟨⟨_, .cons (s := L!"\\A") .start (.cons (s := ['a'])
    (.once (.part (.plain (.inl (by unfold Ordinary; decide))))) (.cons (t := []) .end_ .nil))⟩,
    by decide +kernel, by decide +kernel⟩

/-- `[]-]` is a set of two characters, and `{,2}` a repetition. -/
example : CharPart L!"[]-]" (.set false [.chr ']', .chr '-']) ∧
    (∀ r, RepText L!"{,2}" r (.seq .eps (.seq (.alt r .eps) (.seq (.alt r .eps) .eps)))) ∧
    selectHas cx0 (sem cx0 3) { columns := [⟨.str L!"a]", .none⟩] } L!"columns"
      (.str L!"a[]-]{,2}") = .ok true ∧
    selectHas cx0 (sem cx0 3) { columns := [⟨.str L!"b]", .none⟩] } L!"columns"
      (.str L!"a[]-]{,2}") = .ok false :=
  ⟨.set (s := L!"]-") (.bracket .dash) (by decide),
    fun r => .atMost (ds := ['2']) (n := 2) (.one (by decide) (by decide)) (by decide),
    by decide +kernel, by decide +kernel⟩

end SqlPuzzle
