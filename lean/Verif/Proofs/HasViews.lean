import Verif.Proofs.HasFacts
import Verif.Proofs.Inserts

/-!
`has()` in terms of the texts the library makes: it answers whether a clause is there, and finds whole words of its text only.
-/

namespace SqlPuzzle
open Spec

section
variable (cx : Ctx) (S : Sem)

/-- The clauses of a SELECT by the names `has` uses: is the clause there, and its text. -/
inductive SelectView (q : Select) : Str → Prop → R Str → Prop
  | columns : SelectView q L!"columns" True (columnsText cx S q.columns)
  | tables : SelectView q L!"tables" (q.tables ≠ []) (tablesText cx S L!"FROM" q.tables)
  | where_ : SelectView q L!"where" (q.where_ ≠ []) (condsText cx S L!"WHERE" q.where_)
  | groupBy : SelectView q L!"group_by" (q.groupBy ≠ []) (ordersText cx S L!"GROUP BY" q.groupBy)
  | having : SelectView q L!"having" (q.having ≠ []) (condsText cx S L!"HAVING" q.having)
  | orderBy : SelectView q L!"order_by" (q.orderBy ≠ []) (ordersText cx S L!"ORDER BY" q.orderBy)
  | limit : SelectView q L!"limit" (q.limit.limit ≠ none ∨ q.limit.offset ≠ none)
      (.ok (limitText q.limit))
  | outfile : SelectView q L!"into_outfile" (q.outfile.file ≠ none) (outfileText cx S q.outfile)

/-- The clauses of an UPDATE. -/
inductive UpdateView (q : Update) : Str → Prop → R Str → Prop
  | tables : UpdateView q L!"tables" (q.tables ≠ []) (tablesText cx S [] q.tables)
  | values : UpdateView q L!"values" (q.values ≠ []) (valuesText cx S [] q.values)
  | where_ : UpdateView q L!"where" (q.where_ ≠ []) (condsText cx S L!"WHERE" q.where_)

/-- The clauses of a DELETE. -/
inductive DeleteView (q : Delete) : Str → Prop → R Str → Prop
  | tables : DeleteView q L!"tables" (q.tables ≠ []) (tablesText cx S [] q.tables)
  | references : DeleteView q L!"references" (q.references ≠ []) (tablesText cx S [] q.references)
  | where_ : DeleteView q L!"where" (q.where_ ≠ []) (condsText cx S L!"WHERE" q.where_)

/-- The clauses of an INSERT. -/
inductive InsertView (q : Insert) : Str → Prop → R Str → Prop
  | tables : InsertView q L!"tables" (q.tables ≠ []) (tablesText cx S [] q.tables)
  | values : InsertView q L!"values" (q.rows ≠ []) (rowsText cx S q.rows)
  | onDuplicate : InsertView q L!"on_duplicate_key_update" (q.onDup ≠ [])
      (valuesText cx S L!"ON DUPLICATE KEY UPDATE" q.onDup)
  | onConflict : InsertView q L!"on_conflict_do_update" (q.onConflict ≠ [])
      (valuesText cx S (conflictKeyword cx q.conflict) q.onConflict)

/-- The answer of a part with a plain word. -/
theorem view_word {p : PartView} (hu : p.upper = false) {w : Str} (hw : Plain w) :
    viewHas cx S p (.str w) = .ok true ↔
      p.isSet = true ∧ ∃ t, p.text = .ok t ∧ WholeWord cx.env.isWord w t := by
  unfold viewHas partHas
  rw [plain_truthy hw]
  cases p.isSet with
  | false => simp
  | true =>
    have hm := plain_meta hw
    cases ht : p.text with
    | error e => simp [forceText, Obj.isSql, bind, Except.bind]
    | ok t =>
      simp [forceText, Obj.isSql, bind, Except.bind, hu, hasText, hm, search_whole]

theorem view_total {p : PartView} (hu : p.upper = false) {w : Str} (hw : Plain w)
    (h : p.isSet = true → ∃ t, p.text = .ok t) : ∃ b, viewHas cx S p (.str w) = .ok b := by
  unfold viewHas partHas
  rw [plain_truthy hw]
  cases hs : p.isSet with
  | false => exact ⟨false, rfl⟩
  | true =>
    obtain ⟨t, ht⟩ := h hs
    have hm := plain_meta hw
    refine ⟨searchFrom cx w false t, ?_⟩
    simp [forceText, Obj.isSql, bind, Except.bind, hu, hasText, hm, ht]

theorem view_none (p : PartView) : viewHas cx S p .none = .ok p.isSet := by
  unfold viewHas
  cases p.isSet <;> rfl

theorem ne_nil_iff {α : Type} {l : List α} : (!l.isEmpty) = true ↔ l ≠ [] := by
  cases l <;> simp

theorem isSome_iff {α : Type} {o : Option α} : o.isSome = true ↔ o ≠ none := by
  cases o <;> simp

/-- The model's view of a clause is the clause of the specification. -/
theorem select_view {q : Select} {name : Str} {set : Prop} {text : R Str}
    (h : SelectView cx S q name set text) :
    ∃ p, (∀ v, selectHasBase cx S q name v = viewHas cx S p v) ∧ p.upper = false ∧
      (p.isSet = true ↔ set) ∧ p.text = text := by
  cases h with
  | columns => exact ⟨⟨true, _, false⟩, fun v => rfl, rfl, by simp, rfl⟩
  | tables => exact ⟨⟨_, _, false⟩, fun v => rfl, rfl, ne_nil_iff, rfl⟩
  | where_ => exact ⟨⟨_, _, false⟩, fun v => rfl, rfl, ne_nil_iff, rfl⟩
  | groupBy => exact ⟨⟨_, _, false⟩, fun v => rfl, rfl, ne_nil_iff, rfl⟩
  | having => exact ⟨⟨_, _, false⟩, fun v => rfl, rfl, ne_nil_iff, rfl⟩
  | orderBy => exact ⟨⟨_, _, false⟩, fun v => rfl, rfl, ne_nil_iff, rfl⟩
  | limit =>
    refine ⟨⟨_, _, false⟩, fun v => rfl, rfl, ?_, rfl⟩
    show (q.limit.limit.isSome || q.limit.offset.isSome) = true ↔ _
    rw [Bool.or_eq_true, isSome_iff, isSome_iff]
  | outfile => exact ⟨⟨_, _, false⟩, fun v => rfl, rfl, isSome_iff, rfl⟩

theorem update_view {q : Update} {name : Str} {set : Prop} {text : R Str}
    (h : UpdateView cx S q name set text) :
    ∃ p, (∀ v, updateHas cx S q name v = viewHas cx S p v) ∧ p.upper = false ∧
      (p.isSet = true ↔ set) ∧ p.text = text := by
  cases h <;> exact ⟨⟨_, _, false⟩, fun v => rfl, rfl, ne_nil_iff, rfl⟩

theorem delete_view {q : Delete} {name : Str} {set : Prop} {text : R Str}
    (h : DeleteView cx S q name set text) :
    ∃ p, (∀ v, deleteHas cx S q name v = viewHas cx S p v) ∧ p.upper = false ∧
      (p.isSet = true ↔ set) ∧ p.text = text := by
  cases h <;> exact ⟨⟨_, _, false⟩, fun v => rfl, rfl, ne_nil_iff, rfl⟩

theorem insert_view {q : Insert} {name : Str} {set : Prop} {text : R Str}
    (h : InsertView cx S q name set text) :
    ∃ p, (∀ v, insertHas cx S q name v = viewHas cx S p v) ∧ p.upper = false ∧
      (p.isSet = true ↔ set) ∧ p.text = text := by
  cases h <;> exact ⟨⟨_, _, false⟩, fun v => rfl, rfl, ne_nil_iff, rfl⟩

theorem selectHas_word (q : Select) (name : Str) {w : Str} (hw : Plain w) :
    selectHas cx S q name (.str w) = selectHasBase cx S q name (.str w) := by
  unfold selectHas
  rw [plain_truthy hw]
  cases h : selectHasBase cx S q name (.str w) with
  | error e => rfl
  | ok b => cases b <;> rfl

/-- SELECT: `has(clause, word)` is true iff the clause is there and the word occurs in its
text untouched by word characters; it raises only when the text of the clause cannot be made. -/
theorem has_select_word_partial {q : Select} {name : Str} {set : Prop} {text : R Str}
    (hc : SelectView cx S q name set text) {w : Str} (hw : Plain w) :
    (selectHas cx S q name (.str w) = .ok true ↔
      set ∧ ∃ t, text = .ok t ∧ WholeWord cx.env.isWord w t) ∧
    ((set → ∃ t, text = .ok t) → ∃ b, selectHas cx S q name (.str w) = .ok b) := by
  obtain ⟨p, h1, h2, h3, h4⟩ := select_view cx S hc
  rw [selectHas_word cx S q name hw, h1, view_word cx S h2 hw, h3, h4]
  exact ⟨Iff.rfl, fun h => view_total cx S h2 hw fun hs => by rw [h4]; exact h (h3.mp hs)⟩

/-- UPDATE. -/
theorem has_update_word {q : Update} {name : Str} {set : Prop} {text : R Str}
    (hc : UpdateView cx S q name set text) {w : Str} (hw : Plain w) :
    (updateHas cx S q name (.str w) = .ok true ↔
      set ∧ ∃ t, text = .ok t ∧ WholeWord cx.env.isWord w t) ∧
    ((set → ∃ t, text = .ok t) → ∃ b, updateHas cx S q name (.str w) = .ok b) := by
  obtain ⟨p, h1, h2, h3, h4⟩ := update_view cx S hc
  rw [h1, view_word cx S h2 hw, h3, h4]
  exact ⟨Iff.rfl, fun h => view_total cx S h2 hw fun hs => by rw [h4]; exact h (h3.mp hs)⟩

/-- DELETE. -/
theorem has_delete_word {q : Delete} {name : Str} {set : Prop} {text : R Str}
    (hc : DeleteView cx S q name set text) {w : Str} (hw : Plain w) :
    (deleteHas cx S q name (.str w) = .ok true ↔
      set ∧ ∃ t, text = .ok t ∧ WholeWord cx.env.isWord w t) ∧
    ((set → ∃ t, text = .ok t) → ∃ b, deleteHas cx S q name (.str w) = .ok b) := by
  obtain ⟨p, h1, h2, h3, h4⟩ := delete_view cx S hc
  rw [h1, view_word cx S h2 hw, h3, h4]
  exact ⟨Iff.rfl, fun h => view_total cx S h2 hw fun hs => by rw [h4]; exact h (h3.mp hs)⟩

/-- INSERT. -/
theorem has_insert_word_partial {q : Insert} {name : Str} {set : Prop} {text : R Str}
    (hc : InsertView cx S q name set text) {w : Str} (hw : Plain w) :
    (insertHas cx S q name (.str w) = .ok true ↔
      set ∧ ∃ t, text = .ok t ∧ WholeWord cx.env.isWord w t) ∧
    ((set → ∃ t, text = .ok t) → ∃ b, insertHas cx S q name (.str w) = .ok b) := by
  obtain ⟨p, h1, h2, h3, h4⟩ := insert_view cx S hc
  rw [h1, view_word cx S h2 hw, h3, h4]
  exact ⟨Iff.rfl, fun h => view_total cx S h2 hw fun hs => by rw [h4]; exact h (h3.mp hs)⟩

/-- UPDATE: `has(clause)` never raises and is true iff the clause is there. -/
theorem has_update_set {q : Update} {name : Str} {set : Prop} {text : R Str}
    (hc : UpdateView cx S q name set text) :
    ∃ b, updateHas cx S q name .none = .ok b ∧ (b = true ↔ set) := by
  obtain ⟨p, h1, _, h3, _⟩ := update_view cx S hc
  exact ⟨p.isSet, by rw [h1, view_none], h3⟩

/-- DELETE: `has(clause)`. -/
theorem has_delete_set {q : Delete} {name : Str} {set : Prop} {text : R Str}
    (hc : DeleteView cx S q name set text) :
    ∃ b, deleteHas cx S q name .none = .ok b ∧ (b = true ↔ set) := by
  obtain ⟨p, h1, _, h3, _⟩ := delete_view cx S hc
  exact ⟨p.isSet, by rw [h1, view_none], h3⟩

/-- INSERT: `has(clause)`. -/
theorem has_insert_set_partial {q : Insert} {name : Str} {set : Prop} {text : R Str}
    (hc : InsertView cx S q name set text) :
    ∃ b, insertHas cx S q name .none = .ok b ∧ (b = true ↔ set) := by
  obtain ⟨p, h1, _, h3, _⟩ := insert_view cx S hc
  exact ⟨p.isSet, by rw [h1, view_none], h3⟩

/-! ### The options of a SELECT -/

/-- The select options by the method that sets them, as `has` takes them. -/
def optionNames : List (Str × (Select → Bool)) :=
  [(L!"sql_cache", fun q => q.opts.sqlCache == .cache),
   (L!"sql_no_cache", fun q => q.opts.sqlCache == .noCache),
   (L!"all", fun q => q.opts.duplicated == .all),
   (L!"distinct", fun q => q.opts.duplicated == .distinct),
   (L!"distinctrow", fun q => q.opts.duplicated == .distinctrow),
   (L!"sql_small_result", fun q => q.opts.sqlSmallResult),
   (L!"sql_big_result", fun q => q.opts.sqlBigResult),
   (L!"sql_buffer_result", fun q => q.opts.sqlBufferResult),
   (L!"sql_calc_found_rows", fun q => q.opts.sqlCalcFoundRows),
   (L!"straight_join", fun q => q.opts.straightJoin),
   (L!"high_priority", fun q => q.opts.highPriority)]

/-- All words options can render. -/
def allWords : List Str :=
  [L!"SQL_CACHE", L!"SQL_NO_CACHE", L!"ALL", L!"DISTINCT", L!"DISTINCTROW", L!"SQL_SMALL_RESULT",
   L!"SQL_BIG_RESULT", L!"SQL_BUFFER_RESULT", L!"SQL_CALC_FOUND_ROWS", L!"STRAIGHT_JOIN",
   L!"HIGH_PRIORITY"]

theorem words_sub (o : SelectOptions) : ∀ x ∈ o.words, x ∈ allWords := by
  intro x hx
  unfold SelectOptions.words at hx
  simp only [List.mem_append] at hx
  rcases hx with ((((((hx | hx) | hx) | hx) | hx) | hx) | hx) | hx
  · cases h : o.sqlCache <;> rw [h] at hx <;> simp at hx <;> subst hx <;> decide +kernel
  · cases h : o.duplicated <;> rw [h] at hx <;> simp at hx <;> subst hx <;> decide +kernel
  all_goals (split at hx <;> simp at hx; subst hx; decide +kernel)

theorem space_noWord {env : Env} (he : AsciiTables env) : env.isWord ' ' = false := by
  rw [he.word ' ' (by decide)]; decide

/-- ASCII letters, digits and underscores. -/
def ident (s : Str) : Bool :=
  s.all fun c => decide (c.toNat < 128) && (c.isAlphanum || c == '_')

theorem ident_word {env : Env} (he : AsciiTables env) {s : Str} (h : ident s = true) :
    ∀ c ∈ s, env.isWord c = true := by
  intro c hc
  have := List.all_eq_true.mp h c hc
  rw [Bool.and_eq_true, decide_eq_true_eq] at this
  rw [he.word c this.1]; exact this.2

theorem ident_upper {env : Env} (he : AsciiTables env) {s : Str} (h : ident s = true) :
    env.upper s = s.map Char.toUpper :=
  he.upper s fun c hc => by
    have := List.all_eq_true.mp h c hc
    rw [Bool.and_eq_true, decide_eq_true_eq] at this
    exact this.1

/-- `has('select_options', name)` for a name of letters, digits and underscores. -/
theorem options_has (he : AsciiTables cx.env) (q : Select) {name : Str} (hn : name ≠ [])
    (hi : ident name = true) (hu : ident (name.map Char.toUpper) = true)
    (hm : (name.map Char.toUpper).any isMeta = false) :
    selectHasBase cx S q L!"select_options" (.str name) =
      .ok (decide (name.map Char.toUpper ∈ q.opts.words)) := by
  have e : selectHasBase cx S q L!"select_options" (.str name) =
      viewHas cx S ⟨!q.opts.words.isEmpty, .ok (optionsText q.opts.words), true⟩ (.str name) := rfl
  rw [e]
  unfold viewHas partHas
  have ht : (Obj.str name).truthy = true := by
    cases name with
    | nil => exact absurd rfl hn
    | cons c s => rfl
  rw [ht]
  cases hw : q.opts.words with
  | nil => simp
  | cons x xs =>
    rw [← hw]
    have : (!q.opts.words.isEmpty) = true := by rw [hw]; rfl
    rw [this]
    simp only [forceText, Obj.isSql, bind, Except.bind, Bool.not_true, Bool.false_eq_true, if_false,
      if_true, hasText, ident_upper he hi, hm]
    congr 1
    rw [Bool.eq_iff_iff, search_whole, decide_eq_true_eq]
    unfold optionsText
    rw [whole_join (by simpa using hn) (ident_word he hu) (space_noWord he)]
    · exact (sortBy_perm strLe _).mem_iff
    · intro x hx
      have hx := words_sub _ x ((sortBy_perm strLe _).mem_iff.mp hx)
      have : ∀ x ∈ allWords, ident x = true := by decide +kernel
      exact ident_word he (this x hx)

/-- `has('distinct')` and its kin: true iff that option is in force. -/
theorem has_select_option (he : AsciiTables cx.env) (q : Select) {name : Str} {on : Select → Bool}
    (h : (name, on) ∈ optionNames) :
    selectHas cx S q name .none = .ok (on q) ∧
    selectHas cx S q L!"select_options" (.str name) = .ok (on q) := by
  have key : ∀ (name : Str) (on : Select → Bool), name ≠ [] → ident name = true →
      ident (name.map Char.toUpper) = true → (name.map Char.toUpper).any isMeta = false →
      selectHasBase cx S q name .none = .ok false → (name.map Char.toUpper ∈ q.opts.words ↔ on q = true) →
      selectHas cx S q name .none = .ok (on q) ∧
      selectHas cx S q L!"select_options" (.str name) = .ok (on q) := by
    intro name on h1 h2 h3 h4 h5 h6
    have ho := options_has cx S he q h1 h2 h3 h4
    have hd : decide (name.map Char.toUpper ∈ q.opts.words) = on q := by
      rw [Bool.eq_iff_iff, decide_eq_true_eq, h6]
    rw [hd] at ho
    have ht : (Obj.str name).truthy = true := by
      cases name with
      | nil => exact absurd rfl h1
      | cons c s => rfl
    constructor
    · unfold selectHas
      rw [h5, ho]; rfl
    · unfold selectHas
      rw [ho, ht]
      cases on q <;> rfl
  have hw : ∀ w : Str, w ∈ q.opts.words ↔
      (w = L!"SQL_CACHE" ∧ q.opts.sqlCache = .cache) ∨
      (w = L!"SQL_NO_CACHE" ∧ q.opts.sqlCache = .noCache) ∨
      (w = L!"ALL" ∧ q.opts.duplicated = .all) ∨
      (w = L!"DISTINCT" ∧ q.opts.duplicated = .distinct) ∨
      (w = L!"DISTINCTROW" ∧ q.opts.duplicated = .distinctrow) ∨
      (w = L!"SQL_SMALL_RESULT" ∧ q.opts.sqlSmallResult = true) ∨
      (w = L!"SQL_BIG_RESULT" ∧ q.opts.sqlBigResult = true) ∨
      (w = L!"SQL_BUFFER_RESULT" ∧ q.opts.sqlBufferResult = true) ∨
      (w = L!"SQL_CALC_FOUND_ROWS" ∧ q.opts.sqlCalcFoundRows = true) ∨
      (w = L!"STRAIGHT_JOIN" ∧ q.opts.straightJoin = true) ∨
      (w = L!"HIGH_PRIORITY" ∧ q.opts.highPriority = true) := by
    intro w
    have m3 : ∀ (b : Bool) (x : Str), w ∈ (if b = true then [x] else []) ↔ w = x ∧ b = true := by
      intro b x; cases b <;> simp
    unfold SelectOptions.words
    simp only [List.mem_append, m3, or_assoc]
    cases q.opts.sqlCache <;> cases q.opts.duplicated <;> simp
  simp only [optionNames, List.mem_cons, Prod.mk.injEq, List.not_mem_nil, or_false] at h
  rcases h with ⟨rfl, rfl⟩ | ⟨rfl, rfl⟩ | ⟨rfl, rfl⟩ | ⟨rfl, rfl⟩ | ⟨rfl, rfl⟩ | ⟨rfl, rfl⟩ |
    ⟨rfl, rfl⟩ | ⟨rfl, rfl⟩ | ⟨rfl, rfl⟩ | ⟨rfl, rfl⟩ | ⟨rfl, rfl⟩ <;>
  · apply key
    · decide +kernel
    · decide +kernel
    · decide +kernel
    · decide +kernel
    · rfl
    rw [hw]
    simp +decide only [beq_iff_eq, true_and, false_and, or_false, false_or]

/-- No name of a clause is the name of an option. -/
theorem base_unset (he : AsciiTables cx.env) (q : Select) {name : Str} (hn : name ≠ [])
    (hi : ident name = true) (hu : ident (name.map Char.toUpper) = true)
    (hm : (name.map Char.toUpper).any isMeta = false) (ha : name.map Char.toUpper ∉ allWords)
    {b : Bool} (hb : selectHasBase cx S q name .none = .ok b) :
    selectHas cx S q name .none = .ok b := by
  unfold selectHas
  rw [hb]
  cases b with
  | true => rfl
  | false =>
    show selectHasBase cx S q L!"select_options" (.str name) = .ok false
    rw [options_has cx S he q hn hi hu hm]
    have : name.map Char.toUpper ∉ q.opts.words := fun h => ha (words_sub _ _ h)
    rw [decide_eq_false this]

/-- SELECT: `has(clause)` never raises and is true iff the clause is there. -/
theorem has_select_set (he : AsciiTables cx.env) {q : Select} {name : Str} {set : Prop}
    {text : R Str} (hc : SelectView cx S q name set text) :
    ∃ b, selectHas cx S q name .none = .ok b ∧ (b = true ↔ set) := by
  obtain ⟨p, h1, _, h3, _⟩ := select_view cx S hc
  have hb : selectHasBase cx S q name .none = .ok p.isSet := by rw [h1, view_none]
  refine ⟨p.isSet, ?_, h3⟩
  cases hc <;> exact base_unset cx S he q (by decide +kernel) (by decide +kernel)
    (by decide +kernel) (by decide +kernel) (by decide +kernel) hb

/-- `has('select_for_update')`. -/
theorem has_select_for_update (he : AsciiTables cx.env) (q : Select) :
    selectHas cx S q L!"select_for_update" .none = .ok q.forUpdate :=
  base_unset cx S he q (by decide +kernel) (by decide +kernel) (by decide +kernel)
    (by decide +kernel) (by decide +kernel) (by
      show (if !q.forUpdate then _ else _) = _
      cases q.forUpdate <;> rfl)

/-- `has('select_options')` is true iff some option is in force. -/
theorem has_select_options (he : AsciiTables cx.env) (q : Select) :
    ∃ b, selectHas cx S q L!"select_options" .none = .ok b ∧
      (b = true ↔ ∃ o ∈ optionNames, o.2 q = true) := by
  refine ⟨!q.opts.words.isEmpty, ?_, ?_⟩
  · exact base_unset cx S he q (by decide +kernel) (by decide +kernel) (by decide +kernel)
      (by decide +kernel) (by decide +kernel) (view_none cx S _)
  · have hw : ∀ o ∈ optionNames, o.2 q = true → o.1.map Char.toUpper ∈ q.opts.words := by
      intro o ho h
      have h1 := (has_select_option cx S he q (name := o.1) (on := o.2) ho).2
      have hp : ∀ o ∈ optionNames.map Prod.fst, o ≠ [] ∧ ident o = true ∧
          ident (o.map Char.toUpper) = true ∧ (o.map Char.toUpper).any isMeta = false := by
        decide +kernel
      obtain ⟨p1, p2, p3, p4⟩ := hp o.1 (List.mem_map_of_mem ho)
      have h2 := options_has cx S he q p1 p2 p3 p4
      have ht : (Obj.str o.1).truthy = true := by
        cases hx : o.1 with
        | nil => exact absurd hx p1
        | cons c s => rfl
      unfold selectHas at h1
      rw [h2, ht, h] at h1
      by_contra hc
      rw [decide_eq_false hc] at h1
      cases h1
    rw [ne_nil_iff]
    constructor
    · intro h
      by_contra hc
      apply h
      have off : ∀ o ∈ optionNames, o.2 q = false := fun o ho => by
        cases hq : o.2 q with
        | false => rfl
        | true => exact absurd ⟨o, ho, hq⟩ hc
      simp only [optionNames, List.mem_cons, List.not_mem_nil, or_false, forall_eq_or_imp,
        forall_eq, beq_eq_false_iff_ne] at off
      obtain ⟨o1, o2, o3, o4, o5, o6, o7, o8, o9, o10, o11⟩ := off
      unfold SelectOptions.words
      rw [o6, o7, o8, o9, o10, o11]
      cases h1 : q.opts.sqlCache with
      | cache => exact absurd h1 o1
      | noCache => exact absurd h1 o2
      | off =>
        cases h2 : q.opts.duplicated with
        | all => exact absurd h2 o3
        | distinct => exact absurd h2 o4
        | distinctrow => exact absurd h2 o5
        | off => rfl
    · rintro ⟨o, ho, h⟩ hn
      have := hw o ho h
      rw [hn] at this
      cases this

/-- a name that is neither a clause nor an option is never there. -/
theorem has_select_other (he : AsciiTables cx.env) (q : Select) {name : Str} (hn : name ≠ [])
    (hi : ∀ c ∈ name, c.toNat < 128 ∧ (c.isAlphanum = true ∨ c = '_'))
    (hc : ∀ set text, ¬ SelectView cx S q name set text)
    (ho : ∀ o ∈ optionNames, o.1.map Char.toUpper ≠ name.map Char.toUpper)
    (h1 : name ≠ L!"select_options") (h2 : name ≠ L!"select_for_update") :
    selectHas cx S q name .none = .ok false := by
  have hb : selectHasBase cx S q name .none = .ok false := by
    unfold selectHasBase
    rw [if_neg h2]
    unfold selectPart
    rw [if_neg h1,
      if_neg (fun h => (by subst h; exact hc _ _ SelectView.columns)),
      if_neg (fun h => (by subst h; exact hc _ _ SelectView.tables)),
      if_neg (fun h => (by subst h; exact hc _ _ SelectView.where_)),
      if_neg (fun h => (by subst h; exact hc _ _ SelectView.groupBy)),
      if_neg (fun h => (by subst h; exact hc _ _ SelectView.having)),
      if_neg (fun h => (by subst h; exact hc _ _ SelectView.orderBy)),
      if_neg (fun h => (by subst h; exact hc _ _ SelectView.limit)),
      if_neg (fun h => (by subst h; exact hc _ _ SelectView.outfile))]
  have hi' : ident name = true := by
    refine List.all_eq_true.mpr fun c h => ?_
    obtain ⟨h1, h2⟩ := hi c h
    simp [h1, h2]
  have up : ∀ n : Fin 128, ((Char.ofNat n).isAlphanum || Char.ofNat n == '_') = true →
      (decide ((Char.ofNat n).toUpper.toNat < 128) &&
        ((Char.ofNat n).toUpper.isAlphanum || (Char.ofNat n).toUpper == '_')) = true ∧
      isMeta (Char.ofNat n).toUpper = false := by decide +kernel
  have up' : ∀ c ∈ name, (decide (c.toUpper.toNat < 128) &&
        (c.toUpper.isAlphanum || c.toUpper == '_')) = true ∧ isMeta c.toUpper = false := by
    intro c hc
    have h1 := hi c hc
    have h2 : Char.ofNat c.toNat = c := Char.ofNat_toNat c
    have := up ⟨c.toNat, h1.1⟩
    rw [h2] at this
    exact this (by simpa using h1.2)
  have hu : ident (name.map Char.toUpper) = true := by
    refine List.all_eq_true.mpr fun c h => ?_
    obtain ⟨d, hd, rfl⟩ := List.mem_map.mp h
    exact (up' d hd).1
  have hm : (name.map Char.toUpper).any isMeta = false := by
    rw [List.any_eq_false]
    intro c h
    obtain ⟨d, hd, rfl⟩ := List.mem_map.mp h
    simp [(up' d hd).2]
  have ha : name.map Char.toUpper ∉ allWords := by
    have e : allWords = optionNames.map fun o => o.1.map Char.toUpper := by decide +kernel
    rw [e]
    intro h
    obtain ⟨o, h3, h4⟩ := List.mem_map.mp h
    exact ho o h3 h4
  exact base_unset cx S he q hn hi' hu hm ha hb

/-- `has('update_options', 'ignore')`, `has('delete_options', 'ignore')` and
`has('insert_options', 'ignore')`. -/
theorem has_ignore (he : AsciiTables cx.env) (u : Update) (d : Delete) (i : Insert) :
    updateHas cx S u L!"update_options" (.str L!"ignore") = .ok u.ignore ∧
    deleteHas cx S d L!"delete_options" (.str L!"ignore") = .ok d.ignore ∧
    insertHas cx S i L!"insert_options" (.str L!"ignore") = .ok i.ignore ∧
    updateHas cx S u L!"update_options" .none = .ok u.ignore ∧
    deleteHas cx S d L!"delete_options" .none = .ok d.ignore ∧
    insertHas cx S i L!"insert_options" .none = .ok i.ignore := by
  have key : ∀ b : Bool,
      viewHas cx S ⟨b, .ok (optionsText (if b then [L!"IGNORE"] else [])), true⟩ (.str L!"ignore") =
        .ok b := by
    intro b
    cases b with
    | false => rfl
    | true =>
      have e : viewHas cx S ⟨true, .ok (optionsText (if true then [L!"IGNORE"] else [])), true⟩
          (.str L!"ignore") = hasText cx (cx.env.upper L!"ignore") L!"IGNORE" := rfl
      rw [e, he.upper _ (by decide +kernel)]
      have e2 : L!"ignore".map Char.toUpper = L!"IGNORE" := by decide +kernel
      rw [e2]
      unfold hasText
      rw [if_neg (by decide +kernel)]
      congr 1
  exact ⟨key _, key _, key _, view_none cx S _, view_none cx S _, view_none cx S _⟩

/-- a union has no clauses of its own. -/
theorem has_union (name : Str) (v : Obj) : unionHas name v = .ok false := rfl

/-! ### The word is in the statement -/

theorem bindOk {α β : Type} {x : R α} {f : α → R β} {b : β}
    (h : (x >>= f) = .ok b) : ∃ a, x = .ok a ∧ f a = .ok b := by
  cases x with
  | error e => cases h
  | ok a => exact ⟨a, rfl, h⟩

/-- the word `has(clause, word)` found stands as a whole word in the text of the SELECT. -/
theorem has_select_statement (he : AsciiTables cx.env) {q : Select} {name : Str} {set : Prop}
    {text : R Str} (hc : SelectView cx S q name set text) {w : Str} (hw : Plain w)
    (hn : ∀ c ∈ w, isWhite c = false) (h : selectHas cx S q name (.str w) = .ok true) {t : Str}
    (ht : renderF cx S (.select q) = .ok t) : WholeWord cx.env.isWord w t := by
  obtain ⟨hset, u, hu, hwu⟩ := (has_select_word_partial cx S hc hw).1.mp h
  have ht' : selectText cx S q = .ok t := ht
  unfold selectText at ht'
  obtain ⟨columns, e1, ht'⟩ := bindOk ht'
  obtain ⟨groupBy, e2, ht'⟩ := bindOk ht'
  obtain ⟨having, e3, ht'⟩ := bindOk ht'
  obtain ⟨outfile, e4, ht'⟩ := bindOk ht'
  obtain ⟨limit, e5, ht'⟩ := bindOk ht'
  obtain ⟨orderBy, e6, ht'⟩ := bindOk ht'
  obtain ⟨forUpdate, e7, ht'⟩ := bindOk ht'
  obtain ⟨opts, e8, ht'⟩ := bindOk ht'
  obtain ⟨tables, e9, ht'⟩ := bindOk ht'
  obtain ⟨where_, e10, ht'⟩ := bindOk ht'
  have h1 := clause_head e1
  have h2 := clause_head e2
  have h3 := clause_head e3
  have h4 := clause_head e4
  have h5 := clause_head e5
  have h6 := clause_head e6
  have h7 := clause_head e7
  have h9 := clause_head e9
  have h10 := clause_head e10
  cases ht'
  apply whole_strip hw.1 (isWhite_eq ▸ hn)
  have sp := space_noWord he
  cases hc with
  | columns =>
    have := whole_mid sp (L!"SELECT" ++ opts) (y := tables ++ (where_ ++ (groupBy ++ (having ++ (orderBy ++ (limit ++ (outfile ++ (forUpdate))))))))
      (head_append h9 (head_append h10 (head_append h2 (head_append h3 (head_append h6 (head_append h5 (head_append h4 h7))))))) hwu
    rw [← clause_set e1 rfl hu] at this
    simp only [List.append_assoc] at this ⊢
    exact this
  | tables =>
    have := whole_mid sp (L!"SELECT" ++ opts ++ columns) (y := where_ ++ (groupBy ++ (having ++ (orderBy ++ (limit ++ (outfile ++ (forUpdate)))))))
      (head_append h10 (head_append h2 (head_append h3 (head_append h6 (head_append h5 (head_append h4 h7)))))) hwu
    rw [← clause_set e9 (ne_nil_iff.mpr hset) hu] at this
    simp only [List.append_assoc] at this ⊢
    exact this
  | where_ =>
    have := whole_mid sp (L!"SELECT" ++ opts ++ columns ++ tables) (y := groupBy ++ (having ++ (orderBy ++ (limit ++ (outfile ++ (forUpdate))))))
      (head_append h2 (head_append h3 (head_append h6 (head_append h5 (head_append h4 h7))))) hwu
    rw [← clause_set e10 (ne_nil_iff.mpr hset) hu] at this
    simp only [List.append_assoc] at this ⊢
    exact this
  | groupBy =>
    have := whole_mid sp (L!"SELECT" ++ opts ++ columns ++ tables ++ where_) (y := having ++ (orderBy ++ (limit ++ (outfile ++ (forUpdate)))))
      (head_append h3 (head_append h6 (head_append h5 (head_append h4 h7)))) hwu
    rw [← clause_set e2 (ne_nil_iff.mpr hset) hu] at this
    simp only [List.append_assoc] at this ⊢
    exact this
  | having =>
    have := whole_mid sp (L!"SELECT" ++ opts ++ columns ++ tables ++ where_ ++ groupBy) (y := orderBy ++ (limit ++ (outfile ++ (forUpdate))))
      (head_append h6 (head_append h5 (head_append h4 h7))) hwu
    rw [← clause_set e3 (ne_nil_iff.mpr hset) hu] at this
    simp only [List.append_assoc] at this ⊢
    exact this
  | orderBy =>
    have := whole_mid sp (L!"SELECT" ++ opts ++ columns ++ tables ++ where_ ++ groupBy ++ having) (y := limit ++ (outfile ++ (forUpdate)))
      (head_append h5 (head_append h4 h7)) hwu
    rw [← clause_set e6 (ne_nil_iff.mpr hset) hu] at this
    simp only [List.append_assoc] at this ⊢
    exact this
  | limit =>
    have := whole_mid sp (L!"SELECT" ++ opts ++ columns ++ tables ++ where_ ++ groupBy ++ having ++ orderBy) (y := outfile ++ (forUpdate))
      (head_append h4 h7) hwu
    rw [← clause_set e5 (by show (_ || _) = true; rw [Bool.or_eq_true, isSome_iff, isSome_iff]; exact hset) hu] at this
    simp only [List.append_assoc] at this ⊢
    exact this
  | outfile =>
    have := whole_mid sp (L!"SELECT" ++ opts ++ columns ++ tables ++ where_ ++ groupBy ++ having ++ orderBy ++ limit) (y := forUpdate)
      h7 hwu
    rw [← clause_set e4 (isSome_iff.mpr hset) hu] at this
    simp only [List.append_assoc] at this ⊢
    exact this

/-- the same for UPDATE. -/
theorem has_update_statement (he : AsciiTables cx.env) {q : Update} {name : Str} {set : Prop}
    {text : R Str} (hc : UpdateView cx S q name set text) {w : Str} (hw : Plain w)
    (hn : ∀ c ∈ w, isWhite c = false) (h : updateHas cx S q name (.str w) = .ok true) {t : Str}
    (ht : renderF cx S (.update q) = .ok t) : WholeWord cx.env.isWord w t := by
  obtain ⟨hset, u, hu, hwu⟩ := (has_update_word cx S hc hw).1.mp h
  have ht' : updateText cx S q = .ok t := ht
  unfold updateText at ht'
  split at ht'
  · cases ht'
  obtain ⟨tables, e1, ht'⟩ := bindOk ht'
  obtain ⟨opts, e2, ht'⟩ := bindOk ht'
  obtain ⟨values, e3, ht'⟩ := bindOk ht'
  obtain ⟨where_, e4, ht'⟩ := bindOk ht'
  have h1 := clause_head e1
  have h2 := clause_head e2
  have h3 := clause_head e3
  have h4 := clause_head e4
  cases ht'
  apply whole_strip hw.1 (isWhite_eq ▸ hn)
  have sp := space_noWord he
  cases hc with
  | tables =>
    have := whole_mid sp (L!"UPDATE" ++ opts) (y := L!" SET" ++ (values ++ (where_)))
      (head_append (Or.inr rfl) (head_append h3 h4)) hwu
    rw [← clause_set e1 (ne_nil_iff.mpr hset) hu] at this
    simp only [List.append_assoc] at this ⊢
    exact this
  | values =>
    have := whole_mid sp (L!"UPDATE" ++ opts ++ tables ++ L!" SET") (y := where_)
      h4 hwu
    rw [← clause_set e3 (ne_nil_iff.mpr hset) hu] at this
    simp only [List.append_assoc] at this ⊢
    exact this
  | where_ =>
    have := whole_mid sp (L!"UPDATE" ++ opts ++ tables ++ L!" SET" ++ values) (y := [])
      (Or.inl rfl) hwu
    rw [← clause_set e4 (ne_nil_iff.mpr hset) hu] at this
    simp only [List.append_assoc, List.append_nil] at this ⊢
    exact this

/-- the same for DELETE. -/
theorem has_delete_statement (he : AsciiTables cx.env) {q : Delete} {name : Str} {set : Prop}
    {text : R Str} (hc : DeleteView cx S q name set text) {w : Str} (hw : Plain w)
    (hn : ∀ c ∈ w, isWhite c = false) (h : deleteHas cx S q name (.str w) = .ok true) {t : Str}
    (ht : renderF cx S (.delete q) = .ok t) : WholeWord cx.env.isWord w t := by
  obtain ⟨hset, u, hu, hwu⟩ := (has_delete_word cx S hc hw).1.mp h
  have ht' : deleteText cx S q = .ok t := ht
  unfold deleteText at ht'
  split at ht'
  · cases ht'
  obtain ⟨opts, e1, ht'⟩ := bindOk ht'
  obtain ⟨references, e2, ht'⟩ := bindOk ht'
  obtain ⟨tables, e3, ht'⟩ := bindOk ht'
  obtain ⟨where_, e4, ht'⟩ := bindOk ht'
  have h1 := clause_head e1
  have h2 := clause_head e2
  have h3 := clause_head e3
  have h4 := clause_head e4
  cases ht'
  apply whole_strip hw.1 (isWhite_eq ▸ hn)
  have sp := space_noWord he
  cases hc with
  | tables =>
    have := whole_mid sp (L!"DELETE" ++ opts) (y := L!" FROM" ++ (references ++ (where_)))
      (head_append (Or.inr rfl) (head_append h2 h4)) hwu
    rw [← clause_set e3 (ne_nil_iff.mpr hset) hu] at this
    simp only [List.append_assoc] at this ⊢
    exact this
  | references =>
    have := whole_mid sp (L!"DELETE" ++ opts ++ tables ++ L!" FROM") (y := where_)
      h4 hwu
    rw [← clause_set e2 (ne_nil_iff.mpr hset) hu] at this
    simp only [List.append_assoc] at this ⊢
    exact this
  | where_ =>
    have := whole_mid sp (L!"DELETE" ++ opts ++ tables ++ L!" FROM" ++ references) (y := [])
      (Or.inl rfl) hwu
    rw [← clause_set e4 (ne_nil_iff.mpr hset) hu] at this
    simp only [List.append_assoc, List.append_nil] at this ⊢
    exact this

/-- the same for INSERT. -/
theorem has_insert_statement (he : AsciiTables cx.env) {q : Insert} {name : Str} {set : Prop}
    {text : R Str} (hc : InsertView cx S q name set text) {w : Str} (hw : Plain w)
    (hn : ∀ c ∈ w, isWhite c = false) (h : insertHas cx S q name (.str w) = .ok true) {t : Str}
    (ht : renderF cx S (.insert q) = .ok t) : WholeWord cx.env.isWord w t := by
  obtain ⟨hset, u, hu, hwu⟩ := (has_insert_word_partial cx S hc hw).1.mp h
  have ht' : insertText cx S q = .ok t := ht
  unfold insertText at ht'
  obtain ⟨opts, e1, ht'⟩ := bindOk ht'
  obtain ⟨keyword, e2, ht'⟩ := bindOk ht'
  obtain ⟨onConflict, e3, ht'⟩ := bindOk ht'
  obtain ⟨onDup, e4, ht'⟩ := bindOk ht'
  obtain ⟨tables, e5, ht'⟩ := bindOk ht'
  obtain ⟨values, e6, ht'⟩ := bindOk ht'
  have h1 := clause_head e1
  have h2 := clause_head e2
  have h3 := clause_head e3
  have h4 := clause_head e4
  have h5 := clause_head e5
  have h6 := clause_head e6
  cases ht'
  apply whole_strip hw.1 (isWhite_eq ▸ hn)
  have sp := space_noWord he
  cases hc with
  | tables =>
    have := whole_mid sp (keyword ++ opts ++ L!" INTO") (y := values ++ (onDup ++ (onConflict)))
      (head_append h6 (head_append h4 h3)) hwu
    rw [← clause_set e5 (ne_nil_iff.mpr hset) hu] at this
    simp only [List.append_assoc] at this ⊢
    exact this
  | values =>
    have := whole_mid sp (keyword ++ opts ++ L!" INTO" ++ tables) (y := onDup ++ (onConflict))
      (head_append h4 h3) hwu
    rw [← clause_set e6 (ne_nil_iff.mpr hset) hu] at this
    simp only [List.append_assoc] at this ⊢
    exact this
  | onDuplicate =>
    have := whole_mid sp (keyword ++ opts ++ L!" INTO" ++ tables ++ values) (y := onConflict)
      h3 hwu
    rw [← clause_set e4 (ne_nil_iff.mpr hset) hu] at this
    simp only [List.append_assoc] at this ⊢
    exact this
  | onConflict =>
    have := whole_mid sp (keyword ++ opts ++ L!" INTO" ++ tables ++ values ++ onDup) (y := [])
      (Or.inl rfl) hwu
    rw [← clause_set e3 (ne_nil_iff.mpr hset) hu] at this
    simp only [List.append_assoc, List.append_nil] at this ⊢
    exact this

end

/-! ### The texts of the clauses -/

section
variable (cx : Ctx) (n : Nat)

theorem clause_text {b : Bool} {x : R Str} {t : Str} :
    b = true ∧ x = .ok t ↔ clause b x = .ok (' ' :: t) := by
  unfold clause
  cases b with
  | false => simp
  | true =>
    simp only [true_and, if_true, bind_ok]
    constructor
    · rintro rfl; exact ⟨t, rfl, rfl⟩
    · rintro ⟨a, h, e⟩; cases e; exact h

theorem spaced_eq {c : Option Str} {t : Str} : ' ' :: t = spaced c ↔ c = some t := by
  cases c <;> simp [spaced, eq_comm]

/-- A listed clause that is there. -/
theorem listClause_text {α : Type} {kw kw' sep : Str} {f : α → R Str} {W : α → Str → Prop}
    (hf : ∀ x t, f x = .ok t ↔ W x t)
    (hk : (kw = [] ∧ kw' = []) ∨ (kw ≠ [] ∧ kw' = kw ++ [' '])) (xs : List α) (t : Str) :
    xs ≠ [] ∧ partsText kw sep [] f xs = .ok t ↔ ListClause kw' sep W xs (some t) := by
  rw [← ne_nil_iff, clause_text, listClause_iff hf hk]
  simp [spaced_eq]

theorem select_clause {q : Select} {name : Str} {set : Prop} {text : Str → Prop}
    (h : SelectClause cx n q name set text) :
    ∃ x, SelectView cx (sem cx n) q name set x ∧ ∀ t, set ∧ x = .ok t ↔ text t := by
  cases h with
  | columns =>
    refine ⟨_, .columns, fun t => ?_⟩
    have : True ∧ columnsText cx (sem cx n) q.columns = .ok t ↔
      true = true ∧ columnsText cx (sem cx n) q.columns = .ok t := by simp
    rw [this, clause_text, columnsClause_iff]
    simp
  | tables => exact ⟨_, .tables, listClause_text (fun x t => tableText_iff cx n) (.inr ⟨by decide, rfl⟩) _⟩
  | where_ => exact ⟨_, .where_, listClause_text (fun x t => condText_iff cx n) (.inr ⟨by decide, rfl⟩) _⟩
  | groupBy => exact ⟨_, .groupBy, listClause_text (fun x t => orderText_iff cx n) (.inr ⟨by decide, rfl⟩) _⟩
  | having => exact ⟨_, .having, listClause_text (fun x t => condText_iff cx n) (.inr ⟨by decide, rfl⟩) _⟩
  | orderBy => exact ⟨_, .orderBy, listClause_text (fun x t => orderText_iff cx n) (.inr ⟨by decide, rfl⟩) _⟩
  | limit =>
    refine ⟨_, .limit, fun t => ?_⟩
    rw [← isSome_iff, ← isSome_iff, ← Bool.or_eq_true, clause_text]
    have := limitClause (l := q.limit) (s := ' ' :: t)
    rw [LimitS.isSet] at this
    rw [this, spaced_eq]
  | outfile =>
    refine ⟨_, .outfile, fun t => ?_⟩
    rw [← isSome_iff, clause_text, outfileClause_iff]
    simp [spaced_eq]

theorem update_clause {q : Update} {name : Str} {set : Prop} {text : Str → Prop}
    (h : UpdateClause cx n q name set text) :
    ∃ x, UpdateView cx (sem cx n) q name set x ∧ ∀ t, set ∧ x = .ok t ↔ text t := by
  cases h with
  | tables => exact ⟨_, .tables, listClause_text (fun x t => tableText_iff cx n) (.inl ⟨rfl, rfl⟩) _⟩
  | values => exact ⟨_, .values, listClause_text (fun x t => valueText_iff cx n) (.inl ⟨rfl, rfl⟩) _⟩
  | where_ => exact ⟨_, .where_, listClause_text (fun x t => condText_iff cx n) (.inr ⟨by decide, rfl⟩) _⟩

theorem delete_clause {q : Delete} {name : Str} {set : Prop} {text : Str → Prop}
    (h : DeleteClause cx n q name set text) :
    ∃ x, DeleteView cx (sem cx n) q name set x ∧ ∀ t, set ∧ x = .ok t ↔ text t := by
  cases h with
  | tables => exact ⟨_, .tables, listClause_text (fun x t => tableText_iff cx n) (.inl ⟨rfl, rfl⟩) _⟩
  | references => exact ⟨_, .references, listClause_text (fun x t => tableText_iff cx n) (.inl ⟨rfl, rfl⟩) _⟩
  | where_ => exact ⟨_, .where_, listClause_text (fun x t => condText_iff cx n) (.inr ⟨by decide, rfl⟩) _⟩

theorem conflictWords_iff {o : Option Str} {w : Str} :
    ConflictWords cx n o w ↔ w = conflictKeyword cx o ++ [' '] := by
  unfold conflictKeyword ConflictWords
  cases o with
  | none => exact Iff.rfl
  | some c =>
    constructor
    · rintro ⟨a, h, rfl⟩
      cases h
      simp
    · rintro rfl
      exact ⟨_, rfl, by simp⟩

theorem insert_clause {q : Insert} {name : Str} {set : Prop} {text : Str → Prop}
    (h : InsertClause cx n q name set text) :
    ∃ x, InsertView cx (sem cx n) q name set x ∧ ∀ t, set ∧ x = .ok t ↔ text t := by
  cases h with
  | tables => exact ⟨_, .tables, listClause_text (fun x t => tableText_iff cx n) (.inl ⟨rfl, rfl⟩) _⟩
  | values => exact ⟨_, .values, fun t => and_congr Iff.rfl (rowsText_iff cx n)⟩
  | onDuplicate => exact ⟨_, .onDuplicate, listClause_text (fun x t => valueText_iff cx n) (.inr ⟨by decide, rfl⟩) _⟩
  | onConflict =>
    refine ⟨_, .onConflict, fun t => ?_⟩
    have hk : conflictKeyword cx q.conflict ≠ [] := by
      unfold conflictKeyword
      cases q.conflict <;> simp
    simp only [conflictWords_iff, exists_eq_left]
    exact listClause_text (fun x t => valueText_iff cx n) (.inr ⟨hk, rfl⟩) _ t

end

/-- The options by name. -/
theorem optionNames_eq : optionNames =
    [SelOpt.sqlCache, .sqlNoCache, .all, .distinct, .distinctrow, .sqlSmallResult, .sqlBigResult,
     .sqlBufferResult, .sqlCalcFoundRows, .straightJoin, .highPriority].map
      fun o => (optionMethod o, fun q : Select => q.opts.isOn o) := rfl

theorem method_mem (o : SelOpt) : (optionMethod o, fun q : Select => q.opts.isOn o) ∈ optionNames := by
  rw [optionNames_eq]
  exact List.mem_map_of_mem (f := fun o => (optionMethod o, fun q : Select => q.opts.isOn o))
    (by cases o <;> decide)

theorem mem_method {p : Str × (Select → Bool)} (h : p ∈ optionNames) :
    ∃ o : SelOpt, p = (optionMethod o, fun q : Select => q.opts.isOn o) := by
  rw [optionNames_eq] at h
  obtain ⟨o, _, rfl⟩ := List.mem_map.mp h
  exact ⟨o, rfl⟩

end SqlPuzzle
