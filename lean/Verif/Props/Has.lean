import Verif.Proofs.HasViews

/-!
C38: `has()` answers whether a clause is there, and finds whole words of its text only.
-/

namespace SqlPuzzle
open Spec

section
variable (cx : Ctx) (n : Nat)

/-- C38, SELECT: `has(clause, word)` is true iff the clause is there and the word occurs in its
text untouched by word characters; it raises only when the text of the clause cannot be made. -/
theorem C38_select_word_partial {q : Select} {name : Str} {set : Prop} {text : Str → Prop}
    (hc : SelectClause cx n q name set text) {w : Str} (hw : Plain w) :
    (selectHas cx (sem cx n) q name (.str w) = .ok true ↔ ∃ t, text t ∧ WholeWord cx.env.isWord w t) ∧
    ((set → ∃ t, text t) → ∃ b, selectHas cx (sem cx n) q name (.str w) = .ok b) := by
  obtain ⟨x, h1, h2⟩ := select_clause cx n hc
  obtain ⟨h3, h4⟩ := has_select_word_partial cx (sem cx n) h1 hw
  refine ⟨h3.trans ⟨?_, ?_⟩, fun h => h4 fun hs => ?_⟩
  · rintro ⟨hs, t, ht, hw⟩; exact ⟨t, (h2 t).mp ⟨hs, ht⟩, hw⟩
  · rintro ⟨t, ht, hw⟩; exact ⟨((h2 t).mpr ht).1, t, ((h2 t).mpr ht).2, hw⟩
  · obtain ⟨t, ht⟩ := h hs; exact ⟨t, ((h2 t).mpr ht).2⟩

/-- C38, UPDATE: the same. -/
theorem C38_update_word {q : Update} {name : Str} {set : Prop} {text : Str → Prop}
    (hc : UpdateClause cx n q name set text) {w : Str} (hw : Plain w) :
    (updateHas cx (sem cx n) q name (.str w) = .ok true ↔ ∃ t, text t ∧ WholeWord cx.env.isWord w t) ∧
    ((set → ∃ t, text t) → ∃ b, updateHas cx (sem cx n) q name (.str w) = .ok b) := by
  obtain ⟨x, h1, h2⟩ := update_clause cx n hc
  obtain ⟨h3, h4⟩ := has_update_word cx (sem cx n) h1 hw
  refine ⟨h3.trans ⟨?_, ?_⟩, fun h => h4 fun hs => ?_⟩
  · rintro ⟨hs, t, ht, hw⟩; exact ⟨t, (h2 t).mp ⟨hs, ht⟩, hw⟩
  · rintro ⟨t, ht, hw⟩; exact ⟨((h2 t).mpr ht).1, t, ((h2 t).mpr ht).2, hw⟩
  · obtain ⟨t, ht⟩ := h hs; exact ⟨t, ((h2 t).mpr ht).2⟩

/-- C38, DELETE: the same. -/
theorem C38_delete_word {q : Delete} {name : Str} {set : Prop} {text : Str → Prop}
    (hc : DeleteClause cx n q name set text) {w : Str} (hw : Plain w) :
    (deleteHas cx (sem cx n) q name (.str w) = .ok true ↔ ∃ t, text t ∧ WholeWord cx.env.isWord w t) ∧
    ((set → ∃ t, text t) → ∃ b, deleteHas cx (sem cx n) q name (.str w) = .ok b) := by
  obtain ⟨x, h1, h2⟩ := delete_clause cx n hc
  obtain ⟨h3, h4⟩ := has_delete_word cx (sem cx n) h1 hw
  refine ⟨h3.trans ⟨?_, ?_⟩, fun h => h4 fun hs => ?_⟩
  · rintro ⟨hs, t, ht, hw⟩; exact ⟨t, (h2 t).mp ⟨hs, ht⟩, hw⟩
  · rintro ⟨t, ht, hw⟩; exact ⟨((h2 t).mpr ht).1, t, ((h2 t).mpr ht).2, hw⟩
  · obtain ⟨t, ht⟩ := h hs; exact ⟨t, ((h2 t).mpr ht).2⟩

/-- C38, INSERT: the same, except for `keyword`. -/
theorem C38_insert_word_partial {q : Insert} {name : Str} {set : Prop} {text : Str → Prop}
    (hc : InsertClause cx n q name set text) {w : Str} (hw : Plain w) :
    (insertHas cx (sem cx n) q name (.str w) = .ok true ↔ ∃ t, text t ∧ WholeWord cx.env.isWord w t) ∧
    ((set → ∃ t, text t) → ∃ b, insertHas cx (sem cx n) q name (.str w) = .ok b) := by
  obtain ⟨x, h1, h2⟩ := insert_clause cx n hc
  obtain ⟨h3, h4⟩ := has_insert_word_partial cx (sem cx n) h1 hw
  refine ⟨h3.trans ⟨?_, ?_⟩, fun h => h4 fun hs => ?_⟩
  · rintro ⟨hs, t, ht, hw⟩; exact ⟨t, (h2 t).mp ⟨hs, ht⟩, hw⟩
  · rintro ⟨t, ht, hw⟩; exact ⟨((h2 t).mpr ht).1, t, ((h2 t).mpr ht).2, hw⟩
  · obtain ⟨t, ht⟩ := h hs; exact ⟨t, ((h2 t).mpr ht).2⟩

/-- C38, SELECT: `has(clause)` is true iff the clause is there. -/
theorem C38_select_set (he : AsciiTables cx.env) {q : Select} {name : Str} {set : Prop}
    {text : Str → Prop} (hc : SelectClause cx n q name set text) :
    ∃ b, selectHas cx (sem cx n) q name .none = .ok b ∧ (b = true ↔ set) := by
  obtain ⟨x, h1, _⟩ := select_clause cx n hc
  exact has_select_set cx (sem cx n) he h1

/-- C38, UPDATE: `has(clause)`. -/
theorem C38_update_set {q : Update} {name : Str} {set : Prop}
    {text : Str → Prop} (hc : UpdateClause cx n q name set text) :
    ∃ b, updateHas cx (sem cx n) q name .none = .ok b ∧ (b = true ↔ set) := by
  obtain ⟨x, h1, _⟩ := update_clause cx n hc
  exact has_update_set cx (sem cx n) h1

/-- C38, DELETE: `has(clause)`. -/
theorem C38_delete_set {q : Delete} {name : Str} {set : Prop}
    {text : Str → Prop} (hc : DeleteClause cx n q name set text) :
    ∃ b, deleteHas cx (sem cx n) q name .none = .ok b ∧ (b = true ↔ set) := by
  obtain ⟨x, h1, _⟩ := delete_clause cx n hc
  exact has_delete_set cx (sem cx n) h1

/-- C38, INSERT: `has(clause)`. -/
theorem C38_insert_set_partial {q : Insert} {name : Str} {set : Prop}
    {text : Str → Prop} (hc : InsertClause cx n q name set text) :
    ∃ b, insertHas cx (sem cx n) q name .none = .ok b ∧ (b = true ↔ set) := by
  obtain ⟨x, h1, _⟩ := insert_clause cx n hc
  exact has_insert_set_partial cx (sem cx n) h1

/-- C38: `has('distinct')` and its kin: true iff that option is in force. -/
theorem C38_select_option (he : AsciiTables cx.env) (q : Select) (o : SelOpt) :
    selectHas cx (sem cx n) q (optionMethod o) .none = .ok (q.opts.isOn o) ∧
    selectHas cx (sem cx n) q L!"select_options" (.str (optionMethod o)) = .ok (q.opts.isOn o) :=
  has_select_option cx (sem cx n) he q (method_mem o)

/-- C38: `has('select_options')` is true iff some option is in force. -/
theorem C38_select_options (he : AsciiTables cx.env) (q : Select) :
    ∃ b, selectHas cx (sem cx n) q L!"select_options" .none = .ok b ∧
      (b = true ↔ ∃ o : SelOpt, q.opts.isOn o = true) := by
  obtain ⟨b, h1, h2⟩ := has_select_options cx (sem cx n) he q
  refine ⟨b, h1, h2.trans ⟨?_, ?_⟩⟩
  · rintro ⟨p, hp, h⟩
    obtain ⟨o, rfl⟩ := mem_method hp
    exact ⟨o, h⟩
  · rintro ⟨o, h⟩
    exact ⟨_, method_mem o, h⟩

/-- C38: `has('select_for_update')`. -/
theorem C38_select_for_update (he : AsciiTables cx.env) (q : Select) :
    selectHas cx (sem cx n) q L!"select_for_update" .none = .ok q.forUpdate :=
  has_select_for_update cx (sem cx n) he q

/-- C38: a name that is neither a clause nor an option is never there. -/
theorem C38_select_other (he : AsciiTables cx.env) (q : Select) {name : Str} (hn : name ≠ [])
    (hi : ∀ c ∈ name, c.toNat < 128 ∧ (c.isAlphanum = true ∨ c = '_'))
    (hc : name ∉ [L!"columns", L!"tables", L!"where", L!"group_by", L!"having", L!"order_by",
      L!"limit", L!"into_outfile", L!"select_options", L!"select_for_update"])
    (ho : ∀ o : SelOpt, (optionMethod o).map Char.toUpper ≠ name.map Char.toUpper) :
    selectHas cx (sem cx n) q name .none = .ok false := by
  simp only [List.mem_cons, List.not_mem_nil, or_false, not_or] at hc
  obtain ⟨h1, h2, h3, h4, h5, h6, h7, h8, h9, h10⟩ := hc
  refine has_select_other cx (sem cx n) he q hn hi ?_ ?_ h9 h10
  · intro set text h
    cases h <;> contradiction
  · intro p hp
    obtain ⟨o, rfl⟩ := mem_method hp
    exact ho o

/-- C38: `has('update_options', 'ignore')`, `has('delete_options', 'ignore')` and
`has('insert_options', 'ignore')`. -/
theorem C38_ignore (he : AsciiTables cx.env) (u : Update) (d : Delete) (i : Insert) :
    updateHas cx (sem cx n) u L!"update_options" (.str L!"ignore") = .ok u.ignore ∧
    deleteHas cx (sem cx n) d L!"delete_options" (.str L!"ignore") = .ok d.ignore ∧
    insertHas cx (sem cx n) i L!"insert_options" (.str L!"ignore") = .ok i.ignore ∧
    updateHas cx (sem cx n) u L!"update_options" .none = .ok u.ignore ∧
    deleteHas cx (sem cx n) d L!"delete_options" .none = .ok d.ignore ∧
    insertHas cx (sem cx n) i L!"insert_options" .none = .ok i.ignore :=
  has_ignore cx (sem cx n) he u d i

/-- C38: a union has no clauses of its own. -/
theorem C38_union (name : Str) (v : Obj) : unionHas name v = .ok false := rfl

/-! ### The word is in the statement -/

/-- C38: the word `has(clause, word)` found stands as a whole word in the text of the SELECT. -/
theorem C38_select_statement (he : AsciiTables cx.env) {q : Select} {name : Str} {set : Prop}
    {text : Str → Prop} (hc : SelectClause cx n q name set text) {w : Str} (hw : Plain w)
    (hn : ∀ c ∈ w, isWhite c = false) (h : selectHas cx (sem cx n) q name (.str w) = .ok true) {t : Str}
    (ht : (sem cx (n + 1)).str (.select q) = .ok t) : WholeWord cx.env.isWord w t := by
  obtain ⟨x, h1, _⟩ := select_clause cx n hc
  exact has_select_statement cx (sem cx n) he h1 hw hn h ht

/-- C38: the same for UPDATE. -/
theorem C38_update_statement (he : AsciiTables cx.env) {q : Update} {name : Str} {set : Prop}
    {text : Str → Prop} (hc : UpdateClause cx n q name set text) {w : Str} (hw : Plain w)
    (hn : ∀ c ∈ w, isWhite c = false) (h : updateHas cx (sem cx n) q name (.str w) = .ok true) {t : Str}
    (ht : (sem cx (n + 1)).str (.update q) = .ok t) : WholeWord cx.env.isWord w t := by
  obtain ⟨x, h1, _⟩ := update_clause cx n hc
  exact has_update_statement cx (sem cx n) he h1 hw hn h ht

/-- C38: the same for DELETE. -/
theorem C38_delete_statement (he : AsciiTables cx.env) {q : Delete} {name : Str} {set : Prop}
    {text : Str → Prop} (hc : DeleteClause cx n q name set text) {w : Str} (hw : Plain w)
    (hn : ∀ c ∈ w, isWhite c = false) (h : deleteHas cx (sem cx n) q name (.str w) = .ok true) {t : Str}
    (ht : (sem cx (n + 1)).str (.delete q) = .ok t) : WholeWord cx.env.isWord w t := by
  obtain ⟨x, h1, _⟩ := delete_clause cx n hc
  exact has_delete_statement cx (sem cx n) he h1 hw hn h ht

/-- C38: the same for INSERT. -/
theorem C38_insert_statement (he : AsciiTables cx.env) {q : Insert} {name : Str} {set : Prop}
    {text : Str → Prop} (hc : InsertClause cx n q name set text) {w : Str} (hw : Plain w)
    (hn : ∀ c ∈ w, isWhite c = false) (h : insertHas cx (sem cx n) q name (.str w) = .ok true) {t : Str}
    (ht : (sem cx (n + 1)).str (.insert q) = .ok t) : WholeWord cx.env.isWord w t := by
  obtain ⟨x, h1, _⟩ := insert_clause cx n hc
  exact has_insert_statement cx (sem cx n) he h1 hw hn h ht

end

/-! ### Where the claim fails -/

/-- The claim for all parts, also `select_for_update`. -/
def C38_claim : Prop :=
  ∀ (cx : Ctx) (S : Sem) (q : Select) (w : Str), AsciiTables cx.env → Plain w →
    (selectHas cx S q L!"select_for_update" (.str w) = .ok true ↔
      q.forUpdate = true ∧ WholeWord cx.env.isWord w L!"FOR UPDATE")

private def ascii0 : Env :=
  ⟨fun s => s.map Char.toUpper, fun s => s.map Char.toLower, fun c => c.isAlphanum || c == '_',
    fun _ => [], fun _ => []⟩

private theorem ascii0_ok : AsciiTables ascii0 := ⟨fun _ _ => rfl, fun _ _ => rfl⟩

private def cx0 : Ctx := ⟨.sql, ascii0⟩

/-- C38 fails for `has('select_for_update', 'UPDATE')`: the clause reads `FOR UPDATE`, but the
answer is no. -/
theorem C38_refuted : ¬ C38_claim := by
  intro h
  have := (h cx0 (sem cx0 0) { forUpdate := true } L!"UPDATE" ascii0_ok
    ⟨by decide, by decide +kernel⟩).mpr ⟨rfl, L!"FOR ", [], by decide +kernel, ?_, ?_⟩
  · exact absurd this (by decide +kernel)
  · intro c hc
    have e : L!"FOR ".getLast? = some ' ' := by decide +kernel
    rw [e] at hc
    cases hc
    decide
  · intro c hc; cases hc

/-- C38: `has('keyword')` on an INSERT raises `AttributeError`. -/
theorem C38_refuted_keyword (cx : Ctx) (S : Sem) (q : Insert) (v : Obj) :
    insertHas cx S q L!"keyword" v = .error .attributeError := rfl

/-! ### Examples -/

/-- `select('a').distinctrow().where(identity=1, name='id')` -/
private def q0 : Select :=
  { opts := { duplicated := .distinctrow }, columns := [⟨.str L!"a", .none⟩],
    where_ := [.cond false (.str L!"identity") .eq (.int 1)] }

example : ∃ text : Str → Prop, SelectClause cx0 3 q0 L!"where" (q0.where_ ≠ []) text ∧
    text L!"WHERE \"identity\" = 1" :=
  ⟨_, .where_, .inr ⟨by simp [q0], [L!"\"identity\" = 1"],
    .cons (by show _ = _; decide +kernel) .nil, by decide +kernel⟩⟩

example : Plain L!"identity" ∧ Plain L!"id" :=
  ⟨⟨by decide, by decide +kernel⟩, ⟨by decide, by decide +kernel⟩⟩

example : selectHas cx0 (sem cx0 3) q0 L!"where" (.str L!"identity") = .ok true := by
  decide +kernel

example : selectHas cx0 (sem cx0 3) q0 L!"where" (.str L!"id") = .ok false := by decide +kernel

example : selectHas cx0 (sem cx0 3) q0 L!"distinct" .none = .ok false := by decide +kernel

example : selectHas cx0 (sem cx0 3) q0 L!"distinctrow" .none = .ok true := by decide +kernel

end SqlPuzzle
