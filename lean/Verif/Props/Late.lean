import Verif.Proofs.Late
import Verif.Props.Settings

/-!
C61: building a query does not depend on the backend; only rendering does.
-/

namespace SqlPuzzle

open Spec

variable (env : Env) (n : Nat)

/-- In a program that builds a `Select` and calls `configure` on the way, nothing depends on when
`configure` is called: the query, the exceptions of the calls and the backend in the end are the same as
if all calls of `configure` had been made first.  Missing: `full_join`, and what is compared by its text. -/
theorem C61_select_partial {s : Session Select} (hs : Untexted (.select s.query))
    {cs : List (Command SelectOp)} (hc : ∀ op ∈ callsOf cs, LateSelect op) :
    runProgram env n selectStep s cs = runProgram env n selectStep s (configureFirst cs) := by
  exact Late.program_first (P := Late.ClearSelect) (L := LateSelect)
    (fun b b' q op hq ho => Late.select_both (cx := ⟨b, env⟩) (cx' := ⟨b', env⟩) (Late.sem_eq_same _ _ n) rfl hq ho)
    (Late.clearSelect hs) hc

/-- The same for an `Insert`.  Missing: `on_duplicate_key_update`, and what is compared by its text. -/
theorem C61_insert_partial {s : Session Insert} (hs : Untexted (.insert s.query))
    {cs : List (Command InsertOp)} (hc : ∀ op ∈ callsOf cs, LateInsert op) :
    runProgram env n insertStep s cs = runProgram env n insertStep s (configureFirst cs) := by
  exact Late.program_first (P := Late.ClearInsert) (L := LateInsert)
    (fun b b' q op hq ho => Late.insert_both (cx := ⟨b, env⟩) (cx' := ⟨b', env⟩) (Late.sem_eq_same _ _ n) hq ho)
    (Late.clearInsert hs) hc

/-- The same for an `Update`.  Missing: what is compared by its text. -/
theorem C61_update_partial {s : Session Update} (hs : Untexted (.update s.query))
    {cs : List (Command UpdateOp)} (hc : ∀ op ∈ callsOf cs, LateUpdate op) :
    runProgram env n updateStep s cs = runProgram env n updateStep s (configureFirst cs) := by
  exact Late.program_first (P := Late.ClearUpdate) (L := LateUpdate)
    (fun b b' q op hq ho => Late.update_both (cx := ⟨b, env⟩) (cx' := ⟨b', env⟩) (Late.sem_eq_same _ _ n) hq ho)
    (Late.clearUpdate hs) hc

/-- The same for a `Delete`.  Missing: what is compared by its text. -/
theorem C61_delete_partial {s : Session Delete} (hs : Untexted (.delete s.query))
    {cs : List (Command DeleteOp)} (hc : ∀ op ∈ callsOf cs, LateDelete op) :
    runProgram env n deleteStep s cs = runProgram env n deleteStep s (configureFirst cs) := by
  exact Late.program_first (P := Late.ClearDelete) (L := LateDelete)
    (fun b b' q op hq ho => Late.delete_both (cx := ⟨b, env⟩) (cx' := ⟨b', env⟩) (Late.sem_eq_same _ _ n) hq ho)
    (Late.clearDelete hs) hc

/-- The text in the end is that of the same query under the backend configured last. -/
theorem C61_text_partial {s : Session Select} (hs : Untexted (.select s.query))
    {cs : List (Command SelectOp)} (hc : ∀ op ∈ callsOf cs, LateSelect op) (b : Backend)
    (hb : latest (saysBackend env) (configuresOf cs) = some b) (m : Nat) :
    let r := runProgram env n selectStep s cs
    let cx : Ctx := ⟨b, env⟩
    (sem ⟨r.backend, env⟩ m).str (.select r.query) =
      (sem cx m).str (.select (runOps (selectStep cx (sem cx n)) s.query (callsOf cs))) := by
  intro r cx
  have h1 : r.backend = b := by
    show (runProgram env n selectStep s cs).backend = b
    rw [Late.program_backend, C35_latest, hb]
    rfl
  have h2 := Late.program_calls (env := env) (n := n) (step := selectStep) (P := Late.ClearSelect)
    (L := LateSelect)
    (fun b b' q op hq ho =>
      Late.select_both (cx := ⟨b, env⟩) (cx' := ⟨b', env⟩) (Late.sem_eq_same _ _ n) rfl hq ho) b
    (Late.clearSelect hs) hc
  have h3 : ∀ (ops : List SelectOp) (q : Select) (l : List (Option Err)),
      (Late.callsOnly env n selectStep b (q, l) ops).1 = runOps (selectStep cx (sem cx n)) q ops := by
    intro ops
    induction ops with
    | nil => exact fun _ _ => rfl
    | cons o ops ih => exact fun q l => ih _ _
  have h4 : r.query = runOps (selectStep cx (sem cx n)) s.query (callsOf cs) := by
    rw [← h3 (callsOf cs) s.query s.raised, ← h2]
  rw [h1, h4]

private def env0 : Env := ⟨id, id, fun _ => true, fun _ => [], fun _ => []⟩

/-- `select('a').from_('t')`, `configure('mysql')`, `join('u').on('t.x', 'u.y').where(b=1)`. -/
private def prog0 : List (Command SelectOp) :=
  [.call (.columns { pos := [.str L!"a"] }), .call (.from_ { pos := [.str L!"t"] }),
   .configure L!"mysql", .call (.join .inner (.str L!"u")),
   .call (.on { pos := [.str L!"t.x", .str L!"u.y"] }), .call (.where_ { kw := [(L!"b", .int 1)] })]

example : ∀ op ∈ callsOf prog0, LateSelect op := by
  have h : ∀ s, Untexted (.str s) := Late.untexted_str
  intro op hop
  simp only [prog0, callsOf, List.mem_cons, List.not_mem_nil, or_false] at hop
  rcases hop with rfl | rfl | rfl | rfl | rfl
  · exact ⟨by simp [h], by simp, by simp, by simp⟩
  · exact ⟨by simp [h], by simp, by simp, by simp⟩
  · exact ⟨by decide, h _, rfl⟩
  · exact ⟨by simp [h], by simp, by simp, by simp⟩
  · exact ⟨by simp, by simp [Late.untexted_int], by simp, by simp⟩

example : Untexted (.select {}) := .mk id fun x hx => by cases hx

example : latest (saysBackend env0) (configuresOf prog0) = some .mysql := by decide

example :
    let r := runProgram env0 4 selectStep ⟨.sql, {}, []⟩ prog0
    (sem ⟨r.backend, env0⟩ 5).str (.select r.query) =
      .ok L!"SELECT `a` FROM `t` JOIN `u` ON `t`.`x` = `u`.`y` WHERE `b` = 1" := by decide +kernel

/-- C61, as one would like it: the backend matters only for rendering. -/
def C61_claim : Prop := ∀ (env : Env) (n : Nat) (s : Session Select) (cs : List (Command SelectOp)),
  .str ∉ callsOf cs →
    runProgram env n selectStep s cs = runProgram env n selectStep s (configureFirst cs)

/-- `full_join` asks the backend at once: it raises although PostgreSQL is configured later on, and with
PostgreSQL configured before, a full join gets into a query that may be rendered for MySQL. -/
theorem C61_refuted : ¬ C61_claim := by
  intro h
  have := h env0 3 ⟨.sql, {}, []⟩
    [.call (.from_ { pos := [.str L!"t"] }), .call (.join .full (.str L!"u")), .configure L!"postgresql"]
    (by simp [callsOf])
  have := congrArg (fun s => s.raised.map Option.isSome) this
  revert this
  decide +kernel

/-- What `on_duplicate_key_update` does is decided when it is called. -/
theorem C61_refuted_insert : ∃ cs : List (Command InsertOp),
    (runProgram env0 3 insertStep ⟨.sql, {}, []⟩ cs).query.onDup.length ≠
      (runProgram env0 3 insertStep ⟨.sql, {}, []⟩ (configureFirst cs)).query.onDup.length :=
  ⟨[.call (.onDuplicateKeyUpdate { kw := [(L!"a", .int 1)] }), .configure L!"mysql"], by decide +kernel⟩

/-- After custom SQL `"a" = 1` the condition `where(a=1)` is left out if it is given while the default backend is
configured, and kept while MySQL is. -/
theorem C61_refuted_text : ∃ cs : List (Command SelectOp),
    (runProgram env0 4 selectStep ⟨.sql, {}, []⟩ cs).query.where_.length = 1 ∧
      (runProgram env0 4 selectStep ⟨.sql, {}, []⟩ (configureFirst cs)).query.where_.length = 2 :=
  ⟨[.call (.where_ { pos := [.custom L!"\"a\" = 1"] }), .call (.where_ { kw := [(L!"a", .int 1)] }),
    .configure L!"mysql"], by decide +kernel⟩

end SqlPuzzle
