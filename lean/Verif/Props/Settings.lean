import Verif.Proofs.Statement
import Verif.Model.Has

/-!
C25 (limit and offset), C26 (select options), C35 (configure), C50 (into outfile): the last call
that says something is in force.
-/

namespace SqlPuzzle

open Spec

private def cx0 : Ctx := ⟨.sql, ⟨id, id, fun _ => true, fun _ => [], fun _ => []⟩⟩

/-! ### C25 -/

/-- C25. After any history of calls with any arguments the limit and the offset of a query are those
of the latest call that set or cleared them. -/
theorem C25_latest (cx : Ctx) (S : Sem) (ops : List SelectOp) :
    (runOps (selectStep cx S) {} ops).limit =
      ⟨(latest saysLimit ops).getD none, (latest saysOffset ops).getD none⟩ :=
  limit_latest cx S ops

/-- C25. Which calls raise: `limit` needs an int or `None`, as does its offset unless the limit is
`None`; `offset` needs an int or `None`. -/
theorem C25_raises (cx : Ctx) (S : Sem) (q : Select) (v off : Obj) :
    ((selectStep cx S q (.offset v)).2 = none ↔ v = .none ∨ ∃ i, v = .int i) ∧
    ((selectStep cx S q (.limit v off)).2 = none ↔
      v = .none ∨ ((∃ i, v = .int i) ∧ (off = .none ∨ ∃ i, off = .int i))) := by
  have ho : ∀ l v, (limitOffset l v).2 = none ↔ v = .none ∨ ∃ i, v = .int i := by
    intro l v
    rcases limitOffset_cases l v with ⟨rfl, h⟩ | ⟨i, rfl, h⟩ | ⟨hv, e, h⟩ <;> rw [h]
    · simp
    · simp
    · simp only [reduceCtorEq, false_iff, not_or, not_exists]; exact hv
  constructor
  · exact ho q.limit v
  · show (limitLimit q.limit v off).2 = none ↔ _
    rcases limitLimit_cases q.limit v off with ⟨rfl, h⟩ | ⟨i, rfl, h⟩ | ⟨hv, e, h⟩ <;> rw [h]
    · simp
    · by_cases h2 : off.isNone = true
      · have : off = .none := by cases off <;> simp_all [Obj.isNone]
        subst this
        simp [Obj.isNone]
      · rw [if_neg h2, ho]
        simp
    · constructor
      · intro h; cases h
      · rintro (h1 | ⟨⟨i, h1⟩, _⟩)
        · exact absurd h1 hv.1
        · exact absurd h1 (hv.2 i)

/-- C25. What is rendered after any history of calls: among the clauses of the statement, the one
for limit and offset is `LIMIT n`, `OFFSET n`, both or nothing, according to the latest settings. -/
theorem C25_text (cx : Ctx) (S : Sem) (n : Nat) (ops : List SelectOp) (t : Str)
    (h : (sem cx (n + 1)).str (.select (runOps (selectStep cx S) {} ops)) = .ok t) :
    ∃ p, SelectPartsOf cx n (runOps (selectStep cx S) {} ops) p ∧ Trimmed isWhite p.text t ∧
      p.limit = limitPhrase ((latest saysLimit ops).getD none) ((latest saysOffset ops).getD none) := by
  obtain ⟨p, h1, h2⟩ := (selectStatement_iff cx n).mp h
  refine ⟨p, h1, h2, ?_⟩
  rw [h1.limit, limit_latest]

example : latest saysOffset [.limit (.int 1) (.int 5), .limit (.int 2) .none] = some (some 5) := rfl
example : latest saysOffset [.limit (.int 1) (.int 5), .offset (.int 0)] = some none := rfl
example : latest saysLimit [.limit (.int 1) (.int 5), .offset (.int 0), .limit (.bool true) .none] =
    some (some 1) := rfl

example : (sem cx0 2).str (.select (runOps (selectStep cx0 (sem cx0 1)) {}
    [.limit (.int 1) (.int 5), .offset (.int 0), .str, .limit (.bool true) .none])) =
    .ok L!"SELECT * LIMIT 1" := by decide

/-! ### C26 -/

/-- C26. What is rendered after any history of calls: the options at the beginning of the statement
are exactly the options that are on, once each and in ascending order (see `C26_sorted`): those for
which the latest call in their group was for them and with a true argument. -/
theorem C26_words (cx : Ctx) (S : Sem) (n : Nat) (ops : List SelectOp) (t : Str)
    (h : (sem cx (n + 1)).str (.select (runOps (selectStep cx S) {} ops)) = .ok t) :
    ∃ p, SelectPartsOf cx n (runOps (selectStep cx S) {} ops) p ∧ Trimmed isWhite p.text t ∧
      p.options = optionsPhrase fun k => (latest (saysOption k) ops).getD false := by
  obtain ⟨p, h1, h2⟩ := (selectStatement_iff cx n).mp h
  refine ⟨p, h1, h2, ?_⟩
  rw [h1.options]
  congr 1
  funext k
  exact options_latest cx S ops k

/-- C26. The list of all options used above is complete and its words ascend. -/
theorem C26_sorted : (∀ k, k ∈ SelOpt.sorted) ∧ (SelOpt.sorted.map SelOpt.word).Pairwise Before := by
  refine ⟨by intro k; cases k <;> decide, ?_⟩
  have : (SelOpt.sorted.map SelOpt.word).Pairwise fun a b => strLe a b = true ∧ a ≠ b := by decide
  exact this.imp fun {a b} h => before_iff.mpr h

/-- C26. At most one option per group is on. -/
theorem C26_exclusive (ops : List SelectOp) (k k' : SelOpt) (hg : k' ∈ k.group)
    (h1 : latest (saysOption k) ops = some true) (h2 : latest (saysOption k') ops = some true) :
    k = k' := by
  have hgg : ∀ k'', k'' ∈ k.group ↔ k'' ∈ k'.group := by
    intro k''
    revert hg
    clear h1 h2
    cases k <;> cases k' <;> simp [SelOpt.group]
  obtain ⟨b, op, c, rfl, h3, h4⟩ := latest_eq_some.mp h1
  obtain ⟨b', op', c', he, h3', h4'⟩ := latest_eq_some.mp h2
  have iff : ∀ o, saysOption k o = none ↔ saysOption k' o = none := by
    intro o
    cases o with
    | option k'' a => simp [saysOption, hgg]
    | _ => exact ⟨fun _ => rfl, fun _ => rfl⟩
  have hop : op = op' := by
    rw [List.append_eq_append_iff] at he
    rcases he with ⟨x, rfl, h5⟩ | ⟨x, rfl, h5⟩
    · cases x with
      | nil => simp at h5; exact h5.1
      | cons y ys =>
        simp only [List.cons_append, List.cons.injEq] at h5
        obtain ⟨rfl, rfl⟩ := h5
        have := (iff op').mp (h4 op' (by simp))
        rw [h3'] at this; cases this
    · cases x with
      | nil => simp at h5; exact h5.1.symm
      | cons y ys =>
        simp only [List.cons_append, List.cons.injEq] at h5
        obtain ⟨rfl, rfl⟩ := h5
        have := (iff op).mpr (h4' op (by simp))
        rw [h3] at this; cases this
  subst hop
  cases op with
  | option k'' a =>
    simp only [saysOption] at h3 h3'
    split at h3
    · split at h3'
      · simp at h3 h3'
        rw [← h3.1, h3'.1]
      · cases h3'
    · cases h3
  | _ => cases h3

/-- C26. Calls on options of different groups commute. -/
theorem C26_commute (cx : Ctx) (S : Sem) (q : Select) (k k' : SelOpt) (a a' : Obj)
    (h : k' ∉ k.group) :
    runOps (selectStep cx S) q [.option k a, .option k' a'] =
      runOps (selectStep cx S) q [.option k' a', .option k a] := by
  show ({ q with opts := (q.opts.set k a.truthy).set k' a'.truthy } : Select) =
    { q with opts := (q.opts.set k' a'.truthy).set k a.truthy }
  congr 1
  revert h
  cases k <;> cases k' <;> simp [SelOpt.group, SelectOptions.set]

example : (SelOpt.sorted.filter fun k => (latest (saysOption k)
    [.option .distinct (.bool true), .option .sqlCache (.bool true), .option .all (.bool true),
     .option .sqlCache (.bool false)]).getD false) = [.all] := rfl

example : (sem cx0 2).str (.select (runOps (selectStep cx0 (sem cx0 1)) {}
    [.option .sqlNoCache (.bool true), .option .distinct (.bool true), .option .all (.int 1)])) =
    .ok L!"SELECT ALL SQL_NO_CACHE *" := by decide

/-! ### C50 -/

/-- C50. After any history of calls each of the four settings has the value of the latest call that
set it, whatever the order of calls on different settings. -/
theorem C50_latest (cx : Ctx) (S : Sem) (ops : List SelectOp) (f : OutfileField) :
    OutfileS.get (runOps (selectStep cx S) {} ops).outfile f =
      (latest (saysOutfile f) ops).getD none :=
  outfile_latest cx S ops f

/-- C50. A setter raises iff its argument is neither a string nor an SQL object. -/
theorem C50_raises (cx : Ctx) (S : Sem) (q : Select) (f : OutfileField) (v : Obj) :
    (selectStep cx S q (.outfile f v)).2 = none ↔ (∃ s, v = .str s) ∨ v.isSql = true := by
  have : v.allowed [.str] = true ↔ (∃ s, v = .str s) ∨ v.isSql = true := by
    cases v <;> simp [Obj.allowed, Obj.isInst, Obj.isBool, Obj.isSql]
  rw [← this]
  show (outfileSet q.outfile f v).2 = none ↔ _
  unfold outfileSet checkType
  by_cases hv : v.allowed [.str] = true
  · rw [if_pos hv]; cases f <;> simp [withR, hv]
  · rw [if_neg hv]; simp [withR, hv]

/-- C50. What is rendered after any history of calls: nothing without a file; with one, the file and
the given phrases in fixed order. -/
theorem C50_text (cx : Ctx) (S : Sem) (n : Nat) (ops : List SelectOp) (t : Str)
    (h : (sem cx (n + 1)).str (.select (runOps (selectStep cx S) {} ops)) = .ok t) :
    ∃ p, SelectPartsOf cx n (runOps (selectStep cx S) {} ops) p ∧ Trimmed isWhite p.text t ∧
      OutfileClause cx n
        { file := (latest (saysOutfile .file) ops).getD none
          fields := (latest (saysOutfile .fields) ops).getD none
          lines := (latest (saysOutfile .lines) ops).getD none
          enclosed := (latest (saysOutfile .enclosed) ops).getD none } p.outfile := by
  obtain ⟨p, h1, h2⟩ := (selectStatement_iff cx n).mp h
  refine ⟨p, h1, h2, ?_⟩
  have h3 := h1.outfile
  rw [← outfile_latest cx S, ← outfile_latest cx S, ← outfile_latest cx S, ← outfile_latest cx S]
  exact h3

example : (latest (saysOutfile .lines) [.outfile .lines (.str L!"a"), .outfile .file (.str L!"f"),
    .outfile .lines (.str L!"b"), .outfile .lines (.int 1)]).getD none = some (.str L!"b") := rfl

example : (sem cx0 2).str (.select (runOps (selectStep cx0 (sem cx0 1)) {}
    [.outfile .lines (.str L!"a"), .outfile .file (.str L!"f"), .outfile .lines (.str L!"b"),
     .outfile .lines (.int 1)])) =
    .ok L!"SELECT * INTO OUTFILE 'f' LINES TERMINATED BY 'b'" := by decide

/-! ### C35 -/

/-- C35. `configure` selects the backend with the lower-case form of the given name, or raises and
changes nothing if there is none. -/
theorem C35_configure (env : Env) (current : Backend) (name : Str) :
    (∀ b : Backend, env.lower name = b.name → setBackend env current name = (b, none)) ∧
    ((∀ b : Backend, env.lower name ≠ b.name) →
      setBackend env current name = (current, some .exception)) := by
  constructor
  · intro b h
    simp only [setBackend, h]
    cases b
    · exact if_pos rfl
    · exact (if_neg (by decide)).trans (if_pos rfl)
    · exact (if_neg (by decide)).trans ((if_neg (by decide)).trans (if_pos rfl))
    · exact (if_neg (by decide)).trans ((if_neg (by decide)).trans
        ((if_neg (by decide)).trans (if_pos rfl)))
  · intro h
    exact (if_neg (h .sql)).trans ((if_neg (h .mysql)).trans
      ((if_neg (h .postgresql)).trans (if_neg (h .sqlite))))

/-- C35. Upper and lower case make no difference. -/
theorem C35_case (env : Env) (current : Backend) (a b : Str) (h : env.lower a = env.lower b) :
    setBackend env current a = setBackend env current b := by
  simp only [setBackend, h]

/-- C35. After any sequence of calls the backend of the latest successful call is in force; initially
it is `sql`. -/
theorem C35_latest (env : Env) (start : Backend) (names : List Str) :
    runOps (setBackend env) start names = (latest (saysBackend env) names).getD start := by
  refine runOps_latest (step := setBackend env) (f := fun b => b) (fun b name => ?_) start names
  have none_of : (∀ b : Backend, env.lower name ≠ b.name) → saysBackend env name = none := by
    intro h
    unfold saysBackend
    rw [List.find?_eq_none]
    intro b _
    simpa using h b
  have some_of : ∀ b : Backend, env.lower name = b.name → saysBackend env name = some b := by
    intro b h
    unfold saysBackend
    rw [h]
    cases b <;> decide
  by_cases h : ∃ b : Backend, env.lower name = b.name
  · obtain ⟨b', h⟩ := h
    rw [(C35_configure env b name).1 b' h, some_of b' h]
    rfl
  · have h : ∀ b : Backend, env.lower name ≠ b.name := fun b e => h ⟨b, e⟩
    rw [(C35_configure env b name).2 h, none_of h]
    rfl

example : latest (saysBackend ⟨id, fun s => s.map Char.toLower, fun _ => true, fun _ => [], fun _ => []⟩)
    [L!"MySQL", L!"oracle"] = some .mysql := by decide

end SqlPuzzle
