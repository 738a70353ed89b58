import Verif.Proofs.Joins

/-!
C30 (merging of repeated joins), C31 (preconditions of join and on), C45 (join conditions that are
equal up to swapping sides).
-/

namespace SqlPuzzle

open Spec

private def cx0 : Ctx := ⟨.sql, ⟨id, id, fun _ => true, fun _ => [], fun _ => []⟩⟩

/-! ### C45 -/

/-- C45. Two conditions between columns that the library treats as equal have the same truth value
in every row. -/
theorem C45_equal_conditions {V : Type} [LinearOrder V] (cx : Ctx) (n : Nat) (a b c d : Str)
    (k k' : Rel)
    (h : (sem cx (n + 3)).eq (.conds [.cond true (.str a) k (.str b)])
      (.conds [.cond true (.str c) k' (.str d)]) = .ok true) (row : Str → Option V) :
    holdsIn row (.cond true (.str a) k (.str b)) = holdsIn row (.cond true (.str c) k' (.str d)) := by
  rw [eq_single] at h
  obtain ⟨r, h1, h2⟩ := condEq_on cx n (a := .cond true (.str a) k (.str b))
    (b := .cond true (.str c) k' (.str d)) rfl rfl
  rw [h] at h1
  injection h1 with h1
  rcases h2.mp h1.symm with h3 | h3
  · rw [h3]
  · have swap : ∀ x y : Option V, compare3 .eq x y = compare3 .eq y x ∧
        compare3 .ne x y = compare3 .ne y x ∧ compare3 .lt x y = compare3 .gt y x ∧
        compare3 .gt x y = compare3 .lt y x ∧ compare3 .le x y = compare3 .ge y x ∧
        compare3 .ge x y = compare3 .le y x := by
      intro x y
      cases x <;> cases y <;> simp [compare3, eq_comm]
    obtain ⟨s1, s2, s3, s4, s5, s6⟩ := swap (row a) (row b)
    cases k <;> simp only [mirror, reduceCtorEq] at h3 <;>
      (injection h3 with h3; rw [← h3]; assumption)

/-- C45. Exactly: two plain join conditions are treated as equal if they are identical or mirror
images of each other, and otherwise as different. -/
theorem C45_same (cx : Ctx) (n : Nat) {a b : Cond} (ha : PlainOn a) (hb : PlainOn b) :
    ((sem cx (n + 3)).eq (.conds [a]) (.conds [b]) = .ok true ↔ SameOn a b) ∧
    ((sem cx (n + 3)).eq (.conds [a]) (.conds [b]) = .ok false ↔ ¬SameOn a b) := by
  obtain ⟨r, h1, h2⟩ := condEq_on cx n ha hb
  rw [eq_single, h1, ← h2]
  cases r <;> simp

/-- C45. Mirroring twice gives the condition back, and exactly the six comparisons of two columns
have a mirror image. -/
theorem C45_mirror (a b : Str) (k : Rel) :
    (∀ c, mirror (.cond true (.str a) k (.str b)) = some c →
      mirror c = some (.cond true (.str a) k (.str b))) ∧
    (mirror (.cond true (.str a) k (.str b)) ≠ none ↔ k ∈ [.eq, .ne, .lt, .le, .gt, .ge]) := by
  refine ⟨fun c h => mirror_mirror h, ?_⟩
  cases k <;> simp [mirror]

/-- C45. So writing the condition of the last join again, with the sides swapped, adds nothing. -/
theorem C45_on_twice (cx : Ctx) (n : Nat) (q : Select) (ts : List Table) (t : Table)
    (js : List Join) (j : Join) (a b : Str) (k k' : Rel)
    (hm : mirror (.cond true (.str a) k (.str b)) = some (.cond true (.str b) k' (.str a)))
    (hq : q.tables = ts ++ [t]) (ht : t.joins = js ++ [j])
    (hj : j.ons = [.cond true (.str a) k (.str b)]) :
    selectStep cx (sem cx (n + 2)) q (.on { pos := [.str b, .rel k' (.str a)] }) = (q, none) := by
  have h1 : condsWhere cx (sem cx (n + 2)) true j.ons { pos := [.str b, .rel k' (.str a)] } =
      (j.ons, none) := by
    obtain ⟨r, h1, h2⟩ := condEq_on cx n (a := .cond true (.str a) k (.str b))
      (b := .cond true (.str b) k' (.str a)) rfl rfl
    rw [h2.mpr (.inr hm)] at h1
    rw [hj]
    have hk : mkCond true (.str b) (.rel k' (.str a)) = .ok (.cond true (.str b) k' (.str a)) := by
      cases k <;> simp only [mirror, reduceCtorEq] at hm <;>
        (injection hm with hm; injection hm with _ _ hm _; subst hm; rfl)
    have hp : parseArgs (sem cx (n + 2)) pairOpts { pos := [.str b, .rel k' (.str a)] } =
        .ok [[.str b, .rel k' (.str a)]] := rfl
    unfold condsWhere
    simp only [kwSelf, List.any_nil, customArg, hp, withR, forUpd, pairOf, hk, appendUnique, anyR, h1,
      Bool.false_eq_true, if_false, Obj.isConds, List.all_cons, Bool.false_and, Bool.and_false]
    rfl
  simp only [selectStep, Upd.map, hq, tablesOn_last cx _ (a := { pos := [.str b, .rel k' (.str a)] })
    (by simp [NoSelf]) ts t js j ht, h1]
  have e1 : { t with joins := js ++ [{ j with ons := j.ons }] } = t := by
    have : js ++ [{ j with ons := j.ons }] = t.joins := ht.symm
    rw [this]
  rw [e1, ← hq]

example : holdsIn (V := Int) (fun s => if s = L!"a" then some 1 else none)
    (.cond true (.str L!"a") .le (.str L!"a")) = some true := by decide

example : mirror (.cond true (.str L!"a.x") .lt (.str L!"b.y")) =
    some (.cond true (.str L!"b.y") .gt (.str L!"a.x")) := rfl

/-! ### C30 -/

/-- C30. For joins of named tables with plain conditions, rendering replaces the joins of each table
by: for each different join (different table, alias or conditions up to mirror images), in order of
first use, what its repetitions become — one inner join if an inner join is among them, one of the
common type if they all have one, otherwise all of them.  Nothing else of the query changes. -/
theorem C30_minimize (cx : Ctx) (n : Nat) :
    (∀ (q : Select) (t : Str), (∀ tb ∈ q.tables, PlainlyJoined tb) →
      (sem cx (n + 3)).str (.select q) = .ok t →
      (selectStep cx (sem cx (n + 2)) q .str).1 =
        { q with tables := q.tables.map withMergedJoins }) ∧
    (∀ (q : Update) (t : Str), (∀ tb ∈ q.tables, PlainlyJoined tb) →
      (sem cx (n + 3)).str (.update q) = .ok t →
      (updateStep cx (sem cx (n + 2)) q .str).1 =
        { q with tables := q.tables.map withMergedJoins }) ∧
    (∀ (q : Delete) (t : Str), (∀ tb ∈ q.tables ++ q.references, PlainlyJoined tb) →
      (sem cx (n + 3)).str (.delete q) = .ok t →
      (deleteStep cx (sem cx (n + 2)) q .str).1 =
        { q with tables := q.tables.map withMergedJoins
                 references := q.references.map withMergedJoins }) := by
  refine ⟨fun q t hp h => ?_, fun q t hp h => ?_, fun q t hp h => ?_⟩
  · obtain ⟨h1, us, h2⟩ := selectStr_ok cx (n + 2) h
    show (selectStr cx _ q).1 = _
    rw [h1, strTables_merged cx n h2 hp]
  · obtain ⟨h1, us, h2⟩ := updateStr_ok cx (n + 2) h
    show (updateStr cx _ q).1 = _
    rw [h1, strTables_merged cx n h2 hp]
  · obtain ⟨h1, ⟨us, h2⟩, vs, h3⟩ := deleteStr_ok cx (n + 2) h
    show (deleteStr cx _ q).1 = _
    rw [h1, strTables_merged cx n h2 fun t ht => hp t (by simp [ht]),
      strTables_merged cx n h3 fun t ht => hp t (by simp [ht])]

/-- C30. The text has exactly the merged joins, in this order: `SELECT * FROM` the table, then the
joins. -/
theorem C30_text (cx : Ctx) (n : Nat) (tb : Table) (hp : PlainlyJoined tb) (t : Str) :
    (sem cx (n + 3)).str (.select { tables := [tb] }) = .ok t ↔
      ∃ a ts, AliasedText cx (n + 2) tb.name tb.alias a ∧
        List.Forall₂ (JoinText cx (n + 2)) (withMergedJoins tb).joins ts ∧
        Trimmed isWhite (L!"SELECT * FROM " ++ (a ++ ts.flatMap fun j => ' ' :: j)) t := by
  rw [oneTable_iff]
  unfold TableText
  constructor
  · rintro ⟨u, ⟨a, js, ts, h1, h2, h3, rfl⟩, h⟩
    rw [(writtenJoins_plain cx n hp).mp h2] at h3
    exact ⟨a, ts, h1, h3, h⟩
  · rintro ⟨a, ts, h1, h3, h⟩
    exact ⟨_, ⟨a, _, ts, h1, (writtenJoins_plain cx n hp).mpr rfl, h3, rfl⟩, h⟩

/-- C30, for any objects in the joins, whatever their comparison does and whether or not rendering
succeeds: after it the tables are the same, each with joins among the given ones, with at most the
type changed; none is invented. -/
theorem C30_nothing_new (cx : Ctx) (S : Sem) (q : Select) :
    ∃ ts, (selectStep cx S q .str).1 = { q with tables := ts } ∧
      List.Forall₂ (fun t t' => ∃ js, t' = { t with joins := js } ∧
        ∀ j ∈ js, ∃ j0 ∈ t.joins, j.name = j0.name ∧ j.alias = j0.alias ∧ j.ons = j0.ons)
        q.tables ts := by
  rcases selectStr_tables cx S q with h | h
  · exact ⟨q.tables, h, List.forall₂_same.mpr fun t _ =>
      ⟨t.joins, rfl, fun j hj => ⟨j, hj, rfl, rfl, rfl⟩⟩⟩
  · exact ⟨_, h, strTables_given cx S q.tables⟩

/-- C30, for any objects: joins that all differ are all written, in order. -/
theorem C30_distinct (cx : Ctx) (n : Nat) (tb : Table) (h : tb.joins.Pairwise (JoinsDiffer cx n))
    (t : Str) :
    (sem cx (n + 1)).str (.select { tables := [tb] }) = .ok t ↔
      ∃ a ts, AliasedText cx n tb.name tb.alias a ∧
        List.Forall₂ (JoinText cx n) tb.joins ts ∧
        Trimmed isWhite (L!"SELECT * FROM " ++ (a ++ ts.flatMap fun j => ' ' :: j)) t := by
  have hm : ∀ js, WrittenJoins cx n tb.joins js ↔ js = tb.joins := by
    intro js
    rw [← minimizeJoins_iff, minimizeJoins_distinct cx _
      (h.imp fun hd => (sameJoin_false cx n).mpr hd)]
    simp [eq_comm]
  rw [oneTable_iff]
  unfold TableText
  constructor
  · rintro ⟨u, ⟨a, js, ts, h1, h2, h3, rfl⟩, h⟩
    rw [(hm js).mp h2] at h3
    exact ⟨a, ts, h1, h3, h⟩
  · rintro ⟨a, ts, h1, h3, h⟩
    exact ⟨_, ⟨a, _, ts, h1, (hm _).mpr rfl, h3, rfl⟩, h⟩

open Classical in
/-- C30. Joins that occur once are not changed, removed or reordered relative to each other. -/
theorem C30_once (cx : Ctx) (n : Nat) (q : Select) (t : Str)
    (hp : ∀ tb ∈ q.tables, PlainlyJoined tb) (h : (sem cx (n + 3)).str (.select q) = .ok t) :
    (selectStep cx (sem cx (n + 2)) q .str).1.tables.map (fun tb => (tb.name, tb.alias)) =
      q.tables.map (fun tb => (tb.name, tb.alias)) ∧
    List.Forall₂ (fun tb tb' => tb'.joins.filter (fun j => decide (Once tb.joins j)) =
        tb.joins.filter (fun j => decide (Once tb.joins j)))
      q.tables (selectStep cx (sem cx (n + 2)) q .str).1.tables := by
  rw [(C30_minimize cx n).1 q t hp h]
  refine ⟨by simp [withMergedJoins], ?_⟩
  simp only [List.forall₂_map_right_iff]
  exact List.forall₂_same.mpr fun tb _ => mergedJoins_once tb.joins

/-- The table `a` with a left join of `b`, a right join of `c`, and an inner join of `b` with the
mirrored condition. -/
private def tb0 : Table := ⟨.str L!"a", .none,
  [⟨.left, .str L!"b", .none, [.cond true (.str L!"b.id") .gt (.str L!"a.id")]⟩,
   ⟨.right, .str L!"c", .none, []⟩,
   ⟨.inner, .str L!"b", .none, [.cond true (.str L!"a.id") .lt (.str L!"b.id")]⟩]⟩

example : PlainlyJoined tb0 := by
  intro j hj
  simp only [tb0, List.mem_cons, List.not_mem_nil, or_false] at hj
  rcases hj with rfl | rfl | rfl
  · exact ⟨rfl, rfl, by intro c hc; rw [List.mem_singleton.mp hc]; rfl⟩
  · exact ⟨rfl, rfl, by simp⟩
  · exact ⟨rfl, rfl, by intro c hc; rw [List.mem_singleton.mp hc]; rfl⟩

example : (sem cx0 3).str (.select { tables := [tb0] }) =
    .ok L!"SELECT * FROM \"a\" JOIN \"b\" ON \"b\".\"id\" > \"a\".\"id\" RIGHT JOIN \"c\"" := by
  decide +kernel

/-! ### C31 -/

section
variable (cx : Ctx) (S : Sem)

/-- C31. Before any table, `join` of any type raises `InvalidQueryException` and changes nothing. -/
theorem C31_join_first (ty : JoinType) (arg : Obj) :
    (∀ q : Select, q.tables = [] → selectStep cx S q (.join ty arg) = (q, some .invalidQuery)) ∧
    (∀ q : Update, q.tables = [] →
      updateStep cx S q (.join arg) = (q, some .invalidQuery) ∧
      updateStep cx S q (.leftJoin arg) = (q, some .invalidQuery) ∧
      updateStep cx S q (.rightJoin arg) = (q, some .invalidQuery)) ∧
    (∀ q : Delete, q.references = [] →
      deleteStep cx S q (.join arg) = (q, some .invalidQuery) ∧
      deleteStep cx S q (.leftJoin arg) = (q, some .invalidQuery) ∧
      deleteStep cx S q (.rightJoin arg) = (q, some .invalidQuery)) := by
  have h : ∀ ty, tablesJoin cx S [] ty arg = ([], some .invalidQuery) := by
    intro ty
    unfold tablesJoin
    split <;> rfl
  refine ⟨fun q hq => ?_, fun q hq => ?_, fun q hq => ?_⟩
  · simp only [selectStep, Upd.map, hq, h]; rw [← hq]
  · simp only [updateStep, Upd.map, hq, h]; rw [← hq]; exact ⟨rfl, rfl, rfl⟩
  · simp only [deleteStep, Upd.map, hq, h]; rw [← hq]; exact ⟨rfl, rfl, rfl⟩

/-- C31. `full_join` raises on every backend but PostgreSQL and changes nothing. -/
theorem C31_full_join (h : cx.backend ≠ .postgresql) (q : Select) (arg : Obj) :
    selectStep cx S q (.join .full arg) = (q, some .invalidQuery) := by
  have : cx.backend.supportsFullJoin = false := by
    cases hb : cx.backend <;> simp_all [Backend.supportsFullJoin]
  simp [selectStep, Upd.map, tablesJoin, this]

/-- C31. Without a table, or without a join of the last table, `on` raises
`InvalidQueryException` and changes nothing. -/
theorem C31_on_first (a : Args) (hs : NoSelf a.kw) :
    (∀ q : Select, (q.tables = [] ∨ ∃ ts t, q.tables = ts ++ [t] ∧ t.joins = []) →
      selectStep cx S q (.on a) = (q, some .invalidQuery)) ∧
    (∀ q : Update, (q.tables = [] ∨ ∃ ts t, q.tables = ts ++ [t] ∧ t.joins = []) →
      updateStep cx S q (.on a) = (q, some .invalidQuery)) ∧
    (∀ q : Delete, (q.references = [] ∨ ∃ ts t, q.references = ts ++ [t] ∧ t.joins = []) →
      deleteStep cx S q (.on a) = (q, some .invalidQuery)) := by
  have h : ∀ ts : List Table, (ts = [] ∨ ∃ us t, ts = us ++ [t] ∧ t.joins = []) →
      tablesOn cx S ts a = (ts, some .invalidQuery) := by
    rintro ts (rfl | ⟨us, t, rfl, ht⟩)
    · simp [tablesOn, hs.kwSelf, updateLast]
    · simp [tablesOn, hs.kwSelf, updateLast_concat, tableOn, ht, updateLast]
  refine ⟨fun q hq => ?_, fun q hq => ?_, fun q hq => ?_⟩
  · simp only [selectStep, Upd.map, h _ hq]
  · simp only [updateStep, Upd.map, h _ hq]
  · simp only [deleteStep, Upd.map, h _ hq]

/-- C31. Otherwise the join is appended to the last table, without condition, and nothing else
changes. -/
theorem C31_join_last (ty : JoinType) (hty : ty = .full → cx.backend = .postgresql)
    {arg n a : Obj} (h : JoinArg arg n a) (hn : NameLike n) (ha : a = .none ∨ NameLike a)
    (q : Select) (ts : List Table) (t : Table) (hq : q.tables = ts ++ [t]) :
    selectStep cx S q (.join ty arg) =
      ({ q with tables := ts ++ [{ t with joins := t.joins ++ [⟨ty, n, a, []⟩] }] }, none) := by
  simp only [selectStep, Upd.map, hq, tablesJoin_last cx S h hn ha hty]

/-- C31. A join with any other argument raises and changes nothing. -/
theorem C31_join_refused (ty : JoinType) (arg : Obj)
    (h : ¬∃ n a, JoinArg arg n a ∧ NameLike n ∧ (a = .none ∨ NameLike a)) (q : Select) :
    ∃ e, selectStep cx S q (.join ty arg) = (q, some e) := by
  have allowed_name : ∀ n : Obj, n.allowed [.str] = true → NameLike n := by
    intro n hn
    cases n <;> first | exact .inl ⟨_, rfl⟩ | exact .inr rfl | cases hn
  have allowed_alias : ∀ n : Obj, n.allowed [.none, .str] = true → n = .none ∨ NameLike n := by
    intro n hn
    cases n <;> first | exact .inl rfl | exact .inr (.inl ⟨_, rfl⟩) | exact .inr (.inr rfl) | cases hn
  have tab : ∀ n a : Obj, JoinArg arg n a → ∃ e, mkTable n a = .error e := by
    intro n a hja
    unfold mkTable checkType
    by_cases h1 : n.allowed [.str] = true
    · by_cases h2 : a.allowed [.none, .str] = true
      · exact absurd ⟨n, a, hja, allowed_name n h1, allowed_alias a h2⟩ h
      · exact ⟨.invalidArgument, by simp [h1, h2]⟩
    · exact ⟨.invalidArgument, by simp [h1]⟩
  have hm : ∃ e, mkJoin S ty arg = .error e := by
    unfold mkJoin
    split
    · obtain ⟨e, he⟩ := tab _ _ (.list ..)
      exact ⟨e, by rw [he]; rfl⟩
    · obtain ⟨e, he⟩ := tab _ _ (.tuple ..)
      exact ⟨e, by rw [he]; rfl⟩
    · obtain ⟨e, he⟩ := tab _ _ (.dict ..)
      exact ⟨e, by rw [he]; rfl⟩
    · exact absurd ⟨_, _, .name _, .inl ⟨_, rfl⟩, .inl rfl⟩ h
    · split
      · cases S.str arg with
        | error e => exact ⟨e, rfl⟩
        | ok t => exact ⟨.invalidArgument, rfl⟩
      · exact ⟨.invalidArgument, rfl⟩
  obtain ⟨e, he⟩ := hm
  simp only [selectStep, Upd.map, tablesJoin]
  split
  · exact ⟨_, rfl⟩
  · rcases List.eq_nil_or_concat' q.tables with h1 | ⟨ys, y, h1⟩
    · refine ⟨.invalidQuery, ?_⟩
      simp only [h1, updateLast]
      rw [← h1]
    · rw [h1, updateLast_concat]
      refine ⟨e, ?_⟩
      simp only [he, withR]
      rw [← h1]

/-- C31 for UPDATE and DELETE, which have no `full_join`: a join is appended to the last table. -/
theorem C31_update_delete_join (arg : Obj)
    {n al : Obj} (h : JoinArg arg n al) (hn : NameLike n) (ha : al = .none ∨ NameLike al)
    (ts : List Table) (t : Table) :
    (∀ q : Update, q.tables = ts ++ [t] → ∀ op ∈ [(JoinType.inner, UpdateOp.join arg),
        (.left, .leftJoin arg), (.right, .rightJoin arg)],
      updateStep cx S q op.2 =
        ({ q with tables := ts ++ [{ t with joins := t.joins ++ [⟨op.1, n, al, []⟩] }] }, none)) ∧
    (∀ q : Delete, q.references = ts ++ [t] → ∀ op ∈ [(JoinType.inner, DeleteOp.join arg),
        (.left, .leftJoin arg), (.right, .rightJoin arg)],
      deleteStep cx S q op.2 =
        ({ q with references := ts ++ [{ t with joins := t.joins ++ [⟨op.1, n, al, []⟩] }] }, none)) := by
  refine ⟨fun q hq op hop => ?_, fun q hq op hop => ?_⟩
  · simp only [List.mem_cons, List.not_mem_nil, or_false] at hop
    rcases hop with rfl | rfl | rfl <;> simp only [updateStep, Upd.map, hq] <;>
      rw [tablesJoin_last cx S h hn ha (by simp)]
  · simp only [List.mem_cons, List.not_mem_nil, or_false] at hop
    rcases hop with rfl | rfl | rfl <;> simp only [deleteStep, Upd.map, hq] <;>
      rw [tablesJoin_last cx S h hn ha (by simp)]

/-- C31. `on` concerns the last join of the last table only, in SELECT, UPDATE and DELETE alike: it
adds conditions after the ones that are there; conditions, tables and joins before it stay as they
are, whatever the arguments and whether or not the call raises. -/
theorem C31_on_last (a : Args) (hs : NoSelf a.kw) (ts : List Table) (t : Table) (js : List Join)
    (j : Join) (ht : t.joins = js ++ [j]) :
    ∃ new e,
      let ts' := ts ++ [{ t with joins := js ++ [{ j with ons := j.ons ++ new }] }]
      (∀ q : Select, q.tables = ts ++ [t] →
        selectStep cx S q (.on a) = ({ q with tables := ts' }, e)) ∧
      (∀ q : Update, q.tables = ts ++ [t] →
        updateStep cx S q (.on a) = ({ q with tables := ts' }, e)) ∧
      (∀ q : Delete, q.references = ts ++ [t] →
        deleteStep cx S q (.on a) = ({ q with references := ts' }, e)) := by
  obtain ⟨new, hn⟩ := condsWhere_prefix cx S true j.ons a
  refine ⟨new, (condsWhere cx S true j.ons a).2, ?_⟩
  have h := tablesOn_last cx S hs ts t js j ht
  rw [← hn] at h
  refine ⟨fun q hq => ?_, fun q hq => ?_, fun q hq => ?_⟩
  · simp only [selectStep, Upd.map, hq, h]
  · simp only [updateStep, Upd.map, hq, h]
  · simp only [deleteStep, Upd.map, hq, h]

/-- C31. The conditions that `on` adds are the ones the call gives: each one added was given, and
unless the call raises each one given is there afterwards, itself or one that is equal to it. -/
theorem C31_on_adds (n : Nat) (a : Args) {given : List (Obj × Obj)} (hg : GivesPairs a given)
    (hs : NoSelf a.kw) (hq : ∀ x ∈ a.pos, ¬IsCondition x) (q : Select) (ts : List Table) (t : Table)
    (js : List Join) (j : Join) (hts : q.tables = ts ++ [t]) (ht : t.joins = js ++ [j]) :
    ∃ new e, selectStep cx (sem cx n) q (.on a) =
        ({ q with tables := ts ++ [{ t with joins := js ++ [{ j with ons := j.ons ++ new }] }] }, e) ∧
      (∀ c ∈ new, ∃ p ∈ given, c = joinCondOf p.1 p.2) ∧
      (e = none → ∀ p ∈ given, ∃ c ∈ j.ons ++ new, c = joinCondOf p.1 p.2 ∨
        (sem cx (n + 1)).eq (.conds [c]) (.conds [joinCondOf p.1 p.2]) = .ok true) := by
  have hc : (!a.pos.isEmpty && a.pos.all Obj.isConds) = false := by
    cases hp : a.pos with
    | nil => rfl
    | cons x xs =>
      have := hq x (by simp [hp])
      rw [← isConds_iff] at this
      simp [this]
  have h := tablesOn_last cx (sem cx n) hs ts t js j ht
  cases he : condsWhere cx (sem cx n) true j.ons a with
  | mk ps e =>
    obtain ⟨⟨new, rfl, h1⟩, h2⟩ := condsOn_given cx n hg hc he
    rw [he] at h
    exact ⟨new, e, by simp only [selectStep, Upd.map, hts, h], h1, h2⟩

end

example : JoinArg (.dict [(.str L!"t", .str L!"a")]) (.str L!"t") (.str L!"a") := .dict ..

example : GivesPairs { pos := [.str L!"a.id", .str L!"b.id"] } [(.str L!"a.id", .str L!"b.id")] ∧
    joinCondOf (.str L!"a.id") (.str L!"b.id") = .cond true (.str L!"a.id") .eq (.str L!"b.id") :=
  ⟨.usual (kw := []) (ps := [(.str L!"a.id", .str L!"b.id")]) (.direct _ (by intro xs h; cases h))
    ⟨[], .nil, .nil, rfl⟩ (by simp [KwFree]), rfl⟩

end SqlPuzzle
