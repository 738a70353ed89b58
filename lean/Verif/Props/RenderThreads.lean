import Verif.Proofs.RenderThreads
import Verif.Proofs.Accumulate

/-!
C65: Several threads render one query.
-/

namespace SqlPuzzle

open Spec

private def cx0 : Ctx := ⟨.sql, ⟨id, id, fun _ => true, fun _ => [], fun _ => []⟩⟩

/-- A query with one join. -/
private def q0 : Select :=
  { tables := [⟨.str L!"t", .none, [⟨.inner, .str L!"u", .none, [.cond true (.str L!"a") .eq (.str L!"b")]⟩]⟩] }

/-- C65 as stated: `c` threads render the query; whatever the schedule, each of them gets the text of the
query. -/
def C65_claim : Prop :=
  ∀ (cx : Ctx) (n c : Nat) (q : Select) (schedule : List Nat) (i : Nat) (t t' : Str),
    (sem cx (n + 1)).str (.select q) = .ok t →
    Wrote cx n q (runWorkers cx (sem cx n) (startTogether q.tables (List.replicate c aboutToRender)) schedule) i t' →
    t' = t

/-- It is false: while one thread merges the joins, the other sees none and writes a query without
them. -/
theorem C65_refuted : ¬ C65_claim := by
  intro h
  have := h cx0 5 2 q0 [0, 0, 0, 0, 0, 1] 1 L!"SELECT * FROM \"t\" JOIN \"u\" ON \"a\" = \"b\"" L!"SELECT * FROM \"t\""
    (by decide +kernel) ⟨[none], rfl, rfl, by decide +kernel⟩
  revert this
  decide

/-- The join can be lost for good: both threads have come to their end, nobody else was there, and the query has no
join any more. -/
theorem C65_refuted_lost :
    ∃ schedule, let w := runWorkers cx0 (sem cx0 5) (startTogether q0.tables [aboutToRender, aboutToRender]) schedule
      Ended q0.tables w 0 ∧ Ended q0.tables w 1 ∧ Holding w.1 [⟨.str L!"t", .none, []⟩] := by
  refine ⟨[0, 1, 0, 0, 0, 0, 1, 1, 0, 0, 1, 1, 1, 0, 0], ?_⟩
  exact ⟨.inl ⟨_, rfl, rfl⟩, .inl ⟨_, rfl, rfl⟩, rfl⟩

/-- A thread can write a join twice. -/
theorem C65_refuted_twice :
    ∃ schedule, Wrote cx0 5 q0
      (runWorkers cx0 (sem cx0 5) (startTogether q0.tables [aboutToRender, aboutToRender]) schedule) 0
      L!"SELECT * FROM \"t\" JOIN \"u\" ON \"a\" = \"b\" JOIN \"u\" ON \"a\" = \"b\"" :=
  ⟨[0, 0, 0, 0, 1, 1, 1, 1, 0, 1, 0, 0, 1, 1, 0, 0, 0, 0], _, rfl, rfl, by decide +kernel⟩

/-- A `join` that one thread calls while another renders can be lost. -/
theorem C65_refuted_join :
    ∃ schedule, let ws : List Worker := [aboutToRender, .join ⟨.left, .str L!"v", .none, []⟩]
      let w := runWorkers cx0 (sem cx0 5) (startTogether q0.tables ws) schedule
      Ended q0.tables w 0 ∧ Ended q0.tables w 1 ∧ Holding w.1 q0.tables := by
  refine ⟨[0, 0, 0, 0, 1, 0, 0, 0, 0, 0, 0], ?_⟩
  exact ⟨.inl ⟨_, rfl, rfl⟩, .inr (.inr (.inl rfl)), rfl⟩

/-- C65. One thread, while the others stand still: it writes the text of the tables, or stops with the same exception,
and leaves the tables as `str` does in the functional model (C28). -/
theorem C65_alone (cx : Ctx) (n : Nat) (ts : List Table) (ms : List TableMem) (ws : List Worker) (i : Nat)
    (hold : Holding ms ts) (rest : ∀ m ∈ ms, AtRest m) (hi : ws[i]? = some aboutToRender) :
    ∃ k, ∀ k' ≥ k, let w := runWorkers cx (sem cx n) (ms, ws) (List.replicate k' i)
      Ended ts w i ∧ Holding w.1 (strTables cx (sem cx n) ts).1 ∧ (∀ m ∈ w.1, AtRest m) ∧ (∀ j ≠ i, w.2[j]? = ws[j]?) ∧
      ∀ keyword, match tablesText cx (sem cx n) keyword ts with
        | .ok t => WroteTables cx n keyword ts w i t
        | .error e => Stopped w i e := by
  obtain ⟨hl, hi'⟩ := List.getElem?_eq_some_iff.mp hi
  have hws : ws.set i (.render [] .test) = ws := by
    have : ws[i] = .render [] .test := hi'
    rw [← this, List.set_getElem_self]
  obtain ⟨ms', outs, now, ⟨k, hk⟩, h2, h3, h4⟩ :=
    tables_alone (cx := cx) (S := sem cx n) hl (pre := []) (shown := []) rest rfl
  rw [hws] at hk
  simp only [List.nil_append] at hk
  have hts : ms.map TableMem.table = ts := hold
  rw [hts] at h3 h4
  have hlen : ms.length = ts.length := by rw [← hts, List.length_map]
  have hself : (ws.set i (.render outs now))[i]? = some (.render outs now) := List.getElem?_set_self hl
  have hspec := (strTables_spec cx (sem cx n) ts).2
  have hend : Ended ts (ms', ws.set i (.render outs now)) i := by
    cases hs : (strTables cx (sem cx n) ts).2 with
    | some e =>
      rw [hs] at h4
      exact .inr (.inl ⟨e, outs, by rw [hself, h4.1]⟩)
    | none =>
      rw [hs] at h4
      exact .inl ⟨outs, by rw [hself, h4.1], by omega⟩
  refine ⟨k, fun k' hk' => ?_⟩
  obtain ⟨d, rfl⟩ := Nat.exists_eq_add_of_le hk'
  have hw : runWorkers cx (sem cx n) (ms, ws) (List.replicate (k + d) i) = (ms', ws.set i (.render outs now)) := by
    rw [List.replicate_add, runWorkers_append, hk]
    refine ended_stays (ts := ts) ?_ hend d
    have a := congrArg List.length h3
    have b := (strTables_spec cx (sem cx n) ts).1.length_eq
    rw [List.length_map] at a
    exact a.trans b
  dsimp only
  rw [hw]
  refine ⟨hend, h3, h2, fun j hj => List.getElem?_set_ne (Ne.symm hj), fun keyword => ?_⟩
  unfold tablesText partsText
  cases hs : (strTables cx (sem cx n) ts).2 with
  | some e =>
    rw [hs] at h4 hspec
    have hne : ts.isEmpty = false := by
      cases ts with
      | nil => cases hs
      | cons _ _ => rfl
    cases hm : mapR (tableText cx (sem cx n)) ts with
    | ok us => rw [hm] at hspec; cases hspec
    | error e' =>
      rw [hm] at hspec
      cases hspec
      simp only [hne]
      exact ⟨outs, by rw [hself, h4.1]⟩
  | none =>
    rw [hs] at h4
    obtain ⟨e1, e2, us, e3, e4⟩ := h4
    have hz : (ts.zip outs).isEmpty = ts.isEmpty := by
      cases ts with
      | nil => rfl
      | cons t ts =>
        cases outs with
        | nil => simp only [List.length_nil, List.length_cons] at e2 hlen; omega
        | cons _ _ => rfl
    cases he : ts.isEmpty with
    | true =>
      refine ⟨outs, by rw [hself, e1], by omega, ?_⟩
      unfold shownTables partsText
      rw [hz, he]
      rfl
    | false =>
      rw [e4]
      refine ⟨outs, by rw [hself, e1], by omega, ?_⟩
      unfold shownTables partsText
      rw [hz, he]
      have : mapR (fun p : Table × Option (List Join) => shownText cx (sem cx n) p.1.name p.1.alias p.2) (ts.zip outs) =
        .ok us := e3
      simp only [this]
      rfl

/-- The tables of a query that nobody is rendering satisfy the hypotheses of `C65_alone`. -/
theorem C65_start (ts : List Table) :
    Holding (ts.map TableMem.ofTable) ts ∧ ∀ m ∈ ts.map TableMem.ofTable, AtRest m := by
  constructor
  · rw [Holding, List.map_map]
    conv => rhs; rw [← List.map_id ts]
    refine List.map_congr_left fun t _ => ?_
    have : ∀ js : List Join, (List.range js.length).filterMap (fun i => js[i]?) = js := by
      intro js
      induction js using List.reverseRecOn with
      | nil => rfl
      | append_singleton js j ih =>
        rw [List.length_append, List.length_singleton, List.range_succ, List.filterMap_append]
        congr 1
        · conv => rhs; rw [← ih]
          refine List.filterMap_congr fun i hi => ?_
          rw [List.getElem?_append_left (List.mem_range.mp hi)]
        · simp
    simp [TableMem.ofTable, TableMem.table, TableMem.joinsOf, TableMem.list, this]
  · intro m hm
    obtain ⟨t, _, rfl⟩ := List.mem_map.mp hm
    refine ⟨by simp [TableMem.ofTable], ?_, ?_⟩
    · simpa [TableMem.ofTable, TableMem.list] using List.nodup_range
    · intro i hi
      simpa [TableMem.ofTable, TableMem.list] using hi

theorem wrote_of {cx : Ctx} {n : Nat} {q : Select} {w : List TableMem × List Worker} {i : Nat} {t : Str}
    (h : (sem cx (n + 1)).str (.select q) = .ok t)
    (hw : match tablesText cx (sem cx n) L!"FROM" q.tables with
      | .ok u => WroteTables cx n L!"FROM" q.tables w i u
      | .error e => Stopped w i e) : Wrote cx n q w i t := by
  have h' : selectTextFrom cx (sem cx n) q (tablesText cx (sem cx n) L!"FROM" q.tables) = .ok t := h
  cases hu : tablesText cx (sem cx n) L!"FROM" q.tables with
  | ok u =>
    rw [hu] at hw h'
    obtain ⟨shown, a, b, c⟩ := hw
    exact ⟨shown, a, b, by rw [c]; exact h'⟩
  | error e =>
    exfalso
    rw [hu] at h'
    have hne : q.tables.isEmpty = false := by
      cases ht : q.tables with
      | nil => rw [ht] at hu; cases hu
      | cons _ _ => rfl
    unfold selectTextFrom at h'
    obtain ⟨_, _, h'⟩ := bind_ok.mp h'
    obtain ⟨_, _, h'⟩ := bind_ok.mp h'
    obtain ⟨_, _, h'⟩ := bind_ok.mp h'
    obtain ⟨_, _, h'⟩ := bind_ok.mp h'
    obtain ⟨_, _, h'⟩ := bind_ok.mp h'
    obtain ⟨_, _, h'⟩ := bind_ok.mp h'
    obtain ⟨_, _, h'⟩ := bind_ok.mp h'
    obtain ⟨_, _, h'⟩ := bind_ok.mp h'
    obtain ⟨_, h', _⟩ := bind_ok.mp h'
    rw [hne] at h'
    cases h'

theorem shown_names {cx : Ctx} {S : Sem} {ts ts' : List Table}
    (h : ts.map (fun t => (t.name, t.alias)) = ts'.map (fun t => (t.name, t.alias))) (keyword : Str)
    (shown : List (Option (List Join))) : shownTables cx S keyword ts shown = shownTables cx S keyword ts' shown := by
  have key : ∀ ts : List Table, shownTables cx S keyword ts shown =
      partsText keyword L!", " [] (fun p : (Obj × Obj) × Option (List Join) => shownText cx S p.1.1 p.1.2 p.2)
        ((ts.map fun t => (t.name, t.alias)).zip shown) := by
    intro ts
    unfold shownTables partsText
    rw [List.zip_map_left, List.isEmpty_map, mapR_map]
    rfl
  rw [key, key, h]

/-- C65 for threads that take turns: any number of threads render the query, each from its start to its end before the
next one begins. -/
theorem C65_turns_partial (cx : Ctx) (n c : Nat) (q : Select) (turns : List (Nat × Nat)) (t : Str)
    (h : (sem cx (n + 1)).str (.select q) = .ok t) (hn : (turns.map Prod.fst).Nodup) (hc : ∀ p ∈ turns, p.1 < c)
    (w : List TableMem × List Worker)
    (hw : w = runWorkers cx (sem cx n) (startTogether q.tables (List.replicate c aboutToRender))
      (turns.flatMap fun p => List.replicate p.2 p.1))
    (he : ∀ p ∈ turns, Ended q.tables w p.1) : ∀ p ∈ turns, Wrote cx n q w p.1 t := by
  have key : ∀ (turns : List (Nat × Nat)) (ts : List Table) (w0 : List TableMem × List Worker), Holding w0.1 ts →
      (∀ m ∈ w0.1, AtRest m) → ts.length = q.tables.length →
      (∀ keyword, tablesText cx (sem cx n) keyword ts = tablesText cx (sem cx n) keyword q.tables) →
      (∀ shown keyword, shownTables cx (sem cx n) keyword ts shown = shownTables cx (sem cx n) keyword q.tables shown) →
      (∀ p ∈ turns, w0.2[p.1]? = some aboutToRender) → (turns.map Prod.fst).Nodup →
      let w := runWorkers cx (sem cx n) w0 (turns.flatMap fun p => List.replicate p.2 p.1)
      (∀ p ∈ turns, Ended q.tables w p.1) → ∀ p ∈ turns, Wrote cx n q w p.1 t := by
    intro turns
    induction turns with
    | nil => intro _ _ _ _ _ _ _ _ _ _ _ p hp; cases hp
    | cons x turns ih =>
      intro ts w0 hold rest hlen ht hsh hst hnd
      dsimp only
      intro hend
      rw [List.map_cons, List.nodup_cons] at hnd
      have hlen0 : w0.1.length = q.tables.length := by
        have := congrArg List.length hold
        rw [List.length_map] at this
        omega
      have hx : x.1 ∉ turns.flatMap fun p => List.replicate p.2 p.1 := by
        intro hm
        obtain ⟨p, hp, hm⟩ := List.mem_flatMap.mp hm
        rw [List.eq_of_mem_replicate hm] at hnd
        exact hnd.1 (List.mem_map_of_mem hp)
      rw [List.flatMap_cons, runWorkers_append] at hend ⊢
      obtain ⟨k, hk⟩ := C65_alone cx n ts w0.1 w0.2 x.1 hold rest (hst x (by simp))
      have hmid : Ended q.tables (runWorkers cx (sem cx n) w0 (List.replicate x.2 x.1)) x.1 := by
        have h1 := hend x (by simp)
        have h2 := run_other (cx := cx) (S := sem cx n) (runWorkers cx (sem cx n) w0 (List.replicate x.2 x.1)) hx
        simpa only [Ended, Stopped, h2] using h1
      have hk' := hk (max k x.2) (Nat.le_max_left ..)
      have hsplit : runWorkers cx (sem cx n) w0 (List.replicate (max k x.2) x.1) =
          runWorkers cx (sem cx n) w0 (List.replicate x.2 x.1) := by
        obtain ⟨d, hd⟩ := Nat.exists_eq_add_of_le (Nat.le_max_right k x.2)
        rw [hd, List.replicate_add, runWorkers_append]
        exact ended_stays (ts := q.tables) ((runWorkers_length _ _).1.trans hlen0) hmid d
      dsimp only at hk'
      rw [hsplit] at hk'
      obtain ⟨_, b1, b2, b3, b4⟩ := hk'
      have tx := strTables_text cx (sem cx n)
      have hln := (strTables_spec cx (sem cx n) ts).1.length_eq
      intro p hp
      rcases List.mem_cons.mp hp with rfl | hp
      · have hw1 : Wrote cx n q (runWorkers cx (sem cx n) w0 (List.replicate p.2 p.1)) p.1 t := by
          refine wrote_of h ?_
          have := b4 L!"FROM"
          rw [ht] at this
          cases hu : tablesText cx (sem cx n) L!"FROM" q.tables with
          | ok u =>
            rw [hu] at this
            obtain ⟨shown, a, b, c⟩ := this
            exact ⟨shown, a, b.trans hlen, by rw [← hsh]; exact c⟩
          | error e =>
            rw [hu] at this
            exact this
        obtain ⟨shown, a, b, c⟩ := hw1
        exact ⟨shown, by rw [run_other _ hx]; exact a, b, c⟩
      · refine ih _ _ b1 b2 (hln.trans hlen) (fun kw => ((tx kw ts).1).trans (ht kw)) ?_ ?_ hnd.2
          (fun p hp => hend p (by simp [hp])) p hp
        · intro shown kw
          rw [← hsh]
          exact shown_names (strTables_names cx (sem cx n) ts) kw shown
        · intro p hp
          have hne : p.1 ≠ x.1 := fun e => hnd.1 (e ▸ List.mem_map_of_mem hp)
          rw [b3 _ hne]
          exact hst p (by simp [hp])
  obtain ⟨s1, s2⟩ := C65_start q.tables
  subst hw
  refine key turns q.tables _ s1 s2 rfl (fun _ => rfl) (fun _ _ => rfl) ?_ hn he
  intro p hp
  simp [startTogether, hc p hp]

/-- Two threads that take turns. -/
example : ∃ turns : List (Nat × Nat), turns.length = 2 ∧
    let w := runWorkers cx0 (sem cx0 5) (startTogether q0.tables (List.replicate 2 aboutToRender))
      (turns.flatMap fun p => List.replicate p.2 p.1)
    ∀ p ∈ turns, Ended q0.tables w p.1 :=
  ⟨[(1, 20), (0, 20)], rfl, by
    intro w p hp
    rcases List.mem_cons.mp hp with rfl | hp
    · exact .inl ⟨_, rfl, rfl⟩
    · rw [List.mem_singleton.mp hp]
      exact .inl ⟨_, rfl, rfl⟩⟩

/-- C65 for queries without joins: threads may mix their steps as they like. The tables stay as they are, and every
thread that comes to its end has written the text of the query, or stopped with the exception of its tables. -/
theorem C65_no_joins_partial (cx : Ctx) (n c : Nat) (q : Select) (schedule : List Nat)
    (hj : ∀ t ∈ q.tables, t.joins = []) (w : List TableMem × List Worker)
    (hw : w = runWorkers cx (sem cx n) (startTogether q.tables (List.replicate c aboutToRender)) schedule) :
    Holding w.1 q.tables ∧ ∀ i < c, Ended q.tables w i →
      match tablesText cx (sem cx n) L!"FROM" q.tables with
      | .ok _ => ∀ t, (sem cx (n + 1)).str (.select q) = .ok t → Wrote cx n q w i t
      | .error e => Stopped w i e := by
  subst hw
  obtain ⟨h1, h2⟩ := workers_inv (cx := cx) (S := sem cx n) (I := fun ms => ms = q.tables.map TableMem.ofTable)
    (J := PlainWorker cx (sem cx n) q.tables)
    (fun ms k hm hk => by subst hm; exact plain_step hj k hk)
    (w := startTogether q.tables (List.replicate c aboutToRender)) rfl
    (fun k hk => by
      rw [List.eq_of_mem_replicate hk]
      exact ⟨rfl, ⟨[], rfl⟩, Nat.zero_le _, .inl rfl⟩) schedule
  refine ⟨by rw [Holding, h1]; exact (C65_start q.tables).1, fun i hi he => ?_⟩
  have text : ∀ t ∈ q.tables, tableText cx (sem cx n) t = aliasedText cx (sem cx n) t.name t.alias := by
    intro t ht
    unfold tableText
    rw [hj t ht]
    cases aliasedText cx (sem cx n) t.name t.alias <;> rfl
  have hm : mapR (tableText cx (sem cx n)) q.tables =
      mapR (fun t : Table => aliasedText cx (sem cx n) t.name t.alias) q.tables := mapR_congr text
  have same : ∀ k, k = q.tables.length → shownTables cx (sem cx n) L!"FROM" q.tables (List.replicate k none) =
      tablesText cx (sem cx n) L!"FROM" q.tables := by
    rintro k rfl
    have hz : q.tables.zip (List.replicate q.tables.length (none : Option (List Join))) =
        q.tables.map fun t => (t, none) := by
      generalize q.tables = ts
      induction ts with
      | nil => rfl
      | cons t ts ih => rw [List.length_cons, List.replicate_succ, List.zip_cons_cons, ih]; rfl
    unfold shownTables tablesText partsText
    rw [hz, List.isEmpty_map, mapR_map, hm]
    rfl
  have fails : ∀ k t e us, q.tables[k]? = some t → aliasedText cx (sem cx n) t.name t.alias = .error e →
      mapR (fun t : Table => aliasedText cx (sem cx n) t.name t.alias) (q.tables.take k) = .ok us →
      tablesText cx (sem cx n) L!"FROM" q.tables = .error e := by
    intro k t e us h1 h2 h3
    obtain ⟨hl, h1⟩ := List.getElem?_eq_some_iff.mp h1
    have hne : q.tables.isEmpty = false := by
      cases hq : q.tables with
      | nil => rw [hq] at hl; exact absurd hl (Nat.not_lt_zero _)
      | cons _ _ => rfl
    have hs : q.tables = q.tables.take k ++ t :: q.tables.drop (k + 1) := by
      rw [← h1, List.getElem_cons_drop, List.take_append_drop]
    unfold tablesText partsText
    rw [hm, hs, mapR_append, h3, ← hs, hne]
    simp only [ok_bind, mapR_cons, h2]
    rfl
  rcases he with ⟨shown, a, b⟩ | ⟨e, shown, a⟩ | a | ⟨e, a⟩
  · obtain ⟨p1, ⟨us, p2⟩, _, _⟩ := h2 _ (List.mem_of_getElem? a)
    rw [b, List.take_length, ← hm] at p2
    have hs := same _ b
    rw [← p1] at hs
    cases ht : tablesText cx (sem cx n) L!"FROM" q.tables with
    | error e =>
      exfalso
      unfold tablesText partsText at ht
      rw [p2] at ht
      split at ht <;> cases ht
    | ok u =>
      intro t h
      exact ⟨shown, a, b, by rw [hs]; exact h⟩
  · obtain ⟨_, ⟨us, p2⟩, _, h | ⟨e', t, x1, x2, x3⟩⟩ := h2 _ (List.mem_of_getElem? a)
    · cases h
    · cases x3
      rw [fails _ t e us x1 x2 p2]
      exact ⟨shown, a⟩
  · exact (h2 _ (List.mem_of_getElem? a)).elim
  · exact (h2 _ (List.mem_of_getElem? a)).elim

/-- Such a query, with two tables. -/
example : ∀ t ∈ ({ tables := [⟨.str L!"t", .none, []⟩, ⟨.str L!"u", .str L!"x", []⟩] } : Select).tables, t.joins = [] := by
  simp

/-- C65, what can not happen: whatever the schedule, with threads that render and threads that call `join`, a thread
writes only joins that were given, and only those are in the query; a join changes its type only to an inner join, and
only if an inner join was given. -/
theorem C65_given_partial (cx : Ctx) (n : Nat) (ts : List Table) (ws : List Worker) (schedule : List Nat)
    (given : List Join) (hts : ∀ t ∈ ts, ∀ d ∈ t.joins, d ∈ given)
    (hws : ∀ k ∈ ws, k = aboutToRender ∨ ∃ d ∈ given, k = .join d)
    (w : List TableMem × List Worker) (hw : w = runWorkers cx (sem cx n) (startTogether ts ws) schedule) :
    (∀ m ∈ w.1, ∀ d ∈ m.table.joins, AmongJoins given d) ∧
    ∀ (i : Nat) shown now, w.2[i]? = some (Worker.render shown now) → ∀ js, some js ∈ shown → ∀ d ∈ js, AmongJoins given d := by
  subst hw
  obtain ⟨h1, h2⟩ := workers_inv (cx := cx) (S := sem cx n) (I := fun ms => ∀ m ∈ ms, GivenMem given m)
    (J := GivenWorker given) (fun ms k hm hk => given_step ms k hm hk) (w := startTogether ts ws)
    (fun m hm d hd => by
      obtain ⟨t, ht, rfl⟩ := List.mem_map.mp hm
      exact given_self (hts t ht d hd))
    (fun k hk => by
      rcases hws k hk with rfl | ⟨d, hd, rfl⟩
      · exact ⟨by simp, by simp, by simp⟩
      · exact hd) schedule
  exact ⟨fun m hm d hd => h1 m hm d (mem_joinsOf hd),
    fun i shown now hi js hjs d hd => (h2 _ (List.mem_of_getElem? hi)).1 _ hjs js rfl d hd⟩

/-- Such threads, and joins of which one becomes an inner join. -/
example : ∃ given : List Join, (∀ t ∈ q0.tables, ∀ d ∈ t.joins, d ∈ given) ∧
    (∀ k ∈ [aboutToRender, .join ⟨.left, .str L!"u", .none, [.cond true (.str L!"a") .eq (.str L!"b")]⟩],
      k = aboutToRender ∨ ∃ d ∈ given, k = .join d) ∧
    AmongJoins given ⟨.inner, .str L!"u", .none, [.cond true (.str L!"a") .eq (.str L!"b")]⟩ := by
  refine ⟨[⟨.left, .str L!"u", .none, [.cond true (.str L!"a") .eq (.str L!"b")]⟩,
    ⟨.inner, .str L!"u", .none, [.cond true (.str L!"a") .eq (.str L!"b")]⟩], ?_, ?_, ?_⟩
  · simp [q0]
  · simp
  · exact ⟨_, List.mem_cons_self, .inr ⟨rfl, _, List.mem_cons_of_mem _ List.mem_cons_self, rfl⟩⟩

/-- Without an inner join every join a thread writes is one that was given, unchanged. -/
theorem C65_given_exact_partial (cx : Ctx) (n : Nat) (ts : List Table) (ws : List Worker) (schedule : List Nat)
    (given : List Join) (hts : ∀ t ∈ ts, ∀ d ∈ t.joins, d ∈ given)
    (hws : ∀ k ∈ ws, k = aboutToRender ∨ ∃ d ∈ given, k = .join d) (hg : ∀ d ∈ given, d.type ≠ .inner)
    (w : List TableMem × List Worker) (hw : w = runWorkers cx (sem cx n) (startTogether ts ws) schedule) :
    (∀ m ∈ w.1, ∀ d ∈ m.table.joins, d ∈ given) ∧
    ∀ (i : Nat) shown now, w.2[i]? = some (Worker.render shown now) → ∀ js, some js ∈ shown → ∀ d ∈ js, d ∈ given := by
  obtain ⟨h1, h2⟩ := C65_given_partial cx n ts ws schedule given hts hws w hw
  have key : ∀ d, AmongJoins given d → d ∈ given := by
    rintro d ⟨g, hd, rfl | ⟨_, g', hg', e⟩⟩
    · exact hd
    · exact absurd e (hg g' hg')
  exact ⟨fun m hm d hd => key d (h1 m hm d hd), fun i s o hi js hjs d hd => key d (h2 i s o hi js hjs d hd)⟩

end SqlPuzzle
