import Verif.Proofs.Interrupt
import Verif.Props.RenderThreads

/-!
C67: Renderings that are interrupted.
-/

namespace SqlPuzzle

open Spec

private def cx0 : Ctx := ⟨.sql, ⟨id, id, fun _ => true, fun _ => [], fun _ => []⟩⟩

/-- A query with one join. -/
private def q0 : Select :=
  { tables := [⟨.str L!"t", .none, [⟨.inner, .str L!"u", .none, [.cond true (.str L!"a") .eq (.str L!"b")]⟩]⟩] }

/-- C67 as stated: some renderings of the query are interrupted, each after any number of steps; then another one runs
to its end, and gives the text of the query. -/
def C67_claim : Prop :=
  ∀ (cx : Ctx) (n c : Nat) (q : Select) (turns : List (Nat × Nat)) (i : Nat) (t : Str),
    (sem cx (n + 1)).str (.select q) = .ok t → (i :: turns.map Prod.fst).Nodup → (∀ j ∈ i :: turns.map Prod.fst, j < c) →
    ∃ k, ∀ k' ≥ k, Wrote cx n q (inTurns cx n (startTogether q.tables (List.replicate c aboutToRender)) (turns ++ [(i, k')])) i t

/-- It is false: a rendering that is interrupted after `self._joins = []` leaves the query without its joins. -/
theorem C67_refuted : ¬ C67_claim := by
  intro h
  obtain ⟨k, h⟩ := h cx0 5 2 q0 [(0, 5)] 1 L!"SELECT * FROM \"t\" JOIN \"u\" ON \"a\" = \"b\"" (by decide +kernel)
    (by decide) (by decide)
  obtain ⟨shown, h1, h2, h3⟩ := h (k + 1) (by omega)
  have key : ∀ k, (inTurns cx0 5 (startTogether q0.tables (List.replicate 2 aboutToRender)) ([(0, 5)] ++ [(1, k + 1)])).2[1]? =
      some (.render [none] .test) := by
    intro k
    induction k with
    | zero => rfl
    | succ k ih =>
      simp only [inTurns, List.cons_append, List.nil_append, List.foldl_cons, List.foldl_nil] at ih ⊢
      rw [List.replicate_succ' (n := k + 1), runWorkers_append]
      have hlen := (runWorkers_length (cx := cx0) (S := sem cx0 5) (runWorkers cx0 (sem cx0 5)
        (startTogether q0.tables (List.replicate 2 aboutToRender)) (List.replicate 5 0)) (List.replicate (k + 1) 1)).1
      generalize runWorkers cx0 (sem cx0 5) (runWorkers cx0 (sem cx0 5)
        (startTogether q0.tables (List.replicate 2 aboutToRender)) (List.replicate 5 0)) (List.replicate (k + 1) 1) = w at ih hlen ⊢
      have : runWorkers cx0 (sem cx0 5) w [1] = w := by
        refine ended_stays (ts := q0.tables) (i := 1) ?_ (.inl ⟨_, ih, rfl⟩) 1
        rw [hlen, (runWorkers_length _ _).1]
        rfl
      rw [this, ih]
  rw [key k] at h1
  cases h1
  revert h3
  decide +kernel

/-- C67, how much can be lost: after an interruption at any point the next rendering runs to its end and writes the
tables of the query, except that at most one of them is without the last of its (merged) joins; and that only if the
interruption came between `self._joins = []` and the end of the following loop. -/
theorem C67_cut_partial (cx : Ctx) (n c : Nat) (ts : List Table) (i j k : Nat) (hij : i ≠ j) (hi : i < c) (hj : j < c)
    (w : List TableMem × List Worker)
    (hw : w = inTurns cx n (startTogether ts (List.replicate c aboutToRender)) [(i, k)]) :
    ∃ ts' at_, ts'.length = ts.length ∧
      (∀ (x : Nat) t t', ts[x]? = some t → ts'[x]? = some t' →
        Intact cx n t t' ∨ (x = at_ ∧ Refilling w i ∧ CutOff cx n t t')) ∧
      ∃ k1, ∀ k2 ≥ k1, ∀ keyword, match tablesText cx (sem cx n) keyword ts' with
        | .ok u => WroteTables cx n keyword ts' (inTurns cx n w [(j, k2)]) j u
        | .error e => Stopped (inTurns cx n w [(j, k2)]) j e := by
  obtain ⟨s1, s2⟩ := C65_start ts
  obtain ⟨ts', at_, a1, a2, a3, a4, a5⟩ := interrupted (cx := cx) (n := n) s1 s2
    (ws := List.replicate c aboutToRender) (i := i) (by simp [hi]) k w hw
  obtain ⟨k1, hk⟩ := C65_alone cx n ts' w.1 w.2 j a1 a2 (by rw [a3 j (Ne.symm hij)]; simp [hj])
  exact ⟨ts', at_, a4, a5, k1, fun k2 h2 => (hk k2 h2).2.2.2.2⟩

/-- The join is lost in this way. -/
example : Refilling (inTurns cx0 5 (startTogether q0.tables (List.replicate 2 aboutToRender)) [(0, 5)]) 0 ∧
    CutOff cx0 5 ⟨.str L!"t", .none, [⟨.inner, .str L!"u", .none, [.cond true (.str L!"a") .eq (.str L!"b")]⟩]⟩
      ⟨.str L!"t", .none, []⟩ :=
  ⟨⟨[], .inl ⟨_, rfl⟩⟩, rfl, rfl, List.nil_prefix⟩

private theorem intact_text {cx : Ctx} {n : Nat} {t t' : Table} (h : Intact cx n t t') :
    tableText cx (sem cx n) t' = tableText cx (sem cx n) t := by
  rcases h with rfl | rfl
  · rfl
  · exact (strTable_spec cx (sem cx n) t).1

private theorem intact_names {cx : Ctx} {n : Nat} {t t' : Table} (h : Intact cx n t t') :
    t'.name = t.name ∧ t'.alias = t.alias := by
  rcases h with rfl | rfl
  · exact ⟨rfl, rfl⟩
  · unfold strTable
    split
    · exact ⟨rfl, rfl⟩
    · split
      · exact ⟨rfl, rfl⟩
      · split <;> exact ⟨rfl, rfl⟩

/-- C67 for renderings that are interrupted anywhere else: any number of them, and then the next rendering runs to its
end and gives the text of the query. -/
theorem C67_turns_partial (cx : Ctx) (n c : Nat) (q : Select) (turns : List (Nat × Nat)) (i : Nat) (t : Str)
    (h : (sem cx (n + 1)).str (.select q) = .ok t) (hn : (i :: turns.map Prod.fst).Nodup)
    (hc : ∀ j ∈ i :: turns.map Prod.fst, j < c)
    (ok : NeverRefilling cx n (startTogether q.tables (List.replicate c aboutToRender)) turns) :
    ∃ k, ∀ k' ≥ k,
      Wrote cx n q (inTurns cx n (startTogether q.tables (List.replicate c aboutToRender)) (turns ++ [(i, k')])) i t := by
  have key : ∀ (turns : List (Nat × Nat)) (w : List TableMem × List Worker) (ts : List Table), Holding w.1 ts →
      (∀ m ∈ w.1, AtRest m) → (∀ j ∈ i :: turns.map Prod.fst, w.2[j]? = some aboutToRender) →
      (i :: turns.map Prod.fst).Nodup → ts.length = q.tables.length →
      ts.map (tableText cx (sem cx n)) = q.tables.map (tableText cx (sem cx n)) →
      ts.map (fun t => (t.name, t.alias)) = q.tables.map (fun t => (t.name, t.alias)) → NeverRefilling cx n w turns →
      ∃ k, ∀ k' ≥ k, Wrote cx n q (inTurns cx n w (turns ++ [(i, k')])) i t := by
    intro turns
    induction turns with
    | nil =>
      intro w ts hold rest hst _ hlen htx hnm _
      obtain ⟨k, hk⟩ := C65_alone cx n ts w.1 w.2 i hold rest (hst i (by simp))
      refine ⟨k, fun k' hk' => wrote_of h ?_⟩
      have := (hk k' hk').2.2.2.2 L!"FROM"
      have ht : tablesText cx (sem cx n) L!"FROM" ts = tablesText cx (sem cx n) L!"FROM" q.tables := by
        have e : ∀ xs : List Table, tablesText cx (sem cx n) L!"FROM" xs =
            partsText L!"FROM" L!", " [] id (xs.map (tableText cx (sem cx n))) := by
          intro xs
          unfold tablesText partsText
          rw [List.isEmpty_map, mapR_map]
          rfl
        rw [e, e, htx]
      rw [ht] at this
      cases hu : tablesText cx (sem cx n) L!"FROM" q.tables with
      | ok u =>
        rw [hu] at this
        obtain ⟨shown, a, b, c⟩ := this
        exact ⟨shown, a, b.trans hlen, by rw [← shown_names hnm]; exact c⟩
      | error e =>
        rw [hu] at this
        exact this
    | cons x turns ih =>
      intro w ts hold rest hst hnd hlen htx hnm hok
      obtain ⟨ts', at_, a1, a2, a3, a4, a5⟩ := interrupted (cx := cx) (n := n) hold rest (i := x.1) (hst x.1 (by simp)) x.2
        (inTurns cx n w [x]) rfl
      have intact : ∀ (y : Nat) t t', ts[y]? = some t → ts'[y]? = some t' → Intact cx n t t' := by
        intro y t t' e1 e2
        rcases a5 y t t' e1 e2 with a | a
        · exact a
        · exact absurd a.2.1 hok.1
      have maps : ∀ {β : Type} (f : Table → β), (∀ t t', Intact cx n t t' → f t' = f t) → ts'.map f = ts.map f := by
        intro β f hf
        refine List.ext_getElem (by simp [a4]) fun y h1 h2 => ?_
        rw [List.getElem_map, List.getElem_map]
        rw [List.length_map] at h1 h2
        exact hf _ _ (intact y _ _ (List.getElem?_eq_getElem h2) (List.getElem?_eq_getElem h1))
      rw [List.map_cons, List.nodup_cons, List.mem_cons, not_or, List.nodup_cons] at hnd
      have := ih (inTurns cx n w [x]) ts' a1 a2 (by
          intro j hj
          have hne : j ≠ x.1 := by
            rcases List.mem_cons.mp hj with rfl | hj
            · exact hnd.1.1
            · exact fun e => hnd.2.1 (e ▸ hj)
          rw [a3 j hne]
          refine hst j ?_
          rw [List.map_cons]
          rcases List.mem_cons.mp hj with rfl | hj
          · simp
          · simp [hj])
        (List.nodup_cons.mpr ⟨hnd.1.2, hnd.2.2⟩) (a4.trans hlen)
        ((maps _ fun _ _ h => intact_text h).trans htx)
        ((maps _ fun _ _ h => by rw [(intact_names h).1, (intact_names h).2]).trans hnm) hok.2
      exact this
  obtain ⟨s1, s2⟩ := C65_start q.tables
  exact key turns _ q.tables s1 s2 (fun j hj => by simp [startTogether, hc j hj]) hn rfl rfl rfl ok

/-- Three renderings that are interrupted: before the joins are merged, while they are grouped, and while they are
written. -/
example : NeverRefilling cx0 5 (startTogether q0.tables (List.replicate 4 aboutToRender)) [(0, 1), (2, 3), (1, 8)] := by
  refine ⟨?_, ?_, ?_, trivial⟩
  all_goals
    rintro ⟨s, ⟨gs, e⟩ | ⟨xs, gs, e⟩⟩
    · cases e
    · cases e

/-- C67 for queries without joins: the renderings may be interrupted at any point. -/
theorem C67_no_joins_partial (cx : Ctx) (n c : Nat) (q : Select) (turns : List (Nat × Nat)) (i : Nat) (t : Str)
    (h : (sem cx (n + 1)).str (.select q) = .ok t) (hj : ∀ t ∈ q.tables, t.joins = [])
    (hn : (i :: turns.map Prod.fst).Nodup) (hc : ∀ j ∈ i :: turns.map Prod.fst, j < c) :
    ∃ k, ∀ k' ≥ k,
      Wrote cx n q (inTurns cx n (startTogether q.tables (List.replicate c aboutToRender)) (turns ++ [(i, k')])) i t := by
  refine C67_turns_partial cx n c q turns i t h hn hc ?_
  have key : ∀ (turns : List (Nat × Nat)) (w : List TableMem × List Worker), w.1 = q.tables.map TableMem.ofTable →
      (∀ k ∈ w.2, PlainWorker cx (sem cx n) q.tables k) → NeverRefilling cx n w turns := by
    intro turns
    induction turns with
    | nil => intro _ _ _; trivial
    | cons x turns ih =>
      intro w h1 h2
      obtain ⟨b1, b2⟩ := workers_inv (cx := cx) (S := sem cx n) (I := fun ms => ms = q.tables.map TableMem.ofTable)
        (J := PlainWorker cx (sem cx n) q.tables)
        (fun ms k hm hk => by subst hm; exact plain_step hj k hk) (w := w) h1 h2 (List.replicate x.2 x.1)
      refine ⟨?_, ih _ b1 b2⟩
      rintro ⟨s, ⟨gs, e⟩ | ⟨xs, gs, e⟩⟩
      · obtain ⟨_, _, _, b | ⟨_, _, _, _, b⟩⟩ := b2 _ (List.mem_of_getElem? e) <;> cases b
      · obtain ⟨_, _, _, b | ⟨_, _, _, _, b⟩⟩ := b2 _ (List.mem_of_getElem? e) <;> cases b
  exact key turns _ rfl fun k hk => by
    rw [List.eq_of_mem_replicate hk]
    exact ⟨rfl, ⟨[], rfl⟩, Nat.zero_le _, .inl rfl⟩

/-- Such a query, with a text. -/
example : ∃ t, (sem cx0 6).str (.select { tables := [⟨.str L!"t", .none, []⟩, ⟨.str L!"u", .str L!"x", []⟩] }) = .ok t :=
  ⟨L!"SELECT * FROM \"t\", \"u\" AS \"x\"", by decide +kernel⟩

end SqlPuzzle
