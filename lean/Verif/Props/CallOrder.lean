import Verif.Model.HasCalls
import Verif.Proofs.RenderCalls
import Verif.Proofs.Statement

/-!
C27, C29 and C63 for `UPDATE`, `DELETE` and `INSERT`: calls on different clauses can be exchanged,
and what `str(query)` or `has()` in between does.
-/

namespace SqlPuzzle

open Spec RenderCalls

private def cx0 : Ctx := ⟨.sql, ⟨id, id, Char.isAlphanum, fun _ => [], fun _ => []⟩⟩

/-! ### C27 -/

/-- C27 for UPDATE: two calls that concern different clauses can be exchanged: the query is the
same, and each call raises what it would raise without the other. -/
theorem C27_update_commute (cx : Ctx) (S : Sem) (q : Update) (a b : UpdateOp)
    (ha : a ≠ .str) (hb : b ≠ .str) (h : updateGroup a ≠ updateGroup b) :
    (updateStep cx S (updateStep cx S q a).1 b).1 = (updateStep cx S (updateStep cx S q b).1 a).1 ∧
    (updateStep cx S (updateStep cx S q a).1 b).2 = (updateStep cx S q b).2 := by
  cases a <;> cases b <;> first
    | exact absurd rfl h
    | exact absurd rfl ha
    | exact absurd rfl hb
    | exact ⟨rfl, rfl⟩

/-- C27 for DELETE. -/
theorem C27_delete_commute (cx : Ctx) (S : Sem) (q : Delete) (a b : DeleteOp)
    (ha : a ≠ .str) (hb : b ≠ .str) (h : deleteGroup a ≠ deleteGroup b) :
    (deleteStep cx S (deleteStep cx S q a).1 b).1 = (deleteStep cx S (deleteStep cx S q b).1 a).1 ∧
    (deleteStep cx S (deleteStep cx S q a).1 b).2 = (deleteStep cx S q b).2 := by
  cases a <;> cases b <;> first
    | exact absurd rfl h
    | exact absurd rfl ha
    | exact absurd rfl hb
    | exact ⟨rfl, rfl⟩

/-- C27 for INSERT. -/
theorem C27_insert_commute (cx : Ctx) (S : Sem) (q : Insert) (a b : InsertOp)
    (ha : a ≠ .str) (hb : b ≠ .str) (h : insertGroup a ≠ insertGroup b) :
    (insertStep cx S (insertStep cx S q a).1 b).1 = (insertStep cx S (insertStep cx S q b).1 a).1 ∧
    (insertStep cx S (insertStep cx S q a).1 b).2 = (insertStep cx S q b).2 := by
  have hd : ∀ c, (∀ x, c ≠ .onDuplicateKeyUpdate x) ∨ ∃ x, c = InsertOp.onDuplicateKeyUpdate x := by
    intro c
    cases c with
    | onDuplicateKeyUpdate x => exact .inr ⟨x, rfl⟩
    | _ => exact .inl fun _ e => by cases e
  rcases hd a with ha' | ⟨x, rfl⟩ <;> rcases hd b with hb' | ⟨y, rfl⟩
  · cases a <;> cases b <;> first
      | exact absurd rfl h
      | exact absurd rfl ha
      | exact absurd rfl hb
      | exact absurd rfl (ha' _)
      | exact absurd rfl (hb' _)
      | exact ⟨rfl, rfl⟩
      | (simp only [insertStep, and_true]; split <;> first | rfl | exact ⟨rfl, rfl⟩)
  · obtain ⟨h1, h2, h3⟩ := Commute.onDup_exchange cx S q y a ha ha'
    exact ⟨h1.symm, h3⟩
  · obtain ⟨h1, h2, h3⟩ := Commute.onDup_exchange cx S q x b hb hb'
    exact ⟨h1, h2⟩
  · exact absurd rfl h

/-- C27 for UPDATE: the query depends only on the sequence of calls for each clause. -/
theorem C27_update_order (cx : Ctx) (S : Sem) (xs ys : List UpdateOp) (q : Update)
    (hx : .str ∉ xs) (hy : .str ∉ ys)
    (h : ∀ c, (xs.filter fun a => updateGroup a == c) = ys.filter fun a => updateGroup a == c) :
    runOps (updateStep cx S) q xs = runOps (updateStep cx S) q ys :=
  Commute.order (ok := (· ≠ .str)) (fun q a b ha hb h => (C27_update_commute cx S q a b ha hb h).1)
    xs ys q (fun _ ha e => hx (e ▸ ha)) (fun _ ha e => hy (e ▸ ha)) h

/-- C27 for DELETE: the query depends only on the sequence of calls for each clause. -/
theorem C27_delete_order (cx : Ctx) (S : Sem) (xs ys : List DeleteOp) (q : Delete)
    (hx : .str ∉ xs) (hy : .str ∉ ys)
    (h : ∀ c, (xs.filter fun a => deleteGroup a == c) = ys.filter fun a => deleteGroup a == c) :
    runOps (deleteStep cx S) q xs = runOps (deleteStep cx S) q ys :=
  Commute.order (ok := (· ≠ .str)) (fun q a b ha hb h => (C27_delete_commute cx S q a b ha hb h).1)
    xs ys q (fun _ ha e => hx (e ▸ ha)) (fun _ ha e => hy (e ▸ ha)) h

/-- C27 for INSERT: the query depends only on the sequence of calls for each clause. -/
theorem C27_insert_order (cx : Ctx) (S : Sem) (xs ys : List InsertOp) (q : Insert)
    (hx : .str ∉ xs) (hy : .str ∉ ys)
    (h : ∀ c, (xs.filter fun a => insertGroup a == c) = ys.filter fun a => insertGroup a == c) :
    runOps (insertStep cx S) q xs = runOps (insertStep cx S) q ys :=
  Commute.order (ok := (· ≠ .str)) (fun q a b ha hb h => (C27_insert_commute cx S q a b ha hb h).1)
    xs ys q (fun _ ha e => hx (e ▸ ha)) (fun _ ha e => hy (e ▸ ha)) h

/-- `delete_from('a').where(...).join('b')`, with `join` before or after `where`. -/
example (cx : Ctx) (S : Sem) (w : Args) :
    runOps (deleteStep cx S) {} [.from_ { pos := [.str L!"a"] }, .where_ w, .join (.str L!"b")] =
    runOps (deleteStep cx S) {} [.where_ w, .from_ { pos := [.str L!"a"] }, .join (.str L!"b")] := by
  refine C27_delete_order cx S _ _ {} (by simp) (by simp) fun c => ?_
  rcases c with _ | c
  · rfl
  · cases c <;> rfl

/-! ### C29 -/

/-- C29, full statement for UPDATE. -/
def C29_update_claim : Prop :=
  ∀ (cx : Ctx) (n : Nat) (q : Update) (before after : List UpdateOp),
    (sem cx (n + 1)).str (.update (runOps (updateStep cx (sem cx n)) q (before ++ .str :: after))) =
      (sem cx (n + 1)).str (.update (runOps (updateStep cx (sem cx n)) q (before ++ after)))

/-- C29 is false of UPDATE: `update('a').set(c=1).allow_update_all().join('b').left_join('b')`, then
`on(x='y')`. -/
theorem C29_update_refuted : ¬C29_update_claim := by
  intro h
  have := h cx0 3 {} [.table (.str L!"a"), .set { kw := [(L!"c", .int 1)] }, .allowUpdateAll,
    .join (.str L!"b"), .leftJoin (.str L!"b")] [.on { kw := [(L!"x", .str L!"y")] }]
  revert this
  decide

/-- C29, full statement for DELETE. -/
def C29_delete_claim : Prop :=
  ∀ (cx : Ctx) (n : Nat) (q : Delete) (before after : List DeleteOp),
    (sem cx (n + 1)).str (.delete (runOps (deleteStep cx (sem cx n)) q (before ++ .str :: after))) =
      (sem cx (n + 1)).str (.delete (runOps (deleteStep cx (sem cx n)) q (before ++ after)))

/-- C29 is false of DELETE: `delete_from('a').allow_delete_all().join('b').left_join('b')`, then
`on(x='y')`. -/
theorem C29_delete_refuted : ¬C29_delete_claim := by
  intro h
  have := h cx0 3 {} [.from_ { pos := [.str L!"a"] }, .allowDeleteAll,
    .join (.str L!"b"), .leftJoin (.str L!"b")] [.on { kw := [(L!"x", .str L!"y")] }]
  revert this
  decide

/-- C29, what holds of UPDATE: `str(query)` does not matter if no later call concerns tables or
joins. -/
theorem C29_update_other_clauses_partial (cx : Ctx) (n : Nat) (q : Update)
    (before after : List UpdateOp) (h : ∀ op ∈ after, updateGroup op ≠ some .tables) :
    (sem cx (n + 1)).str (.update (runOps (updateStep cx (sem cx n)) q (before ++ .str :: after))) =
      (sem cx (n + 1)).str (.update (runOps (updateStep cx (sem cx n)) q (before ++ after))) := by
  rw [runOps_append, runOps_append, runOps_cons]
  exact sameUpdate_text cx n (rel_run (step := updateStep cx (sem cx n))
    (Rel := SameUpdate cx (sem cx n))
    (P := fun op => updateGroup op ≠ some .tables)
    (fun _ _ _ h ho => sameUpdate_step cx _ h ho) after _ _ (sameUpdate_str cx _ _) h)

/-- C29, what holds of DELETE: `str(query)` does not matter if no later call concerns the deleted
tables, the `FROM` list or joins. -/
theorem C29_delete_other_clauses_partial (cx : Ctx) (n : Nat) (q : Delete)
    (before after : List DeleteOp)
    (h : ∀ op ∈ after, deleteGroup op ≠ some .deleted ∧ deleteGroup op ≠ some .from_) :
    (sem cx (n + 1)).str (.delete (runOps (deleteStep cx (sem cx n)) q (before ++ .str :: after))) =
      (sem cx (n + 1)).str (.delete (runOps (deleteStep cx (sem cx n)) q (before ++ after))) := by
  rw [runOps_append, runOps_append, runOps_cons]
  exact sameDelete_text cx n (rel_run (step := deleteStep cx (sem cx n))
    (Rel := SameDelete cx (sem cx n))
    (P := fun op => deleteGroup op ≠ some .deleted ∧ deleteGroup op ≠ some .from_)
    (fun _ _ _ h ho => sameDelete_step cx _ h ho) after _ _ (sameDelete_str cx _ _) h)

/-- The two cases above are met by a query whose rendering does change its state. -/
example : ∃ op : DeleteOp,
    (deleteGroup op ≠ some .deleted ∧ deleteGroup op ≠ some .from_) ∧
    (runOps (deleteStep cx0 (sem cx0 3)) {} ([.from_ { pos := [.str L!"a"] }, .allowDeleteAll,
      .join (.str L!"b"), .leftJoin (.str L!"b")] ++ .str :: [op])).references.map
        (fun t => t.joins.length) = [1] ∧
    (sem cx0 4).str (.delete (runOps (deleteStep cx0 (sem cx0 3)) {}
      ([.from_ { pos := [.str L!"a"] }, .allowDeleteAll, .join (.str L!"b"),
        .leftJoin (.str L!"b")] ++ [op]))) =
      .ok L!"DELETE FROM \"a\" JOIN \"b\" WHERE \"x\" = 1" :=
  ⟨.where_ { kw := [(L!"x", .int 1)] }, ⟨by decide, by decide⟩, by decide +kernel,
    by decide +kernel⟩

/-- C29, what holds of UPDATE: `str(query)` changes nothing at all at a point where no table has two
joins of the same table with the same condition. -/
theorem C29_update_distinct_joins_partial (cx : Ctx) (n : Nat) (q : Update)
    (before after : List UpdateOp)
    (h : ∀ t ∈ (runOps (updateStep cx (sem cx n)) q before).tables,
      t.joins.Pairwise (JoinsDiffer cx n)) :
    runOps (updateStep cx (sem cx n)) q (before ++ .str :: after) =
      runOps (updateStep cx (sem cx n)) q (before ++ after) := by
  rw [runOps_append, runOps_append, runOps_cons]
  generalize runOps (updateStep cx (sem cx n)) q before = p at h
  suffices hs : (updateStep cx (sem cx n) p .str).1 = p by rw [hs]
  have h1 := strTables_distinct cx (sem cx n) fun t ht =>
    (h t ht).imp fun hd => (sameJoin_false cx n).mpr hd
  show (updateStr cx (sem cx n) p).1 = p
  unfold updateStr
  split
  · rfl
  · simp only [h1]

/-- C29, what holds of DELETE, likewise. -/
theorem C29_delete_distinct_joins_partial (cx : Ctx) (n : Nat) (q : Delete)
    (before after : List DeleteOp)
    (h : ∀ t ∈ (runOps (deleteStep cx (sem cx n)) q before).tables ++
        (runOps (deleteStep cx (sem cx n)) q before).references,
      t.joins.Pairwise (JoinsDiffer cx n)) :
    runOps (deleteStep cx (sem cx n)) q (before ++ .str :: after) =
      runOps (deleteStep cx (sem cx n)) q (before ++ after) := by
  rw [runOps_append, runOps_append, runOps_cons]
  generalize runOps (deleteStep cx (sem cx n)) q before = p at h
  suffices hs : (deleteStep cx (sem cx n) p .str).1 = p by rw [hs]
  have h1 := strTables_distinct cx (sem cx n) (ts := p.tables) fun t ht =>
    (h t (by simp [ht])).imp fun hd => (sameJoin_false cx n).mpr hd
  have h2 := strTables_distinct cx (sem cx n) (ts := p.references) fun t ht =>
    (h t (by simp [ht])).imp fun hd => (sameJoin_false cx n).mpr hd
  show (deleteStr cx (sem cx n) p).1 = p
  unfold deleteStr
  split
  · rfl
  · simp only [h1, h2]
    split <;> rfl

/-- `delete_from('a').join('b').left_join('c')`. -/
example : ∀ t ∈ (runOps (deleteStep cx0 (sem cx0 3)) {} [.from_ { pos := [.str L!"a"] },
    .join (.str L!"b"), .leftJoin (.str L!"c")]).tables ++
    (runOps (deleteStep cx0 (sem cx0 3)) {} [.from_ { pos := [.str L!"a"] },
      .join (.str L!"b"), .leftJoin (.str L!"c")]).references,
    t.joins.Pairwise (JoinsDiffer cx0 3) := by
  intro t ht
  have ht : t ∈ [⟨.str L!"a", .none,
    [⟨.inner, .str L!"b", .none, []⟩, ⟨.left, .str L!"c", .none, []⟩]⟩] := ht
  rw [List.mem_singleton.mp ht]
  refine .cons ?_ (.cons (by simp) .nil)
  intro b hb
  rw [List.mem_singleton.mp hb]
  exact .inl rfl

/-- C29 holds of INSERT: from `insert()` on, `str(query)` anywhere in a history changes nothing. -/
theorem C29_insert (cx : Ctx) (n : Nat) (before after : List InsertOp) :
    runOps (insertStep cx (sem cx n)) {} (before ++ .str :: after) =
      runOps (insertStep cx (sem cx n)) {} (before ++ after) := by
  rw [runOps_append, runOps_append, runOps_cons]
  have h : NoJoins (runOps (insertStep cx (sem cx n)) {} before) :=
    noJoins_run cx _ (fun _ h => absurd h List.not_mem_nil) before
  rw [noJoins_insertStr cx _ h]

/-- An `INSERT` rendered before it is complete. -/
example : (sem cx0 4).str (.insert (runOps (insertStep cx0 (sem cx0 3)) {}
    ([.into (.str L!"a"), .values { kw := [(L!"x", .int 1)] }] ++ .str ::
      [.values { kw := [(L!"x", .int 2)] }]))) =
    .ok L!"INSERT INTO \"a\" (\"x\") VALUES (1), (2)" := by decide +kernel

/-! ### C63 -/

/-- C63, what holds of UPDATE: `has()` does not matter if no later call concerns tables or joins. -/
theorem C63_update_other_clauses_partial (cx : Ctx) (n : Nat) (q : Update) (name : Str) (v : Obj)
    (after : List UpdateOp) (h : ∀ op ∈ after, updateGroup op ≠ some .tables) :
    (sem cx (n + 1)).str (.update
        (runOps (updateStep cx (sem cx n)) (updateHasStep cx (sem cx n) q name v).1 after)) =
      (sem cx (n + 1)).str (.update (runOps (updateStep cx (sem cx n)) q after)) :=
  sameUpdate_text cx n (rel_run (step := updateStep cx (sem cx n))
    (Rel := SameUpdate cx (sem cx n)) (P := fun op => updateGroup op ≠ some .tables)
    (fun _ _ _ h ho => sameUpdate_step cx _ h ho) after _ _ (sameUpdate_has cx _ q name v) h)

/-- C63, what holds of DELETE: `has()` does not matter if no later call concerns the deleted tables,
the `FROM` list or joins. -/
theorem C63_delete_other_clauses_partial (cx : Ctx) (n : Nat) (q : Delete) (name : Str) (v : Obj)
    (after : List DeleteOp)
    (h : ∀ op ∈ after, deleteGroup op ≠ some .deleted ∧ deleteGroup op ≠ some .from_) :
    (sem cx (n + 1)).str (.delete
        (runOps (deleteStep cx (sem cx n)) (deleteHasStep cx (sem cx n) q name v).1 after)) =
      (sem cx (n + 1)).str (.delete (runOps (deleteStep cx (sem cx n)) q after)) :=
  sameDelete_text cx n (rel_run (step := deleteStep cx (sem cx n))
    (Rel := SameDelete cx (sem cx n))
    (P := fun op => deleteGroup op ≠ some .deleted ∧ deleteGroup op ≠ some .from_)
    (fun _ _ _ h ho => sameDelete_step cx _ h ho) after _ _ (sameDelete_has cx _ q name v) h)

/-- C63 holds of INSERT: from `insert()` on, `has()` anywhere in a history changes nothing. -/
theorem C63_insert (cx : Ctx) (n : Nat) (before : List InsertOp) (name : Str) (v : Obj) :
    (insertHasStep cx (sem cx n) (runOps (insertStep cx (sem cx n)) {} before) name v).1 =
      runOps (insertStep cx (sem cx n)) {} before :=
  noJoins_has cx _ (noJoins_run cx _ (fun _ h => absurd h List.not_mem_nil) before) name v

example : insertHasStep cx0 (sem cx0 3) (runOps (insertStep cx0 (sem cx0 3)) {}
    [.into (.str L!"a")]) L!"tables" (.str L!"a") =
    (runOps (insertStep cx0 (sem cx0 3)) {} [.into (.str L!"a")], .ok true) := by
  refine Prod.ext ?_ ?_
  · rfl
  · decide +kernel

end SqlPuzzle
