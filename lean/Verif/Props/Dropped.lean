import Verif.Props.Parsing
import Verif.Proofs.Accumulate
import Verif.Proofs.Joins
import Verif.Spec.Named

/-!
C18: what becomes of the arguments of the methods that take names, and which arguments of `where`
and `having` are ignored.
-/

namespace SqlPuzzle

open Spec

private def cx0 : Ctx := ⟨.sql, ⟨id, id, fun _ => true, fun _ => [], fun _ => []⟩⟩

/-! ### The parser -/

private theorem batch_two {vs b : List Obj} (h : createBatch nameOpts vs = .ok b) :
    (vs = [] ∧ b = [.none, .none]) ∨ (∃ x, vs = [x] ∧ b = [x, .none]) ∨
      ∃ x y, vs = [x, y] ∧ b = [x, y] := by
  obtain ⟨h1, h2⟩ := createBatch_ok h
  have h1 : vs.length ≤ 2 := h1
  match vs, h1, h2 with
  | [], _, h2 => exact .inl ⟨rfl, h2⟩
  | [x], _, h2 => exact .inr (.inl ⟨x, rfl, h2⟩)
  | [x, y], _, h2 => exact .inr (.inr ⟨x, y, rfl, h2⟩)
  | _ :: _ :: _ :: _, h1, _ => simp at h1

private theorem two_batch {x y : Obj} {b : List Obj} (h : createBatch nameOpts [x, y] = .ok b) :
    b = [x, y] := (createBatch_ok h).2

private theorem one_batch {x : Obj} {b : List Obj} (h : createBatch nameOpts [x] = .ok b) :
    b = [x, .none] := (createBatch_ok h).2

private theorem right_mem {α β : Type} {r : α → β → Prop} {as : List α} {bs : List β}
    (h : List.Forall₂ r as bs) {b : β} (hb : b ∈ bs) : ∃ a ∈ as, r a b := by
  induction h with
  | nil => cases hb
  | cons h _ ih =>
    rcases List.mem_cons.mp hb with rfl | hb
    · exact ⟨_, by simp, h⟩
    · obtain ⟨a, ha, hr⟩ := ih hb
      exact ⟨a, List.mem_cons_of_mem _ ha, hr⟩

private theorem tuple_alone {x : Obj} (h : Alone x) : asTuple x = [x] := by
  cases x with
  | list xs => exact absurd rfl (h.1 xs)
  | tuple xs => exact absurd rfl (h.2 xs)
  | _ => rfl

private theorem parse_parts {S : Sem} {a : Args} {bs : List (List Obj)}
    (h : parseArgs S nameOpts a = .ok bs) :
    (∃ kvs, a.pos = [.dict kvs] ∧ parseDict S nameOpts kvs = .ok bs) ∨
    ((∀ kvs, a.pos ≠ [.dict kvs]) ∧ ∃ xs ys, bs = xs ++ ys ∧ parseList nameOpts a.pos = .ok xs ∧
      parseDict S nameOpts a.kwDict = .ok ys) := by
  unfold parseArgs at h
  split at h
  · cases h
  · split at h
    · cases h
    · obtain ⟨xs, h1, h2⟩ := bind_ok.mp h
      obtain ⟨ys, h3, h4⟩ := bind_ok.mp h2
      cases h4
      have e1 : parsePositional nameOpts a.pos =
          if (asDict a.pos).isNone && !a.pos.isEmpty then parseList nameOpts a.pos else .ok [] := rfl
      rw [e1] at h1
      cases hd : asDict a.pos with
      | some kvs =>
        rw [hd] at h1
        cases h1
        unfold parseKeyed at h3
        rw [hd] at h3
        exact .inl ⟨kvs, asDict_ok hd, h3⟩
      | none =>
        refine .inr ⟨fun kvs e => (by rw [e] at hd; cases hd), xs, ys, rfl, ?_, ?_⟩
        · rw [hd] at h1
          cases hp : a.pos with
          | nil => rw [hp] at h1; exact h1
          | cons x r => rw [hp] at h1; exact h1
        · unfold parseKeyed at h3
          rw [hd] at h3
          simp only at h3
          split at h3
          · rename_i he
            unfold Args.kwDict
            rw [List.isEmpty_iff.mp he]
            cases h3
            rfl
          · exact h3

private theorem parse_all {S : Sem} {a : Args} {bs : List (List Obj)}
    (h : parseArgs S nameOpts a = .ok bs) {x y : Obj} (hn : Named a.pos a.kw x y) :
    [x, y] ∈ bs := by
  have tup : ∀ {t : Obj} {vs : List Obj}, t ∈ a.pos → asTuple t = vs → (∀ kvs, t ≠ .dict kvs) ∨
      (∀ kvs, a.pos ≠ [.dict kvs]) → ∃ b ∈ bs, createBatch nameOpts vs = .ok b := by
    intro t vs ht hv hk
    rcases parse_parts h with ⟨kvs, h1, _⟩ | ⟨_, xs, ys, rfl, h2, _⟩
    · rcases hk with hk | hk
      · rw [h1] at ht
        exact absurd (List.mem_singleton.mp ht) (hk kvs)
      · exact absurd h1 (hk kvs)
    · obtain ⟨b, hb, hp⟩ := mapR_mem_left h2 ht
      exact ⟨b, by simp [hb], hv ▸ (parseListItem_ok hp).1⟩
  cases hn with
  | plain h1 h2 h3 =>
    obtain ⟨b, hb, hc⟩ := tup h1 (tuple_alone h2) (.inr h3)
    exact one_batch hc ▸ hb
  | single h1 =>
    rcases h1 with h1 | h1
    · obtain ⟨b, hb, hc⟩ := tup h1 rfl (.inl fun _ e => by cases e)
      exact one_batch hc ▸ hb
    · obtain ⟨b, hb, hc⟩ := tup h1 rfl (.inl fun _ e => by cases e)
      exact one_batch hc ▸ hb
  | pair h1 =>
    rcases h1 with h1 | h1
    · obtain ⟨b, hb, hc⟩ := tup h1 rfl (.inl fun _ e => by cases e)
      exact two_batch hc ▸ hb
    · obtain ⟨b, hb, hc⟩ := tup h1 rfl (.inl fun _ e => by cases e)
      exact two_batch hc ▸ hb
  | item h1 h2 =>
    rcases parse_parts h with ⟨kvs, h3, h4⟩ | ⟨h3, _⟩
    · rw [h1] at h3
      cases h3
      obtain ⟨items, h5, h6⟩ := bind_ok.mp h4
      obtain ⟨b, hb, hc⟩ := mapR_mem_left h6 ((sortItems_perm h5).mem_iff.mpr h2)
      exact two_batch hc ▸ hb
    · exact absurd h1 (h3 _)
  | @keyword k _ h1 h2 =>
    rcases parse_parts h with ⟨kvs, h3, _⟩ | ⟨_, xs, ys, rfl, _, h4⟩
    · exact absurd h3 (h2 _)
    · obtain ⟨items, h5, h6⟩ := bind_ok.mp h4
      obtain ⟨b, hb, hc⟩ := mapR_mem_left h6 ((sortItems_perm h5).mem_iff.mpr
        (show ((.str k : Obj), y) ∈ a.kwDict from List.mem_map.mpr ⟨(k, y), h1, rfl⟩))
      exact List.mem_append_right _ (two_batch hc ▸ hb)

private theorem parse_only {S : Sem} {a : Args} {bs : List (List Obj)}
    (h : parseArgs S nameOpts a = .ok bs) {b : List Obj} (hb : b ∈ bs) :
    b = [.none, .none] ∨ ∃ x y, b = [x, y] ∧ Named a.pos a.kw x y := by
  rcases parse_parts h with ⟨kvs, h1, h2⟩ | ⟨h1, xs, ys, rfl, h2, h3⟩
  · obtain ⟨kv, hk, hc⟩ := parseDict_mem h2 hb
    exact .inr ⟨kv.1, kv.2, two_batch hc, .item h1 hk⟩
  · rcases List.mem_append.mp hb with hb | hb
    · obtain ⟨t, ht, hp⟩ := mapR_mem h2 hb
      have hc := (parseListItem_ok hp).1
      by_cases hl : ∃ vs, t = .list vs ∨ t = .tuple vs
      · obtain ⟨vs, hl⟩ := hl
        have hv : asTuple t = vs := by rcases hl with rfl | rfl <;> rfl
        rw [hv] at hc
        rcases batch_two hc with ⟨_, h5⟩ | ⟨x, rfl, h5⟩ | ⟨x, y, rfl, h5⟩
        · exact .inl h5
        · refine .inr ⟨x, .none, h5, .single ?_⟩
          rcases hl with rfl | rfl
          · exact .inr ht
          · exact .inl ht
        · refine .inr ⟨x, y, h5, .pair ?_⟩
          rcases hl with rfl | rfl
          · exact .inr ht
          · exact .inl ht
      · have ha : Alone t := ⟨fun vs e => hl ⟨vs, .inl e⟩, fun vs e => hl ⟨vs, .inr e⟩⟩
        rw [tuple_alone ha] at hc
        exact .inr ⟨t, .none, (createBatch_ok hc).2, .plain ht ha h1⟩
    · obtain ⟨kv, hk, hc⟩ := parseDict_mem h3 hb
      obtain ⟨p, hp, rfl⟩ := List.mem_map.mp hk
      exact .inr ⟨_, _, two_batch hc, .keyword hp h1⟩

/-! ### Columns -/

section
variable (cx : Ctx) (n : Nat)

private theorem column_of {x y : Obj} {c : Column} (h : mkColumn x y = .ok c) : c = ⟨x, y⟩ := by
  obtain ⟨_, _, h1⟩ := bind_ok.mp h
  obtain ⟨_, _, h2⟩ := bind_ok.mp h1
  cases h2
  rfl

private theorem table_of {x y : Obj} {t : Table} (h : mkTable x y = .ok t) : t = ⟨x, y, []⟩ := by
  obtain ⟨_, _, h1⟩ := bind_ok.mp h
  obtain ⟨_, _, h2⟩ := bind_ok.mp h1
  cases h2
  rfl

private theorem columns_call {S : Sem} {cs cs' : List Column} {a : Args}
    (h : columnsAdd S cs a = (cs', none)) :
    (∀ x y, Named a.pos a.kw x y → ∃ c ∈ cs', c = ⟨x, y⟩ ∨
      S.eq c.name x = .ok true ∧ S.eq c.alias y = .ok true) ∧
    ∃ new, cs' = cs ++ new ∧ ∀ c ∈ new, Named a.pos a.kw c.name c.alias := by
  unfold columnsAdd at h
  split at h
  · cases h
  · cases hp : parseArgs S nameOpts a with
    | error e => rw [hp] at h; cases h
    | ok bs =>
      rw [hp] at h
      have h : addAll (columnEq S) (fun b => mkColumn (pairOf b).1 (pairOf b).2) cs bs =
          (cs', none) := h
      constructor
      · intro x y hn
        obtain ⟨c, hc, c', hc', h1⟩ := addAll_represented h [x, y] (parse_all hp hn)
        rw [column_of hc] at h1
        exact ⟨c', hc', h1.imp_right fun h1 => andR_true.mp h1⟩
      · obtain ⟨new, bs', e1, e2, e3⟩ := addAll_extends h
        refine ⟨new, e1, fun c hc => ?_⟩
        obtain ⟨b, hb, hbc⟩ := right_mem e3 hc
        rcases parse_only hp (e2.subset hb) with rfl | ⟨x, y, rfl, h2⟩
        · cases hbc
        · rw [column_of hbc]
          exact h2

private theorem tables_call {S : Sem} {ts ts' : List Table} {a : Args}
    (h : tablesSet cx S ts a = (ts', none)) :
    (∀ x y, Named (trueOnes a.pos) a.kw x y → ∃ t ∈ ts', t = ⟨x, y, []⟩ ∨
      S.eq t.name x = .ok true ∧ S.eq t.alias y = .ok true ∧ t.joins = []) ∧
    ∃ new, ts' = ts ++ new ∧ ∀ t ∈ new, Named (trueOnes a.pos) a.kw t.name t.alias ∧
      t.joins = [] := by
  unfold tablesSet at h
  split at h
  · cases h
  · cases hp : parseArgs S nameOpts { a with pos := a.pos.filter Obj.truthy } with
    | error e => rw [hp] at h; cases h
    | ok bs =>
      rw [hp] at h
      have h : addAll (tableEq cx S) (fun b => mkTable (pairOf b).1 (pairOf b).2) ts bs =
          (ts', none) := h
      constructor
      · intro x y hn
        obtain ⟨c, hc, c', hc', h1⟩ := addAll_represented h [x, y] (parse_all hp hn)
        rw [table_of hc] at h1
        refine ⟨c', hc', h1.imp_right fun h1 => ?_⟩
        obtain ⟨h2, h3⟩ := andR_true.mp h1
        obtain ⟨h4, h5⟩ := andR_true.mp h2
        refine ⟨h4, h5, ?_⟩
        cases hj : c'.joins with
        | nil => rfl
        | cons j js => rw [hj] at h3; cases h3
      · obtain ⟨new, bs', e1, e2, e3⟩ := addAll_extends h
        refine ⟨new, e1, fun c hc => ?_⟩
        obtain ⟨b, hb, hbc⟩ := right_mem e3 hc
        rcases parse_only hp (e2.subset hb) with rfl | ⟨x, y, rfl, h2⟩
        · cases hbc
        · rw [table_of hbc]
          exact ⟨h2, rfl⟩

/-- C18, `columns`: after a call that does not raise, every column named by it is in the query, itself
or by one with an equal name and an equal alias, and nothing else was added. -/
theorem C18_columns_partial {q q' : Select} {a : Args}
    (h : selectStep cx (sem cx n) q (.columns a) = (q', none)) :
    (∀ x y, Named a.pos a.kw x y → ∃ c ∈ q'.columns, c = ⟨x, y⟩ ∨
      (sem cx n).eq c.name x = .ok true ∧ (sem cx n).eq c.alias y = .ok true) ∧
    ∃ new, q'.columns = q.columns ++ new ∧ ∀ c ∈ new, Named a.pos a.kw c.name c.alias := by
  have h : (columnsAdd (sem cx n) q.columns a).map (fun r => { q with columns := r }) =
      (q', none) := h
  have e : (columnsAdd (sem cx n) q.columns a).1 = q'.columns := by
    have h1 : { q with columns := (columnsAdd (sem cx n) q.columns a).1 } = q' := congrArg Prod.fst h
    rw [← h1]
  have e2 : (columnsAdd (sem cx n) q.columns a).2 = none  :=
    (Prod.mk.inj h).2
  exact columns_call (Prod.ext e e2)

/-- C18, `from_` of SELECT, for the arguments that count as true. -/
theorem C18_from_partial {q q' : Select} {a : Args}
    (h : selectStep cx (sem cx n) q (.from_ a) = (q', none)) :
    (∀ x y, Named (trueOnes a.pos) a.kw x y → ∃ t ∈ q'.tables, t = ⟨x, y, []⟩ ∨
      (sem cx n).eq t.name x = .ok true ∧ (sem cx n).eq t.alias y = .ok true ∧ t.joins = []) ∧
    ∃ new, q'.tables = q.tables ++ new ∧ ∀ t ∈ new,
      Named (trueOnes a.pos) a.kw t.name t.alias ∧ t.joins = [] := by
  have h : (tablesSet cx (sem cx n) q.tables a).map (fun r => { q with tables := r }) =
      (q', none) := h
  have e : (tablesSet cx (sem cx n) q.tables a).1 = q'.tables := by
    have h1 : { q with tables := (tablesSet cx (sem cx n) q.tables a).1 } = q' := congrArg Prod.fst h
    rw [← h1]
  have e2 : (tablesSet cx (sem cx n) q.tables a).2 = none  :=
    (Prod.mk.inj h).2
  exact tables_call cx (Prod.ext e e2)

/-- C18, `from_` of DELETE. -/
theorem C18_delete_from_partial {q q' : Delete} {a : Args}
    (h : deleteStep cx (sem cx n) q (.from_ a) = (q', none)) :
    (∀ x y, Named (trueOnes a.pos) a.kw x y → ∃ t ∈ q'.references, t = ⟨x, y, []⟩ ∨
      (sem cx n).eq t.name x = .ok true ∧ (sem cx n).eq t.alias y = .ok true ∧ t.joins = []) ∧
    ∃ new, q'.references = q.references ++ new ∧ ∀ t ∈ new,
      Named (trueOnes a.pos) a.kw t.name t.alias ∧ t.joins = [] := by
  have h : (tablesSet cx (sem cx n) q.references a).map (fun r => { q with references := r }) =
      (q', none) := h
  have e : (tablesSet cx (sem cx n) q.references a).1 = q'.references := by
    have h1 : { q with references := (tablesSet cx (sem cx n) q.references a).1 } = q' := congrArg Prod.fst h
    rw [← h1]
  have e2 : (tablesSet cx (sem cx n) q.references a).2 = none  :=
    (Prod.mk.inj h).2
  exact tables_call cx (Prod.ext e e2)

private theorem named_pair {x y name as_ : Obj} (h : Named (trueOnes [.tuple [x, y]]) [] name as_) :
    name = x ∧ as_ = y := by
  have e : trueOnes [.tuple [x, y]] = [.tuple [x, y]] := rfl
  rw [e] at h
  cases h with
  | plain h1 h2 _ => exact absurd (List.mem_singleton.mp h1) (h2.2 _)
  | single h1 =>
    rcases h1 with h1 | h1 <;> cases List.mem_singleton.mp h1
  | pair h1 =>
    rcases h1 with h1 | h1
    · cases List.mem_singleton.mp h1
      exact ⟨rfl, rfl⟩
    · cases List.mem_singleton.mp h1
  | item h1 _ => cases h1
  | keyword h1 _ => cases h1

/-- C18, the tables given to `delete`. -/
theorem C18_delete_tables_partial {q q' : Delete} {ts : List Obj}
    (h : deleteStep cx (sem cx n) q (.delete ts) = (q', none)) :
    (∀ y z, Named (trueOnes ts) [] y z → ∃ t ∈ q'.tables, t = ⟨y, z, []⟩ ∨
      (sem cx n).eq t.name y = .ok true ∧ (sem cx n).eq t.alias z = .ok true ∧ t.joins = []) ∧
    ∃ new, q'.tables = q.tables ++ new ∧ ∀ t ∈ new,
      Named (trueOnes ts) [] t.name t.alias ∧ t.joins = [] := by
  simp only [deleteStep, Upd.map, Prod.mk.injEq] at h
  refine tables_call cx (a := ⟨ts, []⟩) (Prod.ext ?_ h.2)
  rw [← h.1]

/-- C18, `into`. -/
theorem C18_into_partial {q q' : Insert} {x : Obj}
    (h : insertStep cx (sem cx n) q (.into x) = (q', none)) :
    (∀ y z, Named (trueOnes [x]) [] y z → ∃ t ∈ q'.tables, t = ⟨y, z, []⟩ ∨
      (sem cx n).eq t.name y = .ok true ∧ (sem cx n).eq t.alias z = .ok true ∧ t.joins = []) ∧
    ∃ new, q'.tables = q.tables ++ new ∧ ∀ t ∈ new,
      Named (trueOnes [x]) [] t.name t.alias ∧ t.joins = [] := by
  simp only [insertStep, Upd.map, Prod.mk.injEq] at h
  refine tables_call cx (a := ⟨[x], []⟩) (Prod.ext ?_ h.2)
  rw [← h.1]

/-- C18, `table` of UPDATE. -/
theorem C18_table_partial {q q' : Update} {x : Obj}
    (h : updateStep cx (sem cx n) q (.table x) = (q', none)) :
    (∀ y z, Named (trueOnes [x]) [] y z → ∃ t ∈ q'.tables, t = ⟨y, z, []⟩ ∨
      (sem cx n).eq t.name y = .ok true ∧ (sem cx n).eq t.alias z = .ok true ∧ t.joins = []) ∧
    ∃ new, q'.tables = q.tables ++ new ∧ ∀ t ∈ new,
      Named (trueOnes [x]) [] t.name t.alias ∧ t.joins = [] := by
  simp only [updateStep, Upd.map, Prod.mk.injEq] at h
  refine tables_call cx (a := ⟨[x], []⟩) (Prod.ext ?_ h.2)
  rw [← h.1]

/-- C18, `from_table` of SELECT: the table is in the query with its alias, itself or an equal one, and
nothing else was added. -/
theorem C18_from_table_partial {q q' : Select} {x y : Obj}
    (h : selectStep cx (sem cx n) q (.fromTable x y) = (q', none)) :
    (∃ t ∈ q'.tables, t = ⟨x, y, []⟩ ∨
      (sem cx n).eq t.name x = .ok true ∧ (sem cx n).eq t.alias y = .ok true ∧ t.joins = []) ∧
    ∃ new, q'.tables = q.tables ++ new ∧ ∀ t ∈ new, t = ⟨x, y, []⟩ := by
  simp only [selectStep, Upd.map, Prod.mk.injEq] at h
  obtain ⟨h1, new, h2, h3⟩ := tables_call cx (ts := q.tables) (ts' := q'.tables)
    (a := ⟨[.tuple [x, y]], []⟩) (Prod.ext (by rw [← h.1]) h.2)
  refine ⟨h1 x y (.pair (.inl (List.mem_singleton.mpr rfl))), new, h2, fun t ht => ?_⟩
  obtain ⟨h4, h5⟩ := h3 t ht
  obtain ⟨name, as_, joins⟩ := t
  obtain ⟨rfl, rfl⟩ := named_pair h4
  simp only at h5
  rw [h5]

/-- C18, `from_table` of DELETE: the table is in the query with its alias, itself or an equal one, and
nothing else was added. -/
theorem C18_delete_from_table_partial {q q' : Delete} {x y : Obj}
    (h : deleteStep cx (sem cx n) q (.fromTable x y) = (q', none)) :
    (∃ t ∈ q'.references, t = ⟨x, y, []⟩ ∨
      (sem cx n).eq t.name x = .ok true ∧ (sem cx n).eq t.alias y = .ok true ∧ t.joins = []) ∧
    ∃ new, q'.references = q.references ++ new ∧ ∀ t ∈ new, t = ⟨x, y, []⟩ := by
  simp only [deleteStep, Upd.map, Prod.mk.injEq] at h
  obtain ⟨h1, new, h2, h3⟩ := tables_call cx (ts := q.references) (ts' := q'.references)
    (a := ⟨[.tuple [x, y]], []⟩) (Prod.ext (by rw [← h.1]) h.2)
  refine ⟨h1 x y (.pair (.inl (List.mem_singleton.mpr rfl))), new, h2, fun t ht => ?_⟩
  obtain ⟨h4, h5⟩ := h3 t ht
  obtain ⟨name, as_, joins⟩ := t
  obtain ⟨rfl, rfl⟩ := named_pair h4
  simp only at h5
  rw [h5]

/-! ### Orders -/

private theorem put_cols {S : Sem} {os os' : List Order} {x y : Obj}
    (h : orderPut cx S os x y = .ok os') :
    (∃ o ∈ os', o.col = x ∨ S.eq o.col x = .ok true) ∧
    (os'.map (fun o => o.col) = os.map (fun o => o.col) ∨
      checkType [.str, .int] x = .ok () ∧
        os'.map (fun o => o.col) = os.map (fun o => o.col) ++ [x]) := by
  induction os generalizing os' with
  | nil =>
    obtain ⟨o, h1, h2⟩ := bind_ok.mp h
    obtain ⟨u, h3, h4⟩ := bind_ok.mp h1
    obtain ⟨d, _, h6⟩ := bind_ok.mp h4
    cases h6
    cases h2
    exact ⟨⟨⟨x, d⟩, List.mem_cons_self .., .inl rfl⟩, .inr ⟨h3, rfl⟩⟩
  | cons o os ih =>
    unfold orderPut at h
    obtain ⟨b, h1, h2⟩ := bind_ok.mp h
    cases b with
    | true =>
      obtain ⟨d, _, h4⟩ := bind_ok.mp h2
      cases h4
      exact ⟨⟨⟨o.col, d⟩, List.mem_cons_self .., .inr h1⟩, .inl rfl⟩
    | false =>
      obtain ⟨r, h3, h4⟩ := bind_ok.mp h2
      cases h4
      obtain ⟨⟨p, hp, g1⟩, g2⟩ := ih h3
      refine ⟨⟨p, by simp [hp], g1⟩, ?_⟩
      rcases g2 with g2 | ⟨g2, g3⟩
      · exact .inl (by simp only [List.map_cons, g2])
      · exact .inr ⟨g2, by simp only [List.map_cons, g3, List.cons_append]⟩

private theorem puts_cols {S : Sem} {bs : List (List Obj)} : ∀ {os os' : List Order},
    forUpd (fun os b => withR os (orderPut cx S os (pairOf b).1 (pairOf b).2) fun r => (r, none))
      os bs = (os', none) →
    (∀ b ∈ bs, ∃ c ∈ os'.map (fun o => o.col),
      c = (pairOf b).1 ∨ S.eq c (pairOf b).1 = .ok true) ∧
    ∃ new, os'.map (fun o => o.col) = os.map (fun o => o.col) ++ new ∧
      ∀ c ∈ new, ∃ b ∈ bs, c = (pairOf b).1 ∧ checkType [.str, .int] c = .ok () := by
  induction bs with
  | nil =>
    intro os os' h
    cases h
    exact ⟨fun b hb => (by cases hb), [], (by simp), fun c hc => (by cases hc)⟩
  | cons b bs ih =>
    intro os os' h
    unfold forUpd at h
    cases hp : orderPut cx S os (pairOf b).1 (pairOf b).2 with
    | error e => rw [hp] at h; cases h
    | ok os1 =>
      rw [hp] at h
      obtain ⟨h1, new, h2, h3⟩ := ih (os := os1) h
      obtain ⟨⟨o, ho, g1⟩, g2⟩ := put_cols cx hp
      constructor
      · intro b' hb'
        rcases List.mem_cons.mp hb' with rfl | hb'
        · refine ⟨o.col, ?_, g1⟩
          rw [h2]
          exact List.mem_append_left _ (List.mem_map.mpr ⟨o, ho, rfl⟩)
        · exact h1 b' hb'
      · rcases g2 with g2 | ⟨g2, g3⟩
        · refine ⟨new, by rw [h2, g2], fun c hc => ?_⟩
          obtain ⟨b', hb', g4⟩ := h3 c hc
          exact ⟨b', by simp [hb'], g4⟩
        · refine ⟨(pairOf b).1 :: new, by rw [h2, g3, List.append_assoc]; rfl, fun c hc => ?_⟩
          rcases List.mem_cons.mp hc with rfl | hc
          · exact ⟨b, by simp, rfl, g2⟩
          · obtain ⟨b', hb', g4⟩ := h3 c hc
            exact ⟨b', by simp [hb'], g4⟩

private theorem orders_named {S : Sem} {os os' : List Order} {a : Args}
    (h : ordersAdd cx S os a = (os', none)) :
    (∀ x y, Named a.pos a.kw x y → ∃ c ∈ os'.map (fun o => o.col), c = x ∨ S.eq c x = .ok true) ∧
    ∃ new, os'.map (fun o => o.col) = os.map (fun o => o.col) ++ new ∧
      ∀ c ∈ new, ∃ y, Named a.pos a.kw c y := by
  unfold ordersAdd at h
  split at h
  · cases h
  · cases hp : parseArgs S nameOpts a with
    | error e => rw [hp] at h; cases h
    | ok bs =>
      rw [hp] at h
      obtain ⟨h1, new, h2, h3⟩ := puts_cols cx h
      refine ⟨fun x y hn => h1 [x, y] (parse_all hp hn), new, h2, fun c hc => ?_⟩
      obtain ⟨b, hb, rfl, hc⟩ := h3 c hc
      rcases parse_only hp hb with rfl | ⟨x, y, rfl, h4⟩
      · cases hc
      · exact ⟨y, h4⟩

/-- C18, `order_by`: after a call that does not raise, every column named by it is among the orders,
itself or an equal one, and no other column was added. -/
theorem C18_order_partial {q q' : Select} {a : Args}
    (h : selectStep cx (sem cx n) q (.orderBy a) = (q', none)) :
    (∀ x y, Named a.pos a.kw x y → ∃ c ∈ q'.orderBy.map (fun o => o.col),
      c = x ∨ (sem cx n).eq c x = .ok true) ∧
    ∃ new, q'.orderBy.map (fun o => o.col) = q.orderBy.map (fun o => o.col) ++ new ∧
      ∀ c ∈ new, ∃ y, Named a.pos a.kw c y := by
  simp only [selectStep, Upd.map, Prod.mk.injEq] at h
  refine orders_named cx (os := q.orderBy) (Prod.ext ?_ h.2)
  rw [← h.1]

/-- C18, `group_by`. -/
theorem C18_group_partial {q q' : Select} {a : Args}
    (h : selectStep cx (sem cx n) q (.groupBy a) = (q', none)) :
    (∀ x y, Named a.pos a.kw x y → ∃ c ∈ q'.groupBy.map (fun o => o.col),
      c = x ∨ (sem cx n).eq c x = .ok true) ∧
    ∃ new, q'.groupBy.map (fun o => o.col) = q.groupBy.map (fun o => o.col) ++ new ∧
      ∀ c ∈ new, ∃ y, Named a.pos a.kw c y := by
  simp only [selectStep, Upd.map, Prod.mk.injEq] at h
  refine orders_named cx (os := q.groupBy) (Prod.ext ?_ h.2)
  rw [← h.1]

/-! ### Assignments -/

/-- The assignment is in the list: itself, an equal one, or a custom SQL object with the same text. -/
def Assigns (vs : List Value) (p : Obj × Obj) : Prop :=
  ∃ c ∈ vs, c = .value p.1 p.2 ∨
    (∃ k v, c = .value k v ∧ (sem cx n).eq k p.1 = .ok true ∧ (sem cx n).eq v p.2 = .ok true) ∨
    ∃ o t, c = .item o ∧ (sem cx n).str o = .ok t ∧
      valueText cx (sem cx n) (.value p.1 p.2) = .ok t

private theorem value_same {c : Value} {p : Obj × Obj}
    (h : valueEq cx (sem cx n) c (.value p.1 p.2) = .ok true) :
    (∃ k v, c = .value k v ∧ (sem cx n).eq k p.1 = .ok true ∧ (sem cx n).eq v p.2 = .ok true) ∨
    ∃ o t, c = .item o ∧ (sem cx n).str o = .ok t ∧
      valueText cx (sem cx n) (.value p.1 p.2) = .ok t := by
  cases c with
  | value k v => exact .inl ⟨k, v, rfl, andR_true.mp h⟩
  | item o =>
    simp only [valueEq] at h
    split at h
    · obtain ⟨t, h1, h2⟩ := bind_ok.mp h
      obtain ⟨u, h3, h4⟩ := bind_ok.mp h2
      have h5 : (t == u) = true := Except.ok.inj h4
      rw [← eq_of_beq h5] at h3
      exact .inr ⟨o, t, rfl, h1, h3⟩
    · cases h

private theorem value_of {x y : Obj} {v : Value} (h : mkValue x y = .ok v) : v = .value x y := by
  obtain ⟨_, _, h1⟩ := bind_ok.mp h
  obtain ⟨_, _, h2⟩ := bind_ok.mp h1
  cases h2
  rfl

private theorem values_call {vs vs' : List Value} {a : Args} (hw : WellKeyed a)
    (h : valuesSet cx (sem cx n) vs a = (vs', none)) :
    (∃ o, o.isSql = true ∧ a = ⟨[o], []⟩ ∧ vs' = vs ++ [.item o]) ∨
    ∃ given, GivesPairs a given ∧ (∀ p ∈ given, Assigns cx n vs' p) ∧
      ∃ new, vs' = vs ++ new ∧ ∀ c ∈ new, ∃ p ∈ given, c = .value p.1 p.2 := by
  unfold valuesSet at h
  split at h
  · cases h
  · rename_i hs
    have hs : kwSelf a = false := by simpa using hs
    split at h
    · rename_i o ho
      left
      unfold customArg at ho
      split at ho
      · rename_i x e1 e2
        split at ho
        · rename_i hx
          cases ho
          cases h
          exact ⟨o, hx, by cases a; simp_all, rfl⟩
        · cases ho
      · cases ho
    · right
      cases hp : parseArgs (sem cx n) pairOpts a with
      | error e => rw [hp] at h; cases h
      | ok bs =>
        rw [hp] at h
        obtain ⟨given, hg, rfl⟩ := givesPairs_of _ hw hs hp
        have h : addAll (valueEq cx (sem cx n)) (fun b => mkValue (pairOf b).1 (pairOf b).2) vs
            (rows2 given) = (vs', none) := h
        refine ⟨given, hg, fun p hp => ?_, ?_⟩
        · obtain ⟨c, hc, c', hc', h1⟩ := addAll_represented h [p.1, p.2]
            (List.mem_map.mpr ⟨p, hp, rfl⟩)
          have hc : mkValue p.1 p.2 = .ok c := hc
          rw [value_of hc] at h1
          exact ⟨c', hc', h1.imp_right (value_same cx n)⟩
        · obtain ⟨new, bs', h1, h2, h3⟩ := addAll_extends h
          refine ⟨new, h1, fun c hc => ?_⟩
          obtain ⟨b, hb, h4⟩ := right_mem h3 hc
          obtain ⟨p, hp, rfl⟩ := List.mem_map.mp (h2.subset hb)
          exact ⟨p, hp, value_of h4⟩

/-- C18, `set`: after a call that does not raise, every assignment given is among the assignments, in
the sense of `Assigns`, and no other one was added; a custom SQL object is added as it is. -/
theorem C18_set_partial {q q' : Update} {a : Args} (hw : WellKeyed a)
    (h : updateStep cx (sem cx n) q (.set a) = (q', none)) :
    (∃ o, o.isSql = true ∧ a = ⟨[o], []⟩ ∧ q'.values = q.values ++ [.item o]) ∨
    ∃ given, GivesPairs a given ∧ (∀ p ∈ given, Assigns cx n q'.values p) ∧
      ∃ new, q'.values = q.values ++ new ∧ ∀ c ∈ new, ∃ p ∈ given, c = .value p.1 p.2 := by
  simp only [updateStep, Upd.map, Prod.mk.injEq] at h
  refine values_call cx n (vs := q.values) hw (Prod.ext ?_ h.2)
  rw [← h.1]

/-- C18, `values`: a call that does not raise adds one row, which has every value given and nothing
else. -/
theorem C18_values_partial {q q' : Insert} {a : Args} (hw : WellKeyed a)
    (h : insertStep cx (sem cx n) q (.values a) = (q', none)) :
    ∃ row, q'.rows = q.rows ++ [row] ∧
    ((∃ o, o.isSql = true ∧ a = ⟨[o], []⟩ ∧ row = [.item o]) ∨
    ∃ given, GivesPairs a given ∧ (∀ p ∈ given, Assigns cx n row p) ∧
      ∀ c ∈ row, ∃ p ∈ given, c = .value p.1 p.2) := by
  simp only [insertStep] at h
  split at h
  · cases h
  · cases hv : valuesSet cx (sem cx n) [] a with
    | mk row e =>
      cases e with
      | some e =>
        simp only [rowsAdd, hv, Upd.map] at h
        cases h
      | none =>
        simp only [rowsAdd, hv, Upd.map] at h
        cases h
        refine ⟨row, rfl, ?_⟩
        rcases values_call cx n hw hv with ⟨o, h1, h2, h3⟩ | ⟨given, h1, h2, new, h3, h4⟩
        · exact .inl ⟨o, h1, h2, h3⟩
        · exact .inr ⟨given, h1, h2, by rw [h3]; exact h4⟩

/-- C18, `on_duplicate_key_update` in MySQL, like `set`. -/
theorem C18_on_duplicate_partial (hb : cx.backend = .mysql) {q q' : Insert} {a : Args}
    (hw : WellKeyed a) (h : insertStep cx (sem cx n) q (.onDuplicateKeyUpdate a) = (q', none)) :
    (∃ o, o.isSql = true ∧ a = ⟨[o], []⟩ ∧ q'.onDup = q.onDup ++ [.item o]) ∨
    ∃ given, GivesPairs a given ∧ (∀ p ∈ given, Assigns cx n q'.onDup p) ∧
      ∃ new, q'.onDup = q.onDup ++ new ∧ ∀ c ∈ new, ∃ p ∈ given, c = .value p.1 p.2 := by
  have h : onDuplicateKeyUpdate cx (sem cx n) q a = (q', none) := h
  unfold onDuplicateKeyUpdate at h
  rw [hb] at h
  split at h
  · cases h
  · cases hv : valuesSet cx (sem cx n) q.onDup a with
    | mk vs e =>
      rw [hv] at h
      cases e with
      | some e => cases h
      | none =>
        cases h
        exact values_call cx n hw hv

private theorem conflict_call {q q' : Insert} {a : Args}
    (h : onConflictSet cx (sem cx n) q a = (q', none)) :
    ∃ c rest, a.pos = .str c :: rest ∧ q'.conflict = some c ∧
      valuesSet cx (sem cx n) q.onConflict ⟨rest, a.kw⟩ = (q'.onConflict, none) := by
  unfold onConflictSet at h
  split at h
  · cases h
  · split at h
    · rename_i c rest hp
      simp only [Upd.map, Prod.mk.injEq] at h
      refine ⟨c, rest, hp, by rw [← h.1], Prod.ext ?_ h.2⟩
      rw [← h.1]
    · cases h

/-- C18, `on_duplicate_key_update` in PostgreSQL: the first argument is the column whose conflict is
meant, the others are like the ones of `set`. -/
theorem C18_on_conflict_partial (hb : cx.backend = .postgresql) {q q' : Insert} {a : Args}
    (h : insertStep cx (sem cx n) q (.onDuplicateKeyUpdate a) = (q', none)) :
    ∃ c rest, a.pos = .str c :: rest ∧ q'.conflict = some c ∧ (WellKeyed ⟨rest, a.kw⟩ →
    (∃ o, o.isSql = true ∧ rest = [o] ∧ a.kw = [] ∧ q'.onConflict = q.onConflict ++ [.item o]) ∨
    ∃ given, GivesPairs ⟨rest, a.kw⟩ given ∧ (∀ p ∈ given, Assigns cx n q'.onConflict p) ∧
      ∃ new, q'.onConflict = q.onConflict ++ new ∧
        ∀ c ∈ new, ∃ p ∈ given, c = .value p.1 p.2) := by
  have h : onDuplicateKeyUpdate cx (sem cx n) q a = (q', none) := h
  unfold onDuplicateKeyUpdate at h
  rw [hb] at h
  split at h
  · cases h
  · rename_i hs
    cases hu : onConflictSet cx (sem cx n) q a with
    | mk r e =>
      simp only [Backend.supportsOnDuplicateKeyUpdate, Backend.supportsOnConflictDoUpdate,
        Backend.supportsReplaceInto, Bool.false_eq_true, if_false, if_true, hu] at h
      cases e with
      | some e => cases h
      | none =>
        cases h
        obtain ⟨c, rest, hp, hc⟩ := conflict_call cx n hu
        refine ⟨c, rest, hp, hc.1, fun hw => ?_⟩
        rcases values_call cx n hw hc.2 with ⟨o, h1, h2, h3⟩ | h1
        · injection h2 with h2 h4
          exact .inl ⟨o, h1, h2, h4, h3⟩
        · exact .inr h1

/-! ### The other methods that take conditions -/

private theorem where_call {ps ps' : List Cond} {a : Args} (hw : WellKeyed a)
    (h : condsWhere cx (sem cx n) false ps a = (ps', none))
    (hk : a.kw = [] ∨ (∃ x ∈ a.pos, ¬IsCondition x ∧ ∀ kvs, a.pos ≠ [.dict kvs]) ∨ a.pos = []) :
    (∃ o, o.isSql = true ∧ a = ⟨[o], []⟩ ∧ .item o ∈ ps') ∨
    (a.kw = [] ∧ a.pos ≠ [] ∧ ∀ x ∈ a.pos, IsCondition x ∧
      ∃ c ∈ ps', c = .item x ∨
        (sem cx (n + 1)).eq (.conds [c]) (.conds [.item x]) = .ok true) ∨
    ∃ given, GivesPairs a given ∧ (∀ k v, (k, v) ∈ a.kw → (.str k, v) ∈ given) ∧
      ∀ p ∈ given, ∃ c ∈ ps', c = condOf p.1 p.2 ∨
        (sem cx (n + 1)).eq (.conds [c]) (.conds [condOf p.1 p.2]) = .ok true := by
  have h1 : selectStep cx (sem cx n) { where_ := ps } (.where_ a) =
      (({ where_ := ps' } : Select), none) := by
    simp only [selectStep, h]
    rfl
  exact C18_where_partial cx n _ _ a hw h1 hk

/-- C18, `having`: as for `where` of SELECT. -/
theorem C18_having_partial {q q' : Select} {a : Args} (hw : WellKeyed a)
    (h : selectStep cx (sem cx n) q (.having a) = (q', none))
    (hk : a.kw = [] ∨ (∃ x ∈ a.pos, ¬IsCondition x ∧ ∀ kvs, a.pos ≠ [.dict kvs]) ∨ a.pos = []) :
    (∃ o, o.isSql = true ∧ a = ⟨[o], []⟩ ∧ .item o ∈ q'.having) ∨
    (a.kw = [] ∧ a.pos ≠ [] ∧ ∀ x ∈ a.pos, IsCondition x ∧
      ∃ c ∈ q'.having, c = .item x ∨
        (sem cx (n + 1)).eq (.conds [c]) (.conds [.item x]) = .ok true) ∨
    ∃ given, GivesPairs a given ∧ (∀ k v, (k, v) ∈ a.kw → (.str k, v) ∈ given) ∧
      ∀ p ∈ given, ∃ c ∈ q'.having, c = condOf p.1 p.2 ∨
        (sem cx (n + 1)).eq (.conds [c]) (.conds [condOf p.1 p.2]) = .ok true := by
  simp only [selectStep, Upd.map, Prod.mk.injEq] at h
  refine where_call cx n (ps := q.having) hw (Prod.ext ?_ h.2) hk
  rw [← h.1]

/-- C18, `where` of UPDATE: as for `where` of SELECT. -/
theorem C18_update_where_partial {q q' : Update} {a : Args} (hw : WellKeyed a)
    (h : updateStep cx (sem cx n) q (.where_ a) = (q', none))
    (hk : a.kw = [] ∨ (∃ x ∈ a.pos, ¬IsCondition x ∧ ∀ kvs, a.pos ≠ [.dict kvs]) ∨ a.pos = []) :
    (∃ o, o.isSql = true ∧ a = ⟨[o], []⟩ ∧ .item o ∈ q'.where_) ∨
    (a.kw = [] ∧ a.pos ≠ [] ∧ ∀ x ∈ a.pos, IsCondition x ∧
      ∃ c ∈ q'.where_, c = .item x ∨
        (sem cx (n + 1)).eq (.conds [c]) (.conds [.item x]) = .ok true) ∨
    ∃ given, GivesPairs a given ∧ (∀ k v, (k, v) ∈ a.kw → (.str k, v) ∈ given) ∧
      ∀ p ∈ given, ∃ c ∈ q'.where_, c = condOf p.1 p.2 ∨
        (sem cx (n + 1)).eq (.conds [c]) (.conds [condOf p.1 p.2]) = .ok true := by
  simp only [updateStep, Upd.map, Prod.mk.injEq] at h
  refine where_call cx n (ps := q.where_) hw (Prod.ext ?_ h.2) hk
  rw [← h.1]

/-- C18, `where` of DELETE: as for `where` of SELECT. -/
theorem C18_delete_where_partial {q q' : Delete} {a : Args} (hw : WellKeyed a)
    (h : deleteStep cx (sem cx n) q (.where_ a) = (q', none))
    (hk : a.kw = [] ∨ (∃ x ∈ a.pos, ¬IsCondition x ∧ ∀ kvs, a.pos ≠ [.dict kvs]) ∨ a.pos = []) :
    (∃ o, o.isSql = true ∧ a = ⟨[o], []⟩ ∧ .item o ∈ q'.where_) ∨
    (a.kw = [] ∧ a.pos ≠ [] ∧ ∀ x ∈ a.pos, IsCondition x ∧
      ∃ c ∈ q'.where_, c = .item x ∨
        (sem cx (n + 1)).eq (.conds [c]) (.conds [.item x]) = .ok true) ∨
    ∃ given, GivesPairs a given ∧ (∀ k v, (k, v) ∈ a.kw → (.str k, v) ∈ given) ∧
      ∀ p ∈ given, ∃ c ∈ q'.where_, c = condOf p.1 p.2 ∨
        (sem cx (n + 1)).eq (.conds [c]) (.conds [condOf p.1 p.2]) = .ok true := by
  simp only [deleteStep, Upd.map, Prod.mk.injEq] at h
  refine where_call cx n (ps := q.where_) hw (Prod.ext ?_ h.2) hk
  rw [← h.1]

/-! ### Join conditions -/

private theorem on_call {ps ps' : List Cond} {a : Args} (hw : WellKeyed a)
    (h : condsWhere cx (sem cx n) true ps a = (ps', none))
    (hk : a.kw = [] ∨ (∃ x ∈ a.pos, ¬IsCondition x ∧ ∀ kvs, a.pos ≠ [.dict kvs]) ∨ a.pos = []) :
    (∃ o, o.isSql = true ∧ a = ⟨[o], []⟩ ∧ .item o ∈ ps') ∨
    (a.kw = [] ∧ a.pos ≠ [] ∧ ∀ x ∈ a.pos, IsCondition x ∧
      ∃ c ∈ ps', c = .item x ∨
        (sem cx (n + 1)).eq (.conds [c]) (.conds [.item x]) = .ok true) ∨
    ∃ given, GivesPairs a given ∧ (∀ k v, (k, v) ∈ a.kw → (.str k, v) ∈ given) ∧
      ∀ p ∈ given, ∃ c ∈ ps', c = joinCondOf p.1 p.2 ∨
        (sem cx (n + 1)).eq (.conds [c]) (.conds [joinCondOf p.1 p.2]) = .ok true := by
  rcases condsWhere_shape cx _ hw h with ⟨o, h2, h3, h4⟩ | ⟨h2, h3, h4⟩ | ⟨h2, given, hg⟩
  · exact .inl ⟨o, h2, h3, by rw [h4]; simp⟩
  · refine .inr (.inl ⟨?_, h2, fun x hx => ⟨h3 x hx, ?_⟩⟩)
    · rcases hk with hk | ⟨x, hx, hn, _⟩ | hk
      · exact hk
      · exact absurd (h3 x hx) hn
      · exact absurd hk h2
    · have h5 : addAll (condEq cx (sem cx n)) (fun o => (.ok (.item o) : R Cond)) ps a.pos =
          (ps', none) := by
        unfold addAll
        simp only [withR]
        exact h4
      obtain ⟨c, hc, c', hc', h6⟩ := addAll_represented h5 x hx
      cases hc
      exact ⟨c', hc', by rwa [eq_single]⟩
  · refine .inr (.inr ⟨given, hg, ?_, (condsOn_given cx n hg h2 h).2 rfl⟩)
    intro k v hkv
    cases hg with
    | usual _ h3 _ =>
      obtain ⟨s, h4, _, h5⟩ := h3
      rw [h5]
      exact List.mem_append_right _ (List.mem_map.mpr ⟨(k, v), h4.mem_iff.mpr hkv, rfl⟩)
    | @dict items kw _ _ _ =>
      rcases hk with hk | ⟨_, _, _, hn⟩ | hk
      · simp only at hk hkv; rw [hk] at hkv; cases hkv
      · exact absurd rfl (hn (items.map fun p => (.str p.1, p.2)))
      · cases hk

private theorem on_last {us us' : List Table} {a : Args} (hw : WellKeyed a)
    (h : tablesOn cx (sem cx n) us a = (us', none))
    (hk : a.kw = [] ∨ (∃ x ∈ a.pos, ¬IsCondition x ∧ ∀ kvs, a.pos ≠ [.dict kvs]) ∨ a.pos = []) :
    ∃ ts t js j ons, us = ts ++ [t] ∧ t.joins = js ++ [j] ∧
      us' = ts ++ [{ t with joins := js ++ [{ j with ons := ons }] }] ∧
    ((∃ o, o.isSql = true ∧ a = ⟨[o], []⟩ ∧ .item o ∈ ons) ∨
    (a.kw = [] ∧ a.pos ≠ [] ∧ ∀ x ∈ a.pos, IsCondition x ∧
      ∃ c ∈ ons, c = .item x ∨
        (sem cx (n + 1)).eq (.conds [c]) (.conds [.item x]) = .ok true) ∨
    ∃ given, GivesPairs a given ∧ (∀ k v, (k, v) ∈ a.kw → (.str k, v) ∈ given) ∧
      ∀ p ∈ given, ∃ c ∈ ons, c = joinCondOf p.1 p.2 ∨
        (sem cx (n + 1)).eq (.conds [c]) (.conds [joinCondOf p.1 p.2]) = .ok true) := by
  unfold tablesOn at h
  split at h
  · cases h
  · cases hu : updateLast (fun t => tableOn cx (sem cx n) t a) us with
    | none => rw [hu] at h; cases h
    | some r =>
      rw [hu] at h
      obtain ⟨ts, t, hts, rfl⟩ := updateLast_some hu
      simp only [tableOn] at h
      cases hj : updateLast (fun j : Join =>
          let r := condsWhere cx (sem cx n) true j.ons a
          (({ j with ons := r.1 } : Join), r.2)) t.joins with
      | none => rw [hj] at h; cases h
      | some r =>
        rw [hj] at h
        obtain ⟨js, j, hjs, rfl⟩ := updateLast_some hj
        simp only [Prod.mk.injEq] at h
        exact ⟨ts, t, js, j, _, hts, hjs, h.1.symm, on_call cx n hw (Prod.ext rfl h.2) hk⟩

/-- C18, `on`: unless keyword arguments come together with conditions or with a dictionary, every
argument of a call that does not raise is among the conditions of the last join of the last
table. -/
theorem C18_on_partial {q q' : Select} {a : Args} (hw : WellKeyed a)
    (h : selectStep cx (sem cx n) q (.on a) = (q', none))
    (hk : a.kw = [] ∨ (∃ x ∈ a.pos, ¬IsCondition x ∧ ∀ kvs, a.pos ≠ [.dict kvs]) ∨ a.pos = []) :
    ∃ ts t js j ons, q.tables = ts ++ [t] ∧ t.joins = js ++ [j] ∧
      q'.tables = ts ++ [{ t with joins := js ++ [{ j with ons := ons }] }] ∧
    ((∃ o, o.isSql = true ∧ a = ⟨[o], []⟩ ∧ .item o ∈ ons) ∨
    (a.kw = [] ∧ a.pos ≠ [] ∧ ∀ x ∈ a.pos, IsCondition x ∧
      ∃ c ∈ ons, c = .item x ∨
        (sem cx (n + 1)).eq (.conds [c]) (.conds [.item x]) = .ok true) ∨
    ∃ given, GivesPairs a given ∧ (∀ k v, (k, v) ∈ a.kw → (.str k, v) ∈ given) ∧
      ∀ p ∈ given, ∃ c ∈ ons, c = joinCondOf p.1 p.2 ∨
        (sem cx (n + 1)).eq (.conds [c]) (.conds [joinCondOf p.1 p.2]) = .ok true) := by
  simp only [selectStep, Upd.map, Prod.mk.injEq] at h
  refine on_last cx n hw (Prod.ext ?_ h.2) hk
  rw [← h.1]

/-- C18, `on` of UPDATE. -/
theorem C18_update_on_partial {q q' : Update} {a : Args} (hw : WellKeyed a)
    (h : updateStep cx (sem cx n) q (.on a) = (q', none))
    (hk : a.kw = [] ∨ (∃ x ∈ a.pos, ¬IsCondition x ∧ ∀ kvs, a.pos ≠ [.dict kvs]) ∨ a.pos = []) :
    ∃ ts t js j ons, q.tables = ts ++ [t] ∧ t.joins = js ++ [j] ∧
      q'.tables = ts ++ [{ t with joins := js ++ [{ j with ons := ons }] }] ∧
    ((∃ o, o.isSql = true ∧ a = ⟨[o], []⟩ ∧ .item o ∈ ons) ∨
    (a.kw = [] ∧ a.pos ≠ [] ∧ ∀ x ∈ a.pos, IsCondition x ∧
      ∃ c ∈ ons, c = .item x ∨
        (sem cx (n + 1)).eq (.conds [c]) (.conds [.item x]) = .ok true) ∨
    ∃ given, GivesPairs a given ∧ (∀ k v, (k, v) ∈ a.kw → (.str k, v) ∈ given) ∧
      ∀ p ∈ given, ∃ c ∈ ons, c = joinCondOf p.1 p.2 ∨
        (sem cx (n + 1)).eq (.conds [c]) (.conds [joinCondOf p.1 p.2]) = .ok true) := by
  simp only [updateStep, Upd.map, Prod.mk.injEq] at h
  refine on_last cx n hw (Prod.ext ?_ h.2) hk
  rw [← h.1]

/-- C18, `on` of DELETE. -/
theorem C18_delete_on_partial {q q' : Delete} {a : Args} (hw : WellKeyed a)
    (h : deleteStep cx (sem cx n) q (.on a) = (q', none))
    (hk : a.kw = [] ∨ (∃ x ∈ a.pos, ¬IsCondition x ∧ ∀ kvs, a.pos ≠ [.dict kvs]) ∨ a.pos = []) :
    ∃ ts t js j ons, q.references = ts ++ [t] ∧ t.joins = js ++ [j] ∧
      q'.references = ts ++ [{ t with joins := js ++ [{ j with ons := ons }] }] ∧
    ((∃ o, o.isSql = true ∧ a = ⟨[o], []⟩ ∧ .item o ∈ ons) ∨
    (a.kw = [] ∧ a.pos ≠ [] ∧ ∀ x ∈ a.pos, IsCondition x ∧
      ∃ c ∈ ons, c = .item x ∨
        (sem cx (n + 1)).eq (.conds [c]) (.conds [.item x]) = .ok true) ∨
    ∃ given, GivesPairs a given ∧ (∀ k v, (k, v) ∈ a.kw → (.str k, v) ∈ given) ∧
      ∀ p ∈ given, ∃ c ∈ ons, c = joinCondOf p.1 p.2 ∨
        (sem cx (n + 1)).eq (.conds [c]) (.conds [joinCondOf p.1 p.2]) = .ok true) := by
  simp only [deleteStep, Upd.map, Prod.mk.injEq] at h
  refine on_last cx n hw (Prod.ext ?_ h.2) hk
  rw [← h.1]

/-! ### Keyword arguments beside conditions -/

private theorem where_ignored {S : Sem} {xs : List Obj} (hx : xs ≠ [])
    (hc : ∀ x ∈ xs, IsCondition x) {kw kw' : List (Str × Obj)} (hk : kw ≠ []) (hk' : kw' ≠ [])
    (hs : ∀ v, (L!"self", v) ∉ kw) (hs' : ∀ v, (L!"self", v) ∉ kw') (on : Bool)
    (ps : List Cond) :
    condsWhere cx S on ps ⟨xs, kw⟩ = condsWhere cx S on ps ⟨xs, kw'⟩ := by
  have self : ∀ {kw : List (Str × Obj)}, (∀ v, (L!"self", v) ∉ kw) →
      kwSelf ⟨xs, kw⟩ = false := by
    intro kw hs
    unfold kwSelf
    rw [List.any_eq_false]
    intro p hp e
    have e : p.1 = L!"self" := eq_of_beq e
    exact hs p.2 (e ▸ hp)
  have custom : ∀ {kw : List (Str × Obj)}, kw ≠ [] → customArg ⟨xs, kw⟩ = none := by
    intro kw hk
    cases kw with
    | nil => exact absurd rfl hk
    | cons p r => rfl
  have all : (!xs.isEmpty && xs.all Obj.isConds) = true := by
    rw [Bool.and_eq_true]
    refine ⟨?_, List.all_eq_true.mpr fun x h => isConds_iff.mpr (hc x h)⟩
    cases xs with
    | nil => exact absurd rfl hx
    | cons x r => rfl
  unfold condsWhere
  rw [self hs, self hs', custom hk, custom hk']
  simp only [all, if_true]

/-- C18 is false for conditions together with keyword arguments, whatever they are:
`where(c, .., **kw)` does not depend on the keyword arguments.  The same holds of `having`, and of
`where` of UPDATE and DELETE. -/
theorem C18_refuted_conditions (S : Sem) {xs : List Obj} (hx : xs ≠ [])
    (hc : ∀ x ∈ xs, IsCondition x) {kw kw' : List (Str × Obj)} (hk : kw ≠ []) (hk' : kw' ≠ [])
    (hs : ∀ v, (L!"self", v) ∉ kw) (hs' : ∀ v, (L!"self", v) ∉ kw') :
    (∀ q, selectStep cx S q (.where_ ⟨xs, kw⟩) = selectStep cx S q (.where_ ⟨xs, kw'⟩)) ∧
    (∀ q, selectStep cx S q (.having ⟨xs, kw⟩) = selectStep cx S q (.having ⟨xs, kw'⟩)) ∧
    (∀ q, updateStep cx S q (.where_ ⟨xs, kw⟩) = updateStep cx S q (.where_ ⟨xs, kw'⟩)) ∧
    ∀ q, deleteStep cx S q (.where_ ⟨xs, kw⟩) = deleteStep cx S q (.where_ ⟨xs, kw'⟩) := by
  have h := where_ignored cx (S := S) hx hc hk hk' hs hs' false
  refine ⟨fun q => ?_, fun q => ?_, fun q => ?_, fun q => ?_⟩
  · simp only [selectStep, h q.where_]
  · simp only [selectStep, h q.having]
  · simp only [updateStep, h q.where_]
  · simp only [deleteStep, h q.where_]

/-- C18 is false for conditions together with keyword arguments given to `on`, too. -/
theorem C18_refuted_on (S : Sem) {xs : List Obj} (hx : xs ≠ [])
    (hc : ∀ x ∈ xs, IsCondition x) {kw kw' : List (Str × Obj)} (hk : kw ≠ []) (hk' : kw' ≠ [])
    (hs : ∀ v, (L!"self", v) ∉ kw) (hs' : ∀ v, (L!"self", v) ∉ kw') :
    (∀ q, selectStep cx S q (.on ⟨xs, kw⟩) = selectStep cx S q (.on ⟨xs, kw'⟩)) ∧
    (∀ q, updateStep cx S q (.on ⟨xs, kw⟩) = updateStep cx S q (.on ⟨xs, kw'⟩)) ∧
    ∀ q, deleteStep cx S q (.on ⟨xs, kw⟩) = deleteStep cx S q (.on ⟨xs, kw'⟩) := by
  have self : ∀ {kw : List (Str × Obj)}, (∀ v, (L!"self", v) ∉ kw) →
      kwSelf ⟨xs, kw⟩ = false := by
    intro kw hs
    unfold kwSelf
    rw [List.any_eq_false]
    intro p hp e
    have e : p.1 = L!"self" := eq_of_beq e
    exact hs p.2 (e ▸ hp)
  have h : ∀ ts, tablesOn cx S ts ⟨xs, kw⟩ = tablesOn cx S ts ⟨xs, kw'⟩ := by
    intro ts
    unfold tablesOn
    rw [self hs, self hs']
    have e : ∀ t, tableOn cx S t ⟨xs, kw⟩ = tableOn cx S t ⟨xs, kw'⟩ := by
      intro t
      unfold tableOn
      simp only [where_ignored cx (S := S) hx hc hk hk' hs hs' true]
    simp only [e]
  exact ⟨fun q => by simp only [selectStep, h], fun q => by simp only [updateStep, h],
    fun q => by simp only [deleteStep, h]⟩

end

/-- `columns('a', ('b', 'c'), d='e')` names three columns. -/
example : let a : Args := ⟨[.str L!"a", .tuple [.str L!"b", .str L!"c"]], [(L!"d", .str L!"e")]⟩
    Named a.pos a.kw (.str L!"a") .none ∧ Named a.pos a.kw (.str L!"b") (.str L!"c") ∧
    Named a.pos a.kw (.str L!"d") (.str L!"e") ∧
    (selectStep cx0 (sem cx0 2) {} (.columns a)).2 = none ∧
    (selectStep cx0 (sem cx0 2) {} (.from_ a)).2 = none :=
  ⟨.plain (by simp) ⟨fun _ e => (by cases e), fun _ e => (by cases e)⟩ (fun _ e => by cases e),
    .pair (.inl (by simp)), .keyword (by simp) (fun _ e => by cases e), by decide +kernel,
    by decide +kernel⟩

/-- `from_table('a', 'b')`, and `delete('a', 'b')`, `into('a')`, `table('a')`. -/
example : (selectStep cx0 (sem cx0 2) {} (.fromTable (.str L!"a") (.str L!"b"))).2 = none ∧
    (deleteStep cx0 (sem cx0 2) {} (.fromTable (.str L!"a") (.str L!"b"))).2 = none ∧
    (deleteStep cx0 (sem cx0 2) {} (.delete [.str L!"a", .str L!"b"])).2 = none ∧
    (insertStep cx0 (sem cx0 2) {} (.into (.str L!"a"))).2 = none ∧
    (updateStep cx0 (sem cx0 2) {} (.table (.str L!"a"))).2 = none ∧
    Named (trueOnes [.str L!"a"]) [] (.str L!"a") .none :=
  ⟨by decide +kernel, by decide +kernel, by decide +kernel, by decide +kernel, by decide +kernel,
    .plain (by simp [trueOnes]; rfl) ⟨fun _ e => (by cases e), fun _ e => (by cases e)⟩
      (fun _ e => by cases e)⟩

/-- `order_by('a', ('b', 'desc'))` names two columns. -/
example : let a : Args := ⟨[.str L!"a", .tuple [.str L!"b", .str L!"DESC"]], []⟩
    Named a.pos a.kw (.str L!"b") (.str L!"DESC") ∧
    (selectStep cx0 (sem cx0 2) {} (.orderBy a)).2 = none ∧
    (selectStep cx0 (sem cx0 2) {} (.groupBy a)).2 = none :=
  ⟨.pair (.inl (by simp)), by decide +kernel, by decide +kernel⟩

/-- `set(a=1, b=2)` and `values(a=1, b=2)`. -/
example : let a : Args := ⟨[], [(L!"a", .int 1), (L!"b", .int 2)]⟩
    WellKeyed a ∧ (updateStep cx0 (sem cx0 2) {} (.set a)).2 = none ∧
    (insertStep cx0 (sem cx0 2) {} (.values a)).2 = none :=
  ⟨⟨by decide, fun _ e => by cases e⟩, by decide +kernel, by decide +kernel⟩

/-- `on_duplicate_key_update('id', a=1)` in PostgreSQL, and without `'id'` in MySQL. -/
example : (insertStep ⟨.postgresql, cx0.env⟩ (sem ⟨.postgresql, cx0.env⟩ 2) {}
      (.onDuplicateKeyUpdate ⟨[.str L!"id"], [(L!"a", .int 1)]⟩)).2 = none ∧
    (insertStep ⟨.mysql, cx0.env⟩ (sem ⟨.mysql, cx0.env⟩ 2) {}
      (.onDuplicateKeyUpdate ⟨[], [(L!"a", .int 1)]⟩)).2 = none :=
  ⟨by decide +kernel, by decide +kernel⟩

/-- `having(a=1, b=2)`, and the same for `where` of UPDATE and DELETE. -/
example : let a : Args := ⟨[], [(L!"a", .int 1), (L!"b", .int 2)]⟩
    WellKeyed a ∧ (selectStep cx0 (sem cx0 2) {} (.having a)).2 = none ∧
    (updateStep cx0 (sem cx0 2) {} (.where_ a)).2 = none ∧
    (deleteStep cx0 (sem cx0 2) {} (.where_ a)).2 = none :=
  ⟨⟨by decide, fun _ h => by cases h⟩, by decide +kernel, by decide +kernel, by decide +kernel⟩

/-- `where(Q(a=1), b=2)` and `where(Q(a=1), c=3)` are the same. -/
example : ∀ q, selectStep cx0 (sem cx0 2) q
      (.where_ ⟨[.conds [.cond false (.str L!"a") .eq (.int 1)]], [(L!"b", .int 2)]⟩) =
    selectStep cx0 (sem cx0 2) q
      (.where_ ⟨[.conds [.cond false (.str L!"a") .eq (.int 1)]], [(L!"c", .int 3)]⟩) :=
  (C18_refuted_conditions cx0 (sem cx0 2) (by simp) (fun x hx => by
    rw [List.mem_singleton.mp hx]; exact .inl ⟨_, rfl⟩) (by simp) (by simp)
    (by simp) (by simp)).1

/-- `on('a', 'b')` after a join. -/
example : WellKeyed ⟨[.str L!"a", .str L!"b"], []⟩ ∧
    (selectStep cx0 (sem cx0 2) { tables := [⟨.str L!"t", .none, [⟨.inner, .str L!"u", .none, []⟩]⟩] }
      (.on ⟨[.str L!"a", .str L!"b"], []⟩)).2 = none :=
  ⟨⟨by decide, fun _ h => by cases h⟩, by decide +kernel⟩

/-- `on(Q(a='b'), b='c')` and `on(Q(a='b'), c='d')` are the same, also when they do not raise. -/
example : (∀ q, selectStep cx0 (sem cx0 2) q
      (.on ⟨[.conds [.cond false (.str L!"a") .eq (.str L!"b")]], [(L!"b", .str L!"c")]⟩) =
    selectStep cx0 (sem cx0 2) q
      (.on ⟨[.conds [.cond false (.str L!"a") .eq (.str L!"b")]], [(L!"c", .str L!"d")]⟩)) ∧
    (selectStep cx0 (sem cx0 2) { tables := [⟨.str L!"t", .none, [⟨.inner, .str L!"u", .none, []⟩]⟩] }
      (.on ⟨[.conds [.cond false (.str L!"a") .eq (.str L!"b")]], [(L!"b", .str L!"c")]⟩)).2 = none :=
  ⟨(C18_refuted_on cx0 (sem cx0 2) (by simp) (fun x hx => by
    rw [List.mem_singleton.mp hx]; exact .inl ⟨_, rfl⟩) (by simp) (by simp)
    (by simp) (by simp)).1, by decide +kernel⟩

end SqlPuzzle
