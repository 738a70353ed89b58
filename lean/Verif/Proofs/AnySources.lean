import Verif.Proofs.Composed
import Verif.Proofs.JoinHistory
import Verif.Proofs.Minimize
import Verif.Spec.AnySources

/-!
Which tables, joins and join conditions a query has after any history of calls, whatever they are made of.
-/

namespace SqlPuzzle

open Spec

/-! ### What a query has of what was given -/

/-- A join of the query for one that was given: each of its conditions was given, and each that was given is there, or an
equal one. -/
structure JoinFor (cx : Ctx) (n : Nat) (j g : Join) : Prop where
  type : j.type = g.type
  name : j.name = g.name
  label : j.alias = g.alias
  from_ : ∀ c ∈ j.ons, c ∈ g.ons
  all : ∀ c ∈ g.ons, ∃ c' ∈ j.ons, c' = c ∨ (sem cx (n + 1)).eq (.conds [c']) (.conds [c]) = .ok true

/-- A table of the query for one that was given. -/
structure TableFor (cx : Ctx) (n : Nat) (t g : Table) : Prop where
  name : t.name = g.name
  label : t.alias = g.alias
  joins : List.Forall₂ (JoinFor cx n) t.joins g.joins

abbrev tableKey (t : Table) : Obj × Obj := (t.name, t.alias)
abbrev joinKey (j : Join) : Obj × Obj := (j.name, j.alias)

theorem forall₂_keys {cx : Ctx} {n : Nat} {ts gs : List Table} (h : List.Forall₂ (TableFor cx n) ts gs) :
    ts.map tableKey = gs.map tableKey := by
  induction h with
  | nil => rfl
  | cons h _ ih => simp only [List.map_cons, ih, tableKey, h.name, h.label]

theorem forall₂_joinKeys {cx : Ctx} {n : Nat} {ts gs : List Join} (h : List.Forall₂ (JoinFor cx n) ts gs) :
    ts.map joinKey = gs.map joinKey := by
  induction h with
  | nil => rfl
  | cons h _ ih => simp only [List.map_cons, ih, joinKey, h.name, h.label]

/-! ### The last element -/

theorem updateLast_for {α β : Type} {r : α → β → Prop} {f : α → Upd α} {g : β → β}
    (hfg : ∀ x y, r x y → (f x).2 = none → r (f x).1 (g y)) {xs : List α} {ys : List β} (h : List.Forall₂ r xs ys) :
    ∀ {xs' : List α}, updateLast f xs = some (xs', none) → List.Forall₂ r xs' (withLast g ys) := by
  induction h with
  | nil => intro xs' e; cases e
  | @cons x y xs ys hxy hr ih =>
    intro xs' e
    cases hr with
    | nil =>
      simp only [updateLast, Option.some.injEq, Prod.mk.injEq] at e
      obtain ⟨rfl, e⟩ := e
      exact .cons (hfg x y hxy e) .nil
    | @cons x' y' xs ys hxy' hr =>
      simp only [updateLast, Option.map_eq_some_iff] at e
      obtain ⟨⟨zs, e0⟩, e1, e2⟩ := e
      cases e2
      exact .cons hxy (ih e1)

/-! ### Calls -/

variable {cx : Ctx} {n : Nat}

theorem filter_truthy {a : Args} (h : ∀ x ∈ a.pos, x.truthy = true) :
    ({ a with pos := a.pos.filter Obj.truthy } : Args) = a := by
  rw [List.filter_eq_self.mpr h]

/-- Listing tables none of which is taken for equal to another. -/
theorem tablesSet_for {a : Args} {ps : List (Obj × Obj)} (ha : ListsSources a ps) {ts ts' gs : List Table}
    (h : List.Forall₂ (TableFor cx n) ts gs) (hd : (gs.map tableKey ++ ps).Pairwise (NotTakenEqual cx))
    (e : tablesSet cx (sem cx n) ts a = (ts', none)) :
    List.Forall₂ (TableFor cx n) ts' (gs ++ ps.map fun p => ⟨p.1, p.2, []⟩) := by
  obtain ⟨h3, h4⟩ := givesNames_parse ha.1 (sem cx n)
  unfold tablesSet at e
  rw [h4, filter_truthy ha.2, h3] at e
  simp only [Bool.false_eq_true, if_false] at e
  obtain ⟨_, ⟨⟩, e0⟩ := withR_none e
  clear h3 h4 ha e
  have e := e0
  clear e0
  induction ps generalizing gs ts with
  | nil =>
    cases e
    rw [List.map_nil, List.append_nil]
    exact h
  | cons p ps ih =>
    obtain ⟨ts1, e1, e2⟩ := forUpd_none e
    obtain ⟨t, e3, e4⟩ := withR_none e1
    have ht : t = ⟨p.1, p.2, []⟩ := by
      simp only [mkTable, bind_ok] at e3
      obtain ⟨_, _, _, _, e3⟩ := e3
      cases e3
      rfl
    subst ht
    have hts : ts1 = ts ++ [⟨p.1, p.2, []⟩] := by
      unfold appendUnique at e4
      split at e4
      · cases e4
      · next e5 =>
        obtain ⟨k, hk, e6⟩ := anyR_true_mem e5
        obtain ⟨e7, _⟩ := andR_true.mp e6
        have hkey : tableKey k ∈ gs.map tableKey := by
          rw [← forall₂_keys h]; exact List.mem_map_of_mem hk
        exact absurd (andR_true.mp e7) ((List.pairwise_append.mp hd).2.2 _ hkey p (by simp) n)
      · cases e4; rfl
    subst hts
    have h' : List.Forall₂ (TableFor cx n) (ts ++ [⟨p.1, p.2, []⟩]) (gs ++ [⟨p.1, p.2, []⟩]) :=
      List.rel_append h (.cons ⟨rfl, rfl, .nil⟩ .nil)
    have := ih (gs := gs ++ [⟨p.1, p.2, []⟩]) h' (by simpa using hd) e2
    simpa using this

theorem tablesJoin_for {ty : JoinType} {arg x al : Obj} (ha : JoinArg arg x al) {ts ts' gs : List Table}
    (h : List.Forall₂ (TableFor cx n) ts gs) (e : tablesJoin cx (sem cx n) ts ty arg = (ts', none)) :
    List.Forall₂ (TableFor cx n) ts'
      (withLast (fun t => { t with joins := t.joins ++ [⟨ty, x, al, []⟩] }) gs) := by
  unfold tablesJoin at e
  split at e
  · cases e
  · split at e
    · cases e
    · next r e1 =>
      subst e
      refine updateLast_for ?_ h e1
      intro t g htg hok
      obtain ⟨j, e2, e3⟩ := withR_none (Prod.ext (x := withR t (mkJoin (sem cx n) ty arg) _) (y := (_, none)) rfl hok)
      rw [show withR t (mkJoin (sem cx n) ty arg) (fun j => ({ t with joins := t.joins ++ [j] }, none)) =
        ({ t with joins := t.joins ++ [j] }, none) by rw [e2]; rfl]
      have hj : j = ⟨ty, x, al, []⟩ := by
        cases ha with
        | name s => cases e2; rfl
        | _ =>
          simp only [mkJoin, mkTable, bind_ok] at e2
          obtain ⟨_, ⟨_, _, _, _, ⟨⟩⟩, ⟨⟩⟩ := e2
          rfl
      subst hj
      exact ⟨htg.name, htg.label, List.rel_append htg.joins (.cons ⟨rfl, rfl, rfl, by simp, by simp⟩ .nil)⟩

theorem on_call {a : Args} {cs : List Cond} (h : GivesJoinConditions a cs) {ps : List Cond}
    (hok : (condsWhere cx (sem cx n) true ps a).2 = none) :
    (∀ c ∈ (condsWhere cx (sem cx n) true ps a).1, c ∈ ps ∨ c ∈ cs) ∧
    (∀ c ∈ ps, c ∈ (condsWhere cx (sem cx n) true ps a).1) ∧
    ∀ c ∈ cs, ∃ c' ∈ (condsWhere cx (sem cx n) true ps a).1, c' = c ∨
      (sem cx (n + 1)).eq (.conds [c']) (.conds [c]) = .ok true := by
  cases h with
  | @object o ho =>
    have e : condsWhere cx (sem cx n) true ps { pos := [o] } = (ps ++ [.item o], none) := by
      unfold condsWhere
      simp [kwSelf, customArg, ho]
    rw [e]
    refine ⟨fun c hc => List.mem_append.mp hc, fun c hc => List.mem_append_left _ hc, fun c hc => ⟨c, ?_, .inl rfl⟩⟩
    exact List.mem_append_right _ hc
  | @objects o o' os h =>
    have e : condsWhere cx (sem cx n) true ps { pos := o :: o' :: os } =
        addAll (condEq cx (sem cx n)) (fun o => .ok (.item o : Cond)) ps (o :: o' :: os) := by
      have hall : (!(o :: o' :: os).isEmpty && (o :: o' :: os).all Obj.isConds) = true := by
        rw [Bool.and_eq_true]
        exact ⟨rfl, List.all_eq_true.mpr fun x hx => isConds_iff.mpr (h x hx)⟩
      unfold condsWhere
      simp only [hall]
      rfl
    rw [e] at hok ⊢
    obtain ⟨new, bs, e1, e2, e3⟩ := addAll_extends (Prod.ext rfl hok : addAll (condEq cx (sem cx n))
      (fun o => .ok (.item o : Cond)) ps (o :: o' :: os) = (_, none))
    refine ⟨fun c hc => ?_, fun c hc => ?_, fun c hc => ?_⟩
    · have hc : c ∈ ps ++ new := (congrArg (c ∈ ·) e1).mp hc
      refine (List.mem_append.mp hc).imp_right fun hc => ?_
      obtain ⟨b, hb, hm⟩ := forall₂_mem e3.flip hc
      cases hm
      exact List.mem_map_of_mem (e2.subset hb)
    · exact (congrArg (c ∈ ·) e1).mpr (List.mem_append_left _ hc)
    · obtain ⟨o, ho, rfl⟩ := List.mem_map.mp hc
      obtain ⟨c, hc, c', hc', hr⟩ := addAll_represented (Prod.ext rfl hok) o ho
      cases hc
      exact ⟨c', hc', by rwa [eq_single]⟩
  | pairs hg hq hk =>
    obtain ⟨⟨new, e1, e2⟩, e3⟩ := condsOn_given cx n hg (notAll_of hq) (Prod.ext rfl rfl :
      condsWhere cx (sem cx n) true ps a = ((condsWhere cx (sem cx n) true ps a).1,
        (condsWhere cx (sem cx n) true ps a).2))
    refine ⟨fun c hc => ?_, fun c hc => ?_, fun c hc => ?_⟩
    · rw [e1] at hc
      refine (List.mem_append.mp hc).imp_right fun hc => ?_
      obtain ⟨p, hp, rfl⟩ := e2 c hc
      exact List.mem_map_of_mem hp
    · rw [e1]; exact List.mem_append_left _ hc
    · obtain ⟨p, hp, rfl⟩ := List.mem_map.mp hc
      exact e3 hok p hp

theorem tablesOn_for {a : Args} {cs : List Cond} (ha : GivesJoinConditions a cs) {ts ts' gs : List Table}
    (h : List.Forall₂ (TableFor cx n) ts gs) (e : tablesOn cx (sem cx n) ts a = (ts', none)) :
    List.Forall₂ (TableFor cx n) ts'
      (withLast (fun t => { t with joins := withLast (fun j => { j with ons := j.ons ++ cs }) t.joins }) gs) := by
  unfold tablesOn at e
  split at e
  · cases e
  · split at e
    · cases e
    · next r e1 =>
      subst e
      refine updateLast_for ?_ h e1
      intro t g htg hok
      unfold tableOn at hok ⊢
      split at hok
      · cases hok
      · next js e' e2 =>
        simp only at hok
        subst hok
        refine ⟨htg.name, htg.label, updateLast_for ?_ htg.joins e2⟩
        intro j k hjk hok
        obtain ⟨h1, h2, h3⟩ := on_call ha hok
        refine ⟨hjk.type, hjk.name, hjk.label, fun c hc => ?_, fun c hc => ?_⟩
        · exact List.mem_append.mpr ((h1 c hc).imp_left (hjk.from_ c))
        · rcases List.mem_append.mp hc with hc | hc
          · obtain ⟨c', hc', hr⟩ := hjk.all c hc
            exact ⟨c', h2 c' hc', hr⟩
          · exact h3 c hc

/-! ### Rendering -/

theorem minimizeJoins_apart {js js' : List Join} (S : Sem) (hd : js.Pairwise fun a b => sameJoin cx S a b ≠ .ok true)
    (e : minimizeJoins cx S js = .ok js') : js' = js := by
  have key : ∀ (js : List Join) (done : List Join) (gs : List (Join × List Join)),
      (done ++ js).Pairwise (fun a b => sameJoin cx S a b ≠ .ok true) →
      groupJoins cx S (done.map fun j => (j, [])) js = .ok gs → gs = (done ++ js).map fun j => (j, []) := by
    intro js
    induction js with
    | nil => intro done gs _ e; cases e; simp
    | cons j js ih =>
      intro done gs hp e
      unfold groupJoins at e
      obtain ⟨g1, e1, e2⟩ := bind_ok.mp e
      rcases groupInsert_cases cx S e1 with ⟨_, rfl⟩ | ⟨pre, h0, t, post, h1, _, h2, _⟩
      · have := ih (done ++ [j]) gs (by simpa using hp) (by simpa using e2)
        simpa using this
      · have hm : (h0, t) ∈ done.map fun j => (j, ([] : List Join)) := by rw [h1]; simp
        obtain ⟨k, hk, e3⟩ := List.mem_map.mp hm
        cases e3
        exact absurd h2 ((List.pairwise_append.mp hp).2.2 h0 hk j (by simp))
  unfold minimizeJoins at e
  obtain ⟨gs, e1, e2⟩ := bind_ok.mp e
  have := key js [] gs hd e1
  cases e2
  rw [this]
  have hc : ∀ j : Join, collapseGroup (j, []) = [j] := fun j => rfl
  simp only [List.nil_append, List.flatMap_map, hc]
  simp

theorem strTables_apart {n : Nat} {ts : List Table}
    (h : ∀ t ∈ ts, (t.joins.map joinKey).Pairwise (NotTakenEqual cx)) : (strTables cx (sem cx n) ts).1 = ts := by
  have one : ∀ t ∈ ts, (strTable cx (sem cx n) t).1 = t := by
    intro t ht
    unfold strTable
    split
    · rfl
    · split
      · rfl
      · split
        · rfl
        · next js e =>
          have hd : t.joins.Pairwise fun a b => sameJoin cx (sem cx n) a b ≠ .ok true := by
            refine (List.pairwise_map.mp (h t ht)).imp fun {a b} hab e => hab n ?_
            exact andR_true.mp (andR_true.mp e).1
          rw [minimizeJoins_apart _ hd e]
  clear h
  induction ts with
  | nil => rfl
  | cons t ts ih =>
    have h1 := one t (by simp)
    have h2 := ih fun t ht => one t (by simp [ht])
    unfold strTables
    split
    · next e =>
      rw [e] at h1
      exact congrArg (· :: ts) h1
    · next e =>
      rw [e] at h1
      exact congrArg₂ List.cons h1 h2

/-! ### Histories -/

/-- What a call does to the tables. -/
inductive SourceEffect (cx : Ctx) (n : Nat) : List Table → SourceCall → List Table → Prop
  | set {a ps ts ts'} : ListsSources a ps → tablesSet cx (sem cx n) ts a = (ts', none) →
      SourceEffect cx n ts (.tables ps) ts'
  | join {ty arg x al ts ts'} : JoinArg arg x al → tablesJoin cx (sem cx n) ts ty arg = (ts', none) →
      SourceEffect cx n ts (.join ty x al) ts'
  | on {a cs ts ts'} : GivesJoinConditions a cs → tablesOn cx (sem cx n) ts a = (ts', none) →
      SourceEffect cx n ts (.on cs) ts'
  | str {ts} : SourceEffect cx n ts .other (strTables cx (sem cx n) ts).1
  | same {ts} : SourceEffect cx n ts .other ts

/-- Names come after those before, of tables and of the joins of a table. -/
def KeysGrow (gs gs' : List Table) : Prop :=
  gs.map tableKey <+: gs'.map tableKey ∧
  ∀ t ∈ gs, ∃ t' ∈ gs', t.joins.map joinKey <+: t'.joins.map joinKey

theorem KeysGrow.refl (gs : List Table) : KeysGrow gs gs :=
  ⟨List.prefix_refl _, fun t ht => ⟨t, ht, List.prefix_refl _⟩⟩

theorem KeysGrow.trans {a b c : List Table} (h : KeysGrow a b) (h' : KeysGrow b c) : KeysGrow a c := by
  refine ⟨h.1.trans h'.1, fun t ht => ?_⟩
  obtain ⟨t', ht', h1⟩ := h.2 t ht
  obtain ⟨t'', ht'', h2⟩ := h'.2 t' ht'
  exact ⟨t'', ht'', h1.trans h2⟩

theorem withLast_keys {α β : Type} {f : α → α} {g : α → β} (h : ∀ x, g (f x) = g x) :
    ∀ xs, (withLast f xs).map g = xs.map g
  | [] => rfl
  | [x] => by simp [withLast, h]
  | x :: y :: ys => by
    have := withLast_keys h (y :: ys)
    simp only [withLast, List.map_cons] at this ⊢
    rw [this]

theorem mem_withLast {α : Type} {f : α → α} {r : α → α → Prop} (h0 : ∀ x, r x x) (h : ∀ x, r x (f x)) :
    ∀ xs : List α, ∀ x ∈ xs, ∃ y ∈ withLast f xs, r x y
  | [], x, hx => by cases hx
  | [z], x, hx => by
    rw [List.mem_singleton.mp hx]
    exact ⟨f z, by simp [withLast], h z⟩
  | a :: b :: xs, x, hx => by
    rcases List.mem_cons.mp hx with rfl | hx
    · exact ⟨x, by simp [withLast], h0 x⟩
    · obtain ⟨y, hy, hr⟩ := mem_withLast h0 h (b :: xs) x hx
      exact ⟨y, List.mem_cons_of_mem _ hy, hr⟩

theorem withSource_grows (gs : List Table) (c : SourceCall) : KeysGrow gs (withSource gs c) := by
  cases c with
  | tables ps =>
    refine ⟨?_, fun t ht => ⟨t, List.mem_append_left _ ht, List.prefix_refl _⟩⟩
    unfold withSource
    rw [List.map_append]
    exact List.prefix_append _ _
  | join ty x al =>
    refine ⟨?_, ?_⟩
    · simp only [withSource]
      rw [withLast_keys (g := tableKey) (by intro _; rfl)]
      exact List.prefix_refl _
    · refine mem_withLast (r := fun t t' : Table => t.joins.map joinKey <+: t'.joins.map joinKey)
        (fun _ => List.prefix_refl _) (fun t => ?_) gs
      simp
  | on cs =>
    refine ⟨?_, ?_⟩
    · simp only [withSource]
      rw [withLast_keys (g := tableKey) (by intro _; rfl)]
      exact List.prefix_refl _
    · refine mem_withLast (r := fun t t' : Table => t.joins.map joinKey <+: t'.joins.map joinKey)
        (fun _ => List.prefix_refl _) (fun t => ?_) gs
      simp only
      rw [withLast_keys (g := joinKey) (by intro _; rfl)]
      exact List.prefix_refl _
  | other => exact .refl gs

theorem foldl_grows : ∀ (es : List SourceCall) (gs : List Table), KeysGrow gs (es.foldl withSource gs)
  | [], gs => .refl gs
  | c :: es, gs => (withSource_grows gs c).trans (foldl_grows es _)

theorem KeysGrow.differ {gs gs' : List Table} (h : KeysGrow gs gs') (hd : SourcesDiffer cx gs') : SourcesDiffer cx gs := by
  refine ⟨hd.1.sublist h.1.sublist, fun t ht => ?_⟩
  obtain ⟨t', ht', h1⟩ := h.2 t ht
  exact (hd.2 t' ht').sublist h1.sublist

theorem for_joins {ts gs : List Table} (h : List.Forall₂ (TableFor cx n) ts gs) (hd : SourcesDiffer cx gs) :
    ∀ t ∈ ts, (t.joins.map joinKey).Pairwise (NotTakenEqual cx) := by
  intro t ht
  obtain ⟨g, hg, htg⟩ := forall₂_mem h ht
  rw [forall₂_joinKeys htg.joins]
  exact hd.2 g hg

theorem effect_for {ts ts' gs : List Table} {c : SourceCall} (h : List.Forall₂ (TableFor cx n) ts gs)
    (hd : SourcesDiffer cx (withSource gs c)) (he : SourceEffect cx n ts c ts') :
    List.Forall₂ (TableFor cx n) ts' (withSource gs c) := by
  cases he with
  | @set a ps _ _ ha e =>
    refine tablesSet_for ha h ?_ e
    have := hd.1
    simp only [withSource, List.map_append, List.map_map] at this
    have e : (fun t : Table => (t.name, t.alias)) ∘ (fun p : Obj × Obj => (⟨p.1, p.2, []⟩ : Table)) = id := rfl
    rwa [e, List.map_id] at this
  | join ha e => exact tablesJoin_for ha h e
  | on ha e => exact tablesOn_for ha h e
  | str =>
    rw [strTables_apart (for_joins h hd)]
    exact h
  | same => exact h

theorem sources_history {σ ω : Type} {step : σ → ω → Upd σ} {tables : σ → List Table} {Gives : ω → SourceCall → Prop}
    (hs : ∀ s o c, Gives o c → (step s o).2 = none → SourceEffect cx n (tables s) c (tables (step s o).1)) :
    ∀ {ops : List ω} {es : List SourceCall}, List.Forall₂ Gives ops es → ∀ (s : σ) (gs : List Table),
      NoneRaise step s ops → List.Forall₂ (TableFor cx n) (tables s) gs → SourcesDiffer cx (es.foldl withSource gs) →
      List.Forall₂ (TableFor cx n) (tables (runOps step s ops)) (es.foldl withSource gs)
  | _, _, .nil, s, gs, _, h, _ => h
  | _, _, .cons (a := o) (b := c) (l₁ := ops) (l₂ := es) ho hr, s, gs, hn, h, hd => by
    rw [runOps_cons]
    exact sources_history hs hr (step s o).1 (withSource gs c) (fun b o' a e => hn (o :: b) o' a (by rw [e]; rfl))
      (effect_for h ((foldl_grows es _).differ hd) (hs s o c ho (hn [] o ops rfl))) hd

theorem fromTable_sources {t al : Obj} : ListsSources { pos := [.tuple [t, al]] } [(t, al)] :=
  ⟨fromTable_names, by simp [Obj.truthy]⟩

private theorem upd_none {σ τ : Type} {u : Upd σ} {f : σ → τ} (h : (u.map f).2 = none) : u = (u.1, none) := Prod.ext rfl h

theorem select_effect (q : Select) (op : SelectOp) (c : SourceCall) (h : SelectSources op c)
    (hok : (selectStep cx (sem cx n) q op).2 = none) :
    SourceEffect cx n q.tables c (selectStep cx (sem cx n) q op).1.tables := by
  cases h with
  | from_ ha => exact .set ha (upd_none hok)
  | fromTable => exact .set fromTable_sources (upd_none hok)
  | join ha => exact .join ha (upd_none hok)
  | on ha => exact .on ha (upd_none hok)
  | str =>
    simp only [selectStep, selectStr]
    split
    · exact .same
    · exact .str
  | other h0 => cases op <;> first | exact h0.elim | exact .same

theorem update_effect (q : Update) (op : UpdateOp) (c : SourceCall) (h : UpdateSources op c)
    (hok : (updateStep cx (sem cx n) q op).2 = none) :
    SourceEffect cx n q.tables c (updateStep cx (sem cx n) q op).1.tables := by
  cases h with
  | table ha => exact .set ha (upd_none hok)
  | join ha => exact .join ha (upd_none hok)
  | leftJoin ha => exact .join ha (upd_none hok)
  | rightJoin ha => exact .join ha (upd_none hok)
  | on ha => exact .on ha (upd_none hok)
  | str =>
    simp only [updateStep, updateStr]
    split
    · exact .same
    · exact .str
  | other h0 => cases op <;> first | exact h0.elim | exact .same

theorem delete_effect (q : Delete) (op : DeleteOp) (c : SourceCall) (h : DeleteSources op c)
    (hok : (deleteStep cx (sem cx n) q op).2 = none) :
    SourceEffect cx n q.references c (deleteStep cx (sem cx n) q op).1.references := by
  cases h with
  | from_ ha => exact .set ha (upd_none hok)
  | fromTable => exact .set fromTable_sources (upd_none hok)
  | join ha => exact .join ha (upd_none hok)
  | leftJoin ha => exact .join ha (upd_none hok)
  | rightJoin ha => exact .join ha (upd_none hok)
  | on ha => exact .on ha (upd_none hok)
  | str =>
    simp only [deleteStep, deleteStr]
    split
    · exact .same
    · split <;> exact .str
  | other h0 => cases op <;> first | exact h0.elim | exact .same

/-! ### The rows -/

theorem sources_same {V : Type} {src : Sources V} {ref : Obj → List Tok} {holds : Tuple V → Obj → Tri}
    {ts gs : List Table} (h : List.Forall₂ (TableFor cx n) ts gs) (ha : EqualOnsAgree cx n holds gs) :
    sourcesWritten src ref holds ts = sourcesWritten src ref holds gs := by
  unfold sourcesWritten
  congr 1
  induction h with
  | nil => rfl
  | @cons t g ts gs htg _ ih =>
    rw [List.map_cons, List.map_cons, ih fun t ht => ha t (List.mem_cons_of_mem _ ht)]
    congr 1
    rw [htg.name, htg.label]
    have ha := ha g List.mem_cons_self
    have hj := htg.joins
    generalize tableWritten src ref g.name g.alias = rows
    clear ih
    revert rows
    generalize t.joins = js at hj
    generalize g.joins = ks at hj ha
    induction hj with
    | nil => intro rows; rfl
    | @cons j k js ks hjk _ ih =>
      intro rows
      rw [List.foldl_cons, List.foldl_cons, ← ih fun k hk => ha k (List.mem_cons_of_mem _ hk)]
      congr 1
      unfold joinWritten
      rw [hjk.type, hjk.name, hjk.label]
      congr 1
      funext row
      refine decide_eq_decide.mpr ⟨fun h c hc => ?_, fun h c hc => h c (hjk.from_ c hc)⟩
      obtain ⟨c', hc', rfl | e⟩ := hjk.all c hc
      · exact h _ hc'
      · rw [← ha k List.mem_cons_self c' (hjk.from_ c' hc') c hc e row]
        exact h c' hc'

theorem str_for {m : Nat} {ts gs : List Table} (h : List.Forall₂ (TableFor cx n) ts gs) (hd : SourcesDiffer cx gs) :
    (strTables cx (sem cx m) ts).1 = ts := strTables_apart (for_joins h hd)

end SqlPuzzle
