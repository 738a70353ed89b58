import Verif.Proofs.Batches
import Verif.Model.Functions

/-!
C60: several entries in one call are the same as several calls.
-/

namespace SqlPuzzle

open Spec

section
variable (cx : Ctx) (S : Sem)

/-- A call on a `Select` that gives several entries does what calls that give them one by one, or
in any other portions, do: the same query, and the same exception, if any.  Missing: calls with
several `Q` objects (`C60_conditions_partial`). -/
theorem C60_select_partial (q : Select) {op : SelectOp} {ops : List SelectOp}
    (h : SplitSelect op ops) :
    OneByOne (selectStep cx S) q ops (selectStep cx S q op).1 (selectStep cx S q op).2 := by
  cases h with
  | where_ h hq =>
    exact oneByOne_part (step := selectStep cx S) (mk := .where_)
      (put := fun r => { q with where_ := r }) (fun _ _ => rfl)
      (condsWhere_calls h hq q.where_)
  | having h hq =>
    exact oneByOne_part (step := selectStep cx S) (mk := .having)
      (put := fun r => { q with having := r }) (fun _ _ => rfl)
      (condsWhere_calls h hq q.having)
  | on h hq hne =>
    exact oneByOne_part (step := selectStep cx S) (mk := .on)
      (put := fun r => { q with tables := r }) (fun _ _ => rfl)
      (tablesOn_calls h hq hne q.tables)
  | columns h =>
    exact oneByOne_part (step := selectStep cx S) (mk := .columns)
      (put := fun r => { q with columns := r }) (fun _ _ => rfl)
      (columnsAdd_calls h q.columns)
  | groupBy h =>
    exact oneByOne_part (step := selectStep cx S) (mk := .groupBy)
      (put := fun r => { q with groupBy := r }) (fun _ _ => rfl)
      (ordersAdd_calls h q.groupBy)
  | orderBy h =>
    exact oneByOne_part (step := selectStep cx S) (mk := .orderBy)
      (put := fun r => { q with orderBy := r }) (fun _ _ => rfl)
      (ordersAdd_calls h q.orderBy)
  | from_ h ht =>
    exact oneByOne_part (step := selectStep cx S) (mk := .from_)
      (put := fun r => { q with tables := r }) (fun _ _ => rfl)
      (tablesSet_calls h ht q.tables)
  | @fromTable t al b h ht =>
    exact oneByOne_part (step := selectStep cx S) (mk := .from_)
      (put := fun r => { q with tables := r }) (fun _ _ => rfl)
      (tablesSet_calls (a := { pos := [.tuple [t, al]] }) (bs := [b])
        ⟨[[(t, al)]], fromTable_names, .cons h .nil⟩
        (by
          intro c hc
          rcases List.mem_cons.mp hc with rfl | hc
          · intro x hx
            rw [List.mem_singleton.mp hx]
            rfl
          · rwa [List.mem_singleton.mp hc]) q.tables)

/-- The same for an `Update`. -/
theorem C60_update_partial (q : Update) {op : UpdateOp} {ops : List UpdateOp}
    (h : SplitUpdate op ops) :
    OneByOne (updateStep cx S) q ops (updateStep cx S q op).1 (updateStep cx S q op).2 := by
  cases h with
  | set h =>
    exact oneByOne_part (step := updateStep cx S) (mk := .set)
      (put := fun r => { q with values := r }) (fun _ _ => rfl)
      (valuesSet_calls h q.values)
  | where_ h hq =>
    exact oneByOne_part (step := updateStep cx S) (mk := .where_)
      (put := fun r => { q with where_ := r }) (fun _ _ => rfl)
      (condsWhere_calls h hq q.where_)
  | on h hq hne =>
    exact oneByOne_part (step := updateStep cx S) (mk := .on)
      (put := fun r => { q with tables := r }) (fun _ _ => rfl)
      (tablesOn_calls h hq hne q.tables)

/-- The same for a `Delete`. -/
theorem C60_delete_partial (q : Delete) {op : DeleteOp} {ops : List DeleteOp}
    (h : SplitDelete op ops) :
    OneByOne (deleteStep cx S) q ops (deleteStep cx S q op).1 (deleteStep cx S q op).2 := by
  cases h with
  | @delete ts tss h ht =>
    have main := tablesSet_calls (cx := cx) (S := S) h (fun b hb => by
      rcases List.mem_cons.mp hb with rfl | hb
      · exact ht ts (by simp)
      · obtain ⟨us, hu, rfl⟩ := List.mem_map.mp hb
        exact ht us (by simp [hu])) q.tables
    exact oneByOne_part (step := deleteStep cx S) (mk := .delete)
      (put := fun r => { q with tables := r }) (fun _ _ => rfl) (oneByOne_unmap main)
  | from_ h ht =>
    exact oneByOne_part (step := deleteStep cx S) (mk := .from_)
      (put := fun r => { q with references := r }) (fun _ _ => rfl)
      (tablesSet_calls h ht q.references)
  | @fromTable t al b h ht =>
    exact oneByOne_part (step := deleteStep cx S) (mk := .from_)
      (put := fun r => { q with references := r }) (fun _ _ => rfl)
      (tablesSet_calls (a := { pos := [.tuple [t, al]] }) (bs := [b])
        ⟨[[(t, al)]], fromTable_names, .cons h .nil⟩
        (by
          intro c hc
          rcases List.mem_cons.mp hc with rfl | hc
          · intro x hx
            rw [List.mem_singleton.mp hx]
            rfl
          · rwa [List.mem_singleton.mp hc]) q.references)
  | where_ h hq =>
    exact oneByOne_part (step := deleteStep cx S) (mk := .where_)
      (put := fun r => { q with where_ := r }) (fun _ _ => rfl)
      (condsWhere_calls h hq q.where_)
  | on h hq hne =>
    exact oneByOne_part (step := deleteStep cx S) (mk := .on)
      (put := fun r => { q with references := r }) (fun _ _ => rfl)
      (tablesOn_calls h hq hne q.references)

/-- The same for `on_duplicate_key_update` of an `Insert`, on the backend that takes pairs. -/
theorem C60_insert_partial (hb : cx.backend = .mysql) (q : Insert) {a : Args} {bs : List Args}
    (h : PairsInCalls a bs) :
    OneByOne (insertStep cx S) q (bs.map .onDuplicateKeyUpdate)
      (insertStep cx S q (.onDuplicateKeyUpdate a)).1
      (insertStep cx S q (.onDuplicateKeyUpdate a)).2 := by
  have run : ∀ a r, insertStep cx S { q with onDup := r } (.onDuplicateKeyUpdate a) =
      (valuesSet cx S r a).map fun r => { q with onDup := r } := by
    intro a r
    unfold insertStep onDuplicateKeyUpdate
    simp only [hb, Backend.supportsOnDuplicateKeyUpdate, Backend.supportsOnConflictDoUpdate,
      Backend.supportsReplaceInto]
    by_cases hs : kwSelf a = true
    · unfold valuesSet
      rw [if_pos hs, if_pos hs]
      rfl
    · rw [if_neg hs]
      cases valuesSet cx S r a with
      | mk vs e => cases e <;> rfl
  have := run a q.onDup
  rw [show ({ q with onDup := q.onDup } : Insert) = q from rfl] at this
  rw [this]
  exact oneByOne_part (put := fun r => { q with onDup := r }) run (valuesSet_calls h q.onDup)

private theorem isConds_of {x : Obj} (h : IsCondition x) : x.isConds = true ∧ x.isSql = true := by
  rcases h with ⟨ps, rfl⟩ | ⟨l, r, op, rfl⟩ <;> exact ⟨rfl, rfl⟩

private theorem append_calls {xs : List Obj} (hx : ∀ x ∈ xs, IsCondition x) (ps : List Cond)
    (h1 : ∀ c ∈ ps, ∀ x ∈ xs, condEq cx S c (.item x) = .ok false)
    (h2 : xs.Pairwise fun x y => condEq cx S (.item x) (.item y) = .ok false) :
    forUpd (fun ps o => appendUnique (condEq cx S) ps (.item o)) ps xs =
      (ps ++ xs.map .item, none) ∧
    OneByOne (fun ps x => condsWhere cx S false ps { pos := [x] }) ps xs
      (ps ++ xs.map .item) none := by
  induction xs generalizing ps with
  | nil =>
    rw [List.map_nil, List.append_nil]
    exact ⟨rfl, .done ps⟩
  | cons x xs ih =>
    obtain ⟨h3, h4⟩ := List.pairwise_cons.mp h2
    have hn : anyR (fun q => condEq cx S q (.item x)) ps = .ok false := by
      have : ∀ c ∈ ps, condEq cx S c (.item x) = .ok false := fun c hc => h1 c hc x (by simp)
      clear ih h1
      induction ps with
      | nil => rfl
      | cons c ps ihp =>
        unfold anyR
        rw [this c (by simp), ihp fun d hd => this d (by simp [hd])]
        rfl
    have step := ih (fun y hy => hx y (by simp [hy])) (ps ++ [.item x]) (by
      intro c hc y hy
      rcases List.mem_append.mp hc with hc | hc
      · exact h1 c hc y (by simp [hy])
      · rw [List.mem_singleton.mp hc]
        exact h3 y hy) h4
    rw [List.append_assoc] at step
    constructor
    · unfold forUpd appendUnique
      rw [hn]
      exact step.1
    · refine .next ?_ step.2
      unfold condsWhere customArg
      simp only [(isConds_of (hx x (by simp))).2]
      rfl

/-- `where(Q(..), Q(..))` does what `where(Q(..)).where(Q(..))` does if no two of the objects are
equal and none is equal to a condition given before. -/
theorem C60_conditions_partial (q : Select) {xs : List Obj} (hx : ∀ x ∈ xs, IsCondition x)
    (h1 : ∀ c ∈ q.where_, ∀ x ∈ xs, condEq cx S c (.item x) = .ok false)
    (h2 : xs.Pairwise fun x y => condEq cx S (.item x) (.item y) = .ok false) :
    OneByOne (selectStep cx S) q (xs.map fun x => .where_ { pos := [x] })
      (selectStep cx S q (.where_ { pos := xs })).1 (selectStep cx S q (.where_ { pos := xs })).2 := by
  have key : condsWhere cx S false q.where_ { pos := xs } = (q.where_ ++ xs.map .item, none) := by
    match xs, hx, h1, h2 with
    | [], _, _, _ => simp [condsWhere, kwSelf, customArg, parseArgs, pairOpts, parsePositional, isArgs,
        asList, asDict, parseKeyed, withR, forUpd, bind, Except.bind]
    | [x], hx, _, _ =>
      unfold condsWhere customArg
      simp only [(isConds_of (hx x (by simp))).2]
      rfl
    | x :: y :: zs, hx, h1, h2 =>
      have ha : (!(x :: y :: zs).isEmpty && (x :: y :: zs).all Obj.isConds) = true := by
        rw [Bool.and_eq_true]
        exact ⟨rfl, List.all_eq_true.mpr fun z hz => (isConds_of (hx z hz)).1⟩
      unfold condsWhere
      simp only [kwSelf, List.any_nil, Bool.false_eq_true, if_false, customArg, ha, if_true]
      exact (append_calls cx S hx q.where_ h1 h2).1
  have step : selectStep cx S q (.where_ { pos := xs }) =
      ({ q with where_ := q.where_ ++ xs.map .item }, none) := by
    show (condsWhere cx S false q.where_ { pos := xs }).map
      (fun r => ({ q with where_ := r } : Select)) = _
    rw [key]
    rfl
  rw [step]
  exact oneByOne_part (step := selectStep cx S) (mk := fun x : Obj => .where_ { pos := [x] })
    (put := fun r => { q with where_ := r }) (fun _ _ => rfl) (append_calls cx S hx q.where_ h1 h2).2

/-! ### Shortcuts -/

/-- `select(…)` is `select().columns(…)`. -/
theorem C60_start_select (a : Args) : SameStart (mkSelect S a) (selectStep cx S {} (.columns a)) := by
  show SameStart _ ((columnsAdd S [] a).map fun r => ({ columns := r } : Select))
  unfold mkSelect
  cases columnsAdd S [] a with
  | mk r e => cases e with
    | none => exact .ok _
    | some e => exact .raise _ e

/-- `select_from(…)` is `select().from_(…)`. -/
theorem C60_start_select_from (a : Args) :
    SameStart (mkSelectFrom cx S a) (selectStep cx S {} (.from_ a)) := by
  show SameStart _ ((tablesSet cx S [] a).map fun r => ({ tables := r } : Select))
  unfold mkSelectFrom
  cases tablesSet cx S [] a with
  | mk r e => cases e with
    | none => exact .ok _
    | some e => exact .raise _ e

/-- `insert_into(t)` is `insert().into(t)`. -/
theorem C60_start_insert_into (t : Obj) :
    SameStart (mkInsertInto cx S t) (insertStep cx S {} (.into t)) := by
  show SameStart _ ((tablesSet cx S [] { pos := [t] }).map fun r => ({ tables := r } : Insert))
  unfold mkInsertInto
  cases tablesSet cx S [] { pos := [t] } with
  | mk r e => cases e with
    | none => exact .ok _
    | some e => exact .raise _ e

/-- `update(t)` has the table that `.table(t)` gives. -/
theorem C60_start_update (t : Obj) : SameStart (mkUpdate cx S t) (updateStep cx S {} (.table t)) := by
  show SameStart _ ((tablesSet cx S [] { pos := [t] }).map fun r => ({ tables := r } : Update))
  unfold mkUpdate
  cases tablesSet cx S [] { pos := [t] } with
  | mk r e => cases e with
    | none => exact .ok _
    | some e => exact .raise _ e

/-- `delete(t, …)` is `delete().delete(t, …)`. -/
theorem C60_start_delete (ts : List Obj) :
    SameStart (mkDelete cx S ts) (deleteStep cx S {} (.delete ts)) := by
  show SameStart _ ((tablesSet cx S [] { pos := ts }).map fun r => ({ tables := r } : Delete))
  unfold mkDelete
  cases tablesSet cx S [] { pos := ts } with
  | mk r e => cases e with
    | none => exact .ok _
    | some e => exact .raise _ e

/-- `delete_from(…)` is `delete().from_(…)`. -/
theorem C60_start_delete_from (a : Args) :
    SameStart (mkDeleteFrom cx S a) (deleteStep cx S {} (.from_ a)) := by
  show SameStart _ ((tablesSet cx S [] a).map fun r => ({ references := r } : Delete))
  unfold mkDeleteFrom
  cases tablesSet cx S [] a with
  | mk r e => cases e with
    | none => exact .ok _
    | some e => exact .raise _ e

/-- `count_distinct(x)` is `count(x).distinct()`, and so for the other four. -/
theorem C60_distinct (f : Agg) (x : Obj) :
    mkFunc f true x = funcDistinct (mkFunc f false x) (.bool true) := by
  cases f <;> rfl

/-- `convert(x, type)` is `convert(x).to(type)`, for a type that does not count as false. -/
theorem C60_convert (x ty : Obj) (h : ty.truthy = true) (c : Obj)
    (hc : mkConvert cx S x .none = .ok c) : SameStart (mkConvert cx S x ty) (convertTo cx S c ty) := by
  cases hc
  unfold mkConvert convertTo
  rw [if_pos h]
  cases forceText cx S ty with
  | ok t => exact .ok _
  | error e => exact .raise _ e

end

/-! ### The full claim -/

/-- C60 for `where` with query objects, in full: every number of them, equal or not. -/
def C60_claim : Prop := ∀ (cx : Ctx) (n : Nat) (q : Select) (xs : List Obj),
  (∀ x ∈ xs, IsCondition x) →
  OneByOne (selectStep cx (sem cx n)) q (xs.map fun x => .where_ { pos := [x] })
    (selectStep cx (sem cx n) q (.where_ { pos := xs })).1
    (selectStep cx (sem cx n) q (.where_ { pos := xs })).2

private def cx0 : Ctx := ⟨.sql, ⟨id, id, fun _ => true, fun _ => [], fun _ => []⟩⟩

private def qa : Obj := .conds [.cond false (.str L!"a") .eq (.int 1)]

/-- `where(Q(a=1), Q(a=1))` gives the condition once, `where(Q(a=1)).where(Q(a=1))` twice. -/
theorem C60_refuted : ¬C60_claim := by
  intro h
  have h1 := h cx0 5 {} [qa, qa] (by intro x hx; simp at hx; exact .inl ⟨_, hx⟩)
  have e1 : (selectStep cx0 (sem cx0 5) {} (.where_ { pos := [qa, qa] })).1.where_.length = 1 := by
    decide +kernel
  have e2 : ∀ q' e, OneByOne (selectStep cx0 (sem cx0 5)) {}
      [.where_ { pos := [qa] }, .where_ { pos := [qa] }] q' e → q'.where_.length = 2 := by
    intro q' e h
    cases h with
    | raise _ h => cases h
    | next h1 h2 =>
      cases h1
      cases h2 with
      | raise _ h => cases h
      | next h1 h2 =>
        cases h1
        cases h2
        rfl
  have := e2 _ _ h1
  omega

/-! ### Cases -/

example : SplitSelect (.where_ { kw := [(L!"b", .int 2), (L!"a", .int 1)] })
    ([{ pos := [.str L!"a", .int 1] }, { pos := [.list [.tuple [.str L!"b", .int 2]]] }].map
      .where_) := by
  refine .where_ ⟨[[(.str L!"a", .int 1)], [(.str L!"b", .int 2)]], ?_, ?_⟩ ?_
  · exact GivesPairs.usual (ps := []) .nothing
      ⟨[(L!"a", .int 1), (L!"b", .int 2)], .swap _ _ _, by
        refine .cons ?_ (.cons (fun _ h => by cases h) .nil)
        intro p hp
        cases List.mem_singleton.mp hp
        exact .here _ _ (by decide), rfl⟩
      (by
        intro p hp
        simp only [List.mem_cons, List.not_mem_nil, or_false] at hp
        rcases hp with rfl | rfl <;> decide)
  · refine .cons ?_ (.cons ?_ .nil)
    · exact GivesPairs.usual (ps := [_]) (qs := []) (.direct _ fun xs h => by cases h)
        ⟨[], .refl _, .nil, rfl⟩ (fun p hp => by cases hp)
    · exact GivesPairs.usual (ps := [_]) (qs := []) (.listed (.list _) (.cons (.two (.tuple _)) .nil))
        ⟨[], .refl _, .nil, rfl⟩ (fun p hp => by cases hp)
  · intro b hb h
    simp only [List.mem_cons, List.not_mem_nil, or_false] at hb
    rcases hb with rfl | rfl | rfl
    · exact absurd rfl h
    all_goals
      refine ⟨_, .head _, ?_⟩
      rintro (⟨_, h⟩ | ⟨_, _, _, h⟩) <;> cases h

example : SplitSelect (.columns { pos := [.str L!"a", .tuple [.str L!"b", .str L!"x"]] })
    ([{ pos := [.str L!"a"] }, {}, { kw := [(L!"b", .str L!"x")] }].map .columns) := by
  refine .columns ⟨[[(.str L!"a", .none)], [], [(.str L!"b", .str L!"x")]], ?_, ?_⟩
  · exact GivesNames.usual (ps := [_, _]) (qs := []) (fun _ h => by cases h)
      (.cons (.name fun xs h => by cases h) (.cons (.pair (.two (.tuple _))) .nil))
      ⟨[], .refl _, .nil, rfl⟩ (fun p hp => by cases hp)
  · refine .cons ?_ (.cons ?_ (.cons ?_ .nil))
    · exact GivesNames.usual (ps := [_]) (qs := []) (fun _ h => by cases h)
        (.cons (.name fun xs h => by cases h) .nil) ⟨[], .refl _, .nil, rfl⟩ (fun p hp => by cases hp)
    · exact GivesNames.usual (ps := []) (qs := []) (fun _ h => by cases h) .nil
        ⟨[], .refl _, .nil, rfl⟩ (fun p hp => by cases hp)
    · exact GivesNames.usual (ps := []) (qs := [_]) (fun _ h => by cases h) .nil
        ⟨[(L!"b", .str L!"x")], .refl _, .cons (fun _ h => by cases h) .nil, rfl⟩
        (by
          intro p hp
          cases List.mem_singleton.mp hp
          decide)

example : SplitDelete (.fromTable (.str L!"t") .none) [.from_ { pos := [.str L!"t"] }] := by
  refine .fromTable ?_ ?_
  · exact GivesNames.usual (ps := [_]) (qs := []) (fun _ h => by cases h)
      (.cons (.name fun xs h => by cases h) .nil) ⟨[], .refl _, .nil, rfl⟩ (fun p hp => by cases hp)
  · intro x hx
    cases List.mem_singleton.mp hx
    rfl

/-- The objects of `C60_conditions_partial`: two different ones. -/
example : condEq cx0 (sem cx0 5) (.item qa) (.item (.conds [.cond false (.str L!"a") .eq (.int 2)])) =
    .ok false := by decide +kernel

end SqlPuzzle
