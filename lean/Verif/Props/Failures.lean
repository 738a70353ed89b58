import Verif.Props.Rendering
import Verif.Proofs.FailPrefix

/-!
C43: a call that raises leaves the query as it was.
-/

namespace SqlPuzzle

namespace Spec

/-- The call gives at most one entry.  `pairs` tells the methods that take a column and a value
(`where`, `having`, `on`, `set`) from those that take a name and an optional second item
(`columns`, `from_`, `order_by`, `group_by`). -/
inductive OneEntry (pairs : Bool) : Args → Prop where
  /-- `f()` -/
  | nothing : OneEntry pairs {}
  /-- `f(x)`, where `x` may be `(name, alias)` -/
  | name (x : Obj) (h : pairs = false) (hx : ∀ kvs, x ≠ .dict kvs) : OneEntry pairs { pos := [x] }
  /-- `f(column, value)` -/
  | pair (c v : Obj) (h : pairs = true) (hc : c.isListTuple = false) (hq : c.isConds = false) :
    OneEntry pairs { pos := [c, v] }
  /-- `f([x])` -/
  | list (x : Obj) (h : pairs = true) : OneEntry pairs { pos := [.list [x]] }
  /-- `f((x,))` -/
  | tuple (x : Obj) (h : pairs = true) : OneEntry pairs { pos := [.tuple [x]] }
  /-- `f({k: v})` -/
  | dict (k v : Obj) : OneEntry pairs { pos := [.dict [(k, v)]] }
  /-- `f(k=v)` -/
  | keyword (k : Str) (v : Obj) : OneEntry pairs { kw := [(k, v)] }
  /-- `f(sql)`, an SQL object -/
  | sql (o : Obj) (h : o.isSql = true) : OneEntry pairs { pos := [o] }

/-- The call on a `Select` gives at most one entry; for `limit` it is the limit alone. -/
def OneSelect : SelectOp → Prop
  | .columns a | .from_ a | .groupBy a | .orderBy a => OneEntry false a
  | .where_ a | .having a | .on a => OneEntry true a
  | .limit _ o => o = .none
  | _ => True

/-- The call on an `Update` gives at most one entry. -/
def OneUpdate : UpdateOp → Prop
  | .table t => ∀ kvs, t ≠ .dict kvs
  | .set a | .where_ a | .on a => OneEntry true a
  | _ => True

/-- The call on a `Delete` gives at most one entry. -/
def OneDelete : DeleteOp → Prop
  | .delete ts => ts.length ≤ 1 ∧ ∀ kvs, ts ≠ [.dict kvs]
  | .from_ a => OneEntry false a
  | .where_ a | .on a => OneEntry true a
  | _ => True

/-- The call on an `Insert` gives at most one entry; `values` may give any number. -/
def OneInsert : InsertOp → Prop
  | .onDuplicateKeyUpdate a => OneEntry true a
  | .into t => ∀ kvs, t ≠ .dict kvs
  | _ => True

/-- `op'` is the call `op` with an initial part of its entries only: those before some entry. -/
inductive FirstSelect : SelectOp → SelectOp → Prop
  | where_ {a before g after} : GivesPairs a (before ++ g :: after) →
      FirstSelect (.where_ a) (.where_ (asPairs before))
  | having {a before g after} : GivesPairs a (before ++ g :: after) →
      FirstSelect (.having a) (.having (asPairs before))
  | on {a before g after} : GivesPairs a (before ++ g :: after) →
      FirstSelect (.on a) (.on (asPairs before))
  | columns {a before g after} : GivesNames a (before ++ g :: after) →
      FirstSelect (.columns a) (.columns (asNames before))
  | from_ {a before g after} : GivesNames a (before ++ g :: after) →
      FirstSelect (.from_ a) (.from_ (asNames before))
  | groupBy {a before g after} : GivesNames a (before ++ g :: after) →
      FirstSelect (.groupBy a) (.groupBy (asNames before))
  | orderBy {a before g after} : GivesNames a (before ++ g :: after) →
      FirstSelect (.orderBy a) (.orderBy (asNames before))
  | limit (l o : Obj) : FirstSelect (.limit l o) (.limit l .none)

/-- The same for an `Update`. -/
inductive FirstUpdate : UpdateOp → UpdateOp → Prop
  | set {a before g after} : GivesPairs a (before ++ g :: after) →
      FirstUpdate (.set a) (.set (asPairs before))
  | where_ {a before g after} : GivesPairs a (before ++ g :: after) →
      FirstUpdate (.where_ a) (.where_ (asPairs before))
  | on {a before g after} : GivesPairs a (before ++ g :: after) →
      FirstUpdate (.on a) (.on (asPairs before))

/-- The same for a `Delete`. -/
inductive FirstDelete : DeleteOp → DeleteOp → Prop
  | delete {ts before g after} : GivesNames { pos := ts } (before ++ g :: after) →
      FirstDelete (.delete ts) (.delete (asNames before).pos)
  | from_ {a before g after} : GivesNames a (before ++ g :: after) →
      FirstDelete (.from_ a) (.from_ (asNames before))
  | where_ {a before g after} : GivesPairs a (before ++ g :: after) →
      FirstDelete (.where_ a) (.where_ (asPairs before))
  | on {a before g after} : GivesPairs a (before ++ g :: after) →
      FirstDelete (.on a) (.on (asPairs before))

/-- Arguments of a method that takes pairs, other than several `Q` objects. -/
def PairArgs (a : Args) : Prop := WellKeyed a ∧ (a.pos = [] ∨ ∃ x ∈ a.pos, ¬IsCondition x)

/-- Arguments of a method that takes tables, none of which counts as false (those are dropped: C18). -/
def TableArgs (a : Args) : Prop := WellKeyed a ∧ ∀ x ∈ a.pos, x.truthy = true

/-- The arguments of calls on a `Select`. -/
def ArgsSelect : SelectOp → Prop
  | .where_ a | .having a | .on a => PairArgs a
  | .columns a | .groupBy a | .orderBy a => WellKeyed a
  | .from_ a => TableArgs a
  | _ => True

/-- The arguments of calls on an `Update`. -/
def ArgsUpdate : UpdateOp → Prop
  | .set a => WellKeyed a
  | .where_ a | .on a => PairArgs a
  | .table t => ∀ kvs, t ≠ .dict kvs
  | _ => True

/-- The arguments of calls on a `Delete`. -/
def ArgsDelete : DeleteOp → Prop
  | .where_ a | .on a => PairArgs a
  | .from_ a => TableArgs a
  | .delete ts => TableArgs { pos := ts }
  | _ => True

end Spec
open Spec

section
variable (cx : Ctx) (S : Sem)

private theorem sortItems_one (kv : Obj × Obj) : sortItems S [kv] = .ok [kv] := rfl

private theorem mapR_one {α β : Type} (f : α → R β) (x : α) :
    mapR f [x] = f x >>= fun y => .ok [y] := by
  rw [mapR_cons, mapR_nil]; rfl

private theorem short_bind {α : Type} {x : R α} {bs : List α}
    (h : (x >>= fun y => .ok [y]) = Except.ok bs) : bs.length ≤ 1 := by
  obtain ⟨y, _, h⟩ := bind_ok.mp h
  injection h with h
  subst h
  simp

/-- A call with one entry parses to at most one tuple. -/
private theorem parse_short {pairs : Bool} {a : Args} (ha : OneEntry pairs a)
    {bs : List (List Obj)} {o : ParseOpts} (ho : o = if pairs then pairOpts else nameOpts)
    (h : parseArgs S o a = .ok bs) : bs.length ≤ 1 := by
  unfold parseArgs at h
  split at h
  · cases h
  split at h
  · cases h
  obtain ⟨xs, hx, h⟩ := bind_ok.mp h
  obtain ⟨ys, hy, h⟩ := bind_ok.mp h
  injection h with h
  subst h
  have single : ∀ (x : Obj), (∀ kvs, x ≠ .dict kvs) → ∀ xs ys,
      parsePositional nameOpts [x] = .ok xs → parseKeyed S nameOpts { pos := [x] } = .ok ys →
      (xs ++ ys).length ≤ 1 := by
    intro x hd xs ys hx hy
    have hk : asDict [x] = none := by
      unfold asDict
      split
      · rename_i e; injection e with e; exact absurd e (hd _)
      · rfl
    have h1 : parsePositional nameOpts [x] = parseList nameOpts [x] := by
      unfold parsePositional
      rw [hk]
      cases x <;> rfl
    rw [h1] at hx
    unfold parseList at hx
    rw [mapR_one] at hx
    unfold parseKeyed at hy
    simp only [hk] at hy
    injection hy with hy
    subst hy
    simpa using short_bind hx
  subst ho
  cases ha with
  | nothing =>
    cases pairs <;> (injection hx with hx; injection hy with hy; subst hx hy; simp)
  | name x hp hd =>
    subst hp
    exact single x hd xs ys hx hy
  | pair c v hp hc _ =>
    subst hp
    have h1 : parsePositional pairOpts [c, v] = (createBatch pairOpts [c, v] >>= fun b => .ok [b]) := by
      unfold parsePositional
      simp only [isArgs, hc]
      rfl
    have hy' : (Except.ok [] : R (List (List Obj))) = Except.ok ys := by
      rw [← hy]
      unfold parseKeyed
      cases c <;> rfl
    injection hy' with hy'
    subst hy'
    simp only [if_true] at hx
    rw [h1] at hx
    simpa using short_bind hx
  | list x hp =>
    subst hp
    injection hy with hy
    subst hy
    have h1 : parsePositional pairOpts [.list [x]] = parseList pairOpts [x] := rfl
    simp only [if_true] at hx
    rw [h1, parseList, mapR_one] at hx
    simpa using short_bind hx
  | tuple x hp =>
    subst hp
    injection hy with hy
    subst hy
    have h1 : parsePositional pairOpts [.tuple [x]] = parseList pairOpts [x] := rfl
    simp only [if_true] at hx
    rw [h1, parseList, mapR_one] at hx
    simpa using short_bind hx
  | dict k v =>
    have hx' : xs = [] := by cases pairs <;> (injection hx with hx; exact hx.symm)
    subst hx'
    cases pairs <;> (injection hy with hy; subst hy; simp)
  | keyword k v =>
    have hx' : xs = [] := by cases pairs <;> (injection hx with hx; exact hx.symm)
    subst hx'
    cases pairs <;> (injection hy with hy; subst hy; simp)
  | sql o ho =>
    have hd : ∀ kvs, o ≠ .dict kvs := by intro kvs e; subst e; cases ho
    cases pairs
    · exact single o hd xs ys hx hy
    · have h1 : parsePositional pairOpts [o] = .error .invalidArgument := by
        cases o <;> first | rfl | cases ho
      simp only [if_true] at hx
      rw [h1] at hx
      cases hx

private theorem forUpd_short {σ α : Type} {f : σ → α → Upd σ} {s s' : σ} {xs : List α} {e : Err}
    (hx : xs.length ≤ 1) (hf : ∀ x s' e, f s x = (s', some e) → s' = s)
    (h : forUpd f s xs = (s', some e)) : s' = s := by
  match xs, hx with
  | [], _ => cases h
  | [x], _ =>
    unfold forUpd at h
    cases e1 : f s x with
    | mk s1 o =>
      rw [e1] at h
      cases o with
      | none => cases h
      | some e' =>
        injection h with h1 h2
        subst h1
        exact hf x _ _ e1

private theorem withR_same {σ α : Type} {s s' : σ} {r : R α} {f : α → Upd σ} {e : Err}
    (hf : ∀ a, r = .ok a → f a = (s', some e) → s' = s) (h : withR s r f = (s', some e)) : s' = s := by
  cases r with
  | error e => injection h with h _; exact h.symm
  | ok a => exact hf a rfl h

private theorem appendUnique_same {α : Type} {eq : α → α → R Bool} {ps ps' : List α} {p : α} {e : Err}
    (h : appendUnique eq ps p = (ps', some e)) : ps' = ps := by
  unfold appendUnique at h
  split at h
  · injection h with h _; exact h.symm
  · cases h
  · cases h

private theorem condsWhere_same {on : Bool} {ps ps' : List Cond} {a : Args} {e : Err}
    (ha : OneEntry true a) (h : condsWhere cx S on ps a = (ps', some e)) : ps' = ps := by
  unfold condsWhere at h
  split at h
  · injection h with h _; exact h.symm
  split at h
  · cases h
  split at h
  · rename_i hc hq
    refine forUpd_short (hx := ?_) (hf := ?_) h
    rotate_left
    · intro x s' e h; exact appendUnique_same h
    cases ha with
    | pair c v _ _ hq' => simp [hq'] at hq
    | _ => simp
  · exact withR_same (fun bs hb h => forUpd_short (parse_short S ha rfl hb)
      (fun x s' e h => withR_same (fun _ _ => appendUnique_same) h) h) h

private theorem columnsAdd_same {cs cs' : List Column} {a : Args} {e : Err}
    (ha : OneEntry false a) (h : columnsAdd S cs a = (cs', some e)) : cs' = cs := by
  unfold columnsAdd at h
  split at h
  · injection h with h _; exact h.symm
  · exact withR_same (fun bs hb h => forUpd_short (parse_short S ha rfl hb)
      (fun x s' e h => withR_same (fun _ _ => appendUnique_same) h) h) h

private theorem ordersAdd_same {os os' : List Order} {a : Args} {e : Err}
    (ha : OneEntry false a) (h : ordersAdd cx S os a = (os', some e)) : os' = os := by
  unfold ordersAdd at h
  split at h
  · injection h with h _; exact h.symm
  · exact withR_same (fun bs hb h => forUpd_short (parse_short S ha rfl hb)
      (fun x s' e h => withR_same (fun _ _ h => by cases h) h) h) h

private theorem one_filter {a : Args} (ha : OneEntry false a) :
    OneEntry false { a with pos := a.pos.filter Obj.truthy } := by
  have keep : ∀ x : Obj, OneEntry false { pos := [x] } →
      OneEntry false { pos := [x].filter Obj.truthy } := by
    intro x h
    rw [List.filter_cons]
    split
    · exact h
    · exact .nothing
  cases ha with
  | nothing => exact .nothing
  | name x h hx => exact keep x (.name x h hx)
  | pair c v h => cases h
  | list x h => cases h
  | tuple x h => cases h
  | dict k v => exact keep _ (.dict k v)
  | keyword k v => exact .keyword k v
  | sql o h => exact keep o (.sql o h)

theorem tablesSet_same {ts ts' : List Table} {a : Args} {e : Err}
    (ha : OneEntry false a) (h : tablesSet cx S ts a = (ts', some e)) : ts' = ts := by
  unfold tablesSet at h
  split at h
  · injection h with h _; exact h.symm
  · exact withR_same (fun bs hb h => forUpd_short (parse_short S (one_filter ha) rfl hb)
      (fun x s' e h => withR_same (fun _ _ => appendUnique_same) h) h) h

private theorem valuesSet_same {vs vs' : List Value} {a : Args} {e : Err}
    (ha : OneEntry true a) (h : valuesSet cx S vs a = (vs', some e)) : vs' = vs := by
  unfold valuesSet at h
  split at h
  · injection h with h _; exact h.symm
  split at h
  · cases h
  · exact withR_same (fun bs hb h => forUpd_short (parse_short S ha rfl hb)
      (fun x s' e h => withR_same (fun _ _ => appendUnique_same) h) h) h

private theorem updateLast_same {α : Type} {f : α → Upd α} {xs xs' : List α} {e : Err}
    (hf : ∀ x x' e, f x = (x', some e) → x' = x)
    (h : updateLast f xs = some (xs', some e)) : xs' = xs := by
  induction xs generalizing xs' with
  | nil => cases h
  | cons x xs ih =>
    cases xs with
    | nil =>
      unfold updateLast at h
      injection h with h
      injection h with h1 h2
      rw [← h1, hf x (f x).1 e (by rw [← h2])]
    | cons y ys =>
      unfold updateLast at h
      cases e1 : updateLast f (y :: ys) with
      | none => rw [e1] at h; cases h
      | some r =>
        rw [e1] at h
        injection h with h
        injection h with h1 h2
        obtain ⟨r1, r2⟩ := r
        dsimp only at h1 h2
        subst h2
        rw [← h1, ih e1]

private theorem tablesJoin_same {ts ts' : List Table} {ty : JoinType} {arg : Obj} {e : Err}
    (h : tablesJoin cx S ts ty arg = (ts', some e)) : ts' = ts := by
  unfold tablesJoin at h
  split at h
  · injection h with h _; exact h.symm
  split at h
  · injection h with h _; exact h.symm
  · rename_i r hr
    subst h
    exact updateLast_same (fun x x' e h => withR_same (fun _ _ h => by cases h) h) hr

private theorem tablesOn_same {ts ts' : List Table} {a : Args} {e : Err}
    (ha : OneEntry true a) (h : tablesOn cx S ts a = (ts', some e)) : ts' = ts := by
  unfold tablesOn at h
  split at h
  · injection h with h _; exact h.symm
  split at h
  · injection h with h _; exact h.symm
  · rename_i r hr
    subst h
    refine updateLast_same (fun t t' e h => ?_) hr
    unfold tableOn at h
    split at h
    · injection h with h _; exact h.symm
    · rename_i js e' hj
      injection h with h1 h2
      subst h1 h2
      have := updateLast_same (fun j j' e h => ?_) hj
      · rw [this]
      · injection h with h1 h2
        have hk := condsWhere_same cx S ha (Prod.ext rfl h2 :
          condsWhere cx S true j.ons a = ((condsWhere cx S true j.ons a).1, some e))
        rw [← h1, hk]

private theorem limitOffset_same {l l' : LimitS} {v : Obj} {e : Err}
    (h : limitOffset l v = (l', some e)) : l' = l := by
  refine withR_same (fun _ _ h => ?_) h
  split at h
  · exact withR_same (fun _ _ h => by cases h) h
  · cases h

private theorem map_same {σ τ : Type} {f : σ → τ} {u : Upd σ} {t' : τ} {e : Err} {s : σ}
    (hs : ∀ s', u = (s', some e) → s' = s) (h : u.map f = (t', some e)) : t' = f s := by
  obtain ⟨s', o⟩ := u
  injection h with h1 h2
  dsimp only at h2
  subst h2
  rw [← h1, hs s' rfl]

/-- A call on a `Select` that gives at most one entry and raises leaves the query as it was.
`str` is the subject of `C43_str`. -/
theorem C43_select_partial (q q' : Select) (op : SelectOp) (e : Err) (ho : OneSelect op)
    (hs : op ≠ .str) (h : selectStep cx S q op = (q', some e)) : q' = q := by
  cases op with
  | columns a =>
    unfold selectStep at h
    exact map_same (s := q.columns) (fun _ => columnsAdd_same S ho) h
  | from_ a =>
    unfold selectStep at h
    exact map_same (s := q.tables) (fun _ => tablesSet_same cx S ho) h
  | fromTable t al =>
    unfold selectStep at h
    exact map_same (s := q.tables) (fun _ => tablesSet_same cx S (.name _ rfl (by simp))) h
  | join ty arg =>
    unfold selectStep at h
    exact map_same (s := q.tables) (fun _ => tablesJoin_same cx S) h
  | on a =>
    unfold selectStep at h
    exact map_same (s := q.tables) (fun _ => tablesOn_same cx S ho) h
  | where_ a =>
    unfold selectStep at h
    exact map_same (s := q.where_) (fun _ => condsWhere_same cx S ho) h
  | having a =>
    unfold selectStep at h
    exact map_same (s := q.having) (fun _ => condsWhere_same cx S ho) h
  | groupBy a =>
    unfold selectStep at h
    exact map_same (s := q.groupBy) (fun _ => ordersAdd_same cx S ho) h
  | orderBy a =>
    unfold selectStep at h
    exact map_same (s := q.orderBy) (fun _ => ordersAdd_same cx S ho) h
  | limit l o =>
    unfold selectStep at h
    refine map_same (s := q.limit) (fun l' h => withR_same (fun _ _ h => ?_) h) h
    split at h
    · cases h
    · refine withR_same (fun _ _ h => ?_) h
      have : o = .none := ho
      subst this
      cases h
  | offset o =>
    unfold selectStep at h
    exact map_same (s := q.limit) (fun _ => limitOffset_same) h
  | outfile f v =>
    unfold selectStep at h
    refine map_same (s := q.outfile) (fun l' h => withR_same (fun _ _ h => ?_) h) h
    cases f <;> cases h
  | option k allow => cases h
  | forUpdate allow => cases h
  | str => exact absurd rfl hs

/-- The same for an `Update`. -/
theorem C43_update_partial (q q' : Update) (op : UpdateOp) (e : Err) (ho : OneUpdate op)
    (hs : op ≠ .str) (h : updateStep cx S q op = (q', some e)) : q' = q := by
  cases op with
  | allowUpdateAll => cases h
  | forbidUpdateAll => cases h
  | table t =>
    unfold updateStep at h
    exact map_same (s := q.tables) (fun _ => tablesSet_same cx S
      (.name t rfl ho)) h
  | set a =>
    unfold updateStep at h
    exact map_same (s := q.values) (fun _ => valuesSet_same cx S ho) h
  | where_ a =>
    unfold updateStep at h
    exact map_same (s := q.where_) (fun _ => condsWhere_same cx S ho) h
  | join arg =>
    unfold updateStep at h
    exact map_same (s := q.tables) (fun _ => tablesJoin_same cx S) h
  | leftJoin arg =>
    unfold updateStep at h
    exact map_same (s := q.tables) (fun _ => tablesJoin_same cx S) h
  | rightJoin arg =>
    unfold updateStep at h
    exact map_same (s := q.tables) (fun _ => tablesJoin_same cx S) h
  | on a =>
    unfold updateStep at h
    exact map_same (s := q.tables) (fun _ => tablesOn_same cx S ho) h
  | ignore a => cases h
  | str => exact absurd rfl hs

/-- The same for a `Delete`. -/
theorem C43_delete_partial (q q' : Delete) (op : DeleteOp) (e : Err) (ho : OneDelete op)
    (hs : op ≠ .str) (h : deleteStep cx S q op = (q', some e)) : q' = q := by
  cases op with
  | allowDeleteAll => cases h
  | forbidDeleteAll => cases h
  | delete ts =>
    unfold deleteStep at h
    refine map_same (s := q.tables) (fun _ => tablesSet_same cx S ?_) h
    obtain ⟨h1, h2⟩ := ho
    match ts, h1, h2 with
    | [], _, _ => exact .nothing
    | [t], _, h2 => exact .name t rfl fun kvs hk => h2 kvs (by rw [hk])
  | from_ a =>
    unfold deleteStep at h
    exact map_same (s := q.references) (fun _ => tablesSet_same cx S ho) h
  | fromTable t al =>
    unfold deleteStep at h
    exact map_same (s := q.references) (fun _ => tablesSet_same cx S (.name _ rfl (by simp))) h
  | join arg =>
    unfold deleteStep at h
    exact map_same (s := q.references) (fun _ => tablesJoin_same cx S) h
  | leftJoin arg =>
    unfold deleteStep at h
    exact map_same (s := q.references) (fun _ => tablesJoin_same cx S) h
  | rightJoin arg =>
    unfold deleteStep at h
    exact map_same (s := q.references) (fun _ => tablesJoin_same cx S) h
  | on a =>
    unfold deleteStep at h
    exact map_same (s := q.references) (fun _ => tablesOn_same cx S ho) h
  | where_ a =>
    unfold deleteStep at h
    exact map_same (s := q.where_) (fun _ => condsWhere_same cx S ho) h
  | ignore a => cases h
  | str => exact absurd rfl hs

/-- The same for an `Insert` on the backends without `ON CONFLICT`. -/
theorem C43_insert_partial (q q' : Insert) (op : InsertOp) (e : Err) (ho : OneInsert op)
    (hb : cx.backend ≠ .postgresql)
    (hs : op ≠ .str) (h : insertStep cx S q op = (q', some e)) : q' = q := by
  cases op with
  | into t =>
    simp only [insertStep] at h
    exact map_same (s := q.tables) (fun _ => tablesSet_same cx S (.name t rfl ho)) h
  | values a =>
    simp only [insertStep] at h
    split at h
    · injection h with h _; exact h.symm
    · refine map_same (s := q.rows) (fun r h => ?_) h
      unfold rowsAdd at h
      split at h
      · cases h
      · injection h with h _; exact h.symm
  | onDuplicateKeyUpdate a =>
    simp only [insertStep] at h
    unfold onDuplicateKeyUpdate at h
    split at h
    · injection h with h _; exact h.symm
    cases hbe : cx.backend with
    | postgresql => exact absurd hbe hb
    | sql => rw [hbe] at h; cases h
    | mysql =>
      rw [hbe] at h
      simp only [Backend.supportsOnDuplicateKeyUpdate, if_true] at h
      split at h
      · rename_i q1 e1 h1
        injection h with h2 h3
        subst h2
        exact map_same (s := q.onDup) (fun _ => valuesSet_same cx S ho) h1
      · cases h
    | sqlite =>
      rw [hbe] at h
      simp only [Backend.supportsOnDuplicateKeyUpdate, Backend.supportsOnConflictDoUpdate,
        Backend.supportsReplaceInto, Bool.false_eq_true, if_false, if_true] at h
      split at h
      · injection h with h _; exact h.symm
      · cases h
  | ignore a => cases h
  | str => exact absurd rfl hs

/-- On PostgreSQL, a call of `on_duplicate_key_update(column, …)` whose remaining arguments give at
most one entry, and which raises: the query renders as before if it has no `ON CONFLICT` clause yet
or has one for the same column. -/
theorem C43_insert_conflict_partial (q q' : Insert) (c : Obj) (rest : List Obj)
    (kw : List (Str × Obj)) (e : Err) (n : Nat)
    (ho : OneEntry true { pos := rest, kw := kw }) (hb : cx.backend = .postgresql)
    (hq : q.onConflict = [] ∨ ∀ s, c = .str s → q.conflict = some s)
    (h : insertStep cx (sem cx n) q (.onDuplicateKeyUpdate { pos := c :: rest, kw := kw }) =
      (q', some e)) :
    (sem cx (n + 1)).str (.insert q') = (sem cx (n + 1)).str (.insert q) := by
  simp only [insertStep] at h
  unfold onDuplicateKeyUpdate at h
  split at h
  · injection h with h _; rw [h]
  rename_i hk
  rw [hb] at h
  simp only [Backend.supportsOnDuplicateKeyUpdate, Backend.supportsOnConflictDoUpdate,
    Backend.supportsReplaceInto, Bool.false_eq_true, if_false, if_true] at h
  split at h
  · rename_i q1 e1 h1
    injection h with h2 h3
    subst h2
    unfold onConflictSet at h1
    rw [if_neg hk] at h1
    split at h1
    · rename_i s rest' hp
      injection hp with hp1 hp2
      subst hp1 hp2
      have := map_same (s := q.onConflict) (fun _ => valuesSet_same cx (sem cx n) ho) h1
      rw [this]
      show insertText cx (sem cx n) _ = insertText cx (sem cx n) q
      rcases hq with hq | hq
      · unfold insertText
        simp only [hq]
        rfl
      · have := hq s rfl
        unfold insertText
        simp only [this]
    · injection h1 with h1 _; rw [h1]
  · cases h

theorem pairArgs_all {a : Args} (h : PairArgs a) : (!a.pos.isEmpty && a.pos.all Obj.isConds) = false := by
  rcases h.2 with h | ⟨x, hx, hn⟩
  · rw [h]; rfl
  · rw [Bool.and_eq_false_iff]
    right
    rw [List.all_eq_false]
    exact ⟨x, hx, fun h => hn (isConds_iff.mp h)⟩

theorem map_stop {σ τ : Type} {r : Upd σ} {g : σ → τ} {s : σ} {t : τ} {e : Err} {P : σ → Prop}
    (hr : ∀ s', r = (s', some e) → s' = s ∨ P s') (h : r.map g = (t, some e)) :
    t = g s ∨ ∃ s', P s' ∧ t = g s' := by
  obtain ⟨s', o⟩ := r
  simp only [Upd.map, Prod.mk.injEq] at h
  obtain ⟨rfl, rfl⟩ := h
  rcases hr s' rfl with rfl | hp
  · exact .inl rfl
  · exact .inr ⟨s', hp, rfl⟩

/-- What a call on a `Select` that raises has done: nothing, or exactly what the same call with only the
entries before some entry does, without raising (for `limit`, the limit without the offset). -/
theorem C43_select_stop_partial (q q' : Select) (op : SelectOp) (e : Err) (ha : ArgsSelect op)
    (hs : op ≠ .str) (h : selectStep cx S q op = (q', some e)) :
    q' = q ∨ ∃ op', FirstSelect op op' ∧ selectStep cx S q op' = (q', none) := by
  cases op with
  | columns a =>
    unfold selectStep at h
    rcases map_stop (s := q.columns) (fun _ h => columnsAdd_stop ha h) h with h | ⟨r, ⟨b, g, c, hg, hr⟩, rfl⟩
    · exact .inl h
    · exact .inr ⟨_, .columns hg, by simp only [selectStep, hr]; rfl⟩
  | from_ a =>
    unfold selectStep at h
    rcases map_stop (s := q.tables) (fun _ h => tablesSet_stop ha.1 ha.2 h) h with
      h | ⟨r, ⟨b, g, c, hg, hr⟩, rfl⟩
    · exact .inl h
    · exact .inr ⟨_, .from_ hg, by simp only [selectStep, hr]; rfl⟩
  | on a =>
    unfold selectStep at h
    rcases map_stop (s := q.tables) (fun _ h => tablesOn_stop ha.1 (pairArgs_all ha) h) h with
      h | ⟨r, ⟨b, g, c, hg, hr⟩, rfl⟩
    · exact .inl h
    · exact .inr ⟨_, .on hg, by simp only [selectStep, hr]; rfl⟩
  | where_ a =>
    unfold selectStep at h
    rcases map_stop (s := q.where_) (fun _ h => condsWhere_stop ha.1 (pairArgs_all ha) h) h with
      h | ⟨r, ⟨b, g, c, hg, hr⟩, rfl⟩
    · exact .inl h
    · exact .inr ⟨_, .where_ hg, by simp only [selectStep, hr]; rfl⟩
  | having a =>
    unfold selectStep at h
    rcases map_stop (s := q.having) (fun _ h => condsWhere_stop ha.1 (pairArgs_all ha) h) h with
      h | ⟨r, ⟨b, g, c, hg, hr⟩, rfl⟩
    · exact .inl h
    · exact .inr ⟨_, .having hg, by simp only [selectStep, hr]; rfl⟩
  | groupBy a =>
    unfold selectStep at h
    rcases map_stop (s := q.groupBy) (fun _ h => ordersAdd_stop ha h) h with
      h | ⟨r, ⟨b, g, c, hg, hr⟩, rfl⟩
    · exact .inl h
    · exact .inr ⟨_, .groupBy hg, by simp only [selectStep, hr]; rfl⟩
  | orderBy a =>
    unfold selectStep at h
    rcases map_stop (s := q.orderBy) (fun _ h => ordersAdd_stop ha h) h with
      h | ⟨r, ⟨b, g, c, hg, hr⟩, rfl⟩
    · exact .inl h
    · exact .inr ⟨_, .orderBy hg, by simp only [selectStep, hr]; rfl⟩
  | limit l o =>
    unfold selectStep at h
    have key : ∀ r, limitLimit q.limit l o = (r, some e) →
        r = q.limit ∨ limitLimit q.limit l .none = (r, none) := by
      intro r h
      unfold limitLimit at h ⊢
      cases h1 : checkType [.none, .int] l with
      | error e => rw [h1] at h; left; cases h; rfl
      | ok u =>
        rw [h1] at h
        simp only [withR] at h ⊢
        split at h
        · cases h
        · rename_i hn
          rw [if_neg hn]
          cases h2 : toInt l with
          | error e => rw [h2] at h; left; cases h; rfl
          | ok i =>
            rw [h2] at h
            simp only at h ⊢
            split at h
            · cases h
            · right
              have : r = { q.limit with limit := some i } := by
                unfold limitOffset withR at h
                split at h
                · cases h; rfl
                · split at h
                  · split at h
                    · cases h; rfl
                    · cases h
                  · cases h
              rw [this]
              rfl
    rcases map_stop (s := q.limit) key h with h | ⟨r, hr, rfl⟩
    · exact .inl h
    · exact .inr ⟨_, .limit l o, by simp only [selectStep, hr]; rfl⟩
  | fromTable t al => refine .inl (C43_select_partial cx S q q' _ e ?_ hs h); exact trivial
  | join ty arg => refine .inl (C43_select_partial cx S q q' _ e ?_ hs h); exact trivial
  | offset o => refine .inl (C43_select_partial cx S q q' _ e ?_ hs h); exact trivial
  | outfile f v => refine .inl (C43_select_partial cx S q q' _ e ?_ hs h); exact trivial
  | option k allow => cases h
  | forUpdate allow => cases h
  | str => exact absurd rfl hs

/-- The same for an `Update`. -/
theorem C43_update_stop_partial (q q' : Update) (op : UpdateOp) (e : Err) (ha : ArgsUpdate op)
    (hs : op ≠ .str) (h : updateStep cx S q op = (q', some e)) :
    q' = q ∨ ∃ op', FirstUpdate op op' ∧ updateStep cx S q op' = (q', none) := by
  cases op with
  | set a =>
    unfold updateStep at h
    rcases map_stop (s := q.values) (fun _ h => valuesSet_stop ha h) h with
      h | ⟨r, ⟨b, g, c, hg, hr⟩, rfl⟩
    · exact .inl h
    · exact .inr ⟨_, .set hg, by simp only [updateStep, hr]; rfl⟩
  | where_ a =>
    unfold updateStep at h
    rcases map_stop (s := q.where_) (fun _ h => condsWhere_stop ha.1 (pairArgs_all ha) h) h with
      h | ⟨r, ⟨b, g, c, hg, hr⟩, rfl⟩
    · exact .inl h
    · exact .inr ⟨_, .where_ hg, by simp only [updateStep, hr]; rfl⟩
  | on a =>
    unfold updateStep at h
    rcases map_stop (s := q.tables) (fun _ h => tablesOn_stop ha.1 (pairArgs_all ha) h) h with
      h | ⟨r, ⟨b, g, c, hg, hr⟩, rfl⟩
    · exact .inl h
    · exact .inr ⟨_, .on hg, by simp only [updateStep, hr]; rfl⟩
  | table t => refine .inl (C43_update_partial cx S q q' _ e ?_ hs h); exact ha
  | join arg => refine .inl (C43_update_partial cx S q q' _ e ?_ hs h); exact trivial
  | leftJoin arg => refine .inl (C43_update_partial cx S q q' _ e ?_ hs h); exact trivial
  | rightJoin arg => refine .inl (C43_update_partial cx S q q' _ e ?_ hs h); exact trivial
  | allowUpdateAll => cases h
  | forbidUpdateAll => cases h
  | ignore a => cases h
  | str => exact absurd rfl hs

/-- The same for a `Delete`. -/
theorem C43_delete_stop_partial (q q' : Delete) (op : DeleteOp) (e : Err) (ha : ArgsDelete op)
    (hs : op ≠ .str) (h : deleteStep cx S q op = (q', some e)) :
    q' = q ∨ ∃ op', FirstDelete op op' ∧ deleteStep cx S q op' = (q', none) := by
  cases op with
  | delete ts =>
    unfold deleteStep at h
    rcases map_stop (s := q.tables) (fun _ h => tablesSet_stop ha.1 ha.2 h) h with
      h | ⟨r, ⟨b, g, c, hg, hr⟩, rfl⟩
    · exact .inl h
    · refine .inr ⟨_, .delete hg, ?_⟩
      have : ({ pos := (asNames b).pos } : Args) = asNames b := rfl
      simp only [deleteStep, this, hr]; rfl
  | from_ a =>
    unfold deleteStep at h
    rcases map_stop (s := q.references) (fun _ h => tablesSet_stop ha.1 ha.2 h) h with
      h | ⟨r, ⟨b, g, c, hg, hr⟩, rfl⟩
    · exact .inl h
    · exact .inr ⟨_, .from_ hg, by simp only [deleteStep, hr]; rfl⟩
  | where_ a =>
    unfold deleteStep at h
    rcases map_stop (s := q.where_) (fun _ h => condsWhere_stop ha.1 (pairArgs_all ha) h) h with
      h | ⟨r, ⟨b, g, c, hg, hr⟩, rfl⟩
    · exact .inl h
    · exact .inr ⟨_, .where_ hg, by simp only [deleteStep, hr]; rfl⟩
  | on a =>
    unfold deleteStep at h
    rcases map_stop (s := q.references) (fun _ h => tablesOn_stop ha.1 (pairArgs_all ha) h) h with
      h | ⟨r, ⟨b, g, c, hg, hr⟩, rfl⟩
    · exact .inl h
    · exact .inr ⟨_, .on hg, by simp only [deleteStep, hr]; rfl⟩
  | fromTable t al => refine .inl (C43_delete_partial cx S q q' _ e ?_ hs h); exact trivial
  | join arg => refine .inl (C43_delete_partial cx S q q' _ e ?_ hs h); exact trivial
  | leftJoin arg => refine .inl (C43_delete_partial cx S q q' _ e ?_ hs h); exact trivial
  | rightJoin arg => refine .inl (C43_delete_partial cx S q q' _ e ?_ hs h); exact trivial
  | allowDeleteAll => cases h
  | forbidDeleteAll => cases h
  | ignore a => cases h
  | str => exact absurd rfl hs

end

/-- A `str` that raises leaves each kind of query rendering as before. -/
theorem C43_str (cx : Ctx) (n : Nat) :
    (∀ q, (sem cx (n + 1)).str (.select (selectStep cx (sem cx n) q .str).1) =
      (sem cx (n + 1)).str (.select q)) ∧
    (∀ q, (sem cx (n + 1)).str (.update (updateStep cx (sem cx n) q .str).1) =
      (sem cx (n + 1)).str (.update q)) ∧
    (∀ q, (sem cx (n + 1)).str (.delete (deleteStep cx (sem cx n) q .str).1) =
      (sem cx (n + 1)).str (.delete q)) ∧
    ∀ q, (sem cx (n + 1)).str (.insert (insertStep cx (sem cx n) q .str).1) =
      (sem cx (n + 1)).str (.insert q) :=
  ⟨C28_select_partial cx n, C28_update_partial cx n, C28_delete_partial cx n, C28_insert_partial cx n⟩

/-- The property as stated, for `Select` and `Insert`. -/
def C43_claim : Prop :=
  (∀ (cx : Ctx) (n : Nat) (q q' : Select) (op : SelectOp) (e : Err),
    selectStep cx (sem cx n) q op = (q', some e) →
    (sem cx (n + 1)).str (.select q') = (sem cx (n + 1)).str (.select q)) ∧
  ∀ (cx : Ctx) (n : Nat) (q q' : Insert) (op : InsertOp) (e : Err),
    insertStep cx (sem cx n) q op = (q', some e) →
    (sem cx (n + 1)).str (.insert q') = (sem cx (n + 1)).str (.insert q)

private def env0 : Env := ⟨id, id, fun _ => true, fun _ => [], fun _ => []⟩
private def cx0 : Ctx := ⟨.sql, env0⟩
private def pg0 : Ctx := ⟨.postgresql, env0⟩

private def base : Select := { tables := [⟨.str L!"t", .none, []⟩] }

/-- `limit(10, 'x')` raises and yet sets the limit. -/
theorem C43_refuted : ¬C43_claim := by
  intro h
  have := h.1 cx0 3 base { base with limit := ⟨some 10, none⟩ } (.limit (.int 10) (.str L!"x"))
    .invalidArgument rfl
  revert this
  decide

/-- So does `where([('a', 1), ('b', {})])`: the first condition stays. -/
theorem C43_refuted_where :
    selectStep cx0 (sem cx0 3) base (.where_
        { pos := [.list [.tuple [.str L!"a", .int 1], .tuple [.str L!"b", .dict []]]] }) =
      ({ base with where_ := [.cond false (.str L!"a") .eq (.int 1)] }, some .invalidArgument) ∧
    (sem cx0 4).str (.select { base with where_ := [.cond false (.str L!"a") .eq (.int 1)] }) ≠
      (sem cx0 4).str (.select base) :=
  ⟨rfl, by decide⟩

private def ins : Insert :=
  { tables := [⟨.str L!"t", .none, []⟩]
    conflict := some L!"id"
    onConflict := [.value (.str L!"a") (.int 1)] }

/-- On PostgreSQL a failing `on_duplicate_key_update('no', b={})` changes the conflict column. -/
theorem C43_refuted_conflict :
    insertStep pg0 (sem pg0 3) ins
        (.onDuplicateKeyUpdate { pos := [.str L!"no"], kw := [(L!"b", .dict [])] }) =
      ({ ins with conflict := some L!"no" }, some .invalidArgument) ∧
    (sem pg0 4).str (.insert { ins with conflict := some L!"no" }) ≠
      (sem pg0 4).str (.insert ins) :=
  ⟨rfl, by decide⟩

/-- The hypotheses are met: a failing call with one entry, for each kind of query. -/
example : OneSelect (.where_ { pos := [.str L!"a", .dict []] }) ∧
    selectStep cx0 (sem cx0 3) base (.where_ { pos := [.str L!"a", .dict []] }) =
      (base, some .invalidArgument) := ⟨.pair _ _ rfl rfl rfl, rfl⟩
example : OneUpdate (.set { kw := [(L!"a", .list [])] }) ∧
    updateStep cx0 (sem cx0 3) {} (.set { kw := [(L!"a", .list [])] }) =
      ({}, some .invalidArgument) := ⟨.keyword _ _, rfl⟩
example : OneDelete (.join (.int 1)) ∧
    deleteStep cx0 (sem cx0 3) {} (.join (.int 1)) = ({}, some .invalidQuery) := ⟨trivial, rfl⟩
example : OneInsert (.values { pos := [.str L!"a"] }) ∧
    insertStep cx0 (sem cx0 3) ins (.values { pos := [.str L!"a"] }) =
      (ins, some .invalidArgument) := ⟨trivial, rfl⟩
example : OneEntry true { pos := [], kw := [(L!"b", .dict [])] } ∧ pg0.backend = .postgresql ∧
    (insertStep pg0 (sem pg0 3) { ins with onConflict := [] }
      (.onDuplicateKeyUpdate { pos := [.str L!"no"], kw := [(L!"b", .dict [])] })).2 =
      some .invalidArgument := ⟨.keyword _ _, rfl, rfl⟩

/-- `where([('a', 1), ('b', {}), ('c', 2)])` raises and has done what `where([('a', 1)])` does. -/
example :
    let a : Args := { pos := [.list [.tuple [.str L!"a", .int 1], .tuple [.str L!"b", .dict []],
      .tuple [.str L!"c", .int 2]]] }
    ArgsSelect (.where_ a) ∧
    FirstSelect (.where_ a) (.where_ (asPairs [(.str L!"a", .int 1)])) ∧
    (selectStep cx0 (sem cx0 3) base (.where_ a)).2 = some .invalidArgument ∧
    selectStep cx0 (sem cx0 3) base (.where_ (asPairs [(.str L!"a", .int 1)])) =
      ((selectStep cx0 (sem cx0 3) base (.where_ a)).1, none) := by
  refine ⟨⟨⟨by simp, fun _ h => by simp at h⟩, .inr ⟨_, List.mem_singleton.mpr rfl, fun h => ?_⟩⟩,
    .where_ (asPairs_gives [(.str L!"a", .int 1), (.str L!"b", .dict []), (.str L!"c", .int 2)]), rfl, rfl⟩
  rcases h with ⟨_, h⟩ | ⟨_, _, _, h⟩ <;> cases h

end SqlPuzzle
