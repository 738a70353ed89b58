import Verif.Model.Args

/-!
`sqlpuzzle/_queryparts/*.py` and `sqlpuzzle/relations.py`: constructors and mutators of the parts
of a query.

A mutator returns the new state together with the exception it raised, if any.
-/

namespace SqlPuzzle

/-- State after a call and the exception it raised. -/
abbrev Upd (σ : Type) := σ × Option Err

/-- A loop `for x in xs: <f>` over the state: stops at the first exception and keeps the changes
made before it. -/
def forUpd {σ α : Type} (f : σ → α → Upd σ) : σ → List α → Upd σ
  | s, [] => (s, none)
  | s, x :: xs =>
    match f s x with
    | (s', none) => forUpd f s' xs
    | (s', some e) => (s', some e)

/-- Use the result of a computation that may raise before touching the state. -/
def withR {σ α : Type} (s : σ) (r : R α) (f : α → Upd σ) : Upd σ :=
  match r with
  | .error e => (s, some e)
  | .ok a => f a

/-! ### Relations -/

/-- `_allowed_types` of the relation classes (relations.py:85, 103, 140, 157, 173, 256). -/
def Rel.allowedTypes : Rel → List PyType
  | .eq | .ne => [.str, .int, .float, .decimal, .bool, .date]
  | .gt | .ge | .lt | .le => [.str, .int, .float, .decimal, .date]
  | .like | .notLike | .regexp => [.str]
  | .in_ | .notIn => [.list, .tuple, .range, .gen]
  | .is | .isNot => [.bool, .none]

/-- Is it `IN` or `NOT_IN`, whose constructor copies the value into a list (relations.py:175-188)? -/
def Rel.isIn : Rel → Bool
  | .in_ | .notIn => true
  | _ => false

/-- Constructor of a relation class for one argument (relations.py:26-29, 47-59, 175-188): the
stored value. -/
def relValue (k : Rel) (v : Obj) : R Obj :=
  let v' := if k.isIn then (match v.iterate with
    | some xs => .list xs
    | none => v) else v
  if v'.allowed k.allowedTypes then .ok v' else .error .invalidArgument

/-- `relations.K(*args)` (relations.py:26-29, 175-188). -/
def mkRel (k : Rel) (args : List Obj) : R Obj :=
  match args with
  | [v] => do
    let v' ← relValue k v
    .ok (.rel k v')
  | [] => if k.isIn then .ok (.rel k (.list [])) else .error .typeError
  | vs => if k.isIn then .ok (.rel k (.list vs)) else .error .typeError

/-- `Condition._default_relations.get(type(v), EQ)` (conditions.py:29-42). -/
def defaultRel : Obj → Rel
  | .list _ | .tuple _ | .range _ | .gen _ => .in_
  | .none => .is
  | _ => .eq

/-- Types accepted as a condition's value (conditions.py:73-76). -/
def condTypes : List PyType :=
  [.none, .str, .int, .float, .decimal, .bool, .list, .tuple, .range, .gen, .date, .datetime]

/-- The value whose type selects the default relation (conditions.py:79). -/
def valueInside : Obj → Obj
  | .sqlValue v => v
  | .sqlRef v => v
  | v => v

/-- Relation and stored value of a condition (`value` setter, conditions.py:72-81). -/
def condValue (v : Obj) : R (Rel × Obj) := do
  checkType condTypes v
  match v with
  | .rel k w => .ok (k, w)
  | v => do
    let k := defaultRel (valueInside v)
    let w ← relValue k v
    .ok (k, w)

/-- `Condition(column_name, value)` / `OnCondition(...)` (conditions.py:44-47). -/
def mkCond (on : Bool) (col v : Obj) : R Cond := do
  checkType [.str] col
  let (k, w) ← condValue v
  .ok (.cond on col k w)

/-! ### Conditions -/

section
variable (cx : Ctx) (S : Sem)

/-- `QueryParts.append_unique_part` (queryparts.py:75-80, 53-57): `eq part new` for the parts in
order. -/
def appendUnique {α : Type} (eq : α → α → R Bool) (ps : List α) (p : α) : Upd (List α) :=
  match anyR (fun q => eq q p) ps with
  | .error e => (ps, some e)
  | .ok true => (ps, none)
  | .ok false => (ps ++ [p], none)

/-- Options of `Conditions.where` and `Values.set` (conditions.py:103-108, values.py:49-54). -/
def pairOpts : ParseOpts := { minItems := 2, maxItems := 2, allowDict := true, allowList := true }

/-- Options of `Columns.columns`, `Tables.set`, `Orders.order` (columns.py:51-54, tables.py:174-177,
order.py:59-62). -/
def nameOpts : ParseOpts := { minItems := 1, maxItems := 2, allowDict := true, allowList := false }

/-- `append_custom_sql_decorator` (queryparts.py:10-17): the single SQL object of the call. -/
def customArg (a : Args) : Option Obj :=
  match a.kw, a.pos with
  | [], [o] => if o.isSql then some o else none
  | _, _ => none

/-- `Conditions.where` (conditions.py:101-116); `on` tells `OnConditions` (tables.py:60-61). -/
def condsWhere (on : Bool) (ps : List Cond) (a : Args) : Upd (List Cond) :=
  if kwSelf a then (ps, some .typeError)
  else match customArg a with
  | some o => (ps ++ [.item o], none)
  | none =>
    if !a.pos.isEmpty && a.pos.all Obj.isConds then
      forUpd (fun ps o => appendUnique (condEq cx S) ps (.item o)) ps a.pos
    else
      withR ps (parseArgs S pairOpts a) fun bs =>
        forUpd (fun ps b => withR ps (mkCond on (pairOf b).1 (pairOf b).2) fun c =>
          appendUnique (condEq cx S) ps c) ps bs

/-- The part of `Conditions(*args, **kwds)` (`Q`, `__init__.py:126-135`), conditions.py:97-99. -/
def mkConds (a : Args) : R Obj :=
  match condsWhere cx S false [] a with
  | (ps, none) => .ok (.conds ps)
  | (_, some e) => .error e

/-- `Not(*args, **kwds)` (conditions.py:141-143). -/
def mkNot (a : Args) : R Obj :=
  match condsWhere cx S false [] a with
  | (ps, none) => .ok (.not_ ps)
  | (_, some e) => .error e

/-- `a & b`, `a | b` on conditions (conditions.py:17-25).  `Condition` objects are not exposed. -/
def mkBinary (op : BoolOp) (l r : Obj) : R Obj :=
  if l.isConds && r.isConds then .ok (.cofc l r op) else .error .typeError

/-! ### Columns, tables, orders, values -/

/-- `Column(column_name, alias)` (columns.py:7-11, 32-44). -/
def mkColumn (name alias : Obj) : R Column := do
  checkType [.str, .int] name
  checkType [.str, .none] alias
  .ok ⟨name, alias⟩

/-- `Columns.columns` (columns.py:50-60). -/
def columnsAdd (cs : List Column) (a : Args) : Upd (List Column) :=
  if kwSelf a then (cs, some .typeError)
  else withR cs (parseArgs S nameOpts a) fun bs =>
    forUpd (fun cs b => withR cs (mkColumn (pairOf b).1 (pairOf b).2) fun c =>
      appendUnique (columnEq S) cs c) cs bs

/-- `Table(table_name, alias)` (tables.py:65-69, 104-116). -/
def mkTable (name alias : Obj) : R Table := do
  checkType [.str] name
  checkType [.none, .str] alias
  .ok ⟨name, alias, []⟩

/-- `Tables.set` (tables.py:171-181): false arguments are dropped first. -/
def tablesSet (ts : List Table) (a : Args) : Upd (List Table) :=
  if kwSelf a then (ts, some .typeError)
  else withR ts (parseArgs S nameOpts { a with pos := a.pos.filter Obj.truthy }) fun bs =>
    forUpd (fun ts b => withR ts (mkTable (pairOf b).1 (pairOf b).2) fun t =>
      appendUnique (tableEq cx S) ts t) ts bs

/-- `Order.sort` setter (order.py:46-54): is the order descending? -/
def orderSort (v : Obj) : R Bool := do
  checkType [.str, .int, .none] v
  match v with
  | .none => .ok false
  | .str s =>
    let u := cx.env.upper s
    if u = L!"ASC" then .ok false
    else if u = L!"DESC" then .ok true
    else .error .invalidArgument
  | _ => .error .attributeError

/-- `Order(column, sort)` (order.py:13-16, 37-54). -/
def mkOrder (col sort : Obj) : R Order := do
  checkType [.str, .int] col
  let d ← orderSort cx sort
  .ok ⟨col, d⟩

/-- Body of the loop of `Orders.order` (order.py:63-69): change the direction of the first order
with this column, or append. -/
def orderPut : List Order → Obj → Obj → R (List Order)
  | [], col, sort => do
    let o ← mkOrder cx col sort
    .ok [o]
  | o :: os, col, sort => do
    if ← S.eq o.col col then do
      let d ← orderSort cx sort
      .ok (⟨o.col, d⟩ :: os)
    else do
      let r ← orderPut os col sort
      .ok (o :: r)

/-- `Orders.order` (order.py:58-71), `OrderBy.order_by` (orderby.py:7-9), `GroupBy.group_by`
(groupby.py:9-11). -/
def ordersAdd (os : List Order) (a : Args) : Upd (List Order) :=
  if kwSelf a then (os, some .typeError)
  else withR os (parseArgs S nameOpts a) fun bs =>
    forUpd (fun os b => withR os (orderPut cx S os (pairOf b).1 (pairOf b).2) fun r => (r, none))
      os bs

/-- Types accepted as a column's value (values.py:41). -/
def valueTypes : List PyType := [.none, .str, .int, .float, .bytes, .decimal, .bool, .date]

/-- `Value(column, value)` (values.py:9-12, 31-43). -/
def mkValue (col v : Obj) : R Value := do
  checkType [.str] col
  checkType valueTypes v
  .ok (.value col v)

/-- `Values.set` (values.py:47-58). -/
def valuesSet (vs : List Value) (a : Args) : Upd (List Value) :=
  if kwSelf a then (vs, some .typeError)
  else match customArg a with
  | some o => (vs ++ [.item o], none)
  | none =>
    withR vs (parseArgs S pairOpts a) fun bs =>
      forUpd (fun vs b => withR vs (mkValue (pairOf b).1 (pairOf b).2) fun v =>
        appendUnique (valueEq cx S) vs v) vs bs

/-- `MultipleValues.add` (values.py:94-97). -/
def rowsAdd (rows : List (List Value)) (a : Args) : Upd (List (List Value)) :=
  match valuesSet cx S [] a with
  | (row, none) => (rows ++ [row], none)
  | (_, some e) => (rows, some e)

/-! ### Joins -/

/-- `Table.join` (tables.py:122-136): the join record. -/
def mkJoin (type : JoinType) (arg : Obj) : R Join := do
  match arg with
  | .list [n, a] | .tuple [n, a] => do
    let t ← mkTable n a
    .ok ⟨type, t.name, t.alias, []⟩
  | .dict [(n, a)] => do
    let t ← mkTable n a
    .ok ⟨type, t.name, t.alias, []⟩
  | .str s => .ok ⟨type, .str s, .none, []⟩
  | arg =>
    if arg.isSql then do
      let _ ← S.str arg      -- the message contains str(arg), tables.py:130
      .error .invalidArgument
    else .error .invalidArgument

/-- Change the last element of a non-empty list, `none` for an empty one. -/
def updateLast {α : Type} (f : α → Upd α) : List α → Option (Upd (List α))
  | [] => none
  | [x] => some ([(f x).1], (f x).2)
  | x :: y :: ys => (updateLast f (y :: ys)).map fun r => (x :: r.1, r.2)

/-- `Tables.join` and its variants (tables.py:187-207, 213-216): join the last table. -/
def tablesJoin (ts : List Table) (type : JoinType) (arg : Obj) : Upd (List Table) :=
  if type == .full && !cx.backend.supportsFullJoin then (ts, some .invalidQuery)
  else
    match updateLast (fun t => withR t (mkJoin S type arg) fun j =>
        ({ t with joins := t.joins ++ [j] }, none)) ts with
    | none => (ts, some .invalidQuery)
    | some r => r

/-- `Table.on` (tables.py:138-141). -/
def tableOn (t : Table) (a : Args) : Upd Table :=
  match updateLast (fun j : Join =>
      let r := condsWhere cx S true j.ons a
      ({ j with ons := r.1 }, r.2)) t.joins with
  | none => (t, some .invalidQuery)
  | some (js, e) => ({ t with joins := js }, e)

/-- `Tables.on` (tables.py:209-216). -/
def tablesOn (ts : List Table) (a : Args) : Upd (List Table) :=
  if kwSelf a then (ts, some .typeError)
  else match updateLast (fun t => tableOn cx S t a) ts with
  | none => (ts, some .invalidQuery)
  | some r => r

/-- The assignment `self._joins = …` made by `Table.__str__` (tables.py:71-90, 159-167). -/
def strTable (t : Table) : Upd Table :=
  match aliasedText cx S t.name t.alias with
  | .error e => (t, some e)
  | .ok _ =>
    if t.joins.isEmpty then (t, none)
    else match minimizeJoins cx S t.joins with
      | .error e => (t, some e)
      | .ok js =>
        ({ t with joins := js },
          match mapR (joinText cx S) js with
          | .error e => some e
          | .ok _ => none)

/-- The tables after `str` of the clause they form: rendering stops at the first exception. -/
def strTables : List Table → Upd (List Table)
  | [] => ([], none)
  | t :: ts =>
    match strTable cx S t with
    | (t', some e) => (t' :: ts, some e)
    | (t', none) =>
      let r := strTables ts
      (t' :: r.1, r.2)

end

/-! ### Limit, outfile, options -/

/-- `int(v)` for a value accepted by the type check: library objects raise `TypeError`. -/
def toInt : Obj → R Int
  | .int i => .ok i
  | _ => .error .typeError

/-- `Limit.offset` (limit.py:45-48). -/
def limitOffset (l : LimitS) (v : Obj) : Upd LimitS :=
  withR l (checkType [.none, .int] v) fun _ =>
    if v.truthy then withR l (toInt v) fun i => ({ l with offset := some i }, none)
    else ({ l with offset := none }, none)

/-- `Limit.limit` (limit.py:34-43). -/
def limitLimit (l : LimitS) (v off : Obj) : Upd LimitS :=
  withR l (checkType [.none, .int] v) fun _ =>
    if v.isNone then ({ limit := none, offset := none }, none)
    else withR l (toInt v) fun i =>
      let l' := { l with limit := some i }
      if off.isNone then (l', none) else limitOffset l' off

/-- The four setters of `IntoOutfile` (intooutfile.py:43-61). -/
inductive OutfileField where
  | file | fields | lines | enclosed
deriving DecidableEq, Repr

/-- A setter of `IntoOutfile` (intooutfile.py:43-61). -/
def outfileSet (o : Outfile) (f : OutfileField) (v : Obj) : Upd Outfile :=
  withR o (checkType [.str] v) fun _ =>
    match f with
    | .file => ({ o with file := some v }, none)
    | .fields => ({ o with fields := some v }, none)
    | .lines => ({ o with lines := some v }, none)
    | .enclosed => ({ o with enclosed := some v }, none)

/-- The eleven option methods of `Select` (select.py:202-244). -/
inductive SelOpt where
  | sqlCache | sqlNoCache | all | distinct | distinctrow | sqlSmallResult | sqlBigResult
  | sqlBufferResult | sqlCalcFoundRows | straightJoin | highPriority
deriving DecidableEq, Repr

/-- The option setters (selectoptions.py:46-77). -/
def SelectOptions.set (o : SelectOptions) (k : SelOpt) (allow : Bool) : SelectOptions :=
  match k with
  | .sqlCache => { o with sqlCache := if allow then .cache else .off }
  | .sqlNoCache => { o with sqlCache := if allow then .noCache else .off }
  | .all => { o with duplicated := if allow then .all else .off }
  | .distinct => { o with duplicated := if allow then .distinct else .off }
  | .distinctrow => { o with duplicated := if allow then .distinctrow else .off }
  | .sqlSmallResult => { o with sqlSmallResult := allow }
  | .sqlBigResult => { o with sqlBigResult := allow }
  | .sqlBufferResult => { o with sqlBufferResult := allow }
  | .sqlCalcFoundRows => { o with sqlCalcFoundRows := allow }
  | .straightJoin => { o with straightJoin := allow }
  | .highPriority => { o with highPriority := allow }

/-! ### Functions -/

/-- `avg(e)`, `count(e)`, … and `…_distinct(e)` (functions.py:47-93, `__init__.py:145-219`). -/
def mkFunc (f : Agg) (distinct : Bool) (e : Obj) : Obj :=
  match f with
  | .count => .func f distinct (if e.truthy then e else .str ['*'])
  | f => .func f distinct e

/-- `concat(*expr)` (functions.py:100-103): `is_set` of the columns is always true because of the
default `*`, so the check never fires. -/
def mkConcat (S : Sem) (es : List Obj) : R Obj :=
  match columnsAdd S [] { pos := es } with
  | (cs, none) => .ok (.concat cs)
  | (_, some e) => .error e

/-- `group_concat(*expr)` (functions.py:115-118, `__init__.py:222-228`). -/
def mkGroupConcat (S : Sem) (es : List Obj) : R Obj :=
  match columnsAdd S [] { pos := es } with
  | (cs, none) => .ok (.groupConcat cs [] .none)
  | (_, some e) => .error e

/-- `convert(expr, type_)` (functions.py:166-170, 179-192, `__init__.py:231-237`). -/
def mkConvert (cx : Ctx) (S : Sem) (e ty : Obj) : R Obj :=
  if ty.truthy then do
    let t ← forceText cx S ty
    .ok (.convert e (some (cx.env.upper t)))
  else .ok (.convert e none)

/-- `a | b`, `a & b` on `Select` and `Union` (select.py:75-95, union.py:48-97). -/
def mkUnion (a b : Obj) (all : Bool) : R Obj :=
  match a with
  | .select _ | .union .. => if b.isSql then .ok (.union a b all) else .error .invalidArgument
  | _ => .error .typeError

/-- `customsql(string)` (customsql.py:21-23). -/
def mkCustom (cx : Ctx) (S : Sem) (v : Obj) : R Obj := do
  let t ← forceText cx S v
  .ok (.custom t)

end SqlPuzzle
