import Verif.Model.Heap
import Verif.Model.Queries

/-!
The methods of queries and function objects as programs on memory, where lists, dictionaries and
queries have identity: which objects they read, create and change.

`Model/Parts.lean` and `Model/Queries.lean` model the same methods on values.
-/

namespace SqlPuzzle

/-- A program on memory: the memory afterwards, and the result or the exception. -/
abbrev HM (α : Type) := Heap → Heap × R α

namespace HM

def ret {α : Type} (a : α) : HM α := fun h => (h, .ok a)
def raise {α : Type} (e : Err) : HM α := fun h => (h, .error e)

/-- First `m`, then `f`, unless `m` raises. -/
def andThen {α β : Type} (m : HM α) (f : α → HM β) : HM β := fun h =>
  match m h with
  | (h', .ok a) => f a h'
  | (h', .error e) => (h', .error e)

instance : Monad HM where
  pure := ret
  bind := andThen

/-- A computation that does not look at memory. -/
def ofR {α : Type} (r : R α) : HM α := fun h => (h, r)

/-- A computation that only reads memory. -/
def reads {α : Type} (f : Heap → R α) : HM α := fun h => (h, f h)

/-- A new object. -/
def alloc (c : Cls) (fields : List Val) : HM Nat := fun h => (h ++ [⟨c, fields⟩], .ok h.length)

/-- Change of the contents of an object. -/
def modify (p : Nat) (f : List Val → List Val) : HM Unit := fun h =>
  match h[p]? with
  | none => (h, .error .unmodelled)
  | some c => (h.set p ⟨c.cls, f c.fields⟩, .ok ())

/-- `for x in xs: f(x)`. -/
def each {α : Type} (f : α → HM Unit) : List α → HM Unit
  | [] => ret ()
  | x :: xs => andThen (f x) fun _ => each f xs

/-- `any(f(x) for x in xs)`. -/
def some? {α : Type} (f : α → HM Bool) : List α → HM Bool
  | [] => ret false
  | x :: xs => andThen (f x) fun b => if b then ret true else some? f xs

end HM

/-- Comparison, conversion to text and sorting of objects, which call `__eq__`, `__str__` and `__lt__`
of the objects involved.  The methods below are modelled for every such behaviour; the theorems
assume of it what is said there. -/
structure Runtime where
  eq : Val → Val → HM Bool
  str : Val → HM Str
  sort : List (Val × Val) → HM (List (Val × Val))

/-- The cell at an address. -/
def cellAt (h : Heap) (p : Nat) : R Cell :=
  match h[p]? with
  | some c => .ok c
  | none => .error .unmodelled

/-- Which attributes of an object of the library hold objects made by and for it alone: the parts of a
query, the list of a part, the dictionary of options, the joins of a table, table and conditions of a
join, columns and orders of a function. -/
def Lib.keeps : Lib → Nat → Bool
  | .select, _ | .insert, _ | .update, _ | .delete, _ => true
  | .columns, 0 | .conditions, 0 | .where_, 0 | .having, 0 | .onConditions, 0 | .values, 0
  | .multipleValues, 0 | .onDuplicate, 0 | .onConflict, 0 | .tables, 0 | .tablesForSelect, 0
  | .groupBy, 0 | .orderBy, 0 | .options, 0 => true
  | .table, 2 | .join, 1 | .join, 2 => true
  | .groupConcat, 0 | .groupConcat, 1 | .concat, 0 | .not_, 0 => true
  | _, _ => false

/-- The attribute number `i` of the object at `p`, which must be one of those. -/
def keptAt (h : Heap) (p i : Nat) : R Nat :=
  match h[p]? with
  | some ⟨.lib k, xs⟩ =>
    if k.keeps i then
      match xs[i]? with
      | some (.ref b) => .ok b
      | _ => .error .unmodelled
    else .error .unmodelled
  | _ => .error .unmodelled

/-- Is there an object of the class `k` at `p`? -/
def isLib (h : Heap) (p : Nat) (k : Lib) : Bool :=
  match h[p]? with
  | some ⟨.lib c, _⟩ => decide (c = k)
  | _ => false

/-- A value of the functional model with the same type and length, for the tests `isinstance(v, …)`,
`hasattr(v, 'tosql')` and `bool(v)` (`_common/utils.py:14-32`). -/
def shallow (h : Heap) : Val → Obj
  | .atom .none => .none
  | .atom (.bool b) => .bool b
  | .atom (.int i) => .int i
  | .atom (.float f) => .float f
  | .atom (.decimal d) => .decimal d
  | .atom (.str s) => .str s
  | .atom (.bytes b) => .bytes b
  | .atom (.date d) => .date d
  | .atom (.datetime d) => .datetime d
  | .atom (.range xs) => .range xs
  | .atom (.opaque i) => .opaque i
  | .ref p =>
    match h[p]? with
    | none => .opaque 0
    | some ⟨c, xs⟩ =>
      let ys : List Obj := xs.map fun _ => .none
      match c with
      | .list => .list ys
      | .tuple => .tuple ys
      | .set => .set ys
      | .frozenset => .frozenset ys
      | .gen => .gen ys
      | .dict => .dict (ys.map fun _ => (.none, .none))
      | .method => .opaque 0
      | .lib .join => .dict [(.none, .none)]
      | .lib .insertKeyword => .opaque 0
      | .lib .conditions => .conds []
      | .lib .condsOfConds => .cofc .none .none .and
      | .lib _ => .custom []

/-- Consecutive fields of a dictionary as pairs. -/
def pairUp : List Val → List (Val × Val)
  | k :: v :: r => (k, v) :: pairUp r
  | _ => []

/-- Arguments of a call. -/
structure HArgs where
  pos : List Val := []
  kw : List (Str × Val) := []

section
open HM
variable (T : Runtime)

/-! ### Arguments: `argsparser.py` -/

/-- `ParserInput.list` (argsparser.py:62-66, 76-78). -/
def hAsList (h : Heap) : List Val → Option (List Val)
  | [.ref p] =>
    match h[p]? with
    | some ⟨.list, xs⟩ | some ⟨.tuple, xs⟩ => some xs
    | _ => none
  | _ => none

/-- `ParserInput.dictionary` (argsparser.py:80-82). -/
def hAsDict (h : Heap) : List Val → Option (List (Val × Val))
  | [.ref p] =>
    match h[p]? with
    | some ⟨.dict, xs⟩ => some (pairUp xs)
    | _ => none
  | _ => none

/-- `ParserInput.is_args` (argsparser.py:88-90). -/
def hIsArgs (h : Heap) : List Val → Bool
  | [] => false
  | a :: _ => !(shallow h a).isListTuple

/-- `_create_batch` (argsparser.py:138-146). -/
def hCreateBatch (o : ParseOpts) (vs : List Val) : R (List Val) :=
  if o.maxItems < vs.length then .error .invalidArgument
  else .ok (vs ++ List.replicate (o.maxItems - vs.length) (.atom .none))

/-- `_parse_list` (argsparser.py:125-132). -/
def hParseList (h : Heap) (o : ParseOpts) (xs : List Val) : R (List (List Val)) :=
  mapR (fun x => match hAsList h [x] with
    | some ys => hCreateBatch o ys
    | none => if o.minItems = 1 then hCreateBatch o [x] else .error .invalidArgument) xs

/-- First half of `Parser.parse` (argsparser.py:103-114). -/
def hParsePositional (h : Heap) (o : ParseOpts) (pos : List Val) : R (List (List Val)) :=
  if 1 < o.minItems && hIsArgs h pos && (o.minItems ≤ pos.length && pos.length ≤ o.maxItems) then do
    let b ← hCreateBatch o pos
    .ok [b]
  else
    match o.allowList, hAsList h pos with
    | true, some xs => hParseList h o xs
    | _, _ =>
      if (hAsDict h pos).isNone && !pos.isEmpty then hParseList h o pos
      else .ok []

/-- `_parse_dictionary` (argsparser.py:121-123). -/
def hParseDict (o : ParseOpts) (kvs : List (Val × Val)) : HM (List (List Val)) := do
  let items ← T.sort kvs
  ofR (mapR (fun kv => hCreateBatch o [kv.1, kv.2]) items)

/-- Second half of `Parser.parse` (argsparser.py:116-119). -/
def hParseKeyed (o : ParseOpts) (a : HArgs) : HM (List (List Val)) := do
  let d ← reads fun h => .ok (hAsDict h a.pos)
  match d with
  | some kvs => if o.allowDict then hParseDict T o kvs else raise .invalidArgument
  | none =>
    if a.kw.isEmpty then ret []
    else if o.allowDict then hParseDict T o (a.kw.map fun p => (.atom (.str p.1), p.2))
    else raise .invalidArgument

/-- `parse_args(options, *args, **kwds)` (argsparser.py:7-42). -/
def hParseArgs (o : ParseOpts) (a : HArgs) : HM (List (List Val)) :=
  if a.kw.any (fun p => p.1 == L!"options") then raise .typeError
  else do
    let xs ← reads fun h => hParsePositional h o a.pos
    let ys ← hParseKeyed T o a
    ret (xs ++ ys)

/-- The two columns of a parsed batch. -/
def hPairOf : List Val → Val × Val
  | x :: y :: _ => (x, y)
  | [x] => (x, .atom .none)
  | [] => (.atom .none, .atom .none)

/-- A keyword argument named `self` collides with the receiver. -/
def hKwSelf (a : HArgs) : Bool := a.kw.any fun p => p.1 == L!"self"

/-- `check_type_decorator` (`_common/utils.py:18-32`). -/
def hCheck (ts : List PyType) (v : Val) : HM Unit := reads fun h => checkType ts (shallow h v)

/-! ### Lists of parts -/

/-- The items of a `ListOfQueryParts` (queryparts.py:83-86). -/
def hItems (l : Nat) : HM (List Val) := reads fun h => do
  let c ← cellAt h l
  .ok (c.fields.drop 1)

/-- `list.append` (queryparts.py:79-80, 88-91). -/
def hPush (l : Nat) (v : Val) : HM Unit := modify l fun xs => xs ++ [v]

/-- `QueryParts.append_unique_part` (queryparts.py:75-77, 53-57). -/
def hAppendUnique (l : Nat) (v : Val) : HM Unit := do
  let xs ← hItems l
  let found ← some? (fun x => T.eq x v) xs
  if found then ret () else hPush l v

/-- `append_custom_sql_decorator` (queryparts.py:10-17). -/
def hCustomArg (h : Heap) (a : HArgs) : Option Val :=
  match a.kw, a.pos with
  | [], [v] => if (shallow h v).isSql then some v else none
  | _, _ => none

/-! ### Conditions -/

/-- `list(value)` (relations.py:185-186): items of an iterable; a generator is exhausted. -/
def hIterate (v : Val) : HM (Option (List Val)) := fun h =>
  match v with
  | .atom (.range xs) => (h, .ok (some (xs.map fun i => .atom (.int i))))
  | .atom (.str s) => (h, .ok (some (s.map fun c => .atom (.str [c]))))
  | .atom (.bytes bs) => (h, .ok (some (bs.map fun b => .atom (.int (Int.ofNat b.toNat)))))
  | .atom _ => (h, .ok none)
  | .ref p =>
    match h[p]? with
    | some ⟨.list, xs⟩ | some ⟨.tuple, xs⟩ | some ⟨.set, xs⟩ | some ⟨.frozenset, xs⟩ =>
      (h, .ok (some xs))
    | some ⟨.dict, xs⟩ => (h, .ok (some ((pairUp xs).map Prod.fst)))
    | some ⟨.gen, xs⟩ => (h.set p ⟨.gen, []⟩, .ok (some xs))
    | _ => (h, .ok none)

/-- The value a relation stores (relations.py:26-29, 175-188). -/
def hRelValue (k : Rel) (v : Val) : HM Val :=
  if k.isIn then do
    let xs ← hIterate v
    match xs with
    | some ys => do
      let l ← alloc .list ys
      ret (.ref l)
    | none => ret v
  else ret v

/-- A relation object for one argument. -/
def hMkRel (k : Rel) (v : Val) : HM Val := do
  let w ← hRelValue k v
  hCheck k.allowedTypes w
  let r ← alloc (.lib (.relation k)) [w]
  ret (.ref r)

/-- Is it a relation object, and if not, which is the default relation (conditions.py:29-42, 78-81)? -/
def hDefaultRel (h : Heap) (v : Val) : Option Rel :=
  match v with
  | .ref p =>
    match h[p]? with
    | some ⟨.lib (.relation _), _⟩ => none
    | some ⟨.lib .sqlValue, [_, w]⟩ | some ⟨.lib .sqlReference, [_, w]⟩ =>
      some (defaultRel (shallow h w))
    | _ => some (defaultRel (shallow h v))
  | v => some (defaultRel (shallow h v))

/-- `Condition(column_name, value)` / `OnCondition(...)` (conditions.py:44-47, 60-81). -/
def hMkCond (on : Bool) (col v : Val) : HM Val := do
  hCheck [.str] col
  hCheck condTypes v
  let k ← reads fun h => .ok (hDefaultRel h v)
  let r ← (match k with
    | none => ret v
    | some k => hMkRel k v)
  let c ← alloc (.lib (if on then .onCondition else .condition)) [col, r]
  ret (.ref c)

/-- `Conditions.where` (conditions.py:101-116) on the part list at `l`. -/
def hWhere (on : Bool) (l : Nat) (a : HArgs) : HM Unit :=
  if hKwSelf a then raise .typeError
  else do
    let o ← reads fun h => .ok (hCustomArg h a)
    match o with
    | some v => hPush l v
    | none => do
      let all ← reads fun h => .ok (!a.pos.isEmpty && a.pos.all fun v => (shallow h v).isConds)
      if all then each (fun v => hAppendUnique T l v) a.pos
      else do
        let bs ← hParseArgs T pairOpts a
        each (fun b => do
          let c ← hMkCond on (hPairOf b).1 (hPairOf b).2
          hAppendUnique T l c) bs

/-! ### Columns, tables, orders, values -/

/-- `Columns.columns` (columns.py:7-11, 32-44, 50-60). -/
def hColumns (l : Nat) (a : HArgs) : HM Unit :=
  if hKwSelf a then raise .typeError
  else do
    let bs ← hParseArgs T nameOpts a
    each (fun b => do
      hCheck [.str, .int] (hPairOf b).1
      hCheck [.str, .none] (hPairOf b).2
      let c ← alloc (.lib .column) [(hPairOf b).1, (hPairOf b).2]
      hAppendUnique T l (.ref c)) bs

/-- `Table(table_name, alias)` (tables.py:65-69, 104-116). -/
def hMkTable (name alias : Val) : HM Nat := do
  hCheck [.str] name
  hCheck [.none, .str] alias
  let js ← alloc .list []
  alloc (.lib .table) [name, alias, .ref js]

/-- `Tables.set` (tables.py:171-181). -/
def hTables (l : Nat) (a : HArgs) : HM Unit :=
  if hKwSelf a then raise .typeError
  else do
    let pos ← reads fun h => .ok (a.pos.filter fun v => (shallow h v).truthy)
    let bs ← hParseArgs T nameOpts { a with pos := pos }
    each (fun b => do
      let t ← hMkTable (hPairOf b).1 (hPairOf b).2
      hAppendUnique T l (.ref t)) bs

/-- `Order.sort` setter (order.py:46-54): the direction to store. -/
def hSort (cx : Ctx) (v : Val) : HM Val := reads fun h => do
  let d ← orderSort cx (shallow h v)
  .ok (.atom (.str (if d then L!"DESC" else L!"ASC")))

/-- `Orders._find_order_by_column_name` (order.py:73-77). -/
def hFindOrder (col : Val) : List Val → HM (Option Nat)
  | [] => ret none
  | .ref o :: os => do
    let c ← reads fun h => cellAt h o
    if c.cls = .lib .order then do
      let same ← T.eq (c.fields.headD (.atom .none)) col
      if same then ret (some o) else hFindOrder col os
    else raise .unmodelled
  | .atom _ :: _ => raise .unmodelled

/-- Body of the loop of `Orders.order` (order.py:63-69). -/
def hOrderPut (cx : Ctx) (l : Nat) (col sort : Val) : HM Unit := do
  let xs ← hItems l
  let o ← hFindOrder T col xs
  match o with
  | none => do
    hCheck [.str, .int] col
    let d ← hSort cx sort
    let o ← alloc (.lib .order) [col, d]
    hPush l (.ref o)
  | some o => do
    let d ← hSort cx sort
    modify o fun xs => [xs.headD (.atom .none), d]

/-- `Orders.order` (order.py:58-71). -/
def hOrders (cx : Ctx) (l : Nat) (a : HArgs) : HM Unit :=
  if hKwSelf a then raise .typeError
  else do
    let bs ← hParseArgs T nameOpts a
    each (fun b => hOrderPut T cx l (hPairOf b).1 (hPairOf b).2) bs

/-- `Values.set` (values.py:9-12, 31-43, 47-58). -/
def hValues (l : Nat) (a : HArgs) : HM Unit :=
  if hKwSelf a then raise .typeError
  else do
    let o ← reads fun h => .ok (hCustomArg h a)
    match o with
    | some v => hPush l v
    | none => do
      let bs ← hParseArgs T pairOpts a
      each (fun b => do
        hCheck [.str] (hPairOf b).1
        hCheck valueTypes (hPairOf b).2
        let v ← alloc (.lib .value) [(hPairOf b).1, (hPairOf b).2]
        hAppendUnique T l (.ref v)) bs

/-- A new part with an empty list (queryparts.py:42-44, 84-86): the addresses of the part and of the
list. -/
def hNewPart (c : Lib) (sep : Str) (more : List Val) : HM (Nat × Nat) := do
  let l ← alloc (.lib .listOfParts) [.atom (.str sep)]
  let p ← alloc (.lib c) (.ref l :: more)
  ret (p, l)

/-- `MultipleValues.add` (values.py:94-97). -/
def hRows (l : Nat) (a : HArgs) : HM Unit := do
  let (p, row) ← hNewPart .values L!", " []
  hValues T row a
  hPush l (.ref p)

/-! ### Joins -/

/-- `Table(*arg)` for the argument of a join (tables.py:122-130): a dictionary of one entry loses
it. -/
def hJoinTable (arg : Val) : HM Nat := fun h =>
  match arg with
  | .atom (.str s) => hMkTable (.atom (.str s)) (.atom .none) h
  | .ref p =>
    match h[p]? with
    | some ⟨.list, [n, a]⟩ | some ⟨.tuple, [n, a]⟩ => hMkTable n a h
    | some ⟨.dict, [n, a]⟩ => (andThen (modify p fun _ => []) fun _ => hMkTable n a) h
    | _ => (andThen (T.str arg) fun _ => raise .invalidArgument) h
  | _ => (andThen (T.str arg) fun _ => raise .invalidArgument) h

/-- The number of a join type (tables.py:11-14). -/
def JoinType.number : JoinType → Int
  | .inner => 0
  | .left => 1
  | .right => 2
  | .full => 3

/-- `Table.join` on the list of joins at `js` (tables.py:122-136). -/
def hJoin (js : Nat) (type : JoinType) (arg : Val) : HM Unit := do
  let t ← hJoinTable T arg
  let (ons, _) ← hNewPart .onConditions L!" AND " []
  let j ← alloc (.lib .join) [.atom (.int type.number), .ref t, .ref ons]
  modify js fun xs => xs ++ [.ref j]

/-- The list of the part at `p`. -/
def listAt (h : Heap) (p : Nat) : R Nat :=
  match keptAt h p 0 with
  | .error e => .error e
  | .ok l =>
    match h[l]? with
    | some ⟨.lib .listOfParts, _⟩ => .ok l
    | _ => .error .unmodelled

/-- `Tables.last_table` (tables.py:213-216) of the part at `p`. -/
def lastTable (h : Heap) (p : Nat) : R Nat := do
  let l ← listAt h p
  let c ← cellAt h l
  match (c.fields.drop 1).getLast? with
  | none => .error .invalidQuery
  | some (.ref t) => if isLib h t .table then .ok t else .error .unmodelled
  | some (.atom _) => .error .unmodelled

/-- The list of joins of the table at `t`. -/
def joinsAt (h : Heap) (t : Nat) : R Nat :=
  match keptAt h t 2 with
  | .error e => .error e
  | .ok js =>
    match h[js]? with
    | some ⟨.list, _⟩ => .ok js
    | _ => .error .unmodelled

/-- The list of conditions of the last join (tables.py:138-141). -/
def lastOns (h : Heap) (p : Nat) : R Nat := do
  let t ← lastTable h p
  let js ← joinsAt h t
  let c ← cellAt h js
  match c.fields.getLast? with
  | none => .error .invalidQuery
  | some (.ref j) =>
    if isLib h j .join then do
      let ons ← keptAt h j 2
      listAt h ons
    else .error .unmodelled
  | some (.atom _) => .error .unmodelled

/-- `Tables.join` and its variants (tables.py:187-207). -/
def hTablesJoin (cx : Ctx) (p : Nat) (type : JoinType) (arg : Val) : HM Unit := fun h =>
  if type == .full && !cx.backend.supportsFullJoin then (h, .error .invalidQuery)
  else match lastTable h p with
    | .error e => (h, .error e)
    | .ok t =>
      match joinsAt h t with
      | .error e => (h, .error e)
      | .ok js => hJoin T js type arg h

/-- `Tables.on` (tables.py:209-211). -/
def hTablesOn (p : Nat) (a : HArgs) : HM Unit := fun h =>
  if hKwSelf a then (h, .error .typeError)
  else match lastOns h p with
    | .error e => (h, .error e)
    | .ok l => hWhere T true l a h

/-! ### Other parts -/

/-- Assignment to the attribute number `i`. -/
def hSetAttr (p i : Nat) (v : Val) : HM Unit := modify p fun xs => xs.set i v

/-- The value under a key of the dictionary of options is replaced (selectoptions.py:46-77). -/
def setKey (k : Str) (v : Val) : List Val → List Val
  | .atom (.str s) :: w :: r =>
    if s = k then .atom (.str s) :: v :: r else .atom (.str s) :: w :: setKey k v r
  | r => r

/-- An option method: `self._options[key] = value`. -/
def hOption (p : Nat) (key value : Str) : HM Unit := fun h =>
  match keptAt h p 0 with
  | .error e => (h, .error e)
  | .ok d => modify d (setKey key (.atom (.str value))) h

/-- `Limit.offset` (limit.py:45-48). -/
def hOffset (p : Nat) (v : Val) : HM Unit := do
  hCheck [.none, .int] v
  let o ← reads fun h => .ok (shallow h v)
  if o.truthy then do
    let i ← ofR (toInt o)
    hSetAttr p 1 (.atom (.int i))
  else hSetAttr p 1 (.atom .none)

/-- `Limit.limit` (limit.py:34-43). -/
def hLimit (p : Nat) (v off : Val) : HM Unit := do
  hCheck [.none, .int] v
  let o ← reads fun h => .ok (shallow h v)
  if o.isNone then do
    hSetAttr p 0 (.atom .none)
    hSetAttr p 1 (.atom .none)
  else do
    let i ← ofR (toInt o)
    hSetAttr p 0 (.atom (.int i))
    let f ← reads fun h => .ok (shallow h off)
    if f.isNone then ret () else hOffset p off

/-- A setter of `IntoOutfile` (intooutfile.py:43-61). -/
def hOutfile (p i : Nat) (v : Val) : HM Unit := do
  hCheck [.str] v
  hSetAttr p i v

/-- `SqlReference(value)` (sqlvalue.py:147-156); one entry of `_map` stands for all of them. -/
def hMkRef (v : Val) : HM Nat := do
  let p ← alloc (.lib .sqlReference) [.atom .none, v]
  let m ← alloc .method [.ref p]
  let d ← alloc .dict [.atom (.opaque 0), .ref m]
  modify p fun _ => [.ref d, v]
  ret p

/-- `OnConflictDoUpdate.set` (onconflictdoupdate.py:17-25) on the part at `p` with the list `l`. -/
def hOnConflict (p l : Nat) (a : HArgs) : HM Unit :=
  if hKwSelf a then raise .typeError
  else match a.pos with
  | .atom (.str s) :: rest => do
    let r ← hMkRef (.atom (.str s))
    hSetAttr p 1 (.ref r)
    hValues T l { a with pos := rest }
  | _ => raise .invalidQuery

end

/-! ### Calls -/

/-- Methods of queries, of `Q` and of function objects. -/
inductive HCall where
  | columns (a : HArgs)
  | from_ (a : HArgs)
  | fromTable (table alias : Val)
  | join (type : JoinType) (arg : Val)
  | on (a : HArgs)
  | where_ (a : HArgs)
  | having (a : HArgs)
  | groupBy (a : HArgs)
  | orderBy (a : HArgs)
  | limit (limit offset : Val)
  | offset (offset : Val)
  | outfile (i : Nat) (v : Val)
  | option (key value : Str)
  | forUpdate (allow : Val)
  | into (table : Val)
  | values (a : HArgs)
  | onDuplicateKeyUpdate (a : HArgs)
  | ignore (allow : Val)
  | allowAll (allow : Bool)
  | table (t : Val)
  | set (a : HArgs)
  | delete (tables : List Val)
  | distinct (allow : Val)
  | separator (v : Val)
  | to (v : Val)
  | str
  | equals (other : Val)

/-- Number of the attribute that holds a part: attributes are set in the order of the sorted keys
(query.py:16-18) after `_queryparts`. -/
inductive Slot where
  | columns | groupBy | having | outfile | limit | orderBy | forUpdate | options | tables | where_
  | keyword | conflict | onDup | values | references
deriving DecidableEq

/-- select.py:36-47, insert.py:49-56, update.py:31-36, delete.py:31-36. -/
def slotOf : Lib → Slot → Option Nat
  | .select, .columns => some 1
  | .select, .groupBy => some 2
  | .select, .having => some 3
  | .select, .outfile => some 4
  | .select, .limit => some 5
  | .select, .orderBy => some 6
  | .select, .forUpdate => some 7
  | .select, .options => some 8
  | .select, .tables => some 9
  | .select, .where_ => some 10
  | .insert, .options => some 1
  | .insert, .keyword => some 2
  | .insert, .conflict => some 3
  | .insert, .onDup => some 4
  | .insert, .tables => some 5
  | .insert, .values => some 6
  | .update, .tables => some 1
  | .update, .options => some 2
  | .update, .values => some 3
  | .update, .where_ => some 4
  | .delete, .options => some 1
  | .delete, .references => some 2
  | .delete, .tables => some 3
  | .delete, .where_ => some 4
  | .groupConcat, .orderBy => some 1
  | _, _ => none

/-- The part of the object at `q` in a slot. -/
def partAt (h : Heap) (q : Nat) (s : Slot) : R Nat := do
  let c ← cellAt h q
  match c.cls with
  | .lib k =>
    match slotOf k s with
    | some i => keptAt h q i
    | none => .error .attributeError
  | _ => .error .attributeError

section
open HM
variable (T : Runtime)

/-- Run a program on a part. -/
def onPart (q : Nat) (s : Slot) (f : Nat → HM Unit) : HM Unit := fun h =>
  match partAt h q s with
  | .error e => (h, .error e)
  | .ok p => f p h

/-- Run a program on the list of a part. -/
def onList (q : Nat) (s : Slot) (f : Nat → HM Unit) : HM Unit := onPart q s fun p h =>
  match listAt h p with
  | .error e => (h, .error e)
  | .ok l => f l h

/-- The class of the library the object at `q` belongs to. -/
def libAt (h : Heap) (q : Nat) : Option Lib :=
  match h[q]? with
  | some ⟨.lib k, _⟩ => some k
  | _ => none

/-- Tables to which joins are added: select.py:111-137, update.py:94-113, delete.py:98-117. -/
def joinSlot : Lib → Option Slot
  | .select | .update => some .tables
  | .delete => some .references
  | _ => none

/-- Insert.on_duplicate_key_update (insert.py:70-84). -/
def hOnDuplicate (cx : Ctx) (q : Nat) (a : HArgs) : HM Unit :=
  if hKwSelf a then raise .typeError
  else do
    if cx.backend.supportsOnDuplicateKeyUpdate then onList q .onDup fun l => hValues T l a else ret ()
    if cx.backend.supportsOnConflictDoUpdate then
      onPart q .conflict fun p => onList q .conflict fun l => hOnConflict T p l a
    else ret ()
    if cx.backend.supportsReplaceInto then
      if !a.pos.isEmpty || !a.kw.isEmpty then raise .exception
      else onPart q .keyword fun p => hSetAttr p 0 (.atom (.bool true))
    else ret ()

/-- One call of a method of the object at `q`: select.py:97-248, insert.py:62-90, update.py:49-118,
delete.py:49-126, conditions.py:101-116, functions.py:52-54, 138-160, 179-192. -/
def hCall (cx : Ctx) (q : Nat) (call : HCall) : HM Unit := fun h =>
  match libAt h q with
  | none => (h, .error .attributeError)
  | some k =>
    match k, call with
    | .select, .columns a => onList q .columns (fun l => hColumns T l a) h
    | .select, .from_ a => onList q .tables (fun l => hTables T l a) h
    | .select, .fromTable t al =>
      onList q .tables (fun l => andThen (alloc .tuple [t, al]) fun p =>
        hTables T l { pos := [.ref p] }) h
    | .select, .having a => onList q .having (fun l => hWhere T false l a) h
    | .select, .groupBy a => onList q .groupBy (fun l => hOrders T cx l a) h
    | .select, .orderBy a => onList q .orderBy (fun l => hOrders T cx l a) h
    | .groupConcat, .orderBy a => onList q .orderBy (fun l => hOrders T cx l a) h
    | .select, .limit l o => onPart q .limit (fun p => hLimit p l o) h
    | .select, .offset o => onPart q .limit (fun p => hOffset p o) h
    | .select, .outfile i v => onPart q .outfile (fun p => hOutfile p i v) h
    | .select, .option key value => onPart q .options (fun p => hOption p key value) h
    | .select, .forUpdate v =>
      onPart q .forUpdate (fun p => hSetAttr p 0 (.atom (.bool (shallow h v).truthy))) h
    | .insert, .into t => onList q .tables (fun l => hTables T l { pos := [t] }) h
    | .insert, .values a =>
      if hKwSelf a then (h, .error .typeError) else onList q .values (fun l => hRows T l a) h
    | .insert, .onDuplicateKeyUpdate a => hOnDuplicate T cx q a h
    | .update, .table t => onList q .tables (fun l => hTables T l { pos := [t] }) h
    | .update, .set a => onList q .values (fun l => hValues T l a) h
    | .update, .allowAll b => hSetAttr q 5 (.atom (.bool b)) h
    | .delete, .allowAll b => hSetAttr q 5 (.atom (.bool b)) h
    | .delete, .delete ts => onList q .tables (fun l => hTables T l { pos := ts }) h
    | .delete, .from_ a => onList q .references (fun l => hTables T l a) h
    | .delete, .fromTable t al =>
      onList q .references (fun l => andThen (alloc .tuple [t, al]) fun p =>
        hTables T l { pos := [.ref p] }) h
    | .conditions, .where_ a =>
      (match listAt h q with
      | .error e => (h, .error e)
      | .ok l => hWhere T false l a h)
    | .agg _, .distinct v => hSetAttr q 1 (.atom (.bool (shallow h v).truthy)) h
    | .groupConcat, .separator v => hSetAttr q 2 v h
    | .convert, .to v => (do
        let t ← T.str v
        hSetAttr q 1 (.atom (.str (cx.env.upper t))) : HM Unit) h
    | _, .where_ a => onList q .where_ (fun l => hWhere T false l a) h
    | k, .join ty arg =>
      if k != .select && ty == .full then (h, .error .attributeError)
      else (match joinSlot k with
        | none => (h, .error .attributeError)
        | some s => onPart q s (fun p => hTablesJoin T cx p ty arg) h)
    | k, .on a =>
      (match joinSlot k with
      | none => (h, .error .attributeError)
      | some s => onPart q s (fun p => hTablesOn T p a) h)
    | k, .ignore v =>
      if k = .select then (h, .error .attributeError)
      else onPart q .options
        (fun p => hOption p L!"ignore" (if (shallow h v).truthy then L!"on" else L!"off")) h
    | _, .str => (andThen (T.str (.ref q)) fun _ => ret ()) h
    | _, .equals v => (andThen (T.eq (.ref q) v) fun _ => ret ()) h
    | _, _ => (h, .error .attributeError)

end

end SqlPuzzle
