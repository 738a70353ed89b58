import Verif.Model.HeapCalls
import Mathlib.Data.List.Forall2

/-!
Which value of the functional model an object in memory is.  The attributes are those assigned by the
constructors cited at `Lib`.
-/

namespace SqlPuzzle.Spec
open SqlPuzzle

/-- A part of a memory: which cell is at an address. -/
abbrev Mem := Nat → Cell → Prop

/-- The whole memory. -/
def cells (h : Heap) : Mem := fun p c => h[p]? = some c

/-- The memory without the objects in `W`. -/
def outside (W : Nat → Prop) (h : Heap) : Mem := fun p c => h[p]? = some c ∧ ¬ W p

/-- An immutable object as a value. -/
def _root_.SqlPuzzle.Atom.obj : Atom → Obj
  | .none => .none
  | .bool b => .bool b
  | .int i => .int i
  | .float f => .float f
  | .decimal d => .decimal d
  | .str s => .str s
  | .bytes b => .bytes b
  | .date d => .date d
  | .datetime d => .datetime d
  | .range xs => .range xs
  | .opaque i => .opaque i

/-- A part of a query. -/
inductive Part where
  | columns (cs : List Column)
  | conds (k : Lib) (cs : List Cond)          -- `Where`, `Having`
  | orders (k : Lib) (os : List Order)        -- `GroupBy`, `OrderBy`
  | tables (k : Lib) (ts : List Table)        -- `Tables`, `TablesForSelect`
  | values (k : Lib) (vs : List Value)        -- `Values`, `OnDuplicateKeyUpdate`
  | rows (rs : List (List Value))             -- `MultipleValues`
  | conflict (c : Option Str) (vs : List Value)
  | limit (l : LimitS)
  | outfile (o : Outfile)
  | options (kvs : List (Str × Str))          -- keys and values of the dictionary of options
  | flag (k : Lib) (b : Bool)                 -- `SelectForUpdate`, `InsertKeyword`

/-- What one value in memory can be. -/
inductive Thing where
  | obj (o : Obj)
  | opt (o : Option Obj)                      -- an attribute that is `None` or a value
  | conflict (c : Option Str)                 -- `''` or an `SqlReference`
  | column (c : Column)
  | order (o : Order)
  | cond (c : Cond)
  | value (v : Value)
  | row (vs : List Value)
  | join (j : Join)
  | table (t : Table)
  | part (p : Part)

/-- One value or the values of a list. -/
inductive Things where
  | one (x : Thing)
  | many (xs : List Thing)

/-- Keys and values of a dictionary in turn. -/
def flatPairs (kvs : List (Obj × Obj)) : List Thing := kvs.flatMap fun kv => [.obj kv.1, .obj kv.2]

/-- Keys and values of a dictionary of strings in turn. -/
def strPairs (kvs : List (Str × Str)) : List Val :=
  kvs.flatMap fun kv => [.atom (.str kv.1), .atom (.str kv.2)]

/-- The dictionary `_queryparts` (query.py:16). -/
def named : List Str → List Val → List Val
  | n :: ns, v :: vs => .atom (.str n) :: v :: named ns vs
  | _, _ => []

def intAtom : Option Int → Atom
  | none => .none
  | some i => .int i

def sortAtom (desc : Bool) : Atom := .str (if desc then L!"DESC" else L!"ASC")

def onOffStr (b : Bool) : Str := if b then L!"on" else L!"off"

/-- selectoptions.py:8-44. -/
def optionPairs (o : SelectOptions) : List (Str × Str) :=
  [(L!"sql_cache", match o.sqlCache with | .off => L!"off" | .cache => L!"cache" | .noCache => L!"no_cache"),
   (L!"duplicated", match o.duplicated with
     | .off => L!"off" | .all => L!"all" | .distinct => L!"distinct" | .distinctrow => L!"distinctrow"),
   (L!"sql_small_result", onOffStr o.sqlSmallResult), (L!"sql_big_result", onOffStr o.sqlBigResult),
   (L!"sql_buffer_result", onOffStr o.sqlBufferResult),
   (L!"sql_calc_found_rows", onOffStr o.sqlCalcFoundRows), (L!"straight_join", onOffStr o.straightJoin),
   (L!"high_priority", onOffStr o.highPriority)]

/-- The parts of a `Select` with their names, sorted (select.py:36-47, query.py:16). -/
def selectPartsOf (s : Select) : List (Str × Part) :=
  [(L!"columns", .columns s.columns), (L!"group_by", .orders .groupBy s.groupBy),
   (L!"having", .conds .having s.having), (L!"into_outfile", .outfile s.outfile),
   (L!"limit", .limit s.limit), (L!"order_by", .orders .orderBy s.orderBy),
   (L!"select_for_update", .flag .forUpdate s.forUpdate),
   (L!"select_options", .options (optionPairs s.opts)),
   (L!"tables", .tables .tablesForSelect s.tables), (L!"where", .conds .where_ s.where_)]

/-- insert.py:49-56. -/
def insertPartsOf (s : Insert) : List (Str × Part) :=
  [(L!"insert_options", .options [(L!"ignore", onOffStr s.ignore)]),
   (L!"keyword", .flag .insertKeyword s.isReplace),
   (L!"on_conflict_do_update", .conflict s.conflict s.onConflict),
   (L!"on_duplicate_key_update", .values .onDuplicate s.onDup),
   (L!"tables", .tables .tables s.tables), (L!"values", .rows s.rows)]

/-- update.py:31-36. -/
def updatePartsOf (s : Update) : List (Str × Part) :=
  [(L!"tables", .tables .tables s.tables),
   (L!"update_options", .options [(L!"ignore", onOffStr s.ignore)]),
   (L!"values", .values .values s.values), (L!"where", .conds .where_ s.where_)]

/-- delete.py:31-36. -/
def deletePartsOf (s : Delete) : List (Str × Part) :=
  [(L!"delete_options", .options [(L!"ignore", onOffStr s.ignore)]),
   (L!"references", .tables .tables s.references),
   (L!"tables", .tables .tables s.tables), (L!"where", .conds .where_ s.where_)]

/-- Class, parts, and the attribute that comes after them, of a query. -/
def queryParts : Obj → Option (Lib × List (Str × Part) × List Val)
  | .select s => some (.select, selectPartsOf s, [])
  | .insert s => some (.insert, insertPartsOf s, [])
  | .update s => some (.update, updatePartsOf s, [.atom (.bool s.allowAll)])
  | .delete s => some (.delete, deletePartsOf s, [.atom (.bool s.allowAll)])
  | _ => none

/-- In the memory `m` the values are these things.  Generators are left out, since reading them
changes them. -/
inductive Shows (m : Mem) : List Val → Things → Prop where
  | nil : Shows m [] (.many [])
  | cons {v vs x xs} (h1 : Shows m [v] (.one x)) (h2 : Shows m vs (.many xs)) :
      Shows m (v :: vs) (.many (x :: xs))
  -- Python values
  | atom (a) : Shows m [.atom a] (.one (.obj a.obj))
  | list {p xs os} (hp : m p ⟨.list, xs⟩) (hx : Shows m xs (.many (os.map .obj))) :
      Shows m [.ref p] (.one (.obj (.list os)))
  | tuple {p xs os} (hp : m p ⟨.tuple, xs⟩) (hx : Shows m xs (.many (os.map .obj))) :
      Shows m [.ref p] (.one (.obj (.tuple os)))
  | set {p xs os} (hp : m p ⟨.set, xs⟩) (hx : Shows m xs (.many (os.map .obj))) :
      Shows m [.ref p] (.one (.obj (.set os)))
  | frozenset {p xs os} (hp : m p ⟨.frozenset, xs⟩) (hx : Shows m xs (.many (os.map .obj))) :
      Shows m [.ref p] (.one (.obj (.frozenset os)))
  | dict {p xs kvs} (hp : m p ⟨.dict, xs⟩) (hx : Shows m xs (.many (flatPairs kvs))) :
      Shows m [.ref p] (.one (.obj (.dict kvs)))
  -- objects of the library
  | custom {p s} (hp : m p ⟨.lib .custom, [.atom (.str s)]⟩) : Shows m [.ref p] (.one (.obj (.custom s)))
  | sqlValue {p d v o} (hp : m p ⟨.lib .sqlValue, [d, v]⟩) (hv : Shows m [v] (.one (.obj o))) :
      Shows m [.ref p] (.one (.obj (.sqlValue o)))
  | sqlRef {p d v o} (hp : m p ⟨.lib .sqlReference, [d, v]⟩) (hv : Shows m [v] (.one (.obj o))) :
      Shows m [.ref p] (.one (.obj (.sqlRef o)))
  | rel {p k v o} (hp : m p ⟨.lib (.relation k), [v]⟩) (hv : Shows m [v] (.one (.obj o))) :
      Shows m [.ref p] (.one (.obj (.rel k o)))
  | conds {p l sep xs cs} (hp : m p ⟨.lib .conditions, [.ref l]⟩)
      (hl : m l ⟨.lib .listOfParts, sep :: xs⟩) (hx : Shows m xs (.many (cs.map .cond))) :
      Shows m [.ref p] (.one (.obj (.conds cs)))
  | cofc {p a b x y op} (hp : m p ⟨.lib .condsOfConds,
        [a, b, .atom (.str (match op with | .and => L!"AND" | .or => L!"OR"))]⟩)
      (ha : Shows m [a] (.one (.obj x))) (hb : Shows m [b] (.one (.obj y))) :
      Shows m [.ref p] (.one (.obj (.cofc x y op)))
  | not_ {p c l sep xs cs} (hp : m p ⟨.lib .not_, [.ref c]⟩) (hc : m c ⟨.lib .conditions, [.ref l]⟩)
      (hl : m l ⟨.lib .listOfParts, sep :: xs⟩) (hx : Shows m xs (.many (cs.map .cond))) :
      Shows m [.ref p] (.one (.obj (.not_ cs)))
  | func {p f d v o} (hp : m p ⟨.lib (.agg f), [v, .atom (.bool d)]⟩) (hv : Shows m [v] (.one (.obj o))) :
      Shows m [.ref p] (.one (.obj (.func f d o)))
  | concat {p c l sep xs cs} (hp : m p ⟨.lib .concat, [.ref c]⟩) (hc : m c ⟨.lib .columns, [.ref l]⟩)
      (hl : m l ⟨.lib .listOfParts, sep :: xs⟩) (hx : Shows m xs (.many (cs.map .column))) :
      Shows m [.ref p] (.one (.obj (.concat cs)))
  | groupConcat {p c l sep xs cs b l' sep' ys os v o} (hp : m p ⟨.lib .groupConcat, [.ref c, .ref b, v]⟩)
      (hc : m c ⟨.lib .columns, [.ref l]⟩) (hl : m l ⟨.lib .listOfParts, sep :: xs⟩)
      (hx : Shows m xs (.many (cs.map .column))) (hb : m b ⟨.lib .orderBy, [.ref l']⟩)
      (hl' : m l' ⟨.lib .listOfParts, sep' :: ys⟩) (hy : Shows m ys (.many (os.map .order)))
      (hv : Shows m [v] (.one (.obj o))) : Shows m [.ref p] (.one (.obj (.groupConcat cs os o)))
  | convert {p v o ty} (hp : m p ⟨.lib .convert, [v, .atom (match ty with | none => .none | some s => .str s)]⟩)
      (hv : Shows m [v] (.one (.obj o))) : Shows m [.ref p] (.one (.obj (.convert o ty)))
  | exists_ {p v o} (hp : m p ⟨.lib .exists_, [v]⟩) (hv : Shows m [v] (.one (.obj o))) :
      Shows m [.ref p] (.one (.obj (.exists_ o)))
  | union {p a b x y all} (hp : m p ⟨.lib .union,
        [a, b, .atom (.str (if all then L!"UNION ALL" else L!"UNION"))]⟩)
      (ha : Shows m [a] (.one (.obj x))) (hb : Shows m [b] (.one (.obj y))) :
      Shows m [.ref p] (.one (.obj (.union x y all)))
  | query {p d o k ps more refs} (ho : queryParts o = some (k, ps, more))
      (hp : m p ⟨.lib k, .ref d :: (refs ++ more)⟩) (hd : m d ⟨.dict, named (ps.map Prod.fst) refs⟩)
      (hx : Shows m refs (.many (ps.map fun q => .part q.2))) : Shows m [.ref p] (.one (.obj o))
  -- attributes
  | none : Shows m [.atom .none] (.one (.opt none))
  | some {v o} (hv : Shows m [v] (.one (.obj o))) (ho : o ≠ .none) : Shows m [v] (.one (.opt (some o)))
  | noConflict : Shows m [.atom (.str [])] (.one (.conflict none))
  | conflict {p d s} (hp : m p ⟨.lib .sqlReference, [d, .atom (.str s)]⟩) :
      Shows m [.ref p] (.one (.conflict (some s)))
  -- items of the lists of parts
  | column {p a b x y} (hp : m p ⟨.lib .column, [a, b]⟩) (ha : Shows m [a] (.one (.obj x)))
      (hb : Shows m [b] (.one (.obj y))) : Shows m [.ref p] (.one (.column ⟨x, y⟩))
  | order {p a x d} (hp : m p ⟨.lib .order, [a, .atom (sortAtom d)]⟩) (ha : Shows m [a] (.one (.obj x))) :
      Shows m [.ref p] (.one (.order ⟨x, d⟩))
  | cond {p on a r b k x y} (hp : m p ⟨.lib (if on then .onCondition else .condition), [a, .ref r]⟩)
      (hr : m r ⟨.lib (.relation k), [b]⟩) (ha : Shows m [a] (.one (.obj x)))
      (hb : Shows m [b] (.one (.obj y))) : Shows m [.ref p] (.one (.cond (.cond on x k y)))
  | condItem {v o} (hv : Shows m [v] (.one (.obj o))) : Shows m [v] (.one (.cond (.item o)))
  | value {p a b x y} (hp : m p ⟨.lib .value, [a, b]⟩) (ha : Shows m [a] (.one (.obj x)))
      (hb : Shows m [b] (.one (.obj y))) : Shows m [.ref p] (.one (.value (.value x y)))
  | valueItem {v o} (hv : Shows m [v] (.one (.obj o))) : Shows m [v] (.one (.value (.item o)))
  | row {p l sep xs vs} (hp : m p ⟨.lib .values, [.ref l]⟩) (hl : m l ⟨.lib .listOfParts, sep :: xs⟩)
      (hx : Shows m xs (.many (vs.map .value))) : Shows m [.ref p] (.one (.row vs))
  | join {p ty t a b js o l sep xs x y cs} (hp : m p ⟨.lib .join, [.atom (.int (JoinType.number ty)), .ref t, .ref o]⟩)
      (ht : m t ⟨.lib .table, [a, b, .ref js]⟩) (hj : m js ⟨.list, []⟩)
      (ha : Shows m [a] (.one (.obj x))) (hb : Shows m [b] (.one (.obj y)))
      (ho : m o ⟨.lib .onConditions, [.ref l]⟩) (hl : m l ⟨.lib .listOfParts, sep :: xs⟩)
      (hx : Shows m xs (.many (cs.map .cond))) : Shows m [.ref p] (.one (.join ⟨ty, x, y, cs⟩))
  | table {p a b js xs x y jo} (hp : m p ⟨.lib .table, [a, b, .ref js]⟩) (hj : m js ⟨.list, xs⟩)
      (ha : Shows m [a] (.one (.obj x))) (hb : Shows m [b] (.one (.obj y)))
      (hx : Shows m xs (.many (jo.map .join))) : Shows m [.ref p] (.one (.table ⟨x, y, jo⟩))
  -- parts of queries
  | columnsPart {p l sep xs cs} (hp : m p ⟨.lib .columns, [.ref l]⟩)
      (hl : m l ⟨.lib .listOfParts, sep :: xs⟩) (hx : Shows m xs (.many (cs.map .column))) :
      Shows m [.ref p] (.one (.part (.columns cs)))
  | condsPart {p k l sep xs cs} (hp : m p ⟨.lib k, [.ref l]⟩)
      (hl : m l ⟨.lib .listOfParts, sep :: xs⟩) (hx : Shows m xs (.many (cs.map .cond))) :
      Shows m [.ref p] (.one (.part (.conds k cs)))
  | ordersPart {p k l sep xs os} (hp : m p ⟨.lib k, [.ref l]⟩)
      (hl : m l ⟨.lib .listOfParts, sep :: xs⟩) (hx : Shows m xs (.many (os.map .order))) :
      Shows m [.ref p] (.one (.part (.orders k os)))
  | tablesPart {p k l sep xs ts} (hp : m p ⟨.lib k, [.ref l]⟩)
      (hl : m l ⟨.lib .listOfParts, sep :: xs⟩) (hx : Shows m xs (.many (ts.map .table))) :
      Shows m [.ref p] (.one (.part (.tables k ts)))
  | valuesPart {p k l sep xs vs} (hp : m p ⟨.lib k, [.ref l]⟩)
      (hl : m l ⟨.lib .listOfParts, sep :: xs⟩) (hx : Shows m xs (.many (vs.map .value))) :
      Shows m [.ref p] (.one (.part (.values k vs)))
  | rowsPart {p l sep xs rs} (hp : m p ⟨.lib .multipleValues, [.ref l]⟩)
      (hl : m l ⟨.lib .listOfParts, sep :: xs⟩) (hx : Shows m xs (.many (rs.map .row))) :
      Shows m [.ref p] (.one (.part (.rows rs)))
  | conflictPart {p l sep xs v c vs} (hp : m p ⟨.lib .onConflict, [.ref l, v]⟩)
      (hl : m l ⟨.lib .listOfParts, sep :: xs⟩) (hx : Shows m xs (.many (vs.map .value)))
      (hv : Shows m [v] (.one (.conflict c))) : Shows m [.ref p] (.one (.part (.conflict c vs)))
  | limitPart {p l} (hp : m p ⟨.lib .limit, [.atom (intAtom l.limit), .atom (intAtom l.offset)]⟩) :
      Shows m [.ref p] (.one (.part (.limit l)))
  | outfilePart {p a b c d o} (hp : m p ⟨.lib .outfile, [a, b, c, d]⟩)
      (ha : Shows m [a] (.one (.opt o.file))) (hb : Shows m [b] (.one (.opt o.fields)))
      (hc : Shows m [c] (.one (.opt o.lines))) (hd : Shows m [d] (.one (.opt o.enclosed))) :
      Shows m [.ref p] (.one (.part (.outfile o)))
  | optionsPart {p d kvs} (hp : m p ⟨.lib .options, [.ref d]⟩) (hd : m d ⟨.dict, strPairs kvs⟩) :
      Shows m [.ref p] (.one (.part (.options kvs)))
  | flagPart {p k b} (hp : m p ⟨.lib k, [.atom (.bool b)]⟩) :
      Shows m [.ref p] (.one (.part (.flag k b)))

/-- The value `v` is the thing `x`. -/
abbrev Is (m : Mem) (v : Val) (x : Thing) : Prop := Shows m [v] (.one x)

/-- The values `vs` are the things `xs`. -/
abbrev Are (m : Mem) (vs : List Val) (xs : List Thing) : Prop := Shows m vs (.many xs)

/-! ### The query that is called -/

/-- Values and things one by one, with the addresses each of them occupies. -/
inductive Each {α : Type} (P : Val → α → List Nat → Prop) : List Val → List α → List Nat → Prop where
  | nil : Each P [] [] []
  | cons {v vs x xs f fs} (h1 : P v x f) (h2 : Each P vs xs fs) : Each P (v :: vs) (x :: xs) (f ++ fs)

section
variable (h : Heap) (m : Mem)

/-- An order that belongs to the query. -/
inductive OwnOrder : Val → Order → List Nat → Prop where
  | mk {p a d x} (hp : h[p]? = some ⟨.lib .order, [a, .atom (sortAtom d)]⟩) (ha : Is m a (.obj x)) :
      OwnOrder (.ref p) ⟨x, d⟩ [p]

/-- A join that belongs to the query. -/
inductive OwnJoin : Val → Join → List Nat → Prop where
  | mk {p ty t a b js o l sep xs x y cs}
      (hp : h[p]? = some ⟨.lib .join, [.atom (.int (JoinType.number ty)), .ref t, .ref o]⟩)
      (ht : h[t]? = some ⟨.lib .table, [a, b, .ref js]⟩) (hj : h[js]? = some ⟨.list, []⟩)
      (ha : Is m a (.obj x)) (hb : Is m b (.obj y))
      (ho : h[o]? = some ⟨.lib .onConditions, [.ref l]⟩)
      (hl : h[l]? = some ⟨.lib .listOfParts, sep :: xs⟩) (hx : Are m xs (cs.map .cond)) :
      OwnJoin (.ref p) ⟨ty, x, y, cs⟩ [p, t, js, o, l]

/-- A table that belongs to the query. -/
inductive OwnTable : Val → Table → List Nat → Prop where
  | mk {p a b js xs x y jo fs} (hp : h[p]? = some ⟨.lib .table, [a, b, .ref js]⟩)
      (hj : h[js]? = some ⟨.list, xs⟩) (ha : Is m a (.obj x)) (hb : Is m b (.obj y))
      (hx : Each (OwnJoin h m) xs jo fs) : OwnTable (.ref p) ⟨x, y, jo⟩ (p :: js :: fs)

/-- A part that belongs to the query, with the addresses it occupies.  What it refers to besides is in
`m`. -/
inductive OwnPart : Val → Part → List Nat → Prop where
  | columns {p l sep xs cs} (hp : h[p]? = some ⟨.lib .columns, [.ref l]⟩)
      (hl : h[l]? = some ⟨.lib .listOfParts, sep :: xs⟩) (hx : Are m xs (cs.map .column)) :
      OwnPart (.ref p) (.columns cs) [p, l]
  | conds {p k l sep xs cs} (hp : h[p]? = some ⟨.lib k, [.ref l]⟩)
      (hl : h[l]? = some ⟨.lib .listOfParts, sep :: xs⟩) (hx : Are m xs (cs.map .cond)) :
      OwnPart (.ref p) (.conds k cs) [p, l]
  | orders {p k l sep xs os fs} (hp : h[p]? = some ⟨.lib k, [.ref l]⟩)
      (hl : h[l]? = some ⟨.lib .listOfParts, sep :: xs⟩) (hx : Each (OwnOrder h m) xs os fs) :
      OwnPart (.ref p) (.orders k os) (p :: l :: fs)
  | tables {p k l sep xs ts fs} (hp : h[p]? = some ⟨.lib k, [.ref l]⟩)
      (hl : h[l]? = some ⟨.lib .listOfParts, sep :: xs⟩) (hx : Each (OwnTable h m) xs ts fs) :
      OwnPart (.ref p) (.tables k ts) (p :: l :: fs)
  | values {p k l sep xs vs} (hp : h[p]? = some ⟨.lib k, [.ref l]⟩)
      (hl : h[l]? = some ⟨.lib .listOfParts, sep :: xs⟩) (hx : Are m xs (vs.map .value)) :
      OwnPart (.ref p) (.values k vs) [p, l]
  | rows {p l sep xs rs} (hp : h[p]? = some ⟨.lib .multipleValues, [.ref l]⟩)
      (hl : h[l]? = some ⟨.lib .listOfParts, sep :: xs⟩) (hx : Are m xs (rs.map .row)) :
      OwnPart (.ref p) (.rows rs) [p, l]
  | conflict {p l sep xs v c vs} (hp : h[p]? = some ⟨.lib .onConflict, [.ref l, v]⟩)
      (hl : h[l]? = some ⟨.lib .listOfParts, sep :: xs⟩) (hx : Are m xs (vs.map .value))
      (hv : Is m v (.conflict c)) : OwnPart (.ref p) (.conflict c vs) [p, l]
  | limit {p l} (hp : h[p]? = some ⟨.lib .limit, [.atom (intAtom l.limit), .atom (intAtom l.offset)]⟩) :
      OwnPart (.ref p) (.limit l) [p]
  | outfile {p a b c d o} (hp : h[p]? = some ⟨.lib .outfile, [a, b, c, d]⟩)
      (ha : Is m a (.opt o.file)) (hb : Is m b (.opt o.fields)) (hc : Is m c (.opt o.lines))
      (hd : Is m d (.opt o.enclosed)) : OwnPart (.ref p) (.outfile o) [p]
  | options {p d kvs} (hp : h[p]? = some ⟨.lib .options, [.ref d]⟩)
      (hd : h[d]? = some ⟨.dict, strPairs kvs⟩) : OwnPart (.ref p) (.options kvs) [p, d]
  | flag {p k b} (hp : h[p]? = some ⟨.lib k, [.atom (.bool b)]⟩) : OwnPart (.ref p) (.flag k b) [p]

end

/-- The object at `q` is the query `o`; it and its parts are at the addresses `own`, each there for one
purpose only; and what it was given - names, values, conditions, subqueries - does not refer to them. -/
structure Holds (h : Heap) (q : Nat) (o : Obj) (own : List Nat) : Prop where
  nodup : own.Nodup
  query : ∃ k ps more d refs fs, queryParts o = some (k, ps, more) ∧
    h[q]? = some ⟨.lib k, .ref d :: (refs ++ more)⟩ ∧ h[d]? = some ⟨.dict, named (ps.map Prod.fst) refs⟩ ∧
    Each (OwnPart h (outside (· ∈ own) h)) refs (ps.map Prod.snd) fs ∧ own = q :: d :: fs

/-- The arguments of a call are these values. -/
structure ArgsAre (m : Mem) (a : HArgs) (b : Args) : Prop where
  pos : Are m a.pos (b.pos.map .obj)
  names : a.kw.map Prod.fst = b.kw.map Prod.fst
  vals : Are m (a.kw.map Prod.snd) (b.kw.map fun p => .obj p.2)

/-- Pairs of values in memory are these pairs. -/
def PairsAre (m : Mem) : List (Val × Val) → List (Obj × Obj) → Prop :=
  List.Forall₂ fun a b => Is m a.1 (.obj b.1) ∧ Is m a.2 (.obj b.2)

/-- Comparison, rendering and sorting of objects in memory do what the functional model says about the
values, and change nothing.  (That rendering minimises joins in place is left out.) -/
structure Faithful (T : Runtime) (cx : Ctx) (S : Sem) : Prop where
  obj : ∀ h a b x y, Is (cells h) a (.obj x) → Is (cells h) b (.obj y) → T.eq a b h = (h, S.eq x y)
  cond : ∀ h a b x y, Is (cells h) a (.cond x) → Is (cells h) b (.cond y) → T.eq a b h = (h, condEq cx S x y)
  value : ∀ h a b x y, Is (cells h) a (.value x) → Is (cells h) b (.value y) →
    T.eq a b h = (h, valueEq cx S x y)
  column : ∀ h a b x y, Is (cells h) a (.column x) → Is (cells h) b (.column y) →
    T.eq a b h = (h, columnEq S x y)
  table : ∀ h a b x y, Is (cells h) a (.table x) → Is (cells h) b (.table y) →
    T.eq a b h = (h, tableEq cx S x y)
  str : ∀ h a x, Is (cells h) a (.obj x) → x.isSql = true → T.str a h = (h, S.str x)
  print : ∀ h a x, Is (cells h) a (.obj x) → x.isSql = false → ∃ t, T.str a h = (h, .ok t)
  sort : ∀ h m kvs ps, (∀ p c, m p c → cells h p c) → PairsAre m kvs ps →
    match sortItems S ps with
    | .ok r => ∃ s, T.sort kvs h = (h, .ok s) ∧ PairsAre m s r
    | .error e => T.sort kvs h = (h, .error e)

end SqlPuzzle.Spec
