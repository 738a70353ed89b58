import Verif.Model.Base

/-!
The values that flow through the sqlpuzzle API: ordinary Python values and the library's own
objects.  Objects the user can only reach through a query (`Column`, `Order`, `Condition`, `Value`,
`Table`, the join records) are structures over the type `O` of values, so that `Obj` is one nested
inductive type.
-/

namespace SqlPuzzle

/-- Database backends.  `sqlpuzzle/_backends/__init__.py:9-16`. -/
inductive Backend where
  | sql | mysql | postgresql | sqlite
deriving DecidableEq, Repr

/-- IEEE double as Python sees it: `±m·2^e`, an infinity or a NaN. -/
inductive Flt where
  | fin (neg : Bool) (m : Nat) (e : Int)
  | inf (neg : Bool)
  | nan
deriving DecidableEq, Repr

/-- `decimal.Decimal`: `±c·10^e`, an infinity or a NaN. -/
inductive Dec where
  | fin (neg : Bool) (c : Nat) (e : Int)
  | inf (neg : Bool)
  | nan
deriving DecidableEq, Repr

/-- `datetime.date`. -/
structure DateV where
  year : Nat
  month : Nat
  day : Nat
deriving DecidableEq, Repr

/-- UTC offset of an aware `datetime.datetime`. -/
structure TzV where
  neg : Bool
  hours : Nat
  minutes : Nat
  seconds : Nat
  micros : Nat
deriving DecidableEq, Repr

/-- `datetime.datetime`. -/
structure DateTimeV where
  date : DateV
  hour : Nat
  minute : Nat
  second : Nat
  micro : Nat
  tz : Option TzV
deriving DecidableEq, Repr

/-- Relation classes of `sqlpuzzle/relations.py:77-264`. -/
inductive Rel where
  | eq | ne | gt | ge | lt | le | like | notLike | regexp | in_ | notIn | is | isNot
deriving DecidableEq, Repr

/-- `BinaryOperationMixin.AND` / `.OR`, conditions.py:14-15. -/
inductive BoolOp where
  | and | or
deriving DecidableEq, Repr

/-- Aggregate functions, `_queryparts/functions.py:66-93`. -/
inductive Agg where
  | avg | count | max | min | sum
deriving DecidableEq, Repr

/-- Join types, `_queryparts/tables.py:11-21`. -/
inductive JoinType where
  | inner | left | right | full
deriving DecidableEq, Repr

/-- The two non-`off` values of option `sql_cache`, selectoptions.py:9-13. -/
inductive CacheOpt where
  | off | cache | noCache
deriving DecidableEq, Repr

/-- Values of option `duplicated`, selectoptions.py:14-19. -/
inductive DupOpt where
  | off | all | distinct | distinctrow
deriving DecidableEq, Repr

/-- `SelectOptions._options`, selectoptions.py:8-44. -/
structure SelectOptions where
  sqlCache : CacheOpt := .off
  duplicated : DupOpt := .off
  sqlSmallResult : Bool := false
  sqlBigResult : Bool := false
  sqlBufferResult : Bool := false
  sqlCalcFoundRows : Bool := false
  straightJoin : Bool := false
  highPriority : Bool := false
deriving DecidableEq, Repr

/-- `Limit`, `_queryparts/limit.py:7-11`; its `__eq__` (limit.py:23-28) is `==` of the fields. -/
structure LimitS where
  limit : Option Int := none
  offset : Option Int := none
deriving DecidableEq, Repr

/-- `Column`, `_queryparts/columns.py:7-11`, read by the properties columns.py:28-40. -/
structure ColumnS (O : Type) where
  name : O
  alias : O

/-- `Order`, `_queryparts/order.py:12-16`, read by the properties order.py:33-44; `sort` is `ASC` or `DESC` after the setter (46-54). -/
structure OrderS (O : Type) where
  col : O
  desc : Bool

/-- An element of the part list of `Conditions`/`Where`/`Having`/`OnConditions`:
a `Condition` (`on = false`, conditions.py:28-90) or `OnCondition` (`on = true`, tables.py:24-57)
with its column, relation class and relation value; or any other SQL object appended as it is
(conditions.py:101-116, queryparts.py:10-17). -/
inductive CondPart (O : Type) where
  | cond (on : Bool) (col : O) (rel : Rel) (value : O)
  | item (o : O)

/-- An element of the part list of `Values`: a `Value` (values.py:8-43) or an SQL object appended
as it is (values.py:46-58, queryparts.py:10-17). -/
inductive ValuePart (O : Type) where
  | value (col : O) (val : O)
  | item (o : O)

/-- One entry of `Table._joins`, tables.py:132-136; the joined `Table` has no joins of its own. -/
structure JoinS (O : Type) where
  type : JoinType
  name : O
  alias : O
  ons : List (CondPart O)

/-- `Table`, tables.py:64-69, read by the properties tables.py:100-120. -/
structure TableS (O : Type) where
  name : O
  alias : O
  joins : List (JoinS O)

/-- `IntoOutfile`, intooutfile.py:7-18. -/
structure OutfileS (O : Type) where
  file : Option O := none
  fields : Option O := none
  lines : Option O := none
  enclosed : Option O := none

/-- `Select`, `_queries/select.py:36-56`. -/
structure SelectS (O : Type) where
  opts : SelectOptions := {}
  columns : List (ColumnS O) := []
  tables : List (TableS O) := []
  where_ : List (CondPart O) := []
  groupBy : List (OrderS O) := []
  having : List (CondPart O) := []
  orderBy : List (OrderS O) := []
  limit : LimitS := {}
  outfile : OutfileS O := {}
  forUpdate : Bool := false

/-- `Insert`, `_queries/insert.py:49-60`; `conflict` is `OnConflictDoUpdate._on_conflict`. -/
structure InsertS (O : Type) where
  isReplace : Bool := false
  ignore : Bool := false
  tables : List (TableS O) := []
  rows : List (List (ValuePart O)) := []
  onDup : List (ValuePart O) := []
  conflict : Option Str := none
  onConflict : List (ValuePart O) := []

/-- `Update`, `_queries/update.py:31-42`. -/
structure UpdateS (O : Type) where
  ignore : Bool := false
  tables : List (TableS O) := []
  values : List (ValuePart O) := []
  where_ : List (CondPart O) := []
  allowAll : Bool := false

/-- `Delete`, `_queries/delete.py:31-42`. -/
structure DeleteS (O : Type) where
  ignore : Bool := false
  tables : List (TableS O) := []
  references : List (TableS O) := []
  where_ : List (CondPart O) := []
  allowAll : Bool := false

/-- Every value that can be handed to, or is built by, the library. -/
inductive Obj where
  -- ordinary Python values
  | none
  | bool (b : Bool)
  | int (i : Int)
  | float (f : Flt)
  | decimal (d : Dec)
  | str (s : Str)
  | bytes (bs : List UInt8)
  | date (d : DateV)
  | datetime (d : DateTimeV)
  | list (xs : List Obj)
  | tuple (xs : List Obj)
  | set (xs : List Obj)          -- in iteration order
  | frozenset (xs : List Obj)    -- in iteration order
  | range (xs : List Int)        -- the numbers it yields
  | gen (xs : List Obj)          -- a fresh generator and the values it will yield
  | dict (kvs : List (Obj × Obj))
  | opaque (id : Nat)            -- any other object without a `tosql` attribute
  -- library objects: everything below has `tosql` (`_common/object.py:44`)
  | custom (s : Str)                                   -- customsql.py:7
  | sqlValue (v : Obj)                                 -- sqlvalue.py:24
  | sqlRef (v : Obj)                                   -- sqlvalue.py:130
  | rel (k : Rel) (v : Obj)                            -- relations.py:22
  | conds (ps : List (CondPart Obj))                   -- conditions.py:93 (`Q`)
  | cofc (l r : Obj) (op : BoolOp)                     -- conditions.py:119
  | not_ (ps : List (CondPart Obj))                    -- conditions.py:138
  | func (f : Agg) (distinct : Bool) (e : Obj)         -- functions.py:66-93
  | concat (cs : List (ColumnS Obj))                   -- functions.py:96
  | groupConcat (cs : List (ColumnS Obj)) (os : List (OrderS Obj)) (sep : Obj)  -- functions.py:112
  | convert (e : Obj) (ty : Option Str)                -- functions.py:163
  | exists_ (e : Obj)                                  -- where.py:11, __init__.py:138-142
  | select (q : SelectS Obj)                           -- select.py:10
  | union (a b : Obj) (all : Bool)                     -- union.py:13
  | insert (q : InsertS Obj)                           -- insert.py:37
  | update (q : UpdateS Obj)                           -- update.py:21
  | delete (q : DeleteS Obj)                           -- delete.py:21

abbrev Column := ColumnS Obj
abbrev Order := OrderS Obj
abbrev Cond := CondPart Obj
abbrev Value := ValuePart Obj
abbrev Join := JoinS Obj
abbrev Table := TableS Obj
abbrev Outfile := OutfileS Obj
abbrev Select := SelectS Obj
abbrev Insert := InsertS Obj
abbrev Update := UpdateS Obj
abbrev Delete := DeleteS Obj

/-- `is_sql_instance`, `_common/utils.py:14-15`: `hasattr(value, 'tosql')`. -/
def Obj.isSql : Obj → Bool
  | .custom _ | .sqlValue _ | .sqlRef _ | .rel .. | .conds _ | .cofc .. | .not_ _ | .func ..
  | .concat _ | .groupConcat .. | .convert .. | .exists_ _ | .select _ | .union .. | .insert _
  | .update _ | .delete _ => true
  | _ => false

/-- Built-in types tested by `isinstance` in the library. -/
inductive PyType where
  | none | bool | int | float | decimal | str | bytes | date | datetime | list | tuple | set
  | frozenset | range | gen | dict
deriving DecidableEq, Repr

/-- `isinstance(v, t)`: `bool` is a subclass of `int`, `datetime.datetime` of `datetime.date`. -/
def Obj.isInst : Obj → PyType → Bool
  | .none, .none => true
  | .bool _, .bool => true
  | .bool _, .int => true
  | .int _, .int => true
  | .float _, .float => true
  | .decimal _, .decimal => true
  | .str _, .str => true
  | .bytes _, .bytes => true
  | .date _, .date => true
  | .datetime _, .datetime => true
  | .datetime _, .date => true
  | .list _, .list => true
  | .tuple _, .tuple => true
  | .set _, .set => true
  | .frozenset _, .frozenset => true
  | .range _, .range => true
  | .gen _, .gen => true
  | .dict _, .dict => true
  | _, _ => false

/-- `isinstance(v, (list, tuple))`. -/
def Obj.isListTuple : Obj → Bool
  | .list _ | .tuple _ => true
  | _ => false

/-- `isinstance(v, bool)`. -/
def Obj.isBool : Obj → Bool
  | .bool _ => true
  | _ => false

/-- `v is None`. -/
def Obj.isNone : Obj → Bool
  | .none => true
  | _ => false

/-- `isinstance(v, str)`. -/
def Obj.isStr : Obj → Bool
  | .str _ => true
  | _ => false

/-- `isinstance(v, (Conditions, ConditionsOfConditions))`. -/
def Obj.isConds : Obj → Bool
  | .conds _ | .cofc .. => true
  | _ => false

/-- `bool(v)`: truth value of a Python object; library objects define neither `__bool__` nor
`__len__`, so they are true. -/
def Obj.truthy : Obj → Bool
  | .none => false
  | .bool b => b
  | .int i => i != 0
  | .float (.fin _ m _) => m != 0
  | .decimal (.fin _ c _) => c != 0
  | .str s => !s.isEmpty
  | .bytes b => !b.isEmpty
  | .list xs => !xs.isEmpty
  | .tuple xs => !xs.isEmpty
  | .set xs => !xs.isEmpty
  | .frozenset xs => !xs.isEmpty
  | .range xs => !xs.isEmpty
  | .dict xs => !xs.isEmpty
  | _ => true

/-- `check_type_decorator`, `_common/utils.py:18-32`: the wrapped setter runs iff this holds,
otherwise `InvalidArgumentException` is raised. -/
def Obj.allowed (ts : List PyType) (v : Obj) : Bool :=
  !((!(ts.any v.isInst) || (v.isBool && !(ts.contains .bool))) && !v.isSql)

def checkType (ts : List PyType) (v : Obj) : R Unit :=
  if v.allowed ts then .ok () else .error .invalidArgument

/-- Behaviour of Python's Unicode database and of `str()` on values outside the model; every
theorem holds for all of them. -/
structure Env where
  upper : Str → Str          -- str.upper
  lower : Str → Str          -- str.lower
  isWord : Char → Bool       -- regular expression class \w
  reprText : Obj → Str       -- str(v) for values whose text the model does not compute
  undefText : Obj → Str      -- what `SqlValue._undefined` (sqlvalue.py:120-124) returns for v

/-- What a call can see besides its arguments: the configured backend and the Python runtime. -/
structure Ctx where
  backend : Backend
  env : Env

end SqlPuzzle
