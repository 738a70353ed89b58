import Verif.Model.Queries

/-!
The operators `<`, `>`, `<=`, `>=` of library objects, `repr`, and which classes are hashable.
-/

namespace SqlPuzzle

/-- The class a relation class is derived from, if that is a relation class too
(relations.py:89, 107, 116, 125, 143, 211, 259). -/
def Rel.base : Rel → Option Rel
  | .ne => some .eq
  | .ge | .lt | .le => some .gt
  | .notLike => some .like
  | .notIn => some .in_
  | .isNot => some .is
  | _ => none

/-- Is the class of `b` a proper subclass of the class of `a`?  `SqlReference` of `SqlValue`
(sqlvalue.py:130), `GroupConcat` of `Concat` (functions.py:112) and the relations; no other two
classes of exposed objects are related. -/
def Obj.properSub : Obj → Obj → Bool
  | .sqlRef _, .sqlValue _ => true
  | .groupConcat .., .concat _ => true
  | .rel k _, .rel k' _ => k.base == some k'
  | _, _ => false

/-- Python `<` on `str`. -/
def strLt (s t : Str) : Bool := strLe s t && s != t

section
variable (S : Sem)

/-- `Object.__lt__` (object.py:29-34); `none` is `NotImplemented`. -/
def dunderLt (a b : Obj) : R (Option Bool) :=
  match b with
  | .str s => do
    let t ← S.str a
    .ok (some (strLt t s))
  | b =>
    if b.isSql then do
      let t ← S.str a
      let u ← S.str b
      .ok (some (strLt t u))
    else .ok none

/-- `__gt__` that `total_ordering` (object.py:7) makes of `__lt__` and `__eq__`:
`not self < other and self != other`. -/
def dunderGt (a b : Obj) : R (Option Bool) := do
  match ← dunderLt S a b with
  | none => .ok none
  | some true => .ok (some false)
  | some false =>
    let e ← S.eq a b
    .ok (some (!e))

/-- `__le__` of `total_ordering` (object.py:7): `self < other or self == other`. -/
def dunderLe (a b : Obj) : R (Option Bool) := do
  match ← dunderLt S a b with
  | none => .ok none
  | some true => .ok (some true)
  | some false =>
    let e ← S.eq a b
    .ok (some e)

/-- `__ge__` of `total_ordering` (object.py:7): `not self < other`. -/
def dunderGe (a b : Obj) : R (Option Bool) := do
  match ← dunderLt S a b with
  | none => .ok none
  | some r => .ok (some (!r))

/-- Python's rule for `a OP b`, where `dir` is the method of `OP` and `refl` the one of the mirrored
operator: the right operand comes first if its class is a proper subclass of the left one's; a
built-in object answers `NotImplemented` to a library object, so the other operand is asked; if both
do not know, `TypeError`.  Built-in operands on both sides are modelled for strings only. -/
def richCompare (dir refl : Obj → Obj → R (Option Bool)) (builtin : Str → Str → Bool) (a b : Obj) :
    R Bool := do
  if a.isSql then
    let first ← if b.properSub a then refl b a else .ok none
    match first with
    | some r => .ok r
    | none =>
      match ← dir a b with
      | some r => .ok r
      | none => .error .typeError
  else if b.isSql then
    match ← refl b a with
    | some r => .ok r
    | none => .error .typeError
  else
    match a, b with
    | .str s, .str t => .ok (builtin s t)
    | _, _ => .error .unmodelled

/-- `a < b`. -/
def pyLt (a b : Obj) : R Bool := richCompare (dunderLt S) (dunderGt S) strLt a b

/-- `a > b`. -/
def pyGt (a b : Obj) : R Bool := richCompare (dunderGt S) (dunderLt S) (fun s t => strLt t s) a b

/-- `a <= b`. -/
def pyLe (a b : Obj) : R Bool := richCompare (dunderLe S) (dunderGe S) strLe a b

/-- `a >= b`. -/
def pyGe (a b : Obj) : R Bool := richCompare (dunderGe S) (dunderLe S) (fun s t => strLe t s) a b

end

/-- `self.__class__.__name__` of library objects (the class headers cited in `Obj`, Model/Types.lean;
relations.py:77-264, functions.py:66-93). -/
def Obj.className : Obj → Option Str
  | .custom _ => some L!"CustomSql"
  | .sqlValue _ => some L!"SqlValue"
  | .sqlRef _ => some L!"SqlReference"
  | .rel k _ => some (match k with
    | .eq => L!"EQ" | .ne => L!"NE" | .gt => L!"GT" | .ge => L!"GE" | .lt => L!"LT" | .le => L!"LE"
    | .like => L!"LIKE" | .notLike => L!"NOT_LIKE" | .regexp => L!"REGEXP" | .in_ => L!"IN"
    | .notIn => L!"NOT_IN" | .is => L!"IS" | .isNot => L!"IS_NOT")
  | .conds _ => some L!"Conditions"
  | .cofc .. => some L!"ConditionsOfConditions"
  | .not_ _ => some L!"Not"
  | .func f _ _ => some (match f with
    | .avg => L!"Avg" | .count => L!"Count" | .max => L!"Max" | .min => L!"Min" | .sum => L!"Sum")
  | .concat _ => some L!"Concat"
  | .groupConcat .. => some L!"GroupConcat"
  | .convert .. => some L!"Convert"
  | .exists_ _ => some L!"Exists"
  | .select _ => some L!"Select"
  | .union .. => some L!"Union"
  | .insert _ => some L!"Insert"
  | .update _ => some L!"Update"
  | .delete _ => some L!"Delete"
  | _ => Option.none

/-- Classes on the way from the class of a library object to `object`. -/
inductive PyClass where
  | object | base | customSql | sqlValue | sqlReference | relation | relationSub | binaryMixin
  | queryParts | conditions | condsOfConds | function | notFunc | distinctFunc | aggregate | concat
  | groupConcat | convert | existsCls | query | select | union | insert | update | delete
deriving DecidableEq, Repr

/-- `type(o).__mro__` of a library object: `Object` (object.py:8), customsql.py:7, sqlvalue.py:24, 130,
relations.py:22, 77-264, conditions.py:13, 93, 119, 138, queryparts.py:37, functions.py:18, 47, 66-93,
96, 112, 163, where.py:11, query.py:9, select.py:10, union.py:13, insert.py:37, update.py:21,
delete.py:21. -/
def Obj.mro : Obj → List PyClass
  | .custom _ => [.customSql, .base, .object]
  | .sqlValue _ => [.sqlValue, .base, .object]
  | .sqlRef _ => [.sqlReference, .sqlValue, .base, .object]
  | .rel .. => [.relationSub, .relation, .base, .object]
  | .conds _ => [.conditions, .binaryMixin, .queryParts, .base, .object]
  | .cofc .. => [.condsOfConds, .binaryMixin, .base, .object]
  | .not_ _ => [.notFunc, .function, .base, .object]
  | .func .. => [.aggregate, .distinctFunc, .function, .base, .object]
  | .concat _ => [.concat, .function, .base, .object]
  | .groupConcat .. => [.groupConcat, .concat, .function, .base, .object]
  | .convert .. => [.convert, .function, .base, .object]
  | .exists_ _ => [.existsCls, .base, .object]
  | .select _ => [.select, .query, .base, .object]
  | .union .. => [.union, .query, .base, .object]
  | .insert _ => [.insert, .query, .base, .object]
  | .update _ => [.update, .query, .base, .object]
  | .delete _ => [.delete, .query, .base, .object]
  | _ => []

/-- Does the body of the class define `__hash__`?  object.py:36, query.py:39, and `object` itself. -/
def PyClass.definesHash : PyClass → Bool
  | .object | .base | .query => true
  | _ => false

/-- Does the body of the class define `__eq__`?  object.py:15, query.py:30, union.py:40,
queryparts.py:59, relations.py:40, and `object` itself. -/
def PyClass.definesEq : PyClass → Bool
  | .object | .base | .query | .union | .queryParts | .relation => true
  | _ => false

/-- Is `__hash__` found along the classes?  A class that defines `__eq__` and not `__hash__` gets
`__hash__ = None` from Python. -/
def hashFound : List PyClass → Bool
  | [] => false
  | c :: cs => if c.definesHash then true else if c.definesEq then false else hashFound cs

mutual

/-- Is `hash(o)` defined?  Lists, sets and dictionaries are not hashable; a tuple is if its items
are. -/
def Obj.hashable : Obj → Bool
  | .list _ | .set _ | .dict _ => false
  | .tuple xs => hashableAll xs
  | o => if o.isSql then hashFound o.mro else true

/-- Are all items hashable? -/
def hashableAll : List Obj → Bool
  | [] => true
  | x :: xs => x.hashable && hashableAll xs

end

/-- A dictionary display `{k: v, …}`: `TypeError` if a key is not hashable.  Keys that are equal are
not merged here. -/
def dictDisplay (kvs : List (Obj × Obj)) : R Obj :=
  if kvs.all fun kv => kv.1.hashable then .ok (.dict kvs) else .error .typeError

/-- `Object.__repr__` (object.py:9-10). -/
def pyRepr (S : Sem) (o : Obj) : R Str :=
  match o.className with
  | none => .error .unmodelled
  | some c => do
    let t ← S.str o
    .ok ('<' :: (c ++ L!": " ++ t ++ L!">"))

end SqlPuzzle
