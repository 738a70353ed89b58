import Verif.Model.Types

/-!
Python objects with identity: a heap of cells, and `copy.deepcopy` on it.
-/

namespace SqlPuzzle

/-- Values without identity: Python objects that cannot be changed and refer to no others. -/
inductive Atom where
  | none
  | bool (b : Bool)
  | int (i : Int)
  | float (f : Flt)
  | decimal (d : Dec)
  | str (s : Str)
  | bytes (bs : List UInt8)
  | date (d : DateV)
  | datetime (d : DateTimeV)
  | range (xs : List Int)
  | «opaque» (id : Nat)
deriving DecidableEq, Repr

/-- A reference held in a variable, an attribute, or a container. -/
inductive Val where
  | atom (a : Atom)
  | ref (p : Nat)
deriving DecidableEq, Repr

/-- Classes of the library whose instances are kept in memory.  The attributes, in the order in which
`Cell.fields` lists them, are given with each class. -/
inductive Lib where
  | custom                    -- _custom_sql_string: customsql.py:21-23
  | sqlValue | sqlReference   -- _map, value: sqlvalue.py:40-62, 147-156
  | relation (k : Rel)        -- _value: relations.py:26-29
  | listOfParts               -- _separator, then the items: queryparts.py:84-86
  | column                    -- _column_name, _alias: columns.py:8-11
  | columns                   -- _parts: queryparts.py:42-44
  | condition | onCondition   -- _column_name, _value: conditions.py:44-47
  | conditions | where_ | having | onConditions   -- _parts
  | condsOfConds              -- left, right, type: conditions.py:120-123
  | not_                      -- _expr: functions.py:21-23
  | agg (f : Agg)             -- _expr, _distinct: functions.py:48-50
  | concat                    -- _columns: functions.py:100-103
  | groupConcat               -- _columns, _order_by, _separator: functions.py:115-118
  | convert                   -- _expr, _type: functions.py:166-170
  | exists_                   -- _subquery: where.py:12-14
  | value                     -- _column_name, _value: values.py:9-12
  | values | multipleValues | onDuplicate         -- _parts
  | onConflict                -- _parts, _on_conflict: onconflictdoupdate.py:9-11
  | table                     -- _table_name, _alias, _joins: tables.py:65-69
  | tables | tablesForSelect  -- _parts
  | join                      -- the dictionary type, table, ons: tables.py:132-136
  | order                     -- _column_name, _sort: order.py:13-16
  | groupBy | orderBy         -- _parts
  | limit                     -- _limit, _offset: limit.py:8-11
  | outfile                   -- four attributes: intooutfile.py:8-18
  | options                   -- _options: options.py:10-14
  | forUpdate                 -- _for_update: selectoptions.py:81-83
  | insertKeyword             -- _is_replace: insert.py:9-11
  | select | insert           -- _queryparts, then one attribute per part: query.py:12-18
  | update | delete           -- the same, then the permission: update.py:39-42, delete.py:39-42
  | union                     -- _query1, _query2, _union_type: union.py:27-31
deriving DecidableEq, Repr

/-- The type of an object.  The fields of a dictionary are its keys and values in turn, those of a
bound method the object it is bound to. -/
inductive Cls where
  | list | tuple | dict | set | frozenset | gen | method
  | lib (c : Lib)
deriving DecidableEq, Repr

/-- An object in memory. -/
structure Cell where
  cls : Cls
  fields : List Val
deriving DecidableEq, Repr

/-- Memory: the address of an object is its position. -/
abbrev Heap := List Cell

/-- The dictionary `memo` of `copy.deepcopy`. -/
abbrev Memo := List (Nat × Nat)

/-- `[deepcopy(a, memo) for a in x]`. -/
def copyAll (f : Heap → Memo → Val → R (Heap × Memo × Val)) :
    Heap → Memo → List Val → R (Heap × Memo × List Val)
  | h, m, [] => .ok (h, m, [])
  | h, m, x :: xs => do
    let (h1, m1, y) ← f h m x
    let (h2, m2, ys) ← copyAll f h1 m1 xs
    .ok (h2, m2, y :: ys)

/-- Classes whose instances `copy.deepcopy` creates after copying what they refer to. -/
def Cls.late : Cls → Bool
  | .method | .set | .frozenset => true
  | _ => false

/-- The order in which a new set iterates over items added in the order `xs`: it depends on the
hashes of the items and the size of the hash table. -/
def Cls.arrange (so : List Val → List Val) (c : Cls) (xs : List Val) : List Val :=
  match c with
  | .set | .frozenset => so xs
  | _ => xs

/-- `copy.deepcopy(x, memo)` of Python's standard library, with a recursion budget; `so` is the order
in which new sets iterate.

* Atoms are returned as they are.
* Generators cannot be copied (`TypeError`).
* Tuples (`_deepcopy_tuple`) are copied after what they refer to; a tuple is returned itself if
  nothing in it was copied.
* Bound methods (`_deepcopy_method`) and sets (`_reconstruct` with the list of items as argument of
  the constructor) are also copied after what they refer to.  (The second look into `memo` is in
  Python only for tuples; it makes no difference for the others unless the copy starts at a bound
  method or at a set that contains itself through an object.)
* Every other object (`_deepcopy_list`, `_deepcopy_dict`, `_reconstruct` with a state) is created
  empty, noted in `memo`, and then filled.  That it is filled step by step is not modelled, as no
  other code runs in between. -/
def deepcopy (so : List Val → List Val) : Nat → Heap → Memo → Val → R (Heap × Memo × Val)
  | _, h, m, .atom a => .ok (h, m, .atom a)
  | 0, _, _, .ref _ => .error .recursionError
  | n + 1, h, m, .ref p =>
    match m.lookup p with
    | some q => .ok (h, m, .ref q)
    | none =>
      match h[p]? with
      | none => .error .unmodelled
      | some ⟨c, xs⟩ =>
        if c = .gen then .error .typeError
        else if c = .tuple then do
          let (h1, m1, ys) ← copyAll (deepcopy so n) h m xs
          match m1.lookup p with
          | some q => .ok (h1, m1, .ref q)
          | none =>
            if ys = xs then .ok (h1, m1, .ref p)
            else .ok (h1 ++ [⟨.tuple, ys⟩], (p, h1.length) :: m1, .ref h1.length)
        else if c.late then do
          let (h1, m1, ys) ← copyAll (deepcopy so n) h m xs
          match m1.lookup p with
          | some q => .ok (h1, m1, .ref q)
          | none => .ok (h1 ++ [⟨c, c.arrange so ys⟩], (p, h1.length) :: m1, .ref h1.length)
        else do
          let (h1, m1, ys) ← copyAll (deepcopy so n) (h ++ [⟨c, []⟩]) ((p, h.length) :: m) xs
          .ok (h1.set h.length ⟨c, ys⟩, m1, .ref h.length)

/-- `Object.copy` (object.py:47-48): `copy.deepcopy(self)`. -/
def copyObj (so : List Val → List Val) (n : Nat) (h : Heap) (p : Nat) : R (Heap × Val) := do
  let (h', _, v) ← deepcopy so n h [] (.ref p)
  .ok (h', v)

end SqlPuzzle
