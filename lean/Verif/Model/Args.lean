import Verif.Model.Render

/-!
`sqlpuzzle/_common/argsparser.py`: turning positional arguments, lists, dictionaries and keyword
arguments into tuples.
-/

namespace SqlPuzzle

/-- The arguments of a call `f(*pos, **kw)`. -/
structure Args where
  pos : List Obj := []
  kw : List (Str × Obj) := []

/-- `ParserOptions` (argsparser.py:45-54, 96-100). -/
structure ParseOpts where
  minItems : Nat := 1
  maxItems : Nat := 1
  allowDict : Bool := false
  allowList : Bool := false

/-- `ParserInput.is_list` (argsparser.py:76-78) and `.list` (argsparser.py:58-66). -/
def asList : List Obj → Option (List Obj)
  | [.list xs] | [.tuple xs] => some xs
  | _ => none

/-- `ParserInput.is_dictionary` (argsparser.py:80-82) and `.dictionary_or_kwds` (argsparser.py:68-74). -/
def asDict : List Obj → Option (List (Obj × Obj))
  | [.dict kvs] => some kvs
  | _ => none

/-- `ParserInput.is_args` (argsparser.py:88-90). -/
def isArgs : List Obj → Bool
  | [] => false
  | a :: _ => !a.isListTuple

/-- `_create_batch` and `_append_nones` (argsparser.py:138-146). -/
def createBatch (o : ParseOpts) (vs : List Obj) : R (List Obj) :=
  if o.maxItems < vs.length then .error .invalidArgument
  else .ok (vs ++ List.replicate (o.maxItems - vs.length) .none)

/-- One iteration of `_parse_list` (argsparser.py:125-132). -/
def parseListItem (o : ParseOpts) (x : Obj) : R (List Obj) :=
  match x with
  | .list xs | .tuple xs => createBatch o xs
  | x => if o.minItems = 1 then createBatch o [x] else .error .invalidArgument

/-- `_parse_list` (argsparser.py:125-132). -/
def parseList (o : ParseOpts) (xs : List Obj) : R (List (List Obj)) := mapR (parseListItem o) xs

/-- How a dictionary key compares with the others under `<`. -/
inductive SortKey where
  | text (s : Str)
  | num (i : Int)

/-- Strings and library objects compare by text (object.py:29-34), integers by value; other keys
are outside the model. -/
def sortKey (S : Sem) (k : Obj) : R SortKey :=
  match k with
  | .str s => .ok (.text s)
  | .int i => .ok (.num i)
  | .bool b => .ok (.num (if b then 1 else 0))
  | k => if k.isSql then do
      let t ← S.str k
      .ok (.text t)
    else .error .unmodelled

/-- Are all keys texts? -/
def textKeys : List (SortKey × (Obj × Obj)) → Option (List (Str × (Obj × Obj)))
  | [] => some []
  | (.text s, kv) :: r => (textKeys r).map fun t => (s, kv) :: t
  | (.num _, _) :: _ => none

/-- Are all keys numbers? -/
def numKeys : List (SortKey × (Obj × Obj)) → Option (List (Int × (Obj × Obj)))
  | [] => some []
  | (.num i, kv) :: r => (numKeys r).map fun t => (i, kv) :: t
  | (.text _, _) :: _ => none

/-- `sorted(dictionary.items())` (argsparser.py:122).  Keys with equal texts, for which Python goes
on to compare the values, are outside the model. -/
def sortItems (S : Sem) (kvs : List (Obj × Obj)) : R (List (Obj × Obj)) :=
  if kvs.length ≤ 1 then .ok kvs
  else do
    let ks ← mapR (fun kv => do
      let k ← sortKey S kv.1
      .ok (k, kv)) kvs
    match textKeys ks with
    | some ts =>
      if (ts.map Prod.fst).Nodup then
        .ok ((sortBy (fun a b => strLe a.1 b.1) ts).map Prod.snd)
      else .error .unmodelled
    | none =>
      match numKeys ks with
      | some ns => .ok ((sortBy (fun a b => decide (a.1 ≤ b.1)) ns).map Prod.snd)
      | none => .error .typeError

/-- `_parse_dictionary` (argsparser.py:121-123). -/
def parseDict (S : Sem) (o : ParseOpts) (kvs : List (Obj × Obj)) : R (List (List Obj)) := do
  let items ← sortItems S kvs
  mapR (fun kv => createBatch o [kv.1, kv.2]) items

/-- Keyword arguments as the dictionary the callee sees. -/
def Args.kwDict (a : Args) : List (Obj × Obj) := a.kw.map fun p => (.str p.1, p.2)

/-- First half of `Parser.parse` (argsparser.py:103-114); `count_of_args_is_in_interval`
(argsparser.py:92-93) and `_parse_item` (argsparser.py:134-136) are written out. -/
def parsePositional (o : ParseOpts) (pos : List Obj) : R (List (List Obj)) :=
  if 1 < o.minItems && isArgs pos && (o.minItems ≤ pos.length && pos.length ≤ o.maxItems) then do
    let b ← createBatch o pos
    .ok [b]
  else
    match o.allowList, asList pos with
    | true, some xs => parseList o xs
    | _, _ =>
      if (asDict pos).isNone && !pos.isEmpty then parseList o pos
      else .ok []

/-- Second half of `Parser.parse` (argsparser.py:116-119), `is_kwds` (argsparser.py:84-86). -/
def parseKeyed (S : Sem) (o : ParseOpts) (a : Args) : R (List (List Obj)) :=
  match asDict a.pos with
  | some kvs => if o.allowDict then parseDict S o kvs else .error .invalidArgument
  | none =>
    if a.kw.isEmpty then .ok []
    else if o.allowDict then parseDict S o a.kwDict else .error .invalidArgument

/-- `parse_args(options, *args, **kwds)` (argsparser.py:7-42).  A keyword argument named `options`
collides with the first parameter. -/
def parseArgs (S : Sem) (o : ParseOpts) (a : Args) : R (List (List Obj)) :=
  if a.kw.any (fun p => p.1 == L!"options") then .error .typeError
  else if o.maxItems < o.minItems || (o.allowDict && o.maxItems ≤ 1) then .error .assertionError
  else do
    let xs ← parsePositional o a.pos
    let ys ← parseKeyed S o a
    .ok (xs ++ ys)

/-- A keyword argument named `self` collides with the receiver of a method call. -/
def kwSelf (a : Args) : Bool := a.kw.any fun p => p.1 == L!"self"

/-- The two columns of a parsed batch (`for x, y in parse_args(...)`); all callers ask for width
two. -/
def pairOf : List Obj → Obj × Obj
  | x :: y :: _ => (x, y)
  | [x] => (x, .none)
  | [] => (.none, .none)

end SqlPuzzle
