import Verif.Spec.Entries
import Verif.Model.Queries

/-!
Words for properties of the argument parser and of the methods that use it.
-/

namespace SqlPuzzle

/-- An argument as a tuple: the items of a list or tuple, otherwise the argument alone. -/
def asTuple : Obj → List Obj
  | .list xs | .tuple xs => xs
  | x => [x]

/-- The tuples a call gives: all positional arguments together, one positional argument, an item of
the only argument, an item of the dictionary, a keyword argument. -/
inductive Given (a : Args) : List Obj → Prop
  | whole : Given a a.pos
  | item (x : Obj) : x ∈ a.pos → Given a (asTuple x)
  | inList (xs : List Obj) (x : Obj) :
      a.pos = [.list xs] ∨ a.pos = [.tuple xs] → x ∈ xs → Given a (asTuple x)
  | inDict (kvs : List (Obj × Obj)) (k v : Obj) : a.pos = [.dict kvs] → (k, v) ∈ kvs → Given a [k, v]
  | keyword (k : Str) (v : Obj) : (k, v) ∈ a.kw → Given a [.str k, v]

/-- The same items as a list of pairs. -/
def pairsOf (kw : List (Str × Obj)) : List Obj := kw.map fun p => .tuple [.str p.1, p.2]

/-- The options allow two items per tuple, dictionaries, and at least two columns. -/
structure ParseOpts.Keyed (o : ParseOpts) : Prop where
  dict : o.allowDict = true
  two : 2 ≤ o.maxItems
  min : o.minItems ≤ o.maxItems
  pos : 1 ≤ o.minItems

/-- Two ways of passing arguments are equivalent for every method and function that takes names or
pairs. -/
structure CallsAgree (a b : Args) : Prop where
  columns (cx : Ctx) (S : Sem) (q : Select) :
    selectStep cx S q (.columns a) = selectStep cx S q (.columns b)
  from_ (cx : Ctx) (S : Sem) (q : Select) :
    selectStep cx S q (.from_ a) = selectStep cx S q (.from_ b)
  where_ (cx : Ctx) (S : Sem) (q : Select) :
    selectStep cx S q (.where_ a) = selectStep cx S q (.where_ b)
  having (cx : Ctx) (S : Sem) (q : Select) :
    selectStep cx S q (.having a) = selectStep cx S q (.having b)
  on (cx : Ctx) (S : Sem) (q : Select) : selectStep cx S q (.on a) = selectStep cx S q (.on b)
  groupBy (cx : Ctx) (S : Sem) (q : Select) :
    selectStep cx S q (.groupBy a) = selectStep cx S q (.groupBy b)
  orderBy (cx : Ctx) (S : Sem) (q : Select) :
    selectStep cx S q (.orderBy a) = selectStep cx S q (.orderBy b)
  values (cx : Ctx) (S : Sem) (q : Insert) :
    insertStep cx S q (.values a) = insertStep cx S q (.values b)
  set (cx : Ctx) (S : Sem) (q : Update) : updateStep cx S q (.set a) = updateStep cx S q (.set b)
  updateWhere (cx : Ctx) (S : Sem) (q : Update) :
    updateStep cx S q (.where_ a) = updateStep cx S q (.where_ b)
  updateOn (cx : Ctx) (S : Sem) (q : Update) :
    updateStep cx S q (.on a) = updateStep cx S q (.on b)
  deleteFrom (cx : Ctx) (S : Sem) (q : Delete) :
    deleteStep cx S q (.from_ a) = deleteStep cx S q (.from_ b)
  deleteWhere (cx : Ctx) (S : Sem) (q : Delete) :
    deleteStep cx S q (.where_ a) = deleteStep cx S q (.where_ b)
  deleteOn (cx : Ctx) (S : Sem) (q : Delete) :
    deleteStep cx S q (.on a) = deleteStep cx S q (.on b)
  Q (cx : Ctx) (S : Sem) : mkConds cx S a = mkConds cx S b
  not_ (cx : Ctx) (S : Sem) : mkNot cx S a = mkNot cx S b
  select (S : Sem) : mkSelect S a = mkSelect S b
  selectFrom (cx : Ctx) (S : Sem) : mkSelectFrom cx S a = mkSelectFrom cx S b
  deleteFrom' (cx : Ctx) (S : Sem) : mkDeleteFrom cx S a = mkDeleteFrom cx S b

/-- The argument occurs in the parsed tuples: itself, or its items. -/
inductive Used (bs : List (List Obj)) : Obj → Prop
  | here (b : List Obj) (x : Obj) : b ∈ bs → x ∈ b → Used bs x
  | list (xs : List Obj) : (∀ x ∈ xs, Used bs x) → Used bs (.list xs)
  | tuple (xs : List Obj) : (∀ x ∈ xs, Used bs x) → Used bs (.tuple xs)
  | dict (kvs : List (Obj × Obj)) :
      (∀ k v, (k, v) ∈ kvs → ∃ b ∈ bs, ∃ r, b = k :: v :: r) → Used bs (.dict kvs)

end SqlPuzzle
