import Verif.Spec.Heap
import Verif.Model.Render

/-!
How the library's objects are laid out in memory: which value of the functional model the attributes
of an object denote.  The attributes are those assigned by the constructors cited at `Lib`.
-/

namespace SqlPuzzle.Spec.Layout
open SqlPuzzle SqlPuzzle.Spec

def atomObj : Atom → Obj
  | .none => .none
  | .bool b => .bool b
  | .int i => .int i
  | .float f => .float f
  | .decimal d => .decimal d
  | .str s => .str s
  | .bytes b => .bytes b
  | .date d => .date d
  | .datetime d => .datetime d
  | .range xs => .range xs
  | .opaque i => .opaque i

/-- The values of a dictionary under given keys, all of which must be there. -/
def entry (k : Str) : List Tree → Option Tree
  | .atom (.str s) :: v :: r => if s = k then some v else entry k r
  | _ => none

/-- The items of `_parts` (queryparts.py:38-40, 82-85). -/
def items : Tree → Option (List Tree)
  | .node (.lib _) (.node (.lib .listOfParts) (_ :: xs) :: _) => some xs
  | _ => none

def boolTree : Tree → Option Bool
  | .atom (.bool b) => some b
  | _ => none

def strTree : Tree → Option Str
  | .atom (.str s) => some s
  | _ => none

/-- An option that is `'on'` or `'off'` (options.py:10-14). -/
def onOff : Tree → Option Bool
  | .atom (.str s) => if s = L!"on" then some true else if s = L!"off" then some false else none
  | _ => none

def intTree : Tree → Option (Option Int)
  | .atom .none => some none
  | .atom (.int i) => some (some i)
  | _ => none

/-- An attribute that is `None` or a value. -/
def optional (f : Tree → Option Obj) : Tree → Option (Option Obj)
  | .atom .none => some none
  | t => do let o ← f t; some (some o)

def columnT (f : Tree → Option Obj) : Tree → Option Column
  | .node (.lib .column) [a, b] => do some ⟨← f a, ← f b⟩
  | t => do some ⟨← f t, .none⟩

def orderT (f : Tree → Option Obj) : Tree → Option Order
  | .node (.lib .order) [a, .atom (.str s)] =>
    if s = L!"ASC" then do some ⟨← f a, false⟩
    else if s = L!"DESC" then do some ⟨← f a, true⟩
    else none
  | _ => none

def condT (f : Tree → Option Obj) : Tree → Option Cond
  | .node (.lib .condition) [a, .node (.lib (.relation k)) [b]] =>
    do some (.cond false (← f a) k (← f b))
  | .node (.lib .onCondition) [a, .node (.lib (.relation k)) [b]] =>
    do some (.cond true (← f a) k (← f b))
  | t => do some (.item (← f t))

def valueT (f : Tree → Option Obj) : Tree → Option Value
  | .node (.lib .value) [a, b] => do some (.value (← f a) (← f b))
  | t => do some (.item (← f t))

/-- tables.py:11-14. -/
def joinTypeT : Tree → Option JoinType
  | .atom (.int 0) => some .inner
  | .atom (.int 1) => some .left
  | .atom (.int 2) => some .right
  | .atom (.int 3) => some .full
  | _ => none

def joinT (f : Tree → Option Obj) : Tree → Option Join
  | .node (.lib .join) [t, .node (.lib .table) [a, b, .node .list []], ons] => do
    some ⟨← joinTypeT t, ← f a, ← f b, ← (← items ons).mapM (condT f)⟩
  | _ => none

def tableT (f : Tree → Option Obj) : Tree → Option Table
  | .node (.lib .table) [a, b, .node .list js] => do some ⟨← f a, ← f b, ← js.mapM (joinT f)⟩
  | _ => none

def selectOptionsT : Tree → Option SelectOptions
  | .node (.lib .options) [.node .dict kv] => do
    let cache ← strTree (← entry L!"sql_cache" kv)
    let dup ← strTree (← entry L!"duplicated" kv)
    some {
      sqlCache := ← (if cache = L!"off" then some .off else if cache = L!"cache" then some .cache
        else if cache = L!"no_cache" then some .noCache else none)
      duplicated := ← (if dup = L!"off" then some .off else if dup = L!"all" then some .all
        else if dup = L!"distinct" then some .distinct
        else if dup = L!"distinctrow" then some .distinctrow else none)
      sqlSmallResult := ← onOff (← entry L!"sql_small_result" kv)
      sqlBigResult := ← onOff (← entry L!"sql_big_result" kv)
      sqlBufferResult := ← onOff (← entry L!"sql_buffer_result" kv)
      sqlCalcFoundRows := ← onOff (← entry L!"sql_calc_found_rows" kv)
      straightJoin := ← onOff (← entry L!"straight_join" kv)
      highPriority := ← onOff (← entry L!"high_priority" kv) }
  | _ => none

def ignoreT : Tree → Option Bool
  | .node (.lib .options) [.node .dict kv] => do onOff (← entry L!"ignore" kv)
  | _ => none

def limitT : Tree → Option LimitS
  | .node (.lib .limit) [a, b] => do some ⟨← intTree a, ← intTree b⟩
  | _ => none

def outfileT (f : Tree → Option Obj) : Tree → Option Outfile
  | .node (.lib .outfile) [a, b, c, d] => do
    some ⟨← optional f a, ← optional f b, ← optional f c, ← optional f d⟩
  | _ => none

/-- The attribute `_on_conflict` is `''` or an `SqlReference` of a string
(onconflictdoupdate.py:11, 19). -/
def conflictT : Tree → Option (Option Str)
  | .node (.lib .onConflict) [_, .atom (.str [])] => some none
  | .node (.lib .onConflict) [_, .node (.lib .sqlReference) [_, .atom (.str s)]] => some (some s)
  | _ => none

/-- The object seen as the tree `t`. -/
def denote : Nat → Tree → Option Obj
  | _, .atom a => some (atomObj a)
  | 0, _ => none
  | _, .cut => none
  | n + 1, .node c ts =>
    let f := denote n
    match c, ts with
    | .list, xs => do some (.list (← xs.mapM f))
    | .tuple, xs => do some (.tuple (← xs.mapM f))
    | .set, xs => do some (.set (← xs.mapM f))
    | .frozenset, xs => do some (.frozenset (← xs.mapM f))
    | .lib .custom, [.atom (.str s)] => some (.custom s)
    | .lib .sqlValue, [_, v] => do some (.sqlValue (← f v))
    | .lib .sqlReference, [_, v] => do some (.sqlRef (← f v))
    | .lib (.relation k), [v] => do some (.rel k (← f v))
    | .lib .conditions, ts => do
      some (.conds (← (← items (.node (.lib .conditions) ts)).mapM (condT f)))
    | .lib .condsOfConds, [a, b, .atom (.str s)] => do
      if s = L!"AND" then some (.cofc (← f a) (← f b) .and)
      else if s = L!"OR" then some (.cofc (← f a) (← f b) .or)
      else none
    | .lib .not_, [c] => do some (.not_ (← (← items c).mapM (condT f)))
    | .lib (.agg g), [e, d] => do some (.func g (← boolTree d) (← f e))
    | .lib .concat, [c] => do some (.concat (← (← items c).mapM (columnT f)))
    | .lib .groupConcat, [c, o, s] => do
      some (.groupConcat (← (← items c).mapM (columnT f)) (← (← items o).mapM (orderT f)) (← f s))
    | .lib .convert, [e, .atom .none] => do some (.convert (← f e) none)
    | .lib .convert, [e, .atom (.str s)] => do some (.convert (← f e) (some s))
    | .lib .exists_, [e] => do some (.exists_ (← f e))
    | .lib .union, [a, b, .atom (.str s)] => do
      if s = L!"UNION" then some (.union (← f a) (← f b) false)
      else if s = L!"UNION ALL" then some (.union (← f a) (← f b) true)
      else none
    | .lib .select, .node .dict kv :: _ => do
      some (.select {
        opts := ← selectOptionsT (← entry L!"select_options" kv)
        columns := ← (← items (← entry L!"columns" kv)).mapM (columnT f)
        tables := ← (← items (← entry L!"tables" kv)).mapM (tableT f)
        where_ := ← (← items (← entry L!"where" kv)).mapM (condT f)
        groupBy := ← (← items (← entry L!"group_by" kv)).mapM (orderT f)
        having := ← (← items (← entry L!"having" kv)).mapM (condT f)
        orderBy := ← (← items (← entry L!"order_by" kv)).mapM (orderT f)
        limit := ← limitT (← entry L!"limit" kv)
        outfile := ← outfileT f (← entry L!"into_outfile" kv)
        forUpdate := ← (match ← entry L!"select_for_update" kv with
          | .node (.lib .forUpdate) [b] => boolTree b
          | _ => none) })
    | .lib .insert, .node .dict kv :: _ => do
      some (.insert {
        isReplace := ← (match ← entry L!"keyword" kv with
          | .node (.lib .insertKeyword) [b] => boolTree b
          | _ => none)
        ignore := ← ignoreT (← entry L!"insert_options" kv)
        tables := ← (← items (← entry L!"tables" kv)).mapM (tableT f)
        rows := ← (← items (← entry L!"values" kv)).mapM fun r => do (← items r).mapM (valueT f)
        onDup := ← (← items (← entry L!"on_duplicate_key_update" kv)).mapM (valueT f)
        conflict := ← conflictT (← entry L!"on_conflict_do_update" kv)
        onConflict := ← (← items (← entry L!"on_conflict_do_update" kv)).mapM (valueT f) })
    | .lib .update, .node .dict kv :: r => do
      some (.update {
        ignore := ← ignoreT (← entry L!"update_options" kv)
        tables := ← (← items (← entry L!"tables" kv)).mapM (tableT f)
        values := ← (← items (← entry L!"values" kv)).mapM (valueT f)
        where_ := ← (← items (← entry L!"where" kv)).mapM (condT f)
        allowAll := ← r.getLast?.bind boolTree })
    | .lib .delete, .node .dict kv :: r => do
      some (.delete {
        ignore := ← ignoreT (← entry L!"delete_options" kv)
        tables := ← (← items (← entry L!"tables" kv)).mapM (tableT f)
        references := ← (← items (← entry L!"references" kv)).mapM (tableT f)
        where_ := ← (← items (← entry L!"where" kv)).mapM (condT f)
        allowAll := ← r.getLast?.bind boolTree })
    | _, _ => none

/-- The text of the object at address `p`, to a given depth. -/
def textAt (cx : Ctx) (n : Nat) (h : Heap) (p : Nat) : Option (R Str) := do
  some ((sem cx n).str (← denote n (look h n (.ref p))))

end SqlPuzzle.Spec.Layout
