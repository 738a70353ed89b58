import Verif.Spec.Shows

/-! Calls on queries in memory and the operations on values they stand for.  Arguments that are
generators are left out (reading one changes it), and so is a join with a dictionary of one entry (the
call empties it, tables.py:126). -/

namespace SqlPuzzle.Spec
open SqlPuzzle

/-- The key an option method sets (selectoptions.py:46-77). -/
def optionSlot : SelOpt → Str
  | .sqlCache | .sqlNoCache => L!"sql_cache"
  | .all | .distinct | .distinctrow => L!"duplicated"
  | .sqlSmallResult => L!"sql_small_result"
  | .sqlBigResult => L!"sql_big_result"
  | .sqlBufferResult => L!"sql_buffer_result"
  | .sqlCalcFoundRows => L!"sql_calc_found_rows"
  | .straightJoin => L!"straight_join"
  | .highPriority => L!"high_priority"

/-- The value it sets when the option is allowed (selectoptions.py:46-77). -/
def optionOn : SelOpt → Str
  | .sqlCache => L!"cache"
  | .sqlNoCache => L!"no_cache"
  | .all => L!"all"
  | .distinct => L!"distinct"
  | .distinctrow => L!"distinctrow"
  | _ => L!"on"

/-- The attribute of `IntoOutfile` (intooutfile.py:9-13). -/
def outfileSlot : OutfileField → Nat
  | .file => 0
  | .fields => 1
  | .lines => 2
  | .enclosed => 3

/-- Not a dictionary of one entry. -/
def NoPair (x : Obj) : Prop := ∀ n a, x ≠ .dict [(n, a)]

section
variable (m : Mem)

/-- A call on a `Select`. -/
inductive SelectSays : HCall → SelectOp → Prop where
  | columns {a b} (s : ArgsAre m a b) : SelectSays (.columns a) (.columns b)
  | from_ {a b} (s : ArgsAre m a b) : SelectSays (.from_ a) (.from_ b)
  | fromTable {v w x y} (s : Is m v (.obj x)) (t : Is m w (.obj y)) : SelectSays (.fromTable v w) (.fromTable x y)
  | join {v x} (ty) (s : Is m v (.obj x)) (hx : NoPair x) : SelectSays (.join ty v) (.join ty x)
  | on {a b} (s : ArgsAre m a b) : SelectSays (.on a) (.on b)
  | where_ {a b} (s : ArgsAre m a b) : SelectSays (.where_ a) (.where_ b)
  | having {a b} (s : ArgsAre m a b) : SelectSays (.having a) (.having b)
  | groupBy {a b} (s : ArgsAre m a b) : SelectSays (.groupBy a) (.groupBy b)
  | orderBy {a b} (s : ArgsAre m a b) : SelectSays (.orderBy a) (.orderBy b)
  | limit {v w x y} (s : Is m v (.obj x)) (t : Is m w (.obj y)) : SelectSays (.limit v w) (.limit x y)
  | offset {v x} (s : Is m v (.obj x)) : SelectSays (.offset v) (.offset x)
  | outfile {v x} (f) (s : Is m v (.obj x)) : SelectSays (.outfile (outfileSlot f) v) (.outfile f x)
  | option (k x) :
      SelectSays (.option (optionSlot k) (if x.truthy then optionOn k else L!"off")) (.option k x)
  | forUpdate {v x} (s : Is m v (.obj x)) : SelectSays (.forUpdate v) (.forUpdate x)

/-- A call on an `Insert`. -/
inductive InsertSays : HCall → InsertOp → Prop where
  | into {v x} (s : Is m v (.obj x)) : InsertSays (.into v) (.into x)
  | values {a b} (s : ArgsAre m a b) : InsertSays (.values a) (.values b)
  | onDuplicate {a b} (s : ArgsAre m a b) : InsertSays (.onDuplicateKeyUpdate a) (.onDuplicateKeyUpdate b)
  | ignore {v x} (s : Is m v (.obj x)) : InsertSays (.ignore v) (.ignore x)

/-- A call on an `Update`. -/
inductive UpdateSays : HCall → UpdateOp → Prop where
  | allow : UpdateSays (.allowAll true) .allowUpdateAll
  | forbid : UpdateSays (.allowAll false) .forbidUpdateAll
  | table {v x} (s : Is m v (.obj x)) : UpdateSays (.table v) (.table x)
  | set {a b} (s : ArgsAre m a b) : UpdateSays (.set a) (.set b)
  | where_ {a b} (s : ArgsAre m a b) : UpdateSays (.where_ a) (.where_ b)
  | join {v x} (s : Is m v (.obj x)) (hx : NoPair x) : UpdateSays (.join .inner v) (.join x)
  | leftJoin {v x} (s : Is m v (.obj x)) (hx : NoPair x) : UpdateSays (.join .left v) (.leftJoin x)
  | rightJoin {v x} (s : Is m v (.obj x)) (hx : NoPair x) : UpdateSays (.join .right v) (.rightJoin x)
  | on {a b} (s : ArgsAre m a b) : UpdateSays (.on a) (.on b)
  | ignore {v x} (s : Is m v (.obj x)) : UpdateSays (.ignore v) (.ignore x)

/-- A call on a `Delete`. -/
inductive DeleteSays : HCall → DeleteOp → Prop where
  | allow : DeleteSays (.allowAll true) .allowDeleteAll
  | forbid : DeleteSays (.allowAll false) .forbidDeleteAll
  | delete {vs xs} (s : Are m vs (xs.map .obj)) : DeleteSays (.delete vs) (.delete xs)
  | from_ {a b} (s : ArgsAre m a b) : DeleteSays (.from_ a) (.from_ b)
  | fromTable {v w x y} (s : Is m v (.obj x)) (t : Is m w (.obj y)) : DeleteSays (.fromTable v w) (.fromTable x y)
  | join {v x} (s : Is m v (.obj x)) (hx : NoPair x) : DeleteSays (.join .inner v) (.join x)
  | leftJoin {v x} (s : Is m v (.obj x)) (hx : NoPair x) : DeleteSays (.join .left v) (.leftJoin x)
  | rightJoin {v x} (s : Is m v (.obj x)) (hx : NoPair x) : DeleteSays (.join .right v) (.rightJoin x)
  | on {a b} (s : ArgsAre m a b) : DeleteSays (.on a) (.on b)
  | where_ {a b} (s : ArgsAre m a b) : DeleteSays (.where_ a) (.where_ b)
  | ignore {v x} (s : Is m v (.obj x)) : DeleteSays (.ignore v) (.ignore x)

end

/-- What a call returns: nothing, or an exception. -/
def returned : Option Err → R Unit
  | none => .ok ()
  | some e => .error e

/-- Objects that are not the query's stay as they were, and the query takes new objects only. -/
structure Untouched (h : Heap) (own : List Nat) (h' : Heap) (own' : List Nat) : Prop where
  same : ∀ p c, h[p]? = some c → p ∉ own → h'[p]? = some c
  fresh : ∀ p ∈ own', p ∈ own ∨ h[p]? = none

/-- The call made the query at `q` into `o'` with the exception `e`, and left all other objects alone. -/
def Does (q : Nat) (h : Heap) (own : List Nat) (x : Heap × R Unit) (o' : Obj) (e : Option Err) : Prop :=
  ∃ own', Holds x.1 q o' own' ∧ Untouched h own x.1 own' ∧ x.2 = returned e

/-- Calls one after another; an exception is caught by the caller, who goes on. -/
def callAll (T : Runtime) (cx : Ctx) (q : Nat) (h : Heap) (cs : List HCall) : Heap :=
  cs.foldl (fun h c => (hCall T cx q c h).1) h

/-- The exceptions of the calls. -/
def callRaises (T : Runtime) (cx : Ctx) (q : Nat) (h : Heap) : List HCall → List (R Unit)
  | [] => []
  | c :: cs => (hCall T cx q c h).2 :: callRaises T cx q (hCall T cx q c h).1 cs

/-- The exceptions of the operations. -/
def opRaises {σ ω : Type} (step : σ → ω → Upd σ) (s : σ) : List ω → List (Option Err)
  | [] => []
  | o :: os => (step s o).2 :: opRaises step (step s o).1 os

end SqlPuzzle.Spec
