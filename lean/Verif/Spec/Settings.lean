import Verif.Model.Queries
import Verif.Spec.History

/-!
What the calls of a history say about limit, offset, options, the outfile clause and the backend.
-/

namespace SqlPuzzle

/-- What a call says about the limit: `limit(None, …)` clears it, `limit(i, …)` sets it. -/
def saysLimit : SelectOp → Option (Option Int)
  | .limit .none _ => some none
  | .limit (.int i) _ => some (some i)
  | _ => none

/-- An offset of zero is no offset. -/
def offsetOf (i : Int) : Option Int := if i = 0 then none else some i

/-- What a call says about the offset: `limit(None, …)`, `offset(None)` clear it, `offset(i)` and
`limit(l, i)` set it. -/
def saysOffset : SelectOp → Option (Option Int)
  | .limit .none _ => some none
  | .limit (.int _) (.int i) => some (offsetOf i)
  | .offset .none => some none
  | .offset (.int i) => some (offsetOf i)
  | _ => none

/-- The options of one group exclude each other. -/
def SelOpt.group : SelOpt → List SelOpt
  | .sqlCache | .sqlNoCache => [.sqlCache, .sqlNoCache]
  | .all | .distinct | .distinctrow => [.all, .distinct, .distinctrow]
  | k => [k]

/-- The word of an option in the statement. -/
def SelOpt.word : SelOpt → Str
  | .sqlCache => L!"SQL_CACHE"
  | .sqlNoCache => L!"SQL_NO_CACHE"
  | .all => L!"ALL"
  | .distinct => L!"DISTINCT"
  | .distinctrow => L!"DISTINCTROW"
  | .sqlSmallResult => L!"SQL_SMALL_RESULT"
  | .sqlBigResult => L!"SQL_BIG_RESULT"
  | .sqlBufferResult => L!"SQL_BUFFER_RESULT"
  | .sqlCalcFoundRows => L!"SQL_CALC_FOUND_ROWS"
  | .straightJoin => L!"STRAIGHT_JOIN"
  | .highPriority => L!"HIGH_PRIORITY"

/-- What a call says about option `k`: a call on an option of its group decides; `k` is on iff that
call was for `k` itself and with a true argument. -/
def saysOption (k : SelOpt) : SelectOp → Option Bool
  | .option k' allow => if k' ∈ k.group then some (k' = k && allow.truthy) else none
  | _ => none

/-- Is the option on? -/
def SelectOptions.isOn (o : SelectOptions) : SelOpt → Bool
  | .sqlCache => o.sqlCache == .cache
  | .sqlNoCache => o.sqlCache == .noCache
  | .all => o.duplicated == .all
  | .distinct => o.duplicated == .distinct
  | .distinctrow => o.duplicated == .distinctrow
  | .sqlSmallResult => o.sqlSmallResult
  | .sqlBigResult => o.sqlBigResult
  | .sqlBufferResult => o.sqlBufferResult
  | .sqlCalcFoundRows => o.sqlCalcFoundRows
  | .straightJoin => o.straightJoin
  | .highPriority => o.highPriority

/-- All options, the words ascending. -/
def SelOpt.sorted : List SelOpt :=
  [.all, .distinct, .distinctrow, .highPriority, .sqlBigResult, .sqlBufferResult, .sqlCache,
   .sqlCalcFoundRows, .sqlNoCache, .sqlSmallResult, .straightJoin]

/-- What a call says about one setting of the outfile clause: the given string or SQL object. -/
def saysOutfile (f : OutfileField) : SelectOp → Option (Option Obj)
  | .outfile f' v => if f' = f ∧ (v.isStr || v.isSql) = true then some (some v) else none
  | _ => none

/-- A setting. -/
def OutfileS.get (o : Outfile) : OutfileField → Option Obj
  | .file => o.file
  | .fields => o.fields
  | .lines => o.lines
  | .enclosed => o.enclosed

/-- The name of a backend. -/
def Backend.name : Backend → Str
  | .sql => L!"sql"
  | .mysql => L!"mysql"
  | .postgresql => L!"postgresql"
  | .sqlite => L!"sqlite"

/-- What a call of `configure` says. -/
def saysBackend (env : Env) (name : Str) : Option Backend :=
  [Backend.sql, .mysql, .postgresql, .sqlite].find? fun b => env.lower name = b.name

/-- What a call says about deleting everything. -/
def saysDeleteAll : DeleteOp → Option Bool
  | .allowDeleteAll => some true
  | .forbidDeleteAll => some false
  | _ => none

/-- What a call says about updating everything. -/
def saysUpdateAll : UpdateOp → Option Bool
  | .allowUpdateAll => some true
  | .forbidUpdateAll => some false
  | _ => none

/-- Calls that concern the tables and joins. -/
def SelectOp.onTables : SelectOp → Bool
  | .from_ _ | .fromTable .. | .join .. | .on _ => true
  | _ => false

end SqlPuzzle
