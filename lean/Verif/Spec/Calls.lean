import Verif.Spec.Regular
import Verif.Proofs.Entries

/-!
Calls with arguments of the usual form, for C44.
-/

namespace SqlPuzzle
open Spec

namespace Spec

/-- Arguments of a call: the keyword names are distinct and none is `self` or `options`; the
values are regular objects; a dictionary, given as the only positional argument, has distinct
string keys. -/
structure RegularArgs (a : Args) : Prop where
  names : ∀ p ∈ a.kw, p.1 ≠ L!"self" ∧ p.1 ≠ L!"options"
  distinct : (a.kw.map Prod.fst).Nodup
  values : ∀ p ∈ a.kw, Regular p.2
  pos : (∀ o ∈ a.pos, Regular o) ∨ ∃ kvs : List (Str × Obj),
    a.pos = [.dict (kvs.map fun p => (.str p.1, p.2))] ∧ (kvs.map Prod.fst).Nodup ∧
      ∀ p ∈ kvs, Regular p.2

/-- An argument of a method with one parameter: regular, or a dictionary of regular objects. -/
def RegularArg (o : Obj) : Prop :=
  Regular o ∨ ∃ kvs, o = .dict kvs ∧ ∀ p ∈ kvs, Regular p.1 ∧ Regular p.2

/-- The arguments other than a dictionary. -/
def RegularObjs (os : List Obj) : Prop := ∀ o ∈ os, Regular o

/-- A sort direction is not a number and not an SQL object (whatever else it is, it is checked). -/
def Direction (o : Obj) : Prop := (∀ i, o ≠ .int i) ∧ o.isSql = false

/-- All directions in a call of `order_by` or `group_by`. -/
def Directions (a : Args) : Prop :=
  (∀ x ∈ a.pos, ∀ y, (asTuple x)[1]? = some y → Direction y) ∧
  (∀ kvs, a.pos = [.dict kvs] → ∀ p ∈ kvs, Direction p.2) ∧
  ∀ p ∈ a.kw, Direction p.2

/-- In a call of `values` no column is an SQL object. -/
def PlainColumns (a : Args) : Prop :=
  ∀ g, Given a g → ∀ c, g.head? = some c → c.isSql = false

/-- The calls on a `Select` covered. -/
def SelectCall : SelectOp → Prop
  | .columns a | .from_ a | .where_ a | .having a | .on a => RegularArgs a
  | .orderBy a | .groupBy a => RegularArgs a ∧ Directions a
  | .fromTable t al => Regular t ∧ Regular al
  | .join _ arg => RegularArg arg
  | .limit l o => l.isSql = false ∧ o.isSql = false
  | .offset o => o.isSql = false
  | .outfile _ v => Regular v
  | .option .. | .forUpdate _ | .str => True

/-- The calls on an `Insert` covered; `sqlite` takes no argument in `on_duplicate_key_update`. -/
def InsertCall (b : Backend) : InsertOp → Prop
  | .into t => Regular t
  | .values a => RegularArgs a ∧ PlainColumns a
  | .onDuplicateKeyUpdate a => RegularArgs a ∧ (b = .sqlite → a.pos = [] ∧ a.kw = [])
  | .ignore _ | .str => True

/-- The calls on an `Update` covered. -/
def UpdateCall : UpdateOp → Prop
  | .table t => Regular t
  | .set a | .where_ a | .on a => RegularArgs a
  | .join arg | .leftJoin arg | .rightJoin arg => RegularArg arg
  | _ => True

/-- The calls on a `Delete` covered. -/
def DeleteCall : DeleteOp → Prop
  | .delete ts => RegularObjs ts
  | .from_ a | .where_ a | .on a => RegularArgs a
  | .fromTable t al => Regular t ∧ Regular al
  | .join arg | .leftJoin arg | .rightJoin arg => RegularArg arg
  | _ => True

/-- One of the library's exceptions, or Python's recursion limit was hit. -/
def Documented (e : Err) : Prop := e.isSqlPuzzle = true ∨ e = .recursionError

end Spec

end SqlPuzzle
