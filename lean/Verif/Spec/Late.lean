import Verif.Spec.Equality
import Verif.Model.Sessions

/-!
Calls for which it makes no difference which backend is configured.
-/

namespace SqlPuzzle.Spec
open SqlPuzzle

/-- Nothing in the object, at any depth, is compared by its text. -/
def Untexted (o : Obj) : Prop := Throughout (fun o => ¬ComparedByText o) o

/-- Arguments in which nothing is compared by its text; keyword names are distinct, and the keys of
dictionaries are distinct strings. -/
structure UntextedArgs (a : Args) : Prop where
  pos : ∀ x ∈ a.pos, Untexted x
  kw : ∀ p ∈ a.kw, Untexted p.2
  keywords : (a.kw.map Prod.fst).Nodup
  dicts : ∀ kvs, .dict kvs ∈ a.pos → ∃ items : List (Str × Obj),
    kvs = items.map (fun p => (.str p.1, p.2)) ∧ (items.map Prod.fst).Nodup

/-- The argument of a join, other than a library object, which is refused with its text in the
message. -/
def LateJoin (arg : Obj) : Prop := Untexted arg ∧ arg.isSql = false

/-- A call on a `Select` that neither renders it nor asks for a feature only some backends have. -/
def LateSelect : SelectOp → Prop
  | .columns a | .from_ a | .on a | .where_ a | .having a | .groupBy a | .orderBy a => UntextedArgs a
  | .fromTable t al => Untexted t ∧ Untexted al
  | .join ty arg => ty ≠ .full ∧ LateJoin arg
  | .str => False
  | _ => True

/-- The same for an `Insert`. -/
def LateInsert : InsertOp → Prop
  | .into t => UntextedArgs { pos := [t] }
  | .values a => UntextedArgs a
  | .ignore _ => True
  | .onDuplicateKeyUpdate _ | .str => False

/-- The same for an `Update`. -/
def LateUpdate : UpdateOp → Prop
  | .table t => UntextedArgs { pos := [t] }
  | .set a | .where_ a | .on a => UntextedArgs a
  | .join arg | .leftJoin arg | .rightJoin arg => LateJoin arg
  | .str => False
  | _ => True

/-- The same for a `Delete`. -/
def LateDelete : DeleteOp → Prop
  | .delete ts => UntextedArgs { pos := ts }
  | .from_ a | .where_ a | .on a => UntextedArgs a
  | .fromTable t al => Untexted t ∧ Untexted al
  | .join arg | .leftJoin arg | .rightJoin arg => LateJoin arg
  | .str => False
  | _ => True

/-- The calls on the query in a program. -/
def callsOf {ω : Type} : List (Command ω) → List ω
  | [] => []
  | .call op :: cs => op :: callsOf cs
  | .configure _ :: cs => callsOf cs

/-- The arguments of `configure` in a program. -/
def configuresOf {ω : Type} : List (Command ω) → List Str
  | [] => []
  | .call _ :: cs => configuresOf cs
  | .configure name :: cs => name :: configuresOf cs

/-- The program with all calls of `configure` made first. -/
def configureFirst {ω : Type} (cs : List (Command ω)) : List (Command ω) :=
  (configuresOf cs).map .configure ++ (callsOf cs).map .call

end SqlPuzzle.Spec
