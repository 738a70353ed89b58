import Verif.Spec.Parts
import Verif.Model.Render

/-!
Classes of objects on which `==` of the library behaves as an equality.
-/

namespace SqlPuzzle.Spec
open SqlPuzzle

/-- Compared by their text with strings and with every SQL object: custom SQL, `V()`, `R()`,
functions, `NOT`, `EXISTS`, `CONVERT`, and conditions combined by `&` or `|`. -/
def ComparedByText : Obj → Prop
  | .custom _ | .sqlValue _ | .sqlRef _ | .cofc .. | .not_ _ | .func .. | .concat _
  | .groupConcat .. | .convert .. | .exists_ _ => True
  | _ => False

/-- No `NaN`, no generator, no set or dictionary. -/
def SelfEqualHere : Obj → Prop
  | .float .nan | .decimal .nan | .gen _ | .set _ | .frozenset _ | .dict _ => False
  | _ => True

def SelfEqual (o : Obj) : Prop := Throughout SelfEqualHere o

/-- The conditions `ON` in a list compare columns given by name. -/
def NamedOns (ps : List Cond) : Prop := ∀ c k v, CondPart.cond true c k v ∈ ps → ∃ s, c = .str s

def NamedJoins (ts : List Table) : Prop := ∀ t ∈ ts, ∀ j ∈ t.joins, NamedOns j.ons

/-- Nothing is compared by text, `ON` compares columns given by name. -/
def StructuralHere : Obj → Prop
  | .conds ps => NamedOns ps
  | .select q => NamedJoins q.tables ∧ NamedOns q.where_ ∧ NamedOns q.having
  | .insert q => NamedJoins q.tables
  | .update q => NamedJoins q.tables ∧ NamedOns q.where_
  | .delete q => NamedJoins q.tables ∧ NamedJoins q.references ∧ NamedOns q.where_
  | o => ¬ ComparedByText o

def Structural (o : Obj) : Prop := Throughout StructuralHere o

/-- One of Python's four number types. -/
inductive NumType where
  | bool | int | float | decimal

/-- Shortest representation `± m · b ^ e` of a number, with `+0` for zero. -/
def Shortest (b : Nat) (neg : Bool) (m : Nat) (e : Int) : Prop :=
  (m = 0 → neg = false ∧ e = 0) ∧ (m ≠ 0 → m % b ≠ 0)

/-- The conditions `ON` in a list have a column given by name on the left, and if there is one on
the right, it stands in the relation `left` to it. -/
def OrientedOns (left : Str → Str → Prop) (ps : List Cond) : Prop :=
  ∀ c k v, CondPart.cond true c k v ∈ ps → ∃ s, c = .str s ∧ ∀ t, v = .str t → left s t

def OrientedJoins (left : Str → Str → Prop) (ts : List Table) : Prop :=
  ∀ t ∈ ts, ∀ j ∈ t.joins, OrientedOns left j.ons

/-- Nothing is compared by text; all numbers have one type and are neither `NaN` nor `-0`; datetimes
have no time zone; no generators, sets or dictionaries; `ON` conditions are oriented by `left`;
no `ON CONFLICT` column and no permission to change all rows. -/
def ExactHere (K : NumType) (left : Str → Str → Prop) : Obj → Prop
  | .none | .str _ | .bytes _ | .date _ | .range _ | .opaque _ => True
  | .datetime d => d.tz = none
  | .bool _ => K = .bool
  | .int _ => K = .int
  | .float (.fin neg m e) => K = .float ∧ Shortest 2 neg m e
  | .float (.inf _) => K = .float
  | .decimal (.fin neg c e) => K = .decimal ∧ Shortest 10 neg c e
  | .decimal (.inf _) => K = .decimal
  | .list _ | .tuple _ | .rel .. | .union .. => True
  | .conds ps => OrientedOns left ps
  | .select q => OrientedJoins left q.tables ∧ OrientedOns left q.where_ ∧ OrientedOns left q.having
  | .insert q => OrientedJoins left q.tables ∧ q.conflict = none
  | .update q => OrientedJoins left q.tables ∧ OrientedOns left q.where_ ∧ q.allowAll = false
  | .delete q => OrientedJoins left q.tables ∧ OrientedJoins left q.references ∧
      OrientedOns left q.where_ ∧ q.allowAll = false
  | _ => False

def Exact (K : NumType) (left : Str → Str → Prop) (o : Obj) : Prop :=
  Throughout (ExactHere K left) o

end SqlPuzzle.Spec
