import Verif.Spec.Parsing
import Verif.Spec.Arguments

/-!
What the calls of a history give to the clauses that accumulate.
-/

namespace SqlPuzzle

/-- Names and aliases of tables, without joins. -/
def tableNames (ts : List Table) : List (Obj × Obj) := ts.map fun t => (t.name, t.alias)

namespace Spec

/-! Values for which `==` is the same as being the same value: numbers other than integers are left
out because `1 == 1.0 == True`, library objects because they are compared by text. -/

/-- A single value of this kind. -/
def ExactScalar : Obj → Prop
  | .none | .str _ | .int _ | .bytes _ | .date _ => True
  | .datetime d => d.tz = Option.none
  | _ => False

/-- A value of a condition: a single value or a sequence of them. -/
def ExactValue : Obj → Prop
  | .bytes _ => False
  | .list xs | .tuple xs | .gen xs => ∀ x ∈ xs, ExactScalar x
  | .range _ => True
  | v => ExactScalar v

/-- A value with or without an explicit relation. -/
def ExactOperand : Obj → Prop
  | .rel _ (.list xs) => ∀ x ∈ xs, ExactScalar x
  | .rel _ v => ExactScalar v
  | v => ExactValue v

/-- A column name and a value. -/
def ExactCond (p : Obj × Obj) : Prop := (∃ s, p.1 = .str s) ∧ ExactOperand p.2

/-- A column name or number, and an alias or `None`. -/
def ExactColumn (p : Obj × Obj) : Prop :=
  ((∃ s, p.1 = .str s) ∨ ∃ i, p.1 = .int i) ∧ (p.2 = .none ∨ ∃ s, p.2 = .str s)

/-- A table name, and an alias or `None`. -/
def ExactTable (p : Obj × Obj) : Prop :=
  (∃ s, s ≠ [] ∧ p.1 = .str s) ∧ (p.2 = .none ∨ ∃ s, p.2 = .str s)

/-- A column name and the value it is set to. -/
def ExactAssignment (p : Obj × Obj) : Prop := (∃ s, p.1 = .str s) ∧ ExactScalar p.2

/-- A column name or number, and a direction: nothing, or `asc`/`desc` in any case. -/
def SortDirection (cx : Ctx) (v : Obj) (desc : Bool) : Prop :=
  (v = .none ∧ desc = false) ∨
  ∃ s, v = .str s ∧
    ((cx.env.upper s = L!"ASC" ∧ desc = false) ∨ (cx.env.upper s = L!"DESC" ∧ desc = true))

/-- The pairs that a call on a SELECT gives to its WHERE clause. -/
def WherePairs : SelectOp → List (Obj × Obj) → Prop
  | .where_ a, ps => GivesPairs a ps
  | _, ps => ps = []

/-- The pairs that a call on a SELECT gives to its HAVING clause. -/
def HavingPairs : SelectOp → List (Obj × Obj) → Prop
  | .having a, ps => GivesPairs a ps
  | _, ps => ps = []

/-- The pairs that a call on an UPDATE gives to its WHERE clause. -/
def UpdatePairs : UpdateOp → List (Obj × Obj) → Prop
  | .where_ a, ps => GivesPairs a ps
  | _, ps => ps = []

/-- The pairs that a call on a DELETE gives to its WHERE clause. -/
def DeletePairs : DeleteOp → List (Obj × Obj) → Prop
  | .where_ a, ps => GivesPairs a ps
  | _, ps => ps = []

/-- The columns with their aliases that a call on a SELECT gives. -/
def ColumnNames : SelectOp → List (Obj × Obj) → Prop
  | .columns a, ps => GivesNames a ps
  | _, ps => ps = []

/-- The tables with their aliases that a call on a SELECT gives; there are no joins. -/
def TableNames : SelectOp → List (Obj × Obj) → Prop
  | .from_ a, ps => a.pos ≠ [.dict []] ∧ GivesNames a ps
  | .fromTable t al, ps => ps = [(t, al)]
  | .join .., _ | .on _, _ => False
  | _, ps => ps = []

/-- The assignments that a call on an UPDATE gives. -/
def SetPairs : UpdateOp → List (Obj × Obj) → Prop
  | .set a, ps => GivesPairs a ps
  | _, ps => ps = []

/-- A use of a column in ORDER BY or GROUP BY: is the direction descending? -/
abbrev Use := Obj × Bool

/-- The uses that names with directions stand for. -/
def Uses (cx : Ctx) (ps : List (Obj × Obj)) (us : List Use) : Prop :=
  List.Forall₂ (fun p (u : Use) =>
    ((∃ s, p.1 = .str s) ∨ ∃ i, p.1 = .int i) ∧ u.1 = p.1 ∧ SortDirection cx p.2 u.2) ps us

/-- The uses that a call on a SELECT gives to ORDER BY. -/
def OrderUses (cx : Ctx) : SelectOp → List Use → Prop
  | .orderBy a, us => ∃ ps, GivesNames a ps ∧ Uses cx ps us
  | _, us => us = []

/-- The uses that a call on a SELECT gives to GROUP BY. -/
def GroupUses (cx : Ctx) : SelectOp → List Use → Prop
  | .groupBy a, us => ∃ ps, GivesNames a ps ∧ Uses cx ps us
  | _, us => us = []

end Spec

end SqlPuzzle
