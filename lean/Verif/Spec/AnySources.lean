import Verif.Spec.Chosen
import Verif.Spec.Composed
import Verif.Spec.JoinHistory

/-!
Which tables, joins and join conditions calls give, whatever these are made of.
-/

namespace SqlPuzzle.Spec

/-- What a call has to do with the tables: it lists tables (names and aliases), joins a table, gives join conditions, or
nothing. -/
inductive SourceCall where
  | tables (ps : List (Obj × Obj))
  | join (type : JoinType) (name aliasName : Obj)
  | on (cs : List Cond)
  | other

/-- The conditions that the arguments of `on` give: one SQL object, several Q objects, or pairs. -/
inductive GivesJoinConditions : Args → List Cond → Prop
  | object {o : Obj} : o.isSql = true → GivesJoinConditions { pos := [o] } [.item o]
  | objects {o o' : Obj} {os : List Obj} : (∀ x ∈ o :: o' :: os, IsCondition x) →
      GivesJoinConditions { pos := o :: o' :: os } ((o :: o' :: os).map .item)
  | pairs {a : Args} {ps : List (Obj × Obj)} : GivesPairs a ps → (a.pos ≠ [] → ∃ x ∈ a.pos, ¬IsCondition x) →
      (∀ kvs, a.pos = [.dict kvs] → a.kw = []) → GivesJoinConditions a (ps.map fun p => joinCondOf p.1 p.2)

/-- The tables, of any kind, with their aliases, that arguments list; none of them is false (C18). -/
def ListsSources (a : Args) (ps : List (Obj × Obj)) : Prop := GivesNames a ps ∧ ∀ x ∈ a.pos, x.truthy = true

/-- What a call on a SELECT has to do with its tables. -/
inductive SelectSources : SelectOp → SourceCall → Prop
  | from_ {a ps} : ListsSources a ps → SelectSources (.from_ a) (.tables ps)
  | fromTable {t al} : SelectSources (.fromTable t al) (.tables [(t, al)])
  | join {ty arg n al} : JoinArg arg n al → SelectSources (.join ty arg) (.join ty n al)
  | on {a cs} : GivesJoinConditions a cs → SelectSources (.on a) (.on cs)
  | str : SelectSources .str .other
  | other {op} : NoTableSelect op → SelectSources op .other

/-- What a call on an UPDATE has to do with its tables. -/
inductive UpdateSources : UpdateOp → SourceCall → Prop
  | table {t ps} : ListsSources { pos := [t] } ps → UpdateSources (.table t) (.tables ps)
  | join {arg n al} : JoinArg arg n al → UpdateSources (.join arg) (.join .inner n al)
  | leftJoin {arg n al} : JoinArg arg n al → UpdateSources (.leftJoin arg) (.join .left n al)
  | rightJoin {arg n al} : JoinArg arg n al → UpdateSources (.rightJoin arg) (.join .right n al)
  | on {a cs} : GivesJoinConditions a cs → UpdateSources (.on a) (.on cs)
  | str : UpdateSources .str .other
  | other {op} : NoTableUpdate op → UpdateSources op .other

/-- What a call on a DELETE has to do with the tables after FROM. -/
inductive DeleteSources : DeleteOp → SourceCall → Prop
  | from_ {a ps} : ListsSources a ps → DeleteSources (.from_ a) (.tables ps)
  | fromTable {t al} : DeleteSources (.fromTable t al) (.tables [(t, al)])
  | join {arg n al} : JoinArg arg n al → DeleteSources (.join arg) (.join .inner n al)
  | leftJoin {arg n al} : JoinArg arg n al → DeleteSources (.leftJoin arg) (.join .left n al)
  | rightJoin {arg n al} : JoinArg arg n al → DeleteSources (.rightJoin arg) (.join .right n al)
  | on {a cs} : GivesJoinConditions a cs → DeleteSources (.on a) (.on cs)
  | str : DeleteSources .str .other
  | other {op} : NoTableDelete op → DeleteSources op .other

/-- A list with its last element changed. -/
def withLast {α : Type} (f : α → α) : List α → List α
  | [] => []
  | [x] => [f x]
  | x :: y :: ys => x :: withLast f (y :: ys)

/-- Tables are listed after those before; a join belongs to the last table, and a condition to the last join of the last
table. -/
def withSource (ts : List Table) : SourceCall → List Table
  | .tables ps => ts ++ ps.map fun p => ⟨p.1, p.2, []⟩
  | .join ty n al => withLast (fun t => { t with joins := t.joins ++ [⟨ty, n, al, []⟩] }) ts
  | .on cs => withLast (fun t => { t with joins := withLast (fun j => { j with ons := j.ons ++ cs }) t.joins }) ts
  | .other => ts

/-- The tables that the calls give, each with its joins, each with its conditions. -/
def sourcesGiven (calls : List SourceCall) : List Table := calls.foldl withSource []

/-- Names with aliases that the library does not take for equal (`==`). -/
def NotTakenEqual (cx : Ctx) (p p' : Obj × Obj) : Prop := ∀ k, ¬ EqualColumns cx k p p'

/-- No two of the tables are taken for equal, and no two of the joins of a table. -/
def SourcesDiffer (cx : Ctx) (ts : List Table) : Prop :=
  (ts.map fun t => (t.name, t.alias)).Pairwise (NotTakenEqual cx) ∧
  ∀ t ∈ ts, (t.joins.map fun j => (j.name, j.alias)).Pairwise (NotTakenEqual cx)

/-- Conditions of one join that the library takes for equal are true of the same rows. -/
def EqualOnsAgree {R : Type} (cx : Ctx) (n : Nat) (holds : R → Obj → Tri) (ts : List Table) : Prop :=
  ∀ t ∈ ts, ∀ j ∈ t.joins, EqualsAgree cx n holds j.ons

end SqlPuzzle.Spec
