import Verif.Spec.Accumulate
import Verif.Spec.JoinCalls
import Verif.Spec.Joins

/-!
Which joins and which conditions a history of calls gives to which table.
-/

namespace SqlPuzzle.Spec

/-- What a call has to do with the tables: it lists tables (names and aliases), joins a table, gives
conditions (columns and values), renders the query, or nothing. -/
inductive TableEvent where
  | tables (ps : List (Obj × Obj))
  | join (type : JoinType) (name aliasName : Obj)
  | on (ps : List (Obj × Obj))
  | rendered
  | other

/-- Arguments that list tables by name. -/
def ListsTables (a : Args) (ps : List (Obj × Obj)) : Prop :=
  GivesNames a ps ∧ a.pos ≠ [.dict []] ∧ ∀ p ∈ ps, ExactTable p

/-- The argument of a join that the backend has. -/
def JoinsTable (cx : Ctx) (ty : JoinType) (arg n al : Obj) : Prop :=
  JoinArg arg n al ∧ NameLike n ∧ (al = .none ∨ NameLike al) ∧
    (ty = .full → cx.backend = .postgresql)

/-- Arguments that give conditions between named columns, or of named columns and plain values. -/
def GivesOns (a : Args) (ps : List (Obj × Obj)) : Prop := GivesPairs a ps ∧ ∀ p ∈ ps, ExactCond p

/-- Calls on a `Select` that are about something else. -/
def NoTableSelect : SelectOp → Prop
  | .from_ _ | .fromTable .. | .join .. | .on _ | .str => False
  | _ => True

/-- What a call on a `Select` has to do with its tables. -/
inductive SelectEvent (cx : Ctx) : SelectOp → TableEvent → Prop
  | from_ {a ps} : ListsTables a ps → SelectEvent cx (.from_ a) (.tables ps)
  | fromTable {t al} : ExactTable (t, al) → SelectEvent cx (.fromTable t al) (.tables [(t, al)])
  | join {ty arg n al} : JoinsTable cx ty arg n al → SelectEvent cx (.join ty arg) (.join ty n al)
  | on {a ps} : GivesOns a ps → SelectEvent cx (.on a) (.on ps)
  | str : SelectEvent cx .str .rendered
  | other {op} : NoTableSelect op → SelectEvent cx op .other

/-- Calls on an `Update` that are about something else. -/
def NoTableUpdate : UpdateOp → Prop
  | .table _ | .join _ | .leftJoin _ | .rightJoin _ | .on _ | .str => False
  | _ => True

/-- What a call on an `Update` has to do with its tables. -/
inductive UpdateEvent (cx : Ctx) : UpdateOp → TableEvent → Prop
  | table {t ps} : ListsTables { pos := [t] } ps → UpdateEvent cx (.table t) (.tables ps)
  | join {arg n al} : JoinsTable cx .inner arg n al → UpdateEvent cx (.join arg) (.join .inner n al)
  | leftJoin {arg n al} : JoinsTable cx .left arg n al →
      UpdateEvent cx (.leftJoin arg) (.join .left n al)
  | rightJoin {arg n al} : JoinsTable cx .right arg n al →
      UpdateEvent cx (.rightJoin arg) (.join .right n al)
  | on {a ps} : GivesOns a ps → UpdateEvent cx (.on a) (.on ps)
  | str : UpdateEvent cx .str .rendered
  | other {op} : NoTableUpdate op → UpdateEvent cx op .other

/-- Calls on a `Delete` that are about something else than the tables after FROM. -/
def NoTableDelete : DeleteOp → Prop
  | .from_ _ | .fromTable .. | .join _ | .leftJoin _ | .rightJoin _ | .on _ | .str => False
  | _ => True

/-- What a call on a `Delete` has to do with the tables after FROM. -/
inductive DeleteEvent (cx : Ctx) : DeleteOp → TableEvent → Prop
  | from_ {a ps} : ListsTables a ps → DeleteEvent cx (.from_ a) (.tables ps)
  | fromTable {t al} : ExactTable (t, al) → DeleteEvent cx (.fromTable t al) (.tables [(t, al)])
  | join {arg n al} : JoinsTable cx .inner arg n al → DeleteEvent cx (.join arg) (.join .inner n al)
  | leftJoin {arg n al} : JoinsTable cx .left arg n al →
      DeleteEvent cx (.leftJoin arg) (.join .left n al)
  | rightJoin {arg n al} : JoinsTable cx .right arg n al →
      DeleteEvent cx (.rightJoin arg) (.join .right n al)
  | on {a ps} : GivesOns a ps → DeleteEvent cx (.on a) (.on ps)
  | str : DeleteEvent cx .str .rendered
  | other {op} : NoTableDelete op → DeleteEvent cx op .other

/-- The conditions given before the next join. -/
def onsUntilJoin : List TableEvent → List Cond
  | [] | .join .. :: _ => []
  | .on ps :: es => (ps.map fun p => joinCondOf p.1 p.2) ++ onsUntilJoin es
  | _ :: es => onsUntilJoin es

/-- The events before the next table is listed. -/
def untilTable : List TableEvent → List TableEvent
  | [] | .tables (_ :: _) :: _ => []
  | e :: es => e :: untilTable es

/-- All tables listed, in order. -/
def listedTables : List TableEvent → List (Obj × Obj)
  | [] => []
  | .tables ps :: es => ps ++ listedTables es
  | _ :: es => listedTables es

/-- All tables joined, in order. -/
def joinedTables : List TableEvent → List (Obj × Obj)
  | [] => []
  | .join _ n al :: es => (n, al) :: joinedTables es
  | _ :: es => joinedTables es

/-- Different tables are joined, by name. Rendering merges joins of one table. -/
def DistinctJoins (es : List TableEvent) : Prop :=
  (joinedTables es).Nodup ∧ ∀ p ∈ joinedTables es, ExactTable p

open Classical in
/-- The joins of the events, in order; each has the conditions given after it and before the next
one, without those that repeat an earlier one, as it is or with swapped sides. -/
noncomputable def joinsGiven : List TableEvent → List Join
  | [] => []
  | .join ty n al :: es =>
    ⟨ty, n, al, firsts (fun a b => decide (SameOn a b)) (onsUntilJoin es)⟩ :: joinsGiven es
  | _ :: es => joinsGiven es

/-- Tables listed together: the last one has the joins. -/
def givenTogether : List (Obj × Obj) → List Join → List Table
  | [], _ => []
  | [p], js => [⟨p.1, p.2, js⟩]
  | p :: q :: ps, js => ⟨p.1, p.2, []⟩ :: givenTogether (q :: ps) js

/-- The tables of the events, in order; each has the joins given after it and before the next
table. -/
noncomputable def tablesGiven : List TableEvent → List Table
  | [] => []
  | .tables ps :: es => givenTogether ps (joinsGiven (untilTable es)) ++ tablesGiven es
  | _ :: es => tablesGiven es

end SqlPuzzle.Spec
