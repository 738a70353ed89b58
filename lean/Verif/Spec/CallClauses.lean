import Verif.Model.Queries

/-!
Which clause of an `UPDATE`, `DELETE` or `INSERT` each method is about, for C27 and C29.
-/

namespace SqlPuzzle.Spec

open SqlPuzzle

/-- The clauses of an `UPDATE`; `confirm` is the permission to update everything. -/
inductive UpdateGroup where
  | tables | set | where_ | options | confirm
deriving DecidableEq, Repr

/-- The clause a method of `Update` is about (update.py:49-118); `none` for rendering. -/
def updateGroup : UpdateOp → Option UpdateGroup
  | .table _ | .join _ | .leftJoin _ | .rightJoin _ | .on _ => some .tables
  | .set _ => some .set
  | .where_ _ => some .where_
  | .ignore _ => some .options
  | .allowUpdateAll | .forbidUpdateAll => some .confirm
  | .str => none

/-- The clauses of a `DELETE`: `deleted` are the tables to delete from, `from_` is the `FROM` list
with its joins, `confirm` is the permission to delete everything. -/
inductive DeleteGroup where
  | deleted | from_ | where_ | options | confirm
deriving DecidableEq, Repr

/-- The clause a method of `Delete` is about (delete.py:49-126); `none` for rendering. -/
def deleteGroup : DeleteOp → Option DeleteGroup
  | .delete _ => some .deleted
  | .from_ _ | .fromTable .. | .join _ | .leftJoin _ | .rightJoin _ | .on _ => some .from_
  | .where_ _ => some .where_
  | .ignore _ => some .options
  | .allowDeleteAll | .forbidDeleteAll => some .confirm
  | .str => none

/-- The clauses of an `INSERT`. -/
inductive InsertGroup where
  | into | values | onDuplicate | options
deriving DecidableEq, Repr

/-- The clause a method of `Insert` is about (insert.py:62-90); `none` for rendering. -/
def insertGroup : InsertOp → Option InsertGroup
  | .into _ => some .into
  | .values _ => some .values
  | .onDuplicateKeyUpdate _ => some .onDuplicate
  | .ignore _ => some .options
  | .str => none

end SqlPuzzle.Spec
