import Verif.Spec.Grammar
import Verif.Model.Render

/-!
Specification: objects that contain no raw SQL.

`Safe q n k o` says that `o` has nesting depth below `n` and is an object of kind `k` built from

* names in which every quote character `q` belongs to a quoted segment,
* strings that are not written in the form of a quoted reference, finite numbers and other values,
* non-empty lists, the library's functions, conditions and queries.

It excludes custom SQL, a relation object used as a value, numbers without a numeral, empty `Q`
objects, values of types the library does not know, and `CONVERT` to anything but the listed types.
`NoRaw q k o` is `Safe q n k o` for some `n`.
-/

namespace SqlPuzzle.Spec

/-- What an object is used as. -/
inductive Kind where
  | expr | cond | query | stmt
deriving DecidableEq, Repr

section
variable (q : Char) (P : Kind → Obj → Prop)

/-- A name without quote characters, or with quoted runs; not only dots. -/
def SafeName (s : Str) : Prop := WellQuoted q s ∧ ∃ c ∈ s, c ≠ '.'

/-- Text that is not, apart from surrounding white space, written in the form of a reference. -/
def NoReference (s : Str) : Prop := ∀ r, Trimmed isWhite s r → ¬ RefForm q r

/-- A value. -/
def safeVal : Obj → Prop
  | .none | .bool _ | .int _ | .bytes _ | .date _ | .datetime _ => True
  | .float f => ∃ neg m e, f = .fin neg m e
  | .decimal d => ∃ neg c e, d = .fin neg c e
  | .str s => NoReference q s
  | .list xs | .tuple xs | .set xs | .frozenset xs | .gen xs =>
    xs ≠ [] ∧ ∀ x ∈ xs, P .expr (.sqlValue x)
  | .range xs => xs ≠ [] ∧ ∀ x ∈ xs, P .expr (.sqlValue (.int x))
  | .select s => P .query (.select s)
  | .union a b all => P .query (.union a b all)
  | o => o.isSql = true ∧ P .expr o

/-- A column, table or alias. -/
def safeRef : Obj → Prop
  | .str s => SafeName q s
  | .int _ => True
  | .select s => P .query (.select s)
  | .union a b all => P .query (.union a b all)
  | o => o.isSql = true ∧ P .expr o

def safeAliased (name alias : Obj) : Prop :=
  safeRef q P name ∧ (alias.truthy = true → safeRef q P alias)

def safeColumn (c : Column) : Prop := safeAliased q P c.name c.alias

def safeCond : Cond → Prop
  | .cond on col k v =>
    safeRef q P col ∧
    match k with
    | .in_ | .notIn =>
      match v.iterate with
      | none => safeVal q P v
      | some xs => (on && v.isStr) = false ∧ xs ≠ [] ∧ ∀ x ∈ xs, x.isNone = false → P .expr (.sqlValue x)
    | _ => if on && v.isStr then safeRef q P v else safeVal q P v
  | .item o => P .cond o

def safeConds (ps : List Cond) : Prop := ∀ p ∈ ps, safeCond q P p

def safeAssign : Value → Prop
  | .value col v => safeRef q P col ∧ safeVal q P v
  | .item _ => False

def safeJoin (j : Join) : Prop := safeAliased q P j.name j.alias ∧ safeConds q P j.ons

def safeTable (t : Table) : Prop := safeAliased q P t.name t.alias ∧ ∀ j ∈ t.joins, safeJoin q P j

def safeOpt : Option Obj → Prop
  | none => True
  | some v => safeVal q P v

def safeSelect (s : Select) : Prop :=
  (∀ c ∈ s.columns, safeColumn q P c) ∧ (∀ t ∈ s.tables, safeTable q P t) ∧
  safeConds q P s.where_ ∧ (∀ o ∈ s.groupBy, safeRef q P o.col) ∧ safeConds q P s.having ∧
  (∀ o ∈ s.orderBy, safeRef q P o.col) ∧
  safeOpt q P s.outfile.file ∧ safeOpt q P s.outfile.fields ∧ safeOpt q P s.outfile.lines ∧
  safeOpt q P s.outfile.enclosed

/-- One row of an `INSERT`: values of named columns. -/
def safeRow (r : List Value) : Prop :=
  r ≠ [] ∧ ∀ v ∈ r, ∃ c x, v = .value (.str c) x ∧ SafeName q c ∧ safeVal q P x

def safeInsert (i : Insert) : Prop :=
  (∀ t ∈ i.tables, safeTable q P t) ∧ (∀ r ∈ i.rows, safeRow q P r) ∧
  (∀ v ∈ i.onDup, safeAssign q P v) ∧ (∀ v ∈ i.onConflict, safeAssign q P v) ∧
  (i.onConflict ≠ [] → i.onDup = [] ∧ ∃ c, i.conflict = some c ∧ SafeName q c) ∧
  (i.isReplace = true → i.onDup = [] ∧ i.onConflict = [])

def safeUpdate (u : Update) : Prop :=
  (∀ t ∈ u.tables, safeTable q P t) ∧ (∀ v ∈ u.values, safeAssign q P v) ∧ safeConds q P u.where_

def safeDelete (s : Delete) : Prop :=
  (∀ t ∈ s.tables, safeTable q P t) ∧ (∀ t ∈ s.references, safeTable q P t) ∧ safeConds q P s.where_

/-- The argument of a function: a name, or a list of names. -/
def safeArg : Obj → Prop
  | .list xs | .tuple xs => xs ≠ [] ∧ ∀ x ∈ xs, safeRef q P x
  | e => safeRef q P e

def safeExpr : Obj → Prop
  | .sqlValue v => safeVal q P v
  | .sqlRef v => safeRef q P v
  | .func _ _ e => safeArg q P e
  | .concat cs => ∀ c ∈ cs, safeColumn q P c
  | .groupConcat cs os sep =>
    (∀ c ∈ cs, safeColumn q P c) ∧ (∀ o ∈ os, safeRef q P o.col) ∧
      (sep.truthy = true → safeVal q P sep)
  | .convert e ty => safeArg q P e ∧ ∃ w ∈ castTypes, ty = some w
  | .exists_ (.select s) => P .query (.select s)
  | .exists_ (.union a b all) => P .query (.union a b all)
  | _ => False

def safeQuery : Obj → Prop
  | .select s => safeSelect q P s
  | .union a b _ => P .query a ∧ P .query b
  | _ => False

/-- One level of `Safe`. -/
def safeF : Kind → Obj → Prop
  | .expr, o => safeExpr q P o
  | .cond, .conds ps => ps ≠ [] ∧ safeConds q P ps
  | .cond, .cofc l r _ => P .cond l ∧ P .cond r
  | .cond, .not_ ps => P .cond (.conds ps)
  | .cond, o => safeExpr q P o
  | .query, o => safeQuery q P o
  | .stmt, .insert i => safeInsert q P i
  | .stmt, .update u => safeUpdate q P u
  | .stmt, .delete s => safeDelete q P s
  | .stmt, o => safeQuery q P o

end

/-- The object is nested less than `n` deep and contains no raw SQL. -/
def Safe (q : Char) : Nat → Kind → Obj → Prop
  | 0 => fun _ _ => False
  | n + 1 => safeF q (Safe q n)

/-- The object contains no raw SQL. -/
def NoRaw (q : Char) (k : Kind) (o : Obj) : Prop := ∃ n, Safe q n k o

end SqlPuzzle.Spec
