import Verif.Spec.Statement

/-!
Queries in which every name, value and condition is written in one way only: the queries of which C59 says
that their text identifies them.
-/

namespace SqlPuzzle.Spec

/-- A dotted name without quote characters and without empty segments, that does not begin with an
asterisk. -/
def TidyName (q : Char) (s : Str) : Prop :=
  ∃ p ps, (∀ x ∈ p :: ps, x ≠ [] ∧ '.' ∉ x ∧ q ∉ x) ∧ p ≠ ['*'] ∧ s = dotted (p :: ps)

/-- A string, an integer or `None`; the string does not look like a quoted reference (C03). -/
def TidyScalar (q : Char) : Obj → Prop
  | .str s => ∀ r, Trimmed isWhite s r → ¬RefForm q r
  | .int _ | .none => True
  | _ => False

/-- An aggregate of a column or of `*`. -/
def TidyAggregate (q : Char) (o : Obj) : Prop :=
  ∃ f d s, o = .func f d (.str s) ∧ (s = ['*'] ∨ TidyName q s)

/-- A column inside of a function, without alias. -/
def TidyPlain (q : Char) (c : Column) : Prop := ∃ s, c = ⟨.str s, .none⟩ ∧ TidyName q s

/-- A column inside of a function that the function sorts by. -/
def TidySorted (q : Char) (o : Order) : Prop := ∃ s, o.col = .str s ∧ TidyName q s

/-- The name of a type: text without parentheses, which may be followed by text in parentheses. -/
def TidyType (ty : Str) : Prop :=
  ∃ w d, '(' ∉ w ∧ ')' ∉ w ∧ '(' ∉ d ∧ ')' ∉ d ∧ (ty = w ∨ ty = w ++ '(' :: (d ++ [')']))

/-- An aggregate, or `concat`, `group_concat` or `convert` of columns; a separator is not empty, and the type
to convert to is given. -/
def TidyFunction (q : Char) (o : Obj) : Prop :=
  TidyAggregate q o ∨
  (∃ cs, o = .concat cs ∧ cs ≠ [] ∧ ∀ c ∈ cs, TidyPlain q c) ∨
  (∃ cs os sep, o = .groupConcat cs os sep ∧ cs ≠ [] ∧ (∀ c ∈ cs, TidyPlain q c) ∧ (∀ o ∈ os, TidySorted q o) ∧
    (sep = .none ∨ ∃ s, s ≠ [] ∧ sep = .str s ∧ TidyScalar q sep)) ∨
  ∃ s ty, o = .convert (.str s) (some ty) ∧ TidyName q s ∧ TidyType ty

/-- A scalar, a list of strings and integers, a column (`R('name')`) or a function of columns. -/
def TidyValue (q : Char) (o : Obj) : Prop :=
  TidyScalar q o ∨ (∃ xs, o = .list xs ∧ xs ≠ [] ∧ ∀ x ∈ xs, TidyScalar q x ∧ x ≠ .none) ∨
    (∃ s, o = .sqlRef (.str s) ∧ TidyName q s) ∨ TidyFunction q o

/-- Two columns and a relation. -/
def TidyOn (q : Char) (c : Cond) : Prop :=
  ∃ s k t, c = .cond true (.str s) k (.str t) ∧ TidyName q s ∧ TidyName q t ∧ k ≠ .in_ ∧ k ≠ .notIn

/-- A string of the outfile clause. -/
def TidySetting (q : Char) : Option Obj → Prop
  | none => True
  | some v => ∃ s, v = .str s ∧ TidyScalar q v

/-- What may be nested in a query. -/
structure Shapes where
  /-- In the place of a column or table. -/
  name : Obj → Prop
  /-- In the place of a value. -/
  value : Obj → Prop
  /-- In the place of a condition. -/
  item : Obj → Prop
  /-- Conditions in a `Not`. -/
  group : List Cond → Prop
  /-- The condition of a `Q` that is combined by `|` or `&`. -/
  single : Cond → Prop
  /-- After `EXISTS`. -/
  sub : Select → Prop

section
variable (S : Shapes) (cx : Ctx) (n : Nat)

/-- A name with an alias or `None`. -/
def TidyAliased (name al : Obj) : Prop :=
  S.name name ∧ (al = .none ∨ ∃ s, al = .str s ∧ TidyName cx.backend.quote s)

/-- A column, a relation and a value; `IN` and `NOT IN` have no string. -/
def TidyPair (c : Cond) : Prop :=
  ∃ o k v, c = .cond false o k v ∧ S.name o ∧ S.value v ∧ (k = .in_ ∨ k = .notIn → ∀ s, v ≠ .str s)

/-- Such a condition, or a condition object. -/
def TidyCond (c : Cond) : Prop := TidyPair S c ∨ ∃ o, c = .item o ∧ S.item o

/-- What `|` and `&` combine: condition objects, and `Q` objects with one condition. -/
def TidyOperand (o : Obj) : Prop := S.item o ∨ ∃ c, o = .conds [c] ∧ S.single c

def TidyOrder (o : Order) : Prop := S.name o.col

def TidyAssignment (a : Value) : Prop :=
  ∃ s v, a = .value (.str s) v ∧ TidyName cx.backend.quote s ∧ S.value v

def TidyJoin (j : Join) : Prop := TidyAliased S cx j.name j.alias ∧ ∀ c ∈ j.ons, TidyOn cx.backend.quote c

/-- A table without repeated joins (C30). -/
def TidyTable (t : Table) : Prop :=
  TidyAliased S cx t.name t.alias ∧ (∀ j ∈ t.joins, TidyJoin S cx j) ∧ t.joins.Pairwise (JoinsDiffer cx n)

structure TidySelectOf (q : Select) : Prop where
  columns : ∀ c ∈ q.columns, TidyAliased S cx c.name c.alias
  tables : ∀ t ∈ q.tables, TidyTable S cx n t
  where_ : ∀ c ∈ q.where_, TidyCond S c
  groupBy : ∀ o ∈ q.groupBy, TidyOrder S o
  having : ∀ c ∈ q.having, TidyCond S c
  orderBy : ∀ o ∈ q.orderBy, TidyOrder S o
  settings : TidySetting cx.backend.quote q.outfile.file ∧ TidySetting cx.backend.quote q.outfile.fields ∧
    TidySetting cx.backend.quote q.outfile.lines ∧ TidySetting cx.backend.quote q.outfile.enclosed
  /-- Settings of the outfile clause need a file (C50). -/
  outfile : q.outfile.file = none → q.outfile = {}

/-- Names and functions of columns. -/
def TidyColumn (q : Char) (o : Obj) : Prop := (∃ s, o = .str s ∧ TidyName q s) ∨ TidyFunction q o

end

/-- What may be nested at a depth: selects as columns, tables and values; `Q` objects with one condition and
condition objects combined by `|` and `&`; `Not`; `EXISTS`. -/
def shapes (cx : Ctx) : Nat → Shapes
  | 0 => ⟨TidyColumn cx.backend.quote, TidyValue cx.backend.quote, fun _ => False, fun _ => False, fun _ => False,
      fun _ => False⟩
  | n + 1 =>
    let S := shapes cx n
    { name := fun o => TidyColumn cx.backend.quote o ∨ ∃ q, o = .select q ∧ TidySelectOf S cx n q
      value := fun o => TidyValue cx.backend.quote o ∨ ∃ q, o = .select q ∧ TidySelectOf S cx n q
      item := fun o => (∃ l r op, o = .cofc l r op ∧ TidyOperand S l ∧ TidyOperand S r) ∨
        (∃ ps, o = .not_ ps ∧ S.group ps) ∨ ∃ q, o = .exists_ (.select q) ∧ S.sub q
      group := fun ps => ps ≠ [] ∧ ∀ c ∈ ps, TidyCond S c
      single := TidyPair S
      sub := TidySelectOf S cx n }

section
variable (cx : Ctx) (n : Nat)

def TidySelect (q : Select) : Prop := TidySelectOf (shapes cx n) cx n q

structure TidyUpdate (q : Update) : Prop where
  tables : ∀ t ∈ q.tables, TidyTable (shapes cx n) cx n t
  values : ∀ v ∈ q.values, TidyAssignment (shapes cx n) cx v
  where_ : ∀ c ∈ q.where_, TidyCond (shapes cx n) c

structure TidyDelete (q : Delete) : Prop where
  tables : ∀ t ∈ q.tables, TidyTable (shapes cx n) cx n t
  references : ∀ t ∈ q.references, TidyTable (shapes cx n) cx n t
  where_ : ∀ c ∈ q.where_, TidyCond (shapes cx n) c

/-- Rows that all have the same columns, in ascending order; tables that are given by their names. -/
structure TidyInsert (q : Insert) : Prop where
  tables : ∀ t ∈ q.tables, TidyTable (shapes cx 0) cx n t
  rows : ∃ (cols : List Str) (rs : List Row), cols ≠ [] ∧ cols.Pairwise Before ∧
    (∀ c ∈ cols, TidyName cx.backend.quote c) ∧ rs ≠ [] ∧ q.rows = rs.map rowOf ∧
    ∀ row ∈ rs, row.map Prod.fst = cols ∧ ∀ p ∈ row, (shapes cx n).value p.2
  onDup : ∀ v ∈ q.onDup, TidyAssignment (shapes cx n) cx v
  onConflict : ∀ v ∈ q.onConflict, TidyAssignment (shapes cx n) cx v
  conflict : (∀ c, q.conflict = some c → TidyName cx.backend.quote c) ∧ (q.onConflict = [] → q.conflict = none)

end

end SqlPuzzle.Spec
