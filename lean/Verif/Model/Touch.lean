import Mathlib.Data.List.Forall2
import Verif.Model.Render

/-!
What rendering leaves behind in the objects inside a query.

`Table.__str__` assigns the merged joins to `self._joins` (tables.py:80-81, 143-167), so rendering
any object also changes the joins of every query inside it that gets rendered, and a query that is
shared by several objects changes in all of them.  The operation `str` of `Queries.lean` keeps
track of the joins of the rendered query only.  `Touched cx n o o'` says that `o'` is the object `o`
after any of the queries in it, at any depth, were rendered: it follows the calls of `str` in
`Render.lean`, and at every table the joins may have been merged or not.  So it covers a complete
rendering, a rendering that stopped with an exception, and the rendering of a nested query alone.

Simplifications: the renderings are made with the recursion budget that is left at that depth; a
value of an INSERT row is reached even if a later value of the same column hides it; objects inside
dictionaries and other values without SQL text are never reached.
-/

namespace SqlPuzzle

section
variable (cx : Ctx) (S : Sem) (T : Obj → Obj → Prop)

/-- `force_text(v)`, `str(SqlReference(v))` (utils.py:8-11, sqlvalue.py:130-156): only SQL objects
are rendered. -/
def touchRef (v w : Obj) : Prop := v = w ∨ (v.isSql = true ∧ T v w)

/-- `str(SqlValue(v))` (sqlvalue.py:40-127): the items of a collection are rendered as values. -/
inductive TouchVal : Obj → Obj → Prop where
  | same (v) : TouchVal v v
  | sql (v w) (h : v.isSql = true) (k : T v w) : TouchVal v w
  | list (xs ys) (h : List.Forall₂ (fun x y => T (.sqlValue x) (.sqlValue y)) xs ys) :
    TouchVal (.list xs) (.list ys)
  | tuple (xs ys) (h : List.Forall₂ (fun x y => T (.sqlValue x) (.sqlValue y)) xs ys) :
    TouchVal (.tuple xs) (.tuple ys)
  | set (xs ys) (h : List.Forall₂ (fun x y => T (.sqlValue x) (.sqlValue y)) xs ys) :
    TouchVal (.set xs) (.set ys)
  | frozenset (xs ys) (h : List.Forall₂ (fun x y => T (.sqlValue x) (.sqlValue y)) xs ys) :
    TouchVal (.frozenset xs) (.frozenset ys)
  | gen (xs ys) (h : List.Forall₂ (fun x y => T (.sqlValue x) (.sqlValue y)) xs ys) :
    TouchVal (.gen xs) (.gen ys)

/-- `Function._get_expr_as_string` (functions.py:33-36). -/
inductive TouchExpr : Obj → Obj → Prop where
  | ref (v w) (h : touchRef T v w) : TouchExpr v w
  | list (xs ys) (h : List.Forall₂ (touchRef T) xs ys) : TouchExpr (.list xs) (.list ys)
  | tuple (xs ys) (h : List.Forall₂ (touchRef T) xs ys) : TouchExpr (.tuple xs) (.tuple ys)

/-- `Column.__str__` (columns.py:13-19). -/
def touchColumn (c d : Column) : Prop := touchRef T c.name d.name ∧ touchRef T c.alias d.alias

/-- `Order.__str__` (order.py:18-24). -/
def touchOrder (o p : Order) : Prop := touchRef T o.col p.col ∧ o.desc = p.desc

/-- `Condition.__str__` (conditions.py:49-50), `OnCondition.__str__` (tables.py:55-57). -/
inductive TouchCond : Cond → Cond → Prop where
  | cond (on c k v d w) (h1 : touchRef T c d) (h2 : TouchVal T v w) :
    TouchCond (.cond on c k v) (.cond on d k w)
  | item (o p) (h : touchRef T o p) : TouchCond (.item o) (.item p)

/-- `Value.__str__` (values.py:14-18), `Values.values` (values.py:63-68). -/
inductive TouchValue : Value → Value → Prop where
  | value (c v d w) (h1 : touchRef T c d) (h2 : TouchVal T v w) : TouchValue (.value c v) (.value d w)
  | item (o p) (h : touchRef T o p) : TouchValue (.item o) (.item p)

/-- One joined table (tables.py:83-87). -/
def touchJoin (j k : Join) : Prop :=
  j.type = k.type ∧ touchRef T j.name k.name ∧ touchRef T j.alias k.alias ∧
  List.Forall₂ (TouchCond T) j.ons k.ons

/-- `Table.__str__` (tables.py:71-90): the joins may have been merged (tables.py:81), and what is
inside the joins may have been rendered. -/
def touchTable (t u : Table) : Prop :=
  touchRef T t.name u.name ∧ touchRef T t.alias u.alias ∧
  (List.Forall₂ (touchJoin T) t.joins u.joins ∨
   ∃ js, minimizeJoins cx S t.joins = .ok js ∧ List.Forall₂ (touchJoin T) js u.joins)

/-- An optional phrase of `IntoOutfile.__str__` (intooutfile.py:22-27). -/
inductive TouchOpt : Option Obj → Option Obj → Prop where
  | none : TouchOpt .none .none
  | some (v w) (h : TouchVal T v w) : TouchOpt (.some v) (.some w)

/-- `IntoOutfile.__str__` (intooutfile.py:20-28). -/
def touchOutfile (o p : Outfile) : Prop :=
  TouchOpt T o.file p.file ∧ TouchOpt T o.fields p.fields ∧ TouchOpt T o.lines p.lines ∧
  TouchOpt T o.enclosed p.enclosed

/-- `Select.__str__` (query.py:20-28, select.py:36-52). -/
structure TouchSelect (p q : Select) : Prop where
  opts : p.opts = q.opts
  columns : List.Forall₂ (touchColumn T) p.columns q.columns
  tables : List.Forall₂ (touchTable cx S T) p.tables q.tables
  where_ : List.Forall₂ (TouchCond T) p.where_ q.where_
  groupBy : List.Forall₂ (touchOrder T) p.groupBy q.groupBy
  having : List.Forall₂ (TouchCond T) p.having q.having
  orderBy : List.Forall₂ (touchOrder T) p.orderBy q.orderBy
  limit : p.limit = q.limit
  outfile : touchOutfile T p.outfile q.outfile
  forUpdate : p.forUpdate = q.forUpdate

/-- `Insert.__str__` (query.py:20-28, insert.py:49-60). -/
structure TouchInsert (p q : Insert) : Prop where
  isReplace : p.isReplace = q.isReplace
  ignore : p.ignore = q.ignore
  tables : List.Forall₂ (touchTable cx S T) p.tables q.tables
  rows : List.Forall₂ (List.Forall₂ (TouchValue T)) p.rows q.rows
  onDup : List.Forall₂ (TouchValue T) p.onDup q.onDup
  conflict : p.conflict = q.conflict
  onConflict : List.Forall₂ (TouchValue T) p.onConflict q.onConflict

/-- `Update.__str__` (update.py:44-47, query.py:20-28). -/
structure TouchUpdate (p q : Update) : Prop where
  ignore : p.ignore = q.ignore
  tables : List.Forall₂ (touchTable cx S T) p.tables q.tables
  values : List.Forall₂ (TouchValue T) p.values q.values
  where_ : List.Forall₂ (TouchCond T) p.where_ q.where_
  allowAll : p.allowAll = q.allowAll

/-- `Delete.__str__` (delete.py:44-47, query.py:20-28). -/
structure TouchDelete (p q : Delete) : Prop where
  ignore : p.ignore = q.ignore
  tables : List.Forall₂ (touchTable cx S T) p.tables q.tables
  references : List.Forall₂ (touchTable cx S T) p.references q.references
  where_ : List.Forall₂ (TouchCond T) p.where_ q.where_
  allowAll : p.allowAll = q.allowAll

/-- One step: the cases of `renderF`, with its citations. -/
inductive TouchF : Obj → Obj → Prop where
  | sqlValue (v w) (h : TouchVal T v w) : TouchF (.sqlValue v) (.sqlValue w)
  | sqlRef (v w) (h : touchRef T v w) : TouchF (.sqlRef v) (.sqlRef w)
  | rel (k v w) (h : touchRef T v w) : TouchF (.rel k v) (.rel k w)
  | conds (ps qs) (h : List.Forall₂ (TouchCond T) ps qs) : TouchF (.conds ps) (.conds qs)
  | cofc (l r l' r' op) (h : touchRef T l l') (k : touchRef T r r') :
    TouchF (.cofc l r op) (.cofc l' r' op)
  | not_ (ps qs) (h : T (.conds ps) (.conds qs)) : TouchF (.not_ ps) (.not_ qs)
  | func (f d v w) (h : TouchExpr T v w) : TouchF (.func f d v) (.func f d w)
  | concat (cs ds) (h : List.Forall₂ (touchColumn T) cs ds) : TouchF (.concat cs) (.concat ds)
  | groupConcat (cs ds os ps v w) (h1 : List.Forall₂ (touchColumn T) cs ds)
    (h2 : List.Forall₂ (touchOrder T) os ps) (h3 : TouchVal T v w) :
    TouchF (.groupConcat cs os v) (.groupConcat ds ps w)
  | convert (v w ty) (h : TouchExpr T v w) : TouchF (.convert v ty) (.convert w ty)
  | exists_ (v w) (h : touchRef T v w) : TouchF (.exists_ v) (.exists_ w)
  | select (p q) (h : TouchSelect cx S T p q) : TouchF (.select p) (.select q)
  | union (a b c d all) (h : touchRef T a c) (k : touchRef T b d) :
    TouchF (.union a b all) (.union c d all)
  | insert (p q) (h : TouchInsert cx S T p q) : TouchF (.insert p) (.insert q)
  | update (p q) (h : TouchUpdate cx S T p q) : TouchF (.update p) (.update q)
  | delete (p q) (h : TouchDelete cx S T p q) : TouchF (.delete p) (.delete q)

end

/-- `o'` is `o` after some of the queries in it were rendered, with recursion budget `n`. -/
def Touched (cx : Ctx) : Nat → Obj → Obj → Prop
  | 0 => fun o o' => o = o'
  | n + 1 => fun o o' => o = o' ∨ TouchF cx (sem cx n) (Touched cx n) o o'

end SqlPuzzle
