import Mathlib.Data.List.Forall2
import Verif.Model.Render

/-!
Specification: two objects that differ only in the values inside literals.

`Alike o p` says that `p` can be obtained from `o` by replacing literal values by other literal
values: strings, numbers of the same sign, dates, bytes and booleans are interchangeable; `NULL`,
names, the number of items of a list and everything else must be the same.  Values in the
conditions of a table with more than one join must be the same, too, because the library merges
equal joins.
-/

namespace SqlPuzzle.Spec

/-- Whether a value that is written as one literal has a minus sign; `none` for other values. -/
def literalSign : Obj → Option Bool
  | .bool _ | .str _ | .bytes _ | .date _ | .datetime _ => some false
  | .int i => some (decide (i < 0))
  | .float (.fin neg _ _) => some neg
  | .decimal (.fin neg _ _) => some neg
  | _ => none

/-- The items of a value that is written as a list. -/
def listItems : Obj → Option (List Obj)
  | .list xs | .tuple xs | .set xs | .frozenset xs | .gen xs => some xs
  | .range xs => some (xs.map .int)
  | _ => none

section
variable (P : Obj → Obj → Prop)

def likeVal (v w : Obj) : Prop :=
  (∃ s, literalSign v = some s ∧ literalSign w = some s) ∨
  (∃ xs ys, listItems v = some xs ∧ listItems w = some ys ∧
    List.Forall₂ (fun x y => P (.sqlValue x) (.sqlValue y)) xs ys) ∨
  (v.isSql = true ∧ w.isSql = true ∧ P v w) ∨ v = w

def likeRef (v w : Obj) : Prop := v = w ∨ (v.isSql = true ∧ w.isSql = true ∧ P v w)

def likeAliased (n a n' a' : Obj) : Prop :=
  likeRef P n n' ∧ a.truthy = a'.truthy ∧ likeRef P a a'

def likeColumn (c c' : Column) : Prop := likeAliased P c.name c.alias c'.name c'.alias

def likeOrder (o o' : Order) : Prop := likeRef P o.col o'.col ∧ o.desc = o'.desc

/-- The value of a condition.  A string in an `ON` condition is a column; the items of `IN` are
values, and `None` among them is treated apart. -/
def likeCondVal (on : Bool) (k : Rel) (v w : Obj) : Prop :=
  v = w ∨ ((on && v.isStr) = false ∧ (on && w.isStr) = false ∧
    match k, v.iterate, w.iterate with
    | .in_, some xs, some ys | .notIn, some xs, some ys =>
      List.Forall₂ (fun x y => x.isNone = y.isNone ∧ P (.sqlValue x) (.sqlValue y)) xs ys
    | .in_, none, none | .notIn, none, none => likeVal P v w
    | .in_, _, _ | .notIn, _, _ => False
    | _, _, _ => likeVal P v w)

def likeCond : Cond → Cond → Prop
  | .cond on c k v, .cond on' c' k' v' =>
    on = on' ∧ k = k' ∧ likeRef P c c' ∧ likeCondVal P on k v v'
  | .item o, .item p => P o p
  | _, _ => False

def likeConds (ps qs : List Cond) : Prop := List.Forall₂ (likeCond P) ps qs

def likeAssign : Value → Value → Prop
  | .value c v, .value c' v' => likeRef P c c' ∧ likeVal P v v'
  | .item o, .item p => P o p
  | _, _ => False

def likeJoin (j j' : Join) : Prop :=
  j.type = j'.type ∧ likeAliased P j.name j.alias j'.name j'.alias ∧ likeConds P j.ons j'.ons

def likeTable (t t' : Table) : Prop :=
  likeAliased P t.name t.alias t'.name t'.alias ∧
  (t.joins = t'.joins ∨ (t.joins.length ≤ 1 ∧ List.Forall₂ (likeJoin P) t.joins t'.joins))

def likeInt : Option Int → Option Int → Prop
  | none, none => True
  | some i, some j => (i < 0 ↔ j < 0)
  | _, _ => False

def likeOpt : Option Obj → Option Obj → Prop
  | none, none => True
  | some v, some w => likeVal P v w
  | _, _ => False

def likeSelect (s s' : Select) : Prop :=
  s.opts = s'.opts ∧ List.Forall₂ (likeColumn P) s.columns s'.columns ∧
  List.Forall₂ (likeTable P) s.tables s'.tables ∧ likeConds P s.where_ s'.where_ ∧
  List.Forall₂ (likeOrder P) s.groupBy s'.groupBy ∧ likeConds P s.having s'.having ∧
  List.Forall₂ (likeOrder P) s.orderBy s'.orderBy ∧ likeInt s.limit.limit s'.limit.limit ∧
  likeInt s.limit.offset s'.limit.offset ∧ likeOpt P s.outfile.file s'.outfile.file ∧
  likeOpt P s.outfile.fields s'.outfile.fields ∧ likeOpt P s.outfile.lines s'.outfile.lines ∧
  likeOpt P s.outfile.enclosed s'.outfile.enclosed ∧ s.forUpdate = s'.forUpdate

def likeRow (r r' : List Value) : Prop :=
  List.Forall₂ (fun v w => ∃ c x y, v = .value (.str c) x ∧ w = .value (.str c) y ∧ likeVal P x y) r r'

def likeInsert (i i' : Insert) : Prop :=
  i.isReplace = i'.isReplace ∧ i.ignore = i'.ignore ∧ List.Forall₂ (likeTable P) i.tables i'.tables ∧
  List.Forall₂ (likeRow P) i.rows i'.rows ∧ List.Forall₂ (likeAssign P) i.onDup i'.onDup ∧
  i.conflict = i'.conflict ∧ List.Forall₂ (likeAssign P) i.onConflict i'.onConflict

def likeUpdate (u u' : Update) : Prop :=
  u.ignore = u'.ignore ∧ List.Forall₂ (likeTable P) u.tables u'.tables ∧
  List.Forall₂ (likeAssign P) u.values u'.values ∧ likeConds P u.where_ u'.where_

def likeDelete (s s' : Delete) : Prop :=
  s.ignore = s'.ignore ∧ List.Forall₂ (likeTable P) s.tables s'.tables ∧
  List.Forall₂ (likeTable P) s.references s'.references ∧ likeConds P s.where_ s'.where_

def likeArg (e e' : Obj) : Prop :=
  likeRef P e e' ∨ ∃ xs ys, e = .list xs ∧ e' = .list ys ∧ List.Forall₂ (likeRef P) xs ys

/-- One level of `Like`. -/
def likeF : Obj → Obj → Prop
  | .sqlValue v, .sqlValue w => likeVal P v w
  | .sqlRef v, .sqlRef w => likeRef P v w
  | .conds ps, .conds qs => likeConds P ps qs
  | .cofc l r op, .cofc l' r' op' => P l l' ∧ P r r' ∧ op = op'
  | .not_ ps, .not_ qs => P (.conds ps) (.conds qs)
  | .func f d e, .func f' d' e' => f = f' ∧ d = d' ∧ likeArg P e e'
  | .concat cs, .concat cs' => List.Forall₂ (likeColumn P) cs cs'
  | .groupConcat cs os sep, .groupConcat cs' os' sep' =>
    List.Forall₂ (likeColumn P) cs cs' ∧ List.Forall₂ (likeOrder P) os os' ∧
      sep.truthy = sep'.truthy ∧ likeVal P sep sep'
  | .convert e ty, .convert e' ty' => likeArg P e e' ∧ ty = ty'
  | .exists_ e, .exists_ e' => P e e'
  | .select s, .select s' => likeSelect P s s'
  | .union a b all, .union a' b' all' => P a a' ∧ P b b' ∧ all = all'
  | .insert i, .insert i' => likeInsert P i i'
  | .update u, .update u' => likeUpdate P u u'
  | .delete s, .delete s' => likeDelete P s s'
  | _, _ => False

end

/-- The objects differ only in literal values, at most `n` levels deep. -/
def Like : Nat → Obj → Obj → Prop
  | 0 => fun o p => o = p
  | n + 1 => fun o p => o = p ∨ likeF (Like n) o p

/-- The objects differ only in literal values. -/
def Alike (o p : Obj) : Prop := ∃ n, Like n o p

end SqlPuzzle.Spec
