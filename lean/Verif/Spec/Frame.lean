import Verif.Model.HeapCalls
import Verif.Spec.Heap

/-!
Which objects in memory a call may change.
-/

namespace SqlPuzzle.Spec
open SqlPuzzle

/-- The objects that belong to the object at `q`: itself, what its attributes keep (`Lib.keeps`), and
the orders, tables and joins in its lists.  Objects that were passed as arguments - lists,
dictionaries, queries, conditions, values - do not belong to it, even if it refers to them. -/
inductive Own (h : Heap) (q : Nat) : Nat → Prop where
  | self : Own h q q
  | attr {a b i : Nat} {k : Lib} {xs : List Val} (o : Own h q a) (hc : h[a]? = some ⟨.lib k, xs⟩)
      (hi : xs[i]? = some (.ref b)) (hk : k.keeps i = true) : Own h q b
  | item {a b : Nat} {c d : Cell} (o : Own h q a) (hc : h[a]? = some c)
      (hl : c.cls = .lib .listOfParts ∨ c.cls = .list) (hb : Val.ref b ∈ c.fields)
      (hd : h[b]? = some d)
      (hk : d.cls = .lib .order ∨ d.cls = .lib .table ∨ d.cls = .lib .join) : Own h q b

/-- What may happen to an object that is only looked at: nothing, but that a generator is consumed,
and that rendering a table minimises its joins (tables.py:81, 143-167), which may give the table
another list of joins, if the list is not empty, and change the type of a join.  `W`: objects that
may be changed anyway. -/
inductive Touch (W : Nat → Prop) (h : Heap) : Cell → Cell → Prop where
  | same (c : Cell) : Touch W h c c
  | gen (xs ys : List Val) : Touch W h ⟨.gen, xs⟩ ⟨.gen, ys⟩
  | table (a b : Val) (j : Nat) (v : Val) (hj : h[j]? ≠ some ⟨.list, []⟩ ∨ W j) :
      Touch W h ⟨.lib .table, [a, b, .ref j]⟩ ⟨.lib .table, [a, b, v]⟩
  | join (t u : Val) (r : List Val) : Touch W h ⟨.lib .join, t :: r⟩ ⟨.lib .join, u :: r⟩

/-- From `h` to `h'` objects may have been created, and only objects in `W` have been changed, apart
from what happens to objects that are looked at; no object has changed its class. -/
structure Undisturbed (W : Nat → Prop) (h h' : Heap) : Prop where
  grows : h.length ≤ h'.length
  cell : ∀ (p : Nat) c, h[p]? = some c →
    ∃ c', h'[p]? = some c' ∧ c'.cls = c.cls ∧ (W p ∨ Touch W h c c')

/-- Comparing, rendering and sorting objects changes nothing but what happens to objects that are
looked at. -/
structure Gentle (T : Runtime) : Prop where
  eq : ∀ a b h, Undisturbed (fun _ => False) h (T.eq a b h).1
  str : ∀ a h, Undisturbed (fun _ => False) h (T.str a h).1
  sort : ∀ a h, Undisturbed (fun _ => False) h (T.sort a h).1

/-- A set of objects that contains everything its members refer to. -/
def Closed (h : Heap) (X : Nat → Prop) : Prop :=
  ∀ (a : Nat) (c : Cell) (b : Nat), X a → h[a]? = some c → Val.ref b ∈ c.fields → X b

/-- Comparing, rendering and sorting makes no object refer to something it had nothing to do with: sets
of objects that were closed stay closed, together with new objects.  Sorting gives the same items. -/
structure Tidy (T : Runtime) : Prop where
  eq : ∀ a b h X, Closed h X → ∃ X', Closed (T.eq a b h).1 X' ∧ (∀ p, X p → X' p) ∧
    ∀ p, p < h.length → X' p → X p
  str : ∀ a h X, Closed h X → ∃ X', Closed (T.str a h).1 X' ∧ (∀ p, X p → X' p) ∧
    ∀ p, p < h.length → X' p → X p
  sort : ∀ kvs h X, Closed h X → ∃ X', Closed (T.sort kvs h).1 X' ∧ (∀ p, X p → X' p) ∧
    ∀ p, p < h.length → X' p → X p
  items : ∀ kvs h r, (T.sort kvs h).2 = .ok r → ∀ x ∈ r, x ∈ kvs

/-- The dictionary of one entry that is the argument of a join. -/
def JoinedDict (h : Heap) (call : HCall) (p : Nat) : Prop :=
  ∃ type k v, call = .join type (.ref p) ∧ h[p]? = some ⟨.dict, [k, v]⟩

/-- A list or a tuple. -/
def Listed (h : Heap) (v : Val) : Prop :=
  ∃ (p : Nat) (c : Cell), v = .ref p ∧ h[p]? = some c ∧ (c.cls = .list ∨ c.cls = .tuple)

/-- A dictionary. -/
def IsDict (h : Heap) (v : Val) : Prop := ∃ (p : Nat) (c : Cell), v = .ref p ∧ h[p]? = some c ∧ c.cls = .dict

/-- The values given by arguments of the forms `f(x, …)`, `f(x, y)`, `f(x=y, …)`, `f({x: y, …})`,
`f((x, y), …)` and `f([(x, y), …])`, without the lists, tuples and dictionaries that only carry
them. -/
inductive Leaf (h : Heap) (a : HArgs) : Val → Prop where
  | kw {k v} (hv : (k, v) ∈ a.kw) : Leaf h a v
  | arg {v} (hv : v ∈ a.pos) (hl : ¬ Listed h v) (hd : ¬ IsDict h v) : Leaf h a v
  | second {k v} (hp : a.pos = [k, v]) (hk : ¬ Listed h k) : Leaf h a v
  | entry {d xs v} (hd : Val.ref d ∈ a.pos) (hc : h[d]? = some ⟨.dict, xs⟩) (hv : v ∈ xs) : Leaf h a v
  | item {r c v} (hr : Val.ref r ∈ a.pos) (hc : h[r]? = some c) (hk : c.cls = .list ∨ c.cls = .tuple)
      (hv : v ∈ c.fields) (hl : a.pos = [.ref r] → ¬ Listed h v) : Leaf h a v
  | inner {l r c d v} (hl : a.pos = [.ref l]) (hc : h[l]? = some c)
      (hk : c.cls = .list ∨ c.cls = .tuple) (hr : Val.ref r ∈ c.fields) (hd : h[r]? = some d)
      (hk' : d.cls = .list ∨ d.cls = .tuple) (hv : v ∈ d.fields) : Leaf h a v

/-- The arguments of a call that may end up in an object. -/
def HCall.given : HCall → List HArgs
  | .columns a | .from_ a | .on a | .where_ a | .having a | .groupBy a | .orderBy a | .values a
  | .set a => [a]
  | .onDuplicateKeyUpdate a => [a, { a with pos := a.pos.tail }]
  | .fromTable t al => [{ pos := [t, al] }]
  | .join _ v | .outfile _ v | .into v | .table v => [{ pos := [v] }]
  | .delete ts => [{ pos := ts }]
  | _ => []

/-- The object at `p` cannot be got at from the value, except that the value may be a list `[x, …]`
of such values: itself the object at `p`, for instance. -/
def Harmless (h : Heap) (p : Nat) (v : Val) : Prop :=
  (∀ b, v = .ref b → ¬ Reach h b p) ∨
  ∃ (l : Nat) (xs : List Val), v = .ref l ∧ h[l]? = some ⟨.list, xs⟩ ∧
    ∀ b, Val.ref b ∈ xs → ¬ Reach h b p

end SqlPuzzle.Spec
