import Verif.Model.Heap

/-!
Graphs of objects: what is reachable, what a copy is, what somebody sees who holds a reference, and
what somebody can do who holds some references.
-/

namespace SqlPuzzle.Spec
open SqlPuzzle

/-- Objects that can be got at from `p` by following references. -/
inductive Reach (h : Heap) (p : Nat) : Nat → Prop where
  | self : Reach h p p
  | next {a b : Nat} {c : Cell} (r : Reach h p a) (hc : h[a]? = some c) (hb : Val.ref b ∈ c.fields) :
      Reach h p b

/-- References lead to objects. -/
def WellFormed (h : Heap) : Prop := ∀ c ∈ h, ∀ q, Val.ref q ∈ c.fields → q < h.length

/-- A tuple that holds, at any depth, only tuples and atoms. -/
inductive Frozen (h : Heap) : Nat → Prop where
  | mk {p : Nat} {xs : List Val} (hc : h[p]? = some ⟨.tuple, xs⟩)
      (hx : ∀ q, Val.ref q ∈ xs → Frozen h q) : Frozen h p

/-- Another name for every object. -/
def renameVal (f : Nat → Nat) : Val → Val
  | .atom a => .atom a
  | .ref p => .ref (f p)

/-- Fields of the same object, but for the order of the items of a set. -/
def SameFields : Cls → List Val → List Val → Prop
  | .set, xs, ys | .frozenset, xs, ys => xs.Perm ys
  | _, xs, ys => xs = ys

/-- In the memory `h'`, made from `h`, the object `q` is an independent copy of `p`: everything that
was in memory is unchanged; the objects reachable from `p` correspond one to one to objects of the
same classes, with corresponding fields; and these are new, apart from immutable ones. -/
structure IsCopy (h h' : Heap) (p q : Nat) : Prop where
  old : ∀ (a : Nat) c, h[a]? = some c → h'[a]? = some c
  iso : ∃ f : Nat → Nat, f p = q ∧
    (∀ a b, Reach h p a → Reach h p b → f a = f b → a = b) ∧
    ∀ a : Nat, Reach h p a →
      (∃ c xs ys, h[a]? = some ⟨c, xs⟩ ∧ h'[f a]? = some ⟨c, ys⟩ ∧
        SameFields c ys (xs.map (renameVal f))) ∧
      (h.length ≤ f a ∨ f a = a ∧ Frozen h a)

/-- Tuples, sets and bound methods, whose items must exist before them. -/
def BuiltLater (c : Cls) : Prop := c = .tuple ∨ c = .set ∨ c = .frozenset ∨ c = .method

/-- No cycle consists only of objects whose items must exist before them.  (Python code cannot create
such a cycle.) -/
def Ordered (h : Heap) : Prop :=
  ∃ age : Nat → Nat, ∀ (a b : Nat) (c d : Cell), h[a]? = some c → h[b]? = some d → BuiltLater c.cls →
    BuiltLater d.cls → Val.ref b ∈ c.fields → age b < age a

/-- What can be seen from a reference, as a tree. -/
inductive Tree where
  | atom (a : Atom)
  | node (c : Cls) (ts : List Tree)
  | cut

/-- The first `n` levels of what can be seen from a reference. -/
def look (h : Heap) : Nat → Val → Tree
  | _, .atom a => .atom a
  | 0, .ref _ => .cut
  | n + 1, .ref p =>
    match h[p]? with
    | none => .cut
    | some c => .node c.cls (c.fields.map (look h n))

/-- Objects of these classes can be changed. -/
def Mutable : Cls → Prop
  | .tuple | .frozenset | .method => False
  | _ => True

/-- Atoms are known to everybody. -/
def Knows (K : List Val) : Val → Prop
  | .atom _ => True
  | v => v ∈ K

/-- One step of somebody who holds the references `K`: reading an attribute or item, creating an
object, changing an object.  Python code that starts with the references `K` is a sequence of such
steps. -/
inductive Step : Heap × List Val → Heap × List Val → Prop where
  | read {h K p c v} (hp : Val.ref p ∈ K) (hc : h[p]? = some c) (hv : v ∈ c.fields) :
      Step (h, K) (h, v :: K)
  | create {h K c} {xs : List Val} (hx : ∀ v ∈ xs, Knows K v) :
      Step (h, K) (h ++ [⟨c, xs⟩], .ref h.length :: K)
  | change {h K p c} {xs ys : List Val} (hp : Val.ref p ∈ K) (hc : h[p]? = some ⟨c, xs⟩)
      (hm : Mutable c) (hy : ∀ v ∈ ys, Knows K v) : Step (h, K) (h.set p ⟨c, ys⟩, K)

/-- Two parties with one memory. -/
structure World where
  heap : Heap
  left : List Val
  right : List Val

/-- A step of the left party. -/
def LeftStep (w w' : World) : Prop :=
  Step (w.heap, w.left) (w'.heap, w'.left) ∧ w'.right = w.right

/-- A step of the right party. -/
def RightStep (w w' : World) : Prop :=
  Step (w.heap, w.right) (w'.heap, w'.right) ∧ w'.left = w.left

/-- Any history of steps of both parties. -/
inductive History (w : World) : World → Prop where
  | start : History w w
  | left {w1 w2 : World} (h : History w w1) (s : LeftStep w1 w2) : History w w2
  | right {w1 w2 : World} (h : History w w1) (s : RightStep w1 w2) : History w w2

end SqlPuzzle.Spec
