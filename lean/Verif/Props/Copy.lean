import Verif.Proofs.HeapFacts
import Verif.Spec.Layout
import Verif.Spec.Sample

/-!
C39: `copy()` gives an independent query.
-/

namespace SqlPuzzle.Props
open SqlPuzzle SqlPuzzle.Spec SqlPuzzle.Spec.Layout SqlPuzzle.Spec.Sample

/-- No set can be got at from `p`. -/
def NoSets (h : Heap) (p : Nat) : Prop :=
  ∀ a c, Reach h p a → h[a]? = some c → c.cls ≠ .set ∧ c.cls ≠ .frozenset

/-- The first part of the property as it is stated: a copy renders like the original. -/
def C39_claim : Prop :=
  ∀ (cx : Ctx) (so : List Val → List Val), (∀ xs, (so xs).Perm xs) →
    ∀ n d h p h' q, WellFormed h → p < h.length → copyObj so n h p = .ok (h', .ref q) →
      textAt cx d h' q = textAt cx d h p

/-- A copy consists of new objects that correspond one to one to the objects of the original, have the
same classes and the same contents, and are shared among each other in the same way; only immutable
tuples of immutable things are shared with the original.  Nothing that existed is changed. -/
theorem C39_copy (so : List Val → List Val) (hso : ∀ xs, (so xs).Perm xs) (n : Nat) (h h' : Heap)
    (p : Nat) (v : Val) (wf : WellFormed h) (hp : p < h.length)
    (e : copyObj so n h p = .ok (h', v)) : ∃ q, v = .ref q ∧ IsCopy h h' p q :=
  HeapFacts.isCopy hso wf hp e

/-- Whoever looks at the copy sees, at every depth, what is seen looking at the original, if no set is
involved. -/
theorem C39_look_partial (so : List Val → List Val) (hso : ∀ xs, (so xs).Perm xs) (n d : Nat)
    (h h' : Heap) (p : Nat) (v : Val) (wf : WellFormed h) (hp : p < h.length) (hs : NoSets h p)
    (e : copyObj so n h p = .ok (h', v)) : look h' d v = look h d (.ref p) := by
  obtain ⟨q, rfl, ⟨-, f, rfl, -, hf⟩⟩ := HeapFacts.isCopy hso wf hp e
  refine HeapFacts.look_iso (X := Reach h p) ?_ d p .self
  intro a ha
  obtain ⟨⟨c, xs, ys, h1, h2, h3⟩, -⟩ := hf a ha
  refine ⟨c, xs, h1, ?_, fun b hb => ha.next h1 hb⟩
  obtain ⟨n1, n2⟩ := hs a _ ha h1
  have : ys = xs.map (renameVal f) := by
    cases c <;> first | exact h3 | exact absurd rfl n1 | exact absurd rfl n2
  rw [h2, this]

/-- The copy of a query renders like the query, on every backend, if no set is involved.  (What is
missing: sets, of which the copy may iterate in another order.) -/
theorem C39_text_partial (cx : Ctx) (so : List Val → List Val) (hso : ∀ xs, (so xs).Perm xs)
    (n d : Nat) (h h' : Heap) (p q : Nat) (wf : WellFormed h) (hp : p < h.length) (hs : NoSets h p)
    (e : copyObj so n h p = .ok (h', .ref q)) : textAt cx d h' q = textAt cx d h p := by
  unfold textAt
  rw [C39_look_partial so hso n d h h' p _ wf hp hs e]

/-- Copying changes nothing that could be seen before. -/
theorem C39_original (cx : Ctx) (so : List Val → List Val) (hso : ∀ xs, (so xs).Perm xs) (n d : Nat)
    (h h' : Heap) (p : Nat) (v : Val) (wf : WellFormed h) (hp : p < h.length)
    (e : copyObj so n h p = .ok (h', v)) (a : Nat) (ha : a < h.length) :
    look h' d (.ref a) = look h d (.ref a) ∧ textAt cx d h' a = textAt cx d h a := by
  obtain ⟨q, rfl, ⟨old, -⟩⟩ := HeapFacts.isCopy hso wf hp e
  have : look h' d (.ref a) = look h d (.ref a) := by
    refine HeapFacts.look_same (X := (· < h.length)) ?_ d _ (by rintro b ⟨⟩; exact ha)
    intro b hb
    exact ⟨_, List.getElem?_eq_getElem hb, old _ _ (List.getElem?_eq_getElem hb),
      fun c hc => wf _ (List.getElem_mem hb) c hc⟩
  exact ⟨this, by unfold textAt; rw [this]⟩

/-- After copying let somebody hold any references `A` to objects that existed before, and somebody
else the copy.  Then in every history of what both do, in any order, every step of the first leaves
everything as it is that the second can see, and every step of the second leaves everything as it is
that the first can see. -/
theorem C39_independent (cx : Ctx) (so : List Val → List Val) (hso : ∀ xs, (so xs).Perm xs) (n : Nat)
    (h h' : Heap) (p : Nat) (v : Val) (wf : WellFormed h) (hp : p < h.length)
    (e : copyObj so n h p = .ok (h', v)) (A : List Val) (hA : ∀ a, Val.ref a ∈ A → a < h.length)
    (w w' : World) (hw : History ⟨h', A, [v]⟩ w) :
    (LeftStep w w' → ∀ d, ∀ x ∈ w.right, look w'.heap d x = look w.heap d x ∧
      ∀ a, x = .ref a → textAt cx d w'.heap a = textAt cx d w.heap a) ∧
    (RightStep w w' → ∀ d, ∀ x ∈ w.left, look w'.heap d x = look w.heap d x ∧
      ∀ a, x = .ref a → textAt cx d w'.heap a = textAt cx d w.heap a) := by
  obtain ⟨q, rfl, hc⟩ := HeapFacts.isCopy hso wf hp e
  have ap := HeapFacts.history_apart (HeapFacts.copy_apart wf hc hA) hw
  refine ⟨fun s d x hx => ?_, fun s d x hx => ?_⟩
  · have := (HeapFacts.left_step ap s).2 d x hx
    refine ⟨this, ?_⟩
    rintro a rfl
    unfold textAt
    rw [this]
  · have := (HeapFacts.right_step ap s).2 d x hx
    refine ⟨this, ?_⟩
    rintro a rfl
    unfold textAt
    rw [this]

/-- Copying works for every object from which no generator can be got at, with enough room for
recursion.  Cycles and sharing do no harm. -/
theorem C39_works (so : List Val → List Val) (hso : ∀ xs, (so xs).Perm xs) (h : Heap) (p : Nat)
    (wf : WellFormed h) (ho : Ordered h) (hp : p < h.length)
    (hg : ∀ a c, Reach h p a → h[a]? = some c → c.cls ≠ .gen) :
    ∃ N, ∀ n, N ≤ n → ∃ h' v, copyObj so n h p = .ok (h', v) :=
  HeapFacts.copy_works hso wf hp ho hg

/-- Otherwise it raises: a generator is never copied, and there are no errors but `TypeError` and
`RecursionError`. -/
theorem C39_raises (so : List Val → List Val) (hso : ∀ xs, (so xs).Perm xs) (n : Nat) (h : Heap)
    (p : Nat) (wf : WellFormed h) (hp : p < h.length) :
    ((∃ a xs, Reach h p a ∧ h[a]? = some ⟨.gen, xs⟩) → ∃ e, copyObj so n h p = .error e) ∧
    ∀ e, copyObj so n h p = .error e → e = .typeError ∨ e = .recursionError := by
  constructor
  · rintro ⟨a, xs, hr, hc⟩
    cases e : copyObj so n h p with
    | error e2 => exact ⟨e2, rfl⟩
    | ok r => exact absurd rfl (HeapFacts.copied_no_gen hso wf hp e hr hc)
  · intro e he
    cases e1 : deepcopy so n h [] (.ref p) with
    | ok r => simp only [copyObj, e1] at he; cases he
    | error e' =>
      simp only [copyObj, e1] at he
      cases he
      exact HeapFacts.deepcopy_err hso wf n h [] _ _ (HeapFacts.pre_start h)
        (by rintro q ⟨⟩; exact hp) e1

/-! The query of `Spec/Sample.lean` in memory. -/

private def copied : Heap := match copyObj id 20 query 0 with
  | .ok (h, _) => h
  | .error _ => []

private theorem query_wf : WellFormed query := by
  intro c hc q hq
  have : ∀ c ∈ query, ∀ v ∈ c.fields, (match v with | .ref q => decide (q < query.length) | _ => true) = true := by
    decide
  simpa using this c hc _ hq

example : WellFormed query ∧ 0 < query.length ∧ NoSets query 0 ∧
    copyObj id 20 query 0 = .ok (copied, .ref 27) := by
  refine ⟨query_wf, by decide, ?_, by decide +kernel⟩
  intro a c _ hc
  have : ∀ c ∈ query, c.cls ≠ .set ∧ c.cls ≠ .frozenset := by decide
  exact this c (List.mem_of_getElem? hc)

-- one new object for each of the 27, although most of them are referred to twice
example : copied.length = 54 := by decide +kernel

example : textAt cx0 20 query 0 = some (.ok L!"SELECT 'x' FROM \"t\" WHERE \"a\" = 1 LIMIT 5") := by
  decide +kernel
example : textAt cx0 20 copied 27 = some (.ok L!"SELECT 'x' FROM \"t\" WHERE \"a\" = 1 LIMIT 5") := by
  decide +kernel

-- a step of somebody who holds the query: setting its limit, which changes its text but not the copy's
private def changed : Heap := copied.set 6 ⟨.lib .limit, [.atom (.int 7), nil]⟩

example : LeftStep ⟨copied, [.ref 0, .ref 6], [.ref 27]⟩ ⟨changed, [.ref 0, .ref 6], [.ref 27]⟩ :=
  ⟨.change (c := .lib .limit) (xs := [.atom (.int 5), nil]) (by simp) (by decide +kernel) trivial
    (by intro v hv; simp at hv; rcases hv with rfl | rfl <;> trivial), rfl⟩
example : History ⟨copied, [.ref 0], [.ref 27]⟩ ⟨copied, [.ref 6, .ref 0], [.ref 27]⟩ :=
  .left .start ⟨.read (p := 0) (v := .ref 6) (by simp) (c := query.head (by decide)) (by decide +kernel)
    (by decide), rfl⟩
example : textAt cx0 20 changed 0 = some (.ok L!"SELECT 'x' FROM \"t\" WHERE \"a\" = 1 LIMIT 7") := by
  decide +kernel
example : textAt cx0 20 changed 27 = some (.ok L!"SELECT 'x' FROM \"t\" WHERE \"a\" = 1 LIMIT 5") := by
  decide +kernel

-- the hypotheses of `C39_works`: the only object of the query built after what it holds is a method
example : Ordered query ∧ ∀ a c, Reach query 0 a → query[a]? = some c → c.cls ≠ .gen := by
  constructor
  · refine ⟨fun _ => 0, ?_⟩
    intro a b c d hc hd h1 h2 hb
    have : ∀ c ∈ query, BuiltLater c.cls → ∀ v ∈ c.fields, v = .ref 23 := by
      decide
    have := this c (List.mem_of_getElem? hc) h1 _ hb
    cases this
    have : query[23]? = some ⟨.lib .sqlValue, [.ref 24, s L!"x"]⟩ := rfl
    rw [this] at hd
    cases hd
    exact absurd h2 (by decide)
  · intro a c _ hc
    have : ∀ c ∈ query, c.cls ≠ .gen := by decide
    exact this c (List.mem_of_getElem? hc)

-- a value that holds a generator
example : Reach [⟨.list, [.ref 1]⟩, ⟨.gen, []⟩] 0 1 := .next .self rfl (by simp)
example : copyObj id 20 [⟨.list, [.ref 1]⟩, ⟨.gen, []⟩] 0 = .error .typeError := by decide

-- an immutable tuple is not copied, a tuple of a list is
example : copyObj id 20 [⟨.tuple, [.ref 1, .ref 2]⟩, ⟨.tuple, [.atom (.int 1)]⟩, ⟨.list, []⟩] 0 =
    .ok ([⟨.tuple, [.ref 1, .ref 2]⟩, ⟨.tuple, [.atom (.int 1)]⟩, ⟨.list, []⟩, ⟨.list, []⟩,
      ⟨.tuple, [.ref 1, .ref 3]⟩], .ref 4) := by decide

/-- `V({9, 16})`, of which the set once was larger: it iterates as 9, 16, its copy as 16, 9. -/
private def setQuery : Heap := [⟨.lib .sqlValue, [nil, .ref 1]⟩, ⟨.set, [.atom (.int 9), .atom (.int 16)]⟩]

/-- The claim is false of the code as it stands: a copied set may iterate in another order. -/
theorem C39_refuted : ¬ C39_claim := by
  intro h
  have := h cx0 List.reverse (fun xs => List.reverse_perm xs) 5 5 setQuery 0
    (setQuery ++ [⟨.lib .sqlValue, [nil, .ref 3]⟩, ⟨.set, [.atom (.int 16), .atom (.int 9)]⟩]) 2
    (by
      intro c hc q hq
      rcases List.mem_cons.1 hc with rfl | hc
      · simp [nil] at hq; subst hq; decide
      · rcases List.mem_singleton.1 hc with rfl
        simp at hq)
    (by decide) (by decide)
  exact absurd this (by decide +kernel)

end SqlPuzzle.Props
