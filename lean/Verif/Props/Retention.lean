import Verif.Proofs.RegionFacts
import Verif.Props.Arguments

/-!
C51: a query does not keep the lists and dictionaries passed to its methods.
-/

namespace SqlPuzzle.Props
open SqlPuzzle SqlPuzzle.Spec SqlPuzzle.Spec.Layout SqlPuzzle.Spec.Sample

/-- The list, dictionary or other object at `p` may be passed to a method as a carrier of arguments
(`f([…])`, `f({…})`) or as a list of values of a condition (`where(a=[…])`): unless the query refers to
it already, or one of the values given does, the query does not refer to it afterwards. -/
theorem C51_call (T : Runtime) (hT : Gentle T) (ht : Tidy T) (cx : Ctx) (h : Heap) (q : Nat)
    (call : HCall) (p : Nat) (wf : WellFormed h) (hq : q < h.length) (hp : p < h.length)
    (hv : ∀ b, Val.ref b ∈ HCall.args call → b < h.length) (hr : ¬ Reach h q p)
    (hl : ∀ a ∈ HCall.given call, ∀ v, Leaf h a v → Harmless h p v)
    (hs : ∀ b, call = .separator (.ref b) → ¬ Reach h b p) :
    ¬ Reach (hCall T cx q call h).1 q p := by
  let X : Nat → Prop := fun a => a < h.length ∧ ¬ Reach h a p
  have hc : Closed h X := fun a c b ha hc hb =>
    ⟨wf c (List.mem_of_getElem? hc) b hb, fun r => ha.2 (RegionFacts.reach_cons hc hb r)⟩
  have inner : ∀ {a : Nat} {c : Cell} {b : Nat}, h[a]? = some c → Val.ref b ∈ c.fields → b < h.length :=
    fun hc hb => wf _ (List.mem_of_getElem? hc) _ hb
  have pos : ∀ a ∈ HCall.given call, ∀ b, Val.ref b ∈ a.pos ∨ (∃ k, (k, Val.ref b) ∈ a.kw) →
      b < h.length := by
    intro a ha b hb
    apply hv b
    cases call <;> simp only [HCall.given, List.mem_cons, List.not_mem_nil, or_false] at ha
    case onDuplicateKeyUpdate a' =>
      simp only [HCall.args, List.mem_append, List.mem_map]
      rcases ha with rfl | rfl
      · rcases hb with hb | ⟨k, hb⟩
        · exact .inl hb
        · exact .inr ⟨_, hb, rfl⟩
      · rcases hb with hb | ⟨k, hb⟩
        · exact .inl (List.mem_of_mem_tail hb)
        · exact .inr ⟨_, hb, rfl⟩
    all_goals
      subst ha
      simp only [HCall.args, List.mem_append, List.mem_map]
      rcases hb with hb | ⟨k, hb⟩
      · first
        | exact hb
        | exact .inl hb
      · first
        | exact .inr ⟨_, hb, rfl⟩
        | cases hb
  have give : ∀ a ∈ HCall.given call, RegionFacts.Tight h X a := by
    intro a ha v lf
    have valid : ∀ b, v = .ref b → b < h.length := by
      rintro b rfl
      cases lf with
      | kw hv => exact pos a ha b (.inr ⟨_, hv⟩)
      | arg hv => exact pos a ha b (.inl hv)
      | second hp => exact pos a ha b (.inl (by simp [hp]))
      | entry _ hc hv => exact inner hc hv
      | item _ hc _ hv => exact inner hc hv
      | inner _ _ _ _ hd _ hv => exact inner hd hv
    rcases hl a ha v lf with hn | ⟨l, xs, rfl, hl', hx⟩
    · exact .inl fun b hb => ⟨valid b hb, hn b hb⟩
    · refine .inr ⟨l, xs, rfl, hl', ?_⟩
      rintro x hx' b rfl
      exact ⟨inner hl' hx', hx b hx'⟩
  obtain ⟨X', s⟩ := RegionFacts.call_region hT ht hc (q := q) ⟨hq, hr⟩ cx call give
    (by
      rintro v e b rfl
      exact ⟨hv b (by simp [e, HCall.args]), hs b e⟩) fun a ha => ha.1
  intro r
  exact (s.old p hp (RegionFacts.reach_in s.closed (s.sub q ⟨hq, hr⟩) r)).2 .self

/-- What a query does not refer to can be changed at will: the query looks the same, at every depth. -/
theorem C51_change (h : Heap) (q p : Nat) (c : Cell) (d : Nat) (hr : ¬ Reach h q p) :
    look (h.set p c) d (.ref q) = look h d (.ref q) := by
  refine RegionFacts.look_eq (X := Reach h q) (fun a ha => ?_) (fun a c b ha hc hb => ha.next hc hb) d _ ?_
  · rw [List.getElem?_set_ne]
    rintro rfl
    exact hr ha
  · exact RegionFacts.in_ref.2 .self

/-- So a list or dictionary passed to a method can be changed afterwards in any way: the query renders
the same, on every backend. -/
theorem C51_text (T : Runtime) (hT : Gentle T) (ht : Tidy T) (cx cx' : Ctx) (h : Heap) (q : Nat)
    (call : HCall) (p : Nat) (c : Cell) (d : Nat) (wf : WellFormed h) (hq : q < h.length)
    (hp : p < h.length) (hv : ∀ b, Val.ref b ∈ HCall.args call → b < h.length) (hr : ¬ Reach h q p)
    (hl : ∀ a ∈ HCall.given call, ∀ v, Leaf h a v → Harmless h p v)
    (hs : ∀ b, call = .separator (.ref b) → ¬ Reach h b p) :
    textAt cx' d ((hCall T cx q call h).1.set p c) q = textAt cx' d (hCall T cx q call h).1 q := by
  unfold textAt
  rw [C51_change _ _ _ _ _ (C51_call T hT ht cx h q call p wf hq hp hv hr hl hs)]

/-! ### Examples -/

theorem runtime_tidy (cx : Ctx) (n : Nat) : Tidy (runtime cx n) where
  eq _ _ _ X hc := ⟨X, hc, fun _ => id, fun _ _ => id⟩
  str _ _ X hc := ⟨X, hc, fun _ => id, fun _ _ => id⟩
  sort _ _ X hc := ⟨X, hc, fun _ => id, fun _ _ => id⟩
  items kvs h r hr x hx := by
    simp only [runtime, HM.reads] at hr
    unfold treeSort at hr
    split at hr
    · cases hr
    · rw [bind_ok] at hr
      obtain ⟨ps, -, e⟩ := hr
      cases e
      obtain ⟨p, -, h2⟩ := List.mem_filterMap.1 hx
      split at h2
      · exact List.mem_of_getElem? h2
      · cases h2

/-- The sample query at 0, a list at 27, a dictionary `{'b': list}` at 28, a tuple `('c', list)` at 29,
a list of such tuples at 30, and a list of lists at 31. -/
private def mem : Heap := query ++ [⟨.list, [.atom (.int 1), .atom (.int 2)]⟩,
  ⟨.dict, [s L!"b", .ref 27]⟩, ⟨.tuple, [s L!"c", .ref 27]⟩, ⟨.list, [.ref 29]⟩, ⟨.list, [.ref 27]⟩]

private theorem mem_wf : WellFormed mem := by
  intro c hc q hq
  have : ∀ c ∈ mem, ∀ v ∈ c.fields,
      (match v with | .ref q => decide (q < mem.length) | _ => true) = true := by decide
  simpa using this c hc _ hq

private theorem query_closed {a : Nat} (r : Reach mem 0 a) : a < 27 := by
  refine RegionFacts.reach_in (h := mem) (X := fun a => a < 27) ?_ (by decide) r
  intro a c b ha hc hb
  have : ∀ c ∈ mem.take 27, ∀ v ∈ c.fields,
      (match v with | .ref q => decide (q < 27) | _ => true) = true := by decide
  have hm : c ∈ mem.take 27 := List.mem_of_getElem? (i := a) (by rw [List.getElem?_take, if_pos ha]; exact hc)
  simpa using this c hm _ hb

private theorem list_harmless {p : Nat} : Harmless mem p (.ref 27) :=
  .inr ⟨27, _, rfl, rfl, by simp⟩

private theorem atom_harmless {p : Nat} (a : Atom) : Harmless mem p (.atom a) := .inl (by rintro _ ⟨⟩)

private abbrev call (c : HCall) : Heap := (hCall (runtime cx0 20) cx0 0 c mem).1

-- `where(a=list)`, then anything is done to the list
private def kw : HCall := .where_ { kw := [(L!"a", .ref 27)] }

example (c : Cell) : textAt cx0 20 ((call kw).set 27 c) 0 =
    some (.ok L!"SELECT 'x' FROM \"t\" WHERE \"a\" = 1 AND \"a\" IN (1, 2) LIMIT 5") := by
  refine (C51_text _ (runtime_gentle _ _) (runtime_tidy _ _) _ _ _ _ _ _ _ _ mem_wf (by decide)
    (by decide) (by simp [HCall.args, kw]; decide) (fun r => absurd (query_closed r) (by decide)) ?_
    (by rintro _ ⟨⟩)).trans (by decide +kernel)
  simp only [HCall.given, kw, List.mem_singleton]
  rintro _ rfl v lf
  cases lf with
  | kw hv =>
    simp only [List.mem_singleton, Prod.mk.injEq] at hv
    obtain ⟨-, rfl⟩ := hv
    exact list_harmless
  | arg hv => cases hv
  | second hp => cases hp
  | entry hd => cases hd
  | item hr => cases hr
  | inner hl => cases hl

-- `where({'b': list})`, then anything is done to the dictionary
private def dict : HCall := .where_ { pos := [.ref 28] }

example (c : Cell) : textAt cx0 20 ((call dict).set 28 c) 0 =
    some (.ok L!"SELECT 'x' FROM \"t\" WHERE \"a\" = 1 AND \"b\" IN (1, 2) LIMIT 5") := by
  refine (C51_text _ (runtime_gentle _ _) (runtime_tidy _ _) _ _ _ _ _ _ _ _ mem_wf (by decide)
    (by decide) (by simp [HCall.args, dict]; decide) (fun r => absurd (query_closed r) (by decide)) ?_
    (by rintro _ ⟨⟩)).trans (by decide +kernel)
  simp only [HCall.given, dict, List.mem_singleton]
  rintro _ rfl v lf
  cases lf with
  | kw hv => cases hv
  | arg hv hl hd =>
    rcases List.mem_singleton.1 hv with rfl
    exact absurd ⟨28, _, rfl, rfl, rfl⟩ hd
  | second hp => cases hp
  | entry hd hc hv =>
    simp only [List.mem_singleton, Val.ref.injEq] at hd
    subst hd
    cases hc
    simp only [List.mem_cons, List.not_mem_nil, or_false] at hv
    rcases hv with rfl | rfl
    · exact atom_harmless _
    · exact list_harmless
  | item hr hc hk =>
    simp only [List.mem_singleton, Val.ref.injEq] at hr
    subst hr
    cases hc
    rcases hk with hk | hk <;> cases hk
  | inner hl hc hk =>
    cases hl
    cases hc
    rcases hk with hk | hk <;> cases hk

-- lists inside lists of values are kept: changing one changes the query
example : textAt cx0 20 (call (.where_ { kw := [(L!"a", .ref 31)] })) 0 =
    some (.ok L!"SELECT 'x' FROM \"t\" WHERE \"a\" = 1 AND \"a\" IN ((1, 2)) LIMIT 5") := by
  decide +kernel
example : textAt cx0 20 ((call (.where_ { kw := [(L!"a", .ref 31)] })).set 27 ⟨.list, [.atom (.int 3)]⟩) 0 =
    some (.ok L!"SELECT 'x' FROM \"t\" WHERE \"a\" = 1 AND \"a\" IN ((3)) LIMIT 5") := by
  decide +kernel

end SqlPuzzle.Props
