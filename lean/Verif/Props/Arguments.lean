import Verif.Proofs.FrameFacts
import Verif.Proofs.HeapFacts
import Verif.Spec.Runtime
import Verif.Spec.Sample

/-!
C48: calls do not modify their arguments.
-/

namespace SqlPuzzle.Props
open SqlPuzzle SqlPuzzle.Spec SqlPuzzle.Spec.Layout SqlPuzzle.Spec.Sample

/-- The arguments of a call. -/
def HCall.args : HCall → List Val
  | .columns a | .from_ a | .on a | .where_ a | .having a | .groupBy a | .orderBy a | .values a
  | .onDuplicateKeyUpdate a | .set a => a.pos ++ a.kw.map Prod.snd
  | .fromTable t al => [t, al]
  | .join _ v | .offset v | .outfile _ v | .forUpdate v | .into v | .ignore v | .table v | .distinct v
  | .separator v | .to v | .equals v => [v]
  | .limit l o => [l, o]
  | .delete ts => ts
  | .option .. | .allowAll _ | .str => []

/-- The property as it is stated: whatever is passed to a method of the object at `q`, and does not
itself belong to `q`, looks the same afterwards, at every depth. -/
def C48_claim : Prop :=
  ∀ (T : Runtime), Gentle T → ∀ (cx : Ctx) (h : Heap) (q : Nat) (call : HCall) (p d : Nat),
    WellFormed h → q < h.length → Val.ref p ∈ HCall.args call → p < h.length →
    (∀ a, Reach h p a → ¬ Own h q a) →
    look (hCall T cx q call h).1 d (.ref p) = look h d (.ref p)

/-- A call changes only the object whose method it is, the parts that belong to it, and a dictionary of
one entry passed to a join.  Other objects, whether passed as arguments or not, are at most looked at:
generators may be consumed, and the joins of tables minimised. -/
theorem C48_call_partial (T : Runtime) (hT : Gentle T) (cx : Ctx) (h : Heap) (q : Nat) (call : HCall) :
    Undisturbed (fun p => Own h q p ∨ JoinedDict h call p) h (hCall T cx q call h).1 :=
  FrameFacts.call_frame hT cx call

/-- In particular no list, tuple, set, and no dictionary but the one mentioned, is changed, and no
object of the library that does not belong to `q`, apart from tables and joins. -/
theorem C48_containers_partial (T : Runtime) (hT : Gentle T) (cx : Ctx) (h : Heap) (q : Nat)
    (call : HCall) (p : Nat) (c : Cell) (hc : h[p]? = some c) (ho : ¬ Own h q p)
    (hj : ¬ JoinedDict h call p)
    (hk : c.cls ≠ .gen ∧ c.cls ≠ .lib .table ∧ c.cls ≠ .lib .join) :
    (hCall T cx q call h).1[p]? = some c := by
  obtain ⟨c', h1, -, h3⟩ := (C48_call_partial T hT cx h q call).cell p c hc
  rcases h3 with (w | w) | t
  · exact absurd w ho
  · exact absurd w hj
  · cases t with
    | same => exact h1
    | gen => exact absurd rfl hk.1
    | table => exact absurd rfl hk.2.1
    | join => exact absurd rfl hk.2.2

/-- No generator can be got at from `p`, and no table with joins. -/
def Still (h : Heap) (p : Nat) : Prop :=
  ∀ a c, Reach h p a → h[a]? = some c → c.cls ≠ .gen ∧ c.cls ≠ .lib .join ∧
    (c.cls = .lib .table → ∃ n al j, c.fields = [n, al, .ref j] ∧ h[j]? = some ⟨.list, []⟩)

/-- The property for arguments without generators and joins, and unless a dictionary of one entry is
joined: what is passed looks the same afterwards, at every depth; likewise for every other object.
(What is missing is false of the code: see below.) -/
theorem C48_look_partial (T : Runtime) (hT : Gentle T) (cx : Ctx) (h : Heap) (q : Nat) (call : HCall)
    (p d : Nat) (wf : WellFormed h) (hp : p < h.length) (ho : ∀ a, Reach h p a → ¬ Own h q a)
    (hj : ∀ a, Reach h p a → ¬ JoinedDict h call a) (hs : Still h p) :
    look (hCall T cx q call h).1 d (.ref p) = look h d (.ref p) := by
  refine HeapFacts.look_same (X := Reach h p) ?_ d _ (by rintro a ⟨⟩; exact .self)
  intro a ha
  have hlt := HeapFacts.reach_lt wf hp ha
  have hc : h[a]? = some h[a] := List.getElem?_eq_getElem hlt
  refine ⟨h[a], hc, ?_, fun b hb => ha.next hc hb⟩
  obtain ⟨c', h1, -, h3⟩ := (C48_call_partial T hT cx h q call).cell a _ hc
  obtain ⟨s1, s2, s3⟩ := hs a _ ha hc
  rw [h1]
  rcases h3 with (w | w) | t
  · exact absurd w (ho a ha)
  · exact absurd w (hj a ha)
  · generalize h[a] = c at t s1 s2 s3 hc
    cases t with
    | same => rfl
    | gen => exact absurd rfl s1
    | join => exact absurd rfl s2
    | table x y j v hv =>
      obtain ⟨n, al, j', e1, e2⟩ := s3 rfl
      cases e1
      rcases hv with hv | hv | hv
      · exact absurd e2 hv
      · exact absurd hv (ho _ (ha.next hc (by simp)))
      · exact absurd hv (hj _ (ha.next hc (by simp)))

/-- So a query, condition or function passed to a call renders as before, on every backend. -/
theorem C48_text_partial (T : Runtime) (hT : Gentle T) (cx cx' : Ctx) (h : Heap) (q : Nat)
    (call : HCall) (p d : Nat) (wf : WellFormed h) (hp : p < h.length)
    (ho : ∀ a, Reach h p a → ¬ Own h q a) (hj : ∀ a, Reach h p a → ¬ JoinedDict h call a)
    (hs : Still h p) : textAt cx' d (hCall T cx q call h).1 p = textAt cx' d h p := by
  unfold textAt
  rw [C48_look_partial T hT cx h q call p d wf hp ho hj hs]

/-! ### Examples -/

theorem runtime_gentle (cx : Ctx) (n : Nat) : Gentle (runtime cx n) :=
  ⟨fun _ _ _ => .refl _ _, fun _ _ => .refl _ _, fun _ _ => .refl _ _⟩

private theorem own_lt {h : Heap} {q N : Nat} (hq : q < N)
    (hN : ∀ c ∈ h.take N, ∀ b, Val.ref b ∈ c.fields → b < N) {p : Nat} (o : Own h q p) : p < N := by
  have key : ∀ (a b : Nat) (c : Cell), a < N → h[a]? = some c → Val.ref b ∈ c.fields → b < N := by
    intro a b c ha hc hb
    refine hN c (List.mem_of_getElem? (i := a) ?_) b hb
    rw [List.getElem?_take, if_pos ha]
    exact hc
  induction o with
  | self => exact hq
  | attr _ hc hi _ ih => exact key _ _ _ ih hc (List.mem_of_getElem? hi)
  | item _ hc _ hb _ _ ih => exact key _ _ _ ih hc hb

/-- The sample query at 0, a list at 27, a dictionary at 28, a generator at 29, another query's
condition at 30. -/
private def mem : Heap := query ++ [⟨.list, [.atom (.int 1), .atom (.int 2)]⟩,
  ⟨.dict, [s L!"u", s L!"v"]⟩, ⟨.gen, [.atom (.int 3)]⟩, ⟨.lib .conditions, [.ref 31]⟩,
  ⟨.lib .listOfParts, [s L!" AND ", .ref 32]⟩, ⟨.lib .condition, [s L!"z", .ref 33]⟩,
  ⟨.lib (.relation .gt), [.atom (.int 9)]⟩]

private theorem mem_wf : WellFormed mem := by
  intro c hc q hq
  have : ∀ c ∈ mem, ∀ v ∈ c.fields,
      (match v with | .ref q => decide (q < mem.length) | _ => true) = true := by decide
  simpa using this c hc _ hq

private theorem mem_own {p : Nat} (o : Own mem 0 p) : p < 27 := by
  refine own_lt (by decide) ?_ o
  intro c hc b hb
  have : ∀ c ∈ mem.take 27, ∀ v ∈ c.fields,
      (match v with | .ref q => decide (q < 27) | _ => true) = true := by decide
  simpa using this c hc _ hb

private abbrev call (c : HCall) : Heap := (hCall (runtime cx0 20) cx0 0 c mem).1

-- `where(a=[1, 2])` changes the query and leaves the list alone
private def whereIn : HCall := .where_ { kw := [(L!"a", .ref 27)] }

example : textAt cx0 20 (call whereIn) 0 =
    some (.ok L!"SELECT 'x' FROM \"t\" WHERE \"a\" = 1 AND \"a\" IN (1, 2) LIMIT 5") := by decide +kernel
example : (call whereIn)[27]? = mem[27]? :=
  C48_containers_partial _ (runtime_gentle _ _) _ _ _ _ _ _ rfl (fun o => absurd (mem_own o) (by decide))
    (by rintro ⟨_, _, _, h, _⟩; cases h) (by decide)

-- the condition at 30 is passed to `where`, and renders as before
private def whereQ : HCall := .where_ { pos := [.ref 30] }

private theorem reach30 {a : Nat} (r : Reach mem 30 a) : a = 30 ∨ a = 31 ∨ a = 32 ∨ a = 33 := by
  induction r with
  | self => exact .inl rfl
  | next _ hc hb ih =>
    rcases ih with rfl | rfl | rfl | rfl
    all_goals
      have := (Option.some.inj hc).symm
      subst this
      simp [s] at hb
      try omega

example : textAt cx0 20 (call whereQ) 0 =
    some (.ok L!"SELECT 'x' FROM \"t\" WHERE \"a\" = 1 AND \"z\" > 9 LIMIT 5") := by decide +kernel
example : textAt cx0 20 (call whereQ) 30 = textAt cx0 20 mem 30 :=
  C48_text_partial _ (runtime_gentle _ _) _ _ _ _ _ _ _ mem_wf (by decide)
    (fun a r o => by have := mem_own o; have := reach30 r; omega)
    (by rintro a _ ⟨_, _, _, h, _⟩; cases h)
    (by
      intro a c r hc
      rcases reach30 r with rfl | rfl | rfl | rfl
      all_goals
        have := (Option.some.inj hc).symm
        subst this
        exact ⟨by decide, by decide, fun h => absurd h (by decide)⟩)
example : textAt cx0 20 mem 30 = some (.ok L!"\"z\" > 9") := by decide +kernel

-- what other calls do to the query, in memory and in the functional model
example : textAt cx0 20 (call (.orderBy { kw := [(L!"b", s L!"DESC")] })) 0 =
    some (.ok L!"SELECT 'x' FROM \"t\" WHERE \"a\" = 1 ORDER BY \"b\" DESC LIMIT 5") := by decide +kernel
example : textAt cx0 20 (call (.limit (.atom (.int 7)) (.atom (.int 8)))) 0 =
    some (.ok L!"SELECT 'x' FROM \"t\" WHERE \"a\" = 1 LIMIT 7 OFFSET 8") := by decide +kernel
example : textAt cx0 20 (call (.join .left (.ref 28))) 0 =
    some (.ok L!"SELECT 'x' FROM \"t\" LEFT JOIN \"u\" AS \"v\" WHERE \"a\" = 1 LIMIT 5") := by
  decide +kernel
example : textAt cx0 20 (call (.from_ { pos := [.ref 28] })) 0 =
    some (.ok L!"SELECT 'x' FROM \"t\", \"u\" AS \"v\" WHERE \"a\" = 1 LIMIT 5") := by decide +kernel

private def items1 : Tree → Nat
  | .node _ ts => ts.length
  | _ => 0

/-- The claim is false of the code as it stands: joining `{'u': 'v'}` empties the dictionary. -/
theorem C48_refuted : ¬ C48_claim := by
  intro h
  have := h (runtime cx0 20) (runtime_gentle _ _) cx0 mem 0 (.join .left (.ref 28)) 28 1 mem_wf
    (by decide) (by simp [HCall.args]) (by decide)
    (by
      intro a r o
      have ha : a = 28 := by
        clear o
        induction r with
        | self => rfl
        | next _ hc hb ih =>
          subst ih
          have := (Option.some.inj hc).symm
          subst this
          simp [s] at hb
      subst ha
      exact absurd (mem_own o) (by decide))
  exact absurd (congrArg items1 this) (by decide +kernel)

/-- And `where(a=generator)` consumes the generator. -/
theorem C48_refuted_generator : ¬ C48_claim := by
  intro h
  have := h (runtime cx0 20) (runtime_gentle _ _) cx0 mem 0 (.where_ { kw := [(L!"a", .ref 29)] }) 29 1
    mem_wf (by decide) (by simp [HCall.args]) (by decide)
    (by
      intro a r o
      have ha : a = 29 := by
        clear o
        induction r with
        | self => rfl
        | next _ hc hb ih =>
          subst ih
          have := (Option.some.inj hc).symm
          subst this
          simp at hb
      subst ha
      exact absurd (mem_own o) (by decide))
  exact absurd (congrArg items1 this) (by decide +kernel)

end SqlPuzzle.Props
