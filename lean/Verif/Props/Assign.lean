import Verif.Spec.Assign
import Verif.Props.Accumulate
import Verif.Proofs.Plain
import Mathlib.Data.List.Induction
import Mathlib.Data.List.Nodup

/-!
C66: the value of a column after an UPDATE is the one that was set last.
-/

namespace SqlPuzzle

open Spec

private def cx0 : Ctx := ⟨.sql, ⟨id, id, fun _ => true, fun _ => [], fun _ => []⟩⟩

theorem lastValue_snoc {κ ν : Type} {us : List (κ × ν)} {k k' : κ} {v v' : ν} :
    LastValue (us ++ [(k', v')]) k v ↔ (k' = k ∧ v' = v) ∨ (k' ≠ k ∧ LastValue us k v) := by
  constructor
  · generalize e : us ++ [(k', v')] = xs
    intro h
    cases h with
    | here us k v =>
      obtain ⟨rfl, e'⟩ := List.append_inj' e rfl
      simp only [List.cons.injEq, Prod.mk.injEq, and_true] at e'
      exact .inl e'
    | there k' v' h hne =>
      obtain ⟨rfl, e'⟩ := List.append_inj' e rfl
      simp only [List.cons.injEq, Prod.mk.injEq, and_true] at e'
      exact .inr ⟨by rw [e'.1]; exact hne, h⟩
  · rintro (⟨rfl, rfl⟩ | ⟨h, h'⟩)
    · exact .here ..
    · exact .there _ _ h' h

theorem lastValue_unique {κ ν : Type} {us : List (κ × ν)} {k : κ} {v v' : ν} (h : LastValue us k v)
    (h' : LastValue us k v') : v = v' := by
  induction us using List.reverseRecOn with
  | nil => generalize e : ([] : List (κ × ν)) = xs at h; cases h <;> simp at e
  | append_singleton us x ih =>
    obtain ⟨k1, v1⟩ := x
    rw [lastValue_snoc] at h h'
    rcases h with ⟨a, rfl⟩ | ⟨a, h⟩
    · rcases h' with ⟨_, b⟩ | ⟨b, _⟩
      · exact b
      · exact absurd a b
    · rcases h' with ⟨b, _⟩ | ⟨_, h'⟩
      · exact absurd b a
      · exact ih h h'

theorem lastValue_mem {κ ν : Type} {us : List (κ × ν)} {k : κ} {v : ν} (h : LastValue us k v) : (k, v) ∈ us := by
  induction h with
  | here us k v => simp
  | there k' v' _ _ ih => exact List.mem_append_left _ ih

theorem lastValue_exists {κ ν : Type} {us : List (κ × ν)} {k : κ} {v : ν} (h : (k, v) ∈ us) :
    ∃ v', LastValue us k v' := by
  induction us using List.reverseRecOn with
  | nil => cases h
  | append_singleton us x ih =>
    obtain ⟨k1, v1⟩ := x
    by_cases e : k1 = k
    · exact ⟨v1, lastValue_snoc.mpr (.inl ⟨e, rfl⟩)⟩
    · rcases List.mem_append.mp h with h | h
      · obtain ⟨v', h'⟩ := ih h
        exact ⟨v', lastValue_snoc.mpr (.inr ⟨e, h'⟩)⟩
      · cases List.mem_singleton.mp h
        exact absurd rfl e

theorem assignOne_self {V : Type} (value : Obj → V) (row : Str → V) (c : Str) (v : Obj) :
    assignOne value row (.value (.str c) v) c = value v := if_pos rfl

theorem assignOne_other {V : Type} (value : Obj → V) (row : Str → V) {c : Str} {k v : Obj} (h : k ≠ .str c) :
    assignOne value row (.value k v) c = row c := by
  cases k with
  | str c' => exact if_neg fun e => h (by rw [e])
  | _ => rfl

theorem assigned_last {V : Type} (value : Obj → V) (row : Str → V) {ps : List (Obj × Obj)} {c : Str} {v : Obj}
    (h : LastValue ps (.str c) v) : assigned value row (ps.map fun p => .value p.1 p.2) c = value v := by
  induction ps using List.reverseRecOn with
  | nil => generalize e : ([] : List (Obj × Obj)) = xs at h; cases h <;> simp at e
  | append_singleton ps x ih =>
    obtain ⟨k, u⟩ := x
    simp only [assigned, List.map_append, List.map_cons, List.map_nil, List.foldl_append, List.foldl_cons,
      List.foldl_nil] at ih ⊢
    rcases lastValue_snoc.mp h with ⟨rfl, rfl⟩ | ⟨h1, h2⟩
    · exact assignOne_self ..
    · rw [assignOne_other _ _ h1, ih h2]

theorem assigned_other {V : Type} (value : Obj → V) (row : Str → V) {ps : List (Obj × Obj)} {c : Str}
    (h : ∀ v, (.str c, v) ∉ ps) : assigned value row (ps.map fun p => .value p.1 p.2) c = row c := by
  induction ps generalizing row with
  | nil => rfl
  | cons p ps ih =>
    have := ih (assignOne value row (.value p.1 p.2)) fun v hv => h v (List.mem_cons_of_mem _ hv)
    rw [assigned] at this
    simp only [assigned, List.map_cons, List.foldl_cons]
    rw [this]
    refine assignOne_other _ _ fun e => h p.2 ?_
    rw [← e]
    exact List.mem_cons_self

theorem noReturn_snoc {given : List (Obj × Obj)} {k v : Obj} :
    NoReturn (given ++ [(k, v)]) ↔ NoReturn given ∧ ((k, v) ∈ given → LastValue given k v) := by
  constructor
  · intro h
    refine ⟨?_, fun hm => h given [] k v rfl hm⟩
    intro a b k' v' e hm
    exact h a (b ++ [(k, v)]) k' v' (by rw [e]; simp) hm
  · rintro ⟨h1, h2⟩ a b k' v' e hm
    rcases List.eq_nil_or_concat b with rfl | ⟨b', x, rfl⟩
    · obtain ⟨rfl, e'⟩ := List.append_inj' e rfl
      simp only [List.cons.injEq, Prod.mk.injEq, and_true] at e'
      obtain ⟨rfl, rfl⟩ := e'
      exact h2 hm
    · rw [List.concat_eq_append, ← List.cons_append, ← List.append_assoc] at e
      obtain ⟨rfl, _⟩ := List.append_inj' e rfl
      exact h1 a b' k' v' rfl hm

theorem firstUses_unique {α : Type} {given kept kept' : List α} (h : FirstUses given kept)
    (h' : FirstUses given kept') : kept = kept' := by
  induction h generalizing kept' with
  | nil =>
    generalize e : ([] : List α) = xs at h'
    cases h' with
    | nil => rfl
    | old => simp at e
    | new => simp at e
  | old x _ hx ih =>
    rename_i given kept _
    generalize e : given ++ [x] = xs at h'
    cases h' with
    | nil => simp at e
    | old y h' hy =>
      obtain ⟨rfl, e'⟩ := List.append_inj' e rfl
      exact ih h'
    | new y h' hy =>
      obtain ⟨rfl, e'⟩ := List.append_inj' e rfl
      cases e'
      rw [ih h'] at hx
      exact absurd hx hy
  | new x _ hx ih =>
    rename_i given kept _
    generalize e : given ++ [x] = xs at h'
    cases h' with
    | nil => simp at e
    | old y h' hy =>
      obtain ⟨rfl, e'⟩ := List.append_inj' e rfl
      cases e'
      rw [← ih h'] at hy
      exact absurd hy hx
    | new y h' hy =>
      obtain ⟨rfl, e'⟩ := List.append_inj' e rfl
      cases e'
      rw [ih h']

theorem firstUses_last {given kept : List (Obj × Obj)} (hf : FirstUses given kept) (hn : NoReturn given) {k v : Obj}
    (h : LastValue given k v) : LastValue kept k v := by
  induction hf generalizing k v with
  | nil => exact h
  | old x hx hm ih =>
    obtain ⟨k1, v1⟩ := x
    obtain ⟨n1, n2⟩ := noReturn_snoc.mp hn
    rcases lastValue_snoc.mp h with ⟨rfl, rfl⟩ | ⟨_, h⟩
    · exact ih n1 (n2 ((hx.mem_iff _).mp hm))
    · exact ih n1 h
  | new x hx hm ih =>
    obtain ⟨k1, v1⟩ := x
    obtain ⟨n1, _⟩ := noReturn_snoc.mp hn
    rw [lastValue_snoc] at h ⊢
    rcases h with h | ⟨h, h'⟩
    · exact .inl h
    · exact .inr ⟨h, ih n1 h'⟩

/-- The pairs of assignments, of which each is a pair. -/
def setPairOf : ValuePart Obj → Obj × Obj
  | .value c v => (c, v)
  | .item o => (o, o)

theorem kept_pairs {given : List (Obj × Obj)} {vs : List (ValuePart Obj)}
    (h : FirstUses (given.map fun p => (.value p.1 p.2 : Value)) vs) :
    ∃ kept, FirstUses given kept ∧ vs = kept.map fun p => (.value p.1 p.2 : Value) := by
  refine ⟨vs.map setPairOf, ?_, ?_⟩
  · have := h.map_on (g := setPairOf) (by
      intro a ha b hb e
      obtain ⟨p, _, rfl⟩ := List.mem_map.mp ha
      obtain ⟨p', _, rfl⟩ := List.mem_map.mp hb
      have e : p = p' := e
      rw [e])
    rw [List.map_map] at this
    have e : (setPairOf ∘ fun p : Obj × Obj => (.value p.1 p.2 : Value)) = id := rfl
    rwa [e, List.map_id] at this
  · rw [List.map_map]
    conv => lhs; rw [← List.map_id vs]
    refine List.map_congr_left fun x hx => ?_
    obtain ⟨p, _, rfl⟩ := List.mem_map.mp ((h.mem_iff _).mp hx)
    rfl

/-- C66 as stated: after any calls on an UPDATE, whose assignments have exact comparisons, a server that carries out
its SET clause leaves in every column the value set last. -/
def C66_claim : Prop :=
  ∀ (cx : Ctx) (n : Nat) (ops : List UpdateOp) (uses : List (List (Obj × Obj))), List.Forall₂ SetPairs ops uses →
    (∀ ps ∈ uses, ∀ p ∈ ps, ExactAssignment p) → ∀ (V : Type) (value : Obj → V) (row : Str → V) (c : Str) (v : Obj),
      LastValue uses.flatten (.str c) v →
      assigned value row (runOps (updateStep cx (sem cx (n + 1))) {} ops).values c = value v

private theorem setOne (i : Int) : SetPairs (.set { kw := [(L!"a", .int i)] }) [(.str L!"a", .int i)] :=
  .usual .nothing ⟨[(L!"a", .int i)], .refl _, by simp, rfl⟩ (by simp [KwFree])

/-- It is false: after `set(a=1)`, `set(a=2)`, `set(a=1)` the column is set to 2. -/
theorem C66_refuted : ¬ C66_claim := by
  intro h
  have := h cx0 1 [.set { kw := [(L!"a", .int 1)] }, .set { kw := [(L!"a", .int 2)] }, .set { kw := [(L!"a", .int 1)] }]
    [[(.str L!"a", .int 1)], [(.str L!"a", .int 2)], [(.str L!"a", .int 1)]]
    (.cons (setOne 1) (.cons (setOne 2) (.cons (setOne 1) .nil)))
    (by simp [ExactAssignment, ExactScalar]) Obj id (fun _ => .none) L!"a" (.int 1)
    (LastValue.here [((.str L!"a", .int 1) : Obj × Obj), (.str L!"a", .int 2)] (.str L!"a") (.int 1))
  have e : (runOps (updateStep cx0 (sem cx0 2)) {} [.set { kw := [(L!"a", .int 1)] }, .set { kw := [(L!"a", .int 2)] },
      .set { kw := [(L!"a", .int 1)] }]).values =
      [((.str L!"a", .int 1) : Obj × Obj), (.str L!"a", .int 2)].map fun p => .value p.1 p.2 := rfl
  have two := assigned_last (id : Obj → Obj) (fun _ => .none)
    (LastValue.here [((.str L!"a", .int 1) : Obj × Obj)] (.str L!"a") (.int 2))
  rw [e] at this
  cases two.symm.trans this

/-- The text of that UPDATE: on MySQL the column becomes 2, PostgreSQL rejects the statement. -/
theorem C66_refuted_text : (sem cx0 3).str (.update
    (runOps (updateStep cx0 (sem cx0 2)) {} [.table (.str L!"t"), .allowUpdateAll, .set { kw := [(L!"a", .int 1)] },
      .set { kw := [(L!"a", .int 2)] }, .set { kw := [(L!"a", .int 1)] }])) =
    .ok L!"UPDATE \"t\" SET \"a\" = 1, \"a\" = 2" := by decide +kernel

/-- C66, what the server leaves in any case: the value whose first use is the latest; other columns keep theirs. -/
theorem C66_effect (cx : Ctx) (n : Nat) (ops : List UpdateOp) (uses : List (List (Obj × Obj)))
    (hg : List.Forall₂ SetPairs ops uses) (hp : ∀ ps ∈ uses, ∀ p ∈ ps, ExactAssignment p) :
    ∃ kept, FirstUses uses.flatten kept ∧ ∀ (V : Type) (value : Obj → V) (row : Str → V) (c : Str),
      let after := assigned value row (runOps (updateStep cx (sem cx (n + 1))) {} ops).values c
      (∀ v, LastValue kept (.str c) v → after = value v) ∧ ((∀ v, (.str c, v) ∉ uses.flatten) → after = row c) := by
  obtain ⟨kept, h1, h2⟩ := kept_pairs (C21_values_partial cx n ops uses hg hp)
  refine ⟨kept, h1, fun V value row c => ?_⟩
  dsimp only
  rw [h2]
  exact ⟨fun v h => assigned_last value row h,
    fun h => assigned_other value row fun v hv => h v ((h1.mem_iff _).mp hv)⟩

/-- C66 for histories in which no column is set back to a value it had before and lost. -/
theorem C66_last_wins_partial (cx : Ctx) (n : Nat) (ops : List UpdateOp) (uses : List (List (Obj × Obj)))
    (hg : List.Forall₂ SetPairs ops uses) (hp : ∀ ps ∈ uses, ∀ p ∈ ps, ExactAssignment p)
    (hn : NoReturn uses.flatten) (V : Type) (value : Obj → V) (row : Str → V) (c : Str) (v : Obj)
    (h : LastValue uses.flatten (.str c) v) :
    assigned value row (runOps (updateStep cx (sem cx (n + 1))) {} ops).values c = value v := by
  obtain ⟨kept, h1, h2⟩ := C66_effect cx n ops uses hg hp
  exact (h2 V value row c).1 v (firstUses_last h1 hn h)

/-- The restriction can not be weakened: if the server leaves the value set last after every prefix of the
calls, where each call sets one column, then no column is set back. -/
theorem C66_exact (cx : Ctx) (n : Nat) (ops : List UpdateOp) (given : List (Obj × Obj))
    (hg : List.Forall₂ SetPairs ops (given.map fun p => [p])) (hp : ∀ p ∈ given, ExactAssignment p) :
    NoReturn given ↔ ∀ m (V : Type) (value : Obj → V) (row : Str → V) (c : Str) (v : Obj),
      LastValue (given.take m) (.str c) v →
      assigned value row (runOps (updateStep cx (sem cx (n + 1))) {} (ops.take m)).values c = value v := by
  have hflat : ∀ g : List (Obj × Obj), (g.map fun p => [p]).flatten = g := by
    intro g
    induction g with
    | nil => rfl
    | cons p g ih => rw [List.map_cons, List.flatten_cons, ih]; rfl
  have hpre : ∀ m, List.Forall₂ SetPairs (ops.take m) ((given.take m).map fun p => [p]) := by
    intro m
    rw [List.map_take]
    exact List.forall₂_take m hg
  have hex : ∀ m, ∀ ps ∈ (given.take m).map fun p => [p], ∀ p ∈ ps, ExactAssignment p := by
    intro m ps hps p hm
    obtain ⟨q, hq, rfl⟩ := List.mem_map.mp hps
    rw [List.mem_singleton.mp hm]
    exact hp q (List.mem_of_mem_take hq)
  constructor
  · intro hn m V value row c v h
    refine C66_last_wins_partial cx n _ _ (hpre m) (hex m) ?_ V value row c v (by rw [hflat]; exact h)
    rw [hflat]
    intro a b k u e hm
    exact hn a (b ++ given.drop m) k u (by
      conv => lhs; rw [← List.take_append_drop m given, e]
      simp) hm
  · intro h a b k v e hm
    obtain ⟨u, hu⟩ := lastValue_exists hm
    have hk : ∃ c, k = .str c := (hp (k, v) (by rw [e]; simp)).1
    obtain ⟨c, rfl⟩ := hk
    have htake : given.take (a.length + 1) = a ++ [(.str c, v)] := by
      rw [e, show a ++ (Obj.str c, v) :: b = (a ++ [(.str c, v)]) ++ b by simp, List.take_left']
      simp
    -- after the prefix `a` the server has `u`; the call that gives `v` again changes nothing
    have h1 := h a.length Obj id (fun _ => .none) c u (by rw [e, List.take_left']; exact hu; rfl)
    have h2 := h (a.length + 1) Obj id (fun _ => .none) c v (by
      rw [htake]
      exact .here ..)
    obtain ⟨kept, k1, k2⟩ := kept_pairs (C21_values_partial cx n _ _ (hpre a.length) (hex a.length))
    obtain ⟨kept', k1', k2'⟩ := kept_pairs (C21_values_partial cx n _ _ (hpre (a.length + 1)) (hex (a.length + 1)))
    rw [hflat] at k1 k1'
    rw [htake] at k1'
    rw [show given.take a.length = a by rw [e, List.take_left']; rfl] at k1
    have same : kept = kept' := firstUses_unique (.old _ k1 ((k1.mem_iff _).mpr hm)) k1'
    rw [k2, same, ← k2', h2] at h1
    have e' : v = u := h1
    rw [e']
    exact hu

/-- UPDATE never assigns a column twice, so that every server accepts it: this is false too. -/
theorem C66_refuted_once : ¬ ∀ (cx : Ctx) (n : Nat) (ops : List UpdateOp) (uses : List (List (Obj × Obj))),
    List.Forall₂ SetPairs ops uses → (∀ ps ∈ uses, ∀ p ∈ ps, ExactAssignment p) →
    ((runOps (updateStep cx (sem cx (n + 1))) {} ops).values.map assignedColumn).Nodup := by
  intro h
  have := h cx0 1 [.set { kw := [(L!"a", .int 1)] }, .set { kw := [(L!"a", .int 2)] }]
    [[(.str L!"a", .int 1)], [(.str L!"a", .int 2)]] (.cons (setOne 1) (.cons (setOne 2) .nil))
    (by simp [ExactAssignment, ExactScalar])
  have e : ((runOps (updateStep cx0 (sem cx0 2)) {} [.set { kw := [(L!"a", .int 1)] },
      .set { kw := [(L!"a", .int 2)] }]).values.map assignedColumn) = [some (.str L!"a"), some (.str L!"a")] := rfl
  rw [e] at this
  simp at this

/-- C66: a column is assigned at most once exactly if the calls never give it two different values. -/
theorem C66_once (cx : Ctx) (n : Nat) (ops : List UpdateOp) (uses : List (List (Obj × Obj)))
    (hg : List.Forall₂ SetPairs ops uses) (hp : ∀ ps ∈ uses, ∀ p ∈ ps, ExactAssignment p) :
    ((runOps (updateStep cx (sem cx (n + 1))) {} ops).values.map assignedColumn).Nodup ↔ OneValueEach uses.flatten := by
  obtain ⟨kept, k1, k2⟩ := kept_pairs (C21_values_partial cx n ops uses hg hp)
  rw [k2, List.map_map, show (assignedColumn ∘ fun p : Obj × Obj => (.value p.1 p.2 : Value)) =
    fun p => some p.1 from rfl]
  constructor
  · intro h k v v' h1 h2
    rw [← k1.mem_iff] at h1 h2
    have := List.inj_on_of_nodup_map h h1 h2 rfl
    cases this
    rfl
  · intro h
    refine List.Nodup.map_on ?_ k1.nodup
    rintro ⟨k, v⟩ h1 ⟨k', v'⟩ h2 e
    cases e
    rw [h k v v' ((k1.mem_iff _).mp h1) ((k1.mem_iff _).mp h2)]

/-- C66 for `on_duplicate_key_update` on MySQL. -/
theorem C66_on_duplicate_partial (cx : Ctx) (n : Nat) (hb : cx.backend = .mysql) (ops : List InsertOp)
    (uses : List (List (Obj × Obj))) (hg : List.Forall₂ DuplicatePairs ops uses)
    (hp : ∀ ps ∈ uses, ∀ p ∈ ps, ExactAssignment p) (hn : NoReturn uses.flatten) (V : Type) (value : Obj → V)
    (row : Str → V) (c : Str) :
    let after := assigned value row (runOps (insertStep cx (sem cx (n + 1))) {} ops).onDup c
    (∀ v, LastValue uses.flatten (.str c) v → after = value v) ∧
    ((∀ v, (.str c, v) ∉ uses.flatten) → after = row c) := by
  have hf : FirstUses (uses.flatten.map fun p => (.value p.1 p.2 : Value))
      (runOps (insertStep cx (sem cx (n + 1))) {} ops).onDup := by
    refine history_uses (f := InsertS.onDup) (P := PlainValue) (E := ExactAssignment)
      (Gives := DuplicatePairs) ?_ hg hp {} [] .nil (by simp)
    intro q op ps given h he hs hf
    have skip : ∀ q' : Insert, q'.onDup = q.onDup → ps = [] →
        FirstUses (given ++ ps.map fun p => (.value p.1 p.2 : Value)) q'.onDup ∧ ∀ c ∈ q'.onDup, PlainValue c := by
      rintro q' h2 rfl
      rw [h2, List.map_nil, List.append_nil]
      exact ⟨hf, hs⟩
    cases op with
    | onDuplicateKeyUpdate a =>
      have h : GivesPairs a ps := h
      have hk : kwSelf a = false := (givesPairs_parse h (sem cx (n + 1))).2
      have := values_step cx n h he hs hf
      have e : (insertStep cx (sem cx (n + 1)) q (.onDuplicateKeyUpdate a)).1.onDup =
          (valuesSet cx (sem cx (n + 1)) q.onDup a).1 := by
        simp only [insertStep, onDuplicateKeyUpdate, hk, hb, Backend.supportsOnDuplicateKeyUpdate,
          Backend.supportsOnConflictDoUpdate, Backend.supportsReplaceInto]
        cases hv : valuesSet cx (sem cx (n + 1)) q.onDup a with
        | mk r e => cases e <;> rfl
      rw [e]
      exact this
    | str =>
      refine skip _ ?_ h
      show (insertStr cx _ q).1.onDup = _
      unfold insertStr; split <;> rfl
    | values a =>
      refine skip _ ?_ h
      simp only [insertStep]
      split <;> rfl
    | _ => exact skip _ rfl h
  obtain ⟨kept, k1, k2⟩ := kept_pairs hf
  dsimp only
  rw [k2]
  exact ⟨fun v h => assigned_last value row (firstUses_last k1 hn h),
    fun h => assigned_other value row fun v hv => h v ((k1.mem_iff _).mp hv)⟩

/-- Calls that meet the hypotheses: a value replaced by another, and never set back. -/
example : List.Forall₂ SetPairs [.set { kw := [(L!"a", .int 1)] }, .set { kw := [(L!"a", .int 2)] }]
      [[(.str L!"a", .int 1)], [(.str L!"a", .int 2)]] ∧
    NoReturn [[(.str L!"a", .int 1)], [((.str L!"a", .int 2) : Obj × Obj)]].flatten := by
  refine ⟨.cons (setOne 1) (.cons (setOne 2) .nil), ?_⟩
  rw [show [[(.str L!"a", .int 1)], [((.str L!"a", .int 2) : Obj × Obj)]].flatten =
    ([] ++ [(.str L!"a", .int 1)]) ++ [(.str L!"a", .int 2)] from rfl, noReturn_snoc, noReturn_snoc]
  exact ⟨⟨by intro a b k v e; simp at e, by simp⟩, by simp⟩

end SqlPuzzle
