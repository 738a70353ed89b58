import Verif.Proofs.RefineBasic

/-! Arguments in memory are parsed into what the values are parsed into. -/

namespace SqlPuzzle.Refine
open SqlPuzzle SqlPuzzle.Spec

/-- Both raise the same exception, or both succeed with related results. -/
inductive Both {α β : Type} (P : α → β → Prop) : R α → R β → Prop where
  | ok {a b} (h : P a b) : Both P (.ok a) (.ok b)
  | error (e) : Both P (.error e) (.error e)

theorem Both.bind {α β γ δ : Type} {P : α → β → Prop} {Q : γ → δ → Prop} {x : R α} {y : R β}
    {f : α → R γ} {g : β → R δ} (h : Both P x y) (hf : ∀ a b, P a b → Both Q (f a) (g b)) :
    Both Q (x >>= f) (y >>= g) := by
  cases h with
  | ok h => exact hf _ _ h
  | error e => exact .error e

theorem both_mapR {α β γ δ : Type} {P : α → β → Prop} {Q : γ → δ → Prop} {f : α → R γ} {g : β → R δ}
    {xs : List α} {ys : List β} (h : List.Forall₂ P xs ys) (hf : ∀ a b, P a b → Both Q (f a) (g b)) :
    Both (List.Forall₂ Q) (mapR f xs) (mapR g ys) := by
  induction h with
  | nil => exact .ok .nil
  | cons h _ ih =>
    rw [mapR_cons, mapR_cons]
    exact (hf _ _ h).bind fun a b hab => ih.bind fun as bs h' => .ok (.cons hab h')

/-- Tuples of values. -/
abbrev Batch (m : Mem) (vs : List Val) (xs : List Obj) : Prop := Are m vs (xs.map .obj)

theorem are_length {m : Mem} {vs : List Val} {xs : List Obj} (h : Batch m vs xs) : vs.length = xs.length := by
  simpa using (are_iff.mp h).length_eq

theorem are_nones (m : Mem) (n : Nat) : Batch m (List.replicate n (.atom .none)) (List.replicate n .none) := by
  induction n with
  | zero => exact .nil
  | succ n ih => exact .cons (.atom .none) ih

theorem createBatch_sim {m : Mem} (o : ParseOpts) {vs : List Val} {xs : List Obj} (h : Batch m vs xs) :
    Both (Batch m) (hCreateBatch o vs) (createBatch o xs) := by
  unfold hCreateBatch createBatch
  rw [are_length h]
  split
  · exact .error _
  · refine .ok ?_
    have := are_append h (are_nones m (o.maxItems - xs.length))
    rwa [← List.map_append] at this

theorem parseListItem_asList (o : ParseOpts) (x : Obj) : parseListItem o x =
    match asList [x] with
    | some ys => createBatch o ys
    | none => if o.minItems = 1 then createBatch o [x] else .error .invalidArgument := by
  cases x <;> rfl

theorem parseList_sim {m : Mem} {h : Heap} (hm : Sub m (cells h)) (o : ParseOpts) {vs : List Val}
    {xs : List Obj} (s : Batch m vs xs) :
    Both (List.Forall₂ (Batch m)) (hParseList h o vs) (parseList o xs) := by
  refine both_mapR (are_map.mp s) fun v x hv => ?_
  rw [parseListItem_asList]
  rcases seen hm hv with ⟨e, e', _, _, hx⟩ | ⟨e, e', _, _, _⟩ | ⟨e, e', _, _⟩
  · rw [e, e']; exact createBatch_sim o hx
  all_goals
    rw [e, e']
    by_cases h1 : o.minItems = 1
    · rw [if_pos h1, if_pos h1]; exact createBatch_sim o (.cons hv .nil)
    · rw [if_neg h1, if_neg h1]; exact .error _

theorem isArgs_sim {m : Mem} {h : Heap} (hm : Sub m (cells h)) {vs : List Val} {xs : List Obj}
    (s : Batch m vs xs) : hIsArgs h vs = isArgs xs := by
  cases are_map.mp s with
  | nil => rfl
  | cons hv _ => simp only [hIsArgs, isArgs, (like_shallow hm hv).listTuple]

/-- What `asList` and `asDict` see of all the positional arguments. -/
inductive SeenAll (m : Mem) (h : Heap) (vs : List Val) (xs : List Obj) : Prop where
  | list {ys os} (e : hAsList h vs = some ys) (e' : asList xs = some os) (d : hAsDict h vs = none)
      (d' : asDict xs = none) (hx : Are m ys (os.map .obj))
  | dict {ys kvs} (e : hAsList h vs = none) (e' : asList xs = none) (d : hAsDict h vs = some ys)
      (d' : asDict xs = some kvs) (hx : PairsAre m ys kvs)
  | other (e : hAsList h vs = none) (e' : asList xs = none) (d : hAsDict h vs = none)
      (d' : asDict xs = none)

theorem seenAll {m : Mem} {h : Heap} (hm : Sub m (cells h)) {vs : List Val} {xs : List Obj}
    (s : Batch m vs xs) : SeenAll m h vs xs := by
  cases are_map.mp s with
  | nil => exact .other rfl rfl rfl rfl
  | @cons v x vs xs hv hr =>
    cases hr with
    | nil =>
      rcases seen hm hv with ⟨e, e', d, d', hx⟩ | ⟨e, e', d, d', hx⟩ | ⟨e, e', d, d'⟩
      · exact .list e e' d d' hx
      · exact .dict e e' d d' hx
      · exact .other e e' d d'
    | cons _ _ => exact .other (by cases v <;> rfl) (by cases x <;> rfl) (by cases v <;> rfl) (by cases x <;> rfl)

theorem parsePositional_sim {m : Mem} {h : Heap} (hm : Sub m (cells h)) (o : ParseOpts) {vs : List Val}
    {xs : List Obj} (s : Batch m vs xs) :
    Both (List.Forall₂ (Batch m)) (hParsePositional h o vs) (parsePositional o xs) := by
  have he : vs.isEmpty = xs.isEmpty := by
    cases are_map.mp s <;> rfl
  unfold hParsePositional parsePositional
  rw [are_length s, isArgs_sim hm s, he]
  split
  · exact (createBatch_sim o s).bind fun a b hab => .ok (.cons hab .nil)
  · rcases seenAll hm s with ⟨e, e', d, d', hx⟩ | ⟨e, e', d, d', hx⟩ | ⟨e, e', d, d'⟩ <;>
      rw [e, e', d, d']
    · cases o.allowList with
      | true => exact parseList_sim hm o hx
      | false =>
        simp only [Option.isNone_none, Bool.true_and]
        split
        · exact parseList_sim hm o s
        · exact .ok .nil
    · simp only [Option.isNone_some, Bool.false_and, Bool.false_eq_true, if_false]
      cases o.allowList <;> exact .ok .nil
    · simp only [Option.isNone_none, Bool.true_and]
      cases o.allowList <;> dsimp only <;> split <;>
        first | exact parseList_sim hm o s | exact .ok .nil

/-- The keyword arguments as pairs. -/
theorem kw_pairs {m : Mem} {kw : List (Str × Val)} {kw' : List (Str × Obj)}
    (hn : kw.map Prod.fst = kw'.map Prod.fst) (hv : Are m (kw.map Prod.snd) (kw'.map fun p => .obj p.2)) :
    PairsAre m (kw.map fun p => (.atom (.str p.1), p.2)) (kw'.map fun p => (.str p.1, p.2)) := by
  induction kw generalizing kw' with
  | nil =>
    cases kw' with
    | nil => exact .nil
    | cons _ _ => cases hn
  | cons p kw ih =>
    cases kw' with
    | nil => cases hn
    | cons p' kw' =>
      rw [List.map_cons, List.map_cons, List.cons.injEq] at hn
      rw [List.map_cons, List.map_cons] at hv
      obtain ⟨n, v⟩ := p
      obtain ⟨n', v'⟩ := p'
      obtain ⟨rfl, hn⟩ := hn
      rw [are_iff] at hv
      cases hv with
      | cons h1 h2 => exact .cons ⟨.atom (.str _), h1⟩ (ih hn (are_iff.mpr h2))

theorem args_any {m : Mem} {a : HArgs} {b : Args} (s : ArgsAre m a b) (f : Str → Bool) :
    a.kw.any (fun p => f p.1) = b.kw.any (fun p => f p.1) := by
  have h1 : a.kw.any (fun p => f p.1) = (a.kw.map Prod.fst).any f := by rw [List.any_map]; rfl
  have h2 : b.kw.any (fun p => f p.1) = (b.kw.map Prod.fst).any f := by rw [List.any_map]; rfl
  rw [h1, h2, s.names]

theorem kwSelf_sim {m : Mem} {a : HArgs} {b : Args} (s : ArgsAre m a b) : hKwSelf a = kwSelf b :=
  args_any s (fun n => n == L!"self")

theorem kw_empty {m : Mem} {a : HArgs} {b : Args} (s : ArgsAre m a b) : a.kw.isEmpty = b.kw.isEmpty := by
  have := congrArg List.isEmpty s.names
  simpa using this

theorem pos_empty {m : Mem} {a : HArgs} {b : Args} (s : ArgsAre m a b) : a.pos.isEmpty = b.pos.isEmpty := by
  have := are_empty s.pos
  simpa using this

section
variable {T : Runtime} {cx : Ctx} {S : Sem} (hT : Faithful T cx S) {m : Mem} {h : Heap}
  (hm : Sub m (cells h))
include hT hm

theorem parseDict_sim (o : ParseOpts) {kvs : List (Val × Val)} {ps : List (Obj × Obj)} (s : PairsAre m kvs ps) :
    ∃ r, hParseDict T o kvs h = (h, r) ∧ Both (List.Forall₂ (Batch m)) r (parseDict S o ps) := by
  have hs := hT.sort h m kvs ps hm s
  unfold hParseDict parseDict
  show ∃ r, HM.andThen (T.sort kvs) _ h = (h, r) ∧ _
  unfold HM.andThen
  cases e : sortItems S ps with
  | error e' =>
    rw [e] at hs
    simp only [hs]
    exact ⟨_, rfl, .error _⟩
  | ok r =>
    rw [e] at hs
    obtain ⟨t, ht, hr⟩ := hs
    simp only [ht]
    exact ⟨_, rfl, both_mapR hr fun a b hab => createBatch_sim o (.cons hab.1 (.cons hab.2 .nil))⟩

theorem parseKeyed_sim (o : ParseOpts) {a : HArgs} {b : Args} (s : ArgsAre m a b) :
    ∃ r, hParseKeyed T o a h = (h, r) ∧ Both (List.Forall₂ (Batch m)) r (parseKeyed S o b) := by
  unfold hParseKeyed parseKeyed
  show ∃ r, HM.andThen (HM.reads _) _ h = (h, r) ∧ _
  unfold HM.andThen HM.reads
  rcases seenAll hm s.pos with ⟨e, e', d, d', hx⟩ | ⟨e, e', d, d', hx⟩ | ⟨e, e', d, d'⟩ <;>
    simp only [d, d']
  · rw [kw_empty s]
    split
    · exact ⟨_, rfl, .ok .nil⟩
    · split
      · exact parseDict_sim hT hm o (kw_pairs s.names s.vals)
      · exact ⟨_, rfl, .error _⟩
  · split
    · exact parseDict_sim hT hm o hx
    · exact ⟨_, rfl, .error _⟩
  · rw [kw_empty s]
    split
    · exact ⟨_, rfl, .ok .nil⟩
    · split
      · exact parseDict_sim hT hm o (kw_pairs s.names s.vals)
      · exact ⟨_, rfl, .error _⟩

theorem parseArgs_sim (o : ParseOpts) (ho : (o.maxItems < o.minItems || (o.allowDict && o.maxItems ≤ 1)) = false)
    {a : HArgs} {b : Args} (s : ArgsAre m a b) :
    ∃ r, hParseArgs T o a h = (h, r) ∧ Both (List.Forall₂ (Batch m)) r (parseArgs S o b) := by
  unfold hParseArgs parseArgs
  rw [args_any s (fun n => n == L!"options"), ho]
  split
  · exact ⟨_, rfl, .error _⟩
  · simp only [Bool.false_eq_true, if_false]
    show ∃ r, HM.andThen (HM.reads _) _ h = (h, r) ∧ _
    unfold HM.andThen HM.reads
    have hp := parsePositional_sim hm o s.pos
    revert hp
    dsimp only
    generalize hParsePositional h o a.pos = x
    generalize parsePositional o b.pos = y
    intro hp
    cases hp with
    | error e => exact ⟨_, rfl, .error _⟩
    | ok hxs =>
      obtain ⟨r, hr, hb⟩ := parseKeyed_sim hT hm o s
      show ∃ r, HM.andThen (hParseKeyed T o a) _ h = (h, r) ∧ _
      unfold HM.andThen
      rw [hr]
      revert hb
      generalize parseKeyed S o b = y
      intro hb
      cases hb with
      | error e => exact ⟨_, rfl, .error _⟩
      | ok hys => exact ⟨_, rfl, .ok (List.rel_append hxs hys)⟩

end

theorem pairOf_sim {m : Mem} {vs : List Val} {xs : List Obj} (s : Batch m vs xs) :
    Is m (hPairOf vs).1 (.obj (pairOf xs).1) ∧ Is m (hPairOf vs).2 (.obj (pairOf xs).2) := by
  cases are_map.mp s with
  | nil => exact ⟨.atom .none, .atom .none⟩
  | cons h1 h2 =>
    cases h2 with
    | nil => exact ⟨h1, .atom .none⟩
    | cons h2 _ => exact ⟨h1, h2⟩

end SqlPuzzle.Refine
