import Verif.Proofs.State
import Verif.Proofs.Sort
import Verif.Spec.Parsing

/-!
Facts about the argument parser.
-/

namespace SqlPuzzle

theorem createBatch_ok {o : ParseOpts} {vs b : List Obj} (h : createBatch o vs = .ok b) :
    vs.length ≤ o.maxItems ∧ b = vs ++ List.replicate (o.maxItems - vs.length) .none := by
  unfold createBatch at h
  split at h
  · cases h
  · rename_i h1
    injection h with h
    exact ⟨by omega, h.symm⟩

theorem parseListItem_ok {o : ParseOpts} {x : Obj} {b : List Obj}
    (h : parseListItem o x = .ok b) :
    createBatch o (asTuple x) = .ok b ∧ (o.minItems = 1 ∨ ∃ xs, x = .list xs ∨ x = .tuple xs) := by
  unfold parseListItem at h
  split at h
  · exact ⟨h, .inr ⟨_, .inl rfl⟩⟩
  · exact ⟨h, .inr ⟨_, .inr rfl⟩⟩
  · rename_i h1 h2
    split at h
    · rename_i h3
      refine ⟨?_, .inl h3⟩
      cases x <;> first | exact h | exact absurd rfl (h1 _) | exact absurd rfl (h2 _)
    · cases h

theorem asList_ok {pos xs : List Obj} (h : asList pos = some xs) :
    pos = [.list xs] ∨ pos = [.tuple xs] := by
  unfold asList at h
  split at h
  · cases h; exact .inl rfl
  · cases h; exact .inr rfl
  · cases h

theorem asDict_ok {pos : List Obj} {kvs : List (Obj × Obj)} (h : asDict pos = some kvs) :
    pos = [.dict kvs] := by
  unfold asDict at h
  split at h
  · cases h; rfl
  · cases h

theorem mapR_mem {α β : Type} {f : α → R β} {xs : List α} {ys : List β} (h : mapR f xs = .ok ys)
    {y : β} (hy : y ∈ ys) : ∃ x ∈ xs, f x = .ok y := by
  have h1 := mapR_ok_iff.mp h
  clear h
  induction h1 with
  | nil => cases hy
  | cons hxy _ ih =>
    rcases List.mem_cons.mp hy with rfl | hy
    · exact ⟨_, by simp, hxy⟩
    · obtain ⟨x, hx, h⟩ := ih hy
      exact ⟨x, by simp [hx], h⟩

theorem mapR_mem_left {α β : Type} {f : α → R β} {xs : List α} {ys : List β}
    (h : mapR f xs = .ok ys) {x : α} (hx : x ∈ xs) : ∃ y ∈ ys, f x = .ok y := by
  have h1 := mapR_ok_iff.mp h
  clear h
  induction h1 with
  | nil => cases hx
  | cons hxy _ ih =>
    rcases List.mem_cons.mp hx with rfl | hx
    · exact ⟨_, by simp, hxy⟩
    · obtain ⟨y, hy, h⟩ := ih hx
      exact ⟨y, by simp [hy], h⟩

/-- Items with their sort keys, as `textKeys` and `numKeys` see them, keep their items. -/
theorem textKeys_snd {ks : List (SortKey × (Obj × Obj))} {ts : List (Str × (Obj × Obj))}
    (h : textKeys ks = some ts) : ts.map Prod.snd = ks.map Prod.snd := by
  induction ks generalizing ts with
  | nil => cases h; rfl
  | cons k ks ih =>
    obtain ⟨k, kv⟩ := k
    cases k with
    | num i => cases h
    | text s =>
      simp only [textKeys, Option.map_eq_some_iff] at h
      obtain ⟨r, h1, rfl⟩ := h
      simp [ih h1]

theorem numKeys_snd {ks : List (SortKey × (Obj × Obj))} {ts : List (Int × (Obj × Obj))}
    (h : numKeys ks = some ts) : ts.map Prod.snd = ks.map Prod.snd := by
  induction ks generalizing ts with
  | nil => cases h; rfl
  | cons k ks ih =>
    obtain ⟨k, kv⟩ := k
    cases k with
    | text s => cases h
    | num i =>
      simp only [numKeys, Option.map_eq_some_iff] at h
      obtain ⟨r, h1, rfl⟩ := h
      simp [ih h1]

/-- `sorted(d.items())` has the items of `d`. -/
theorem sortItems_perm {S : Sem} {kvs r : List (Obj × Obj)} (h : sortItems S kvs = .ok r) :
    r.Perm kvs := by
  unfold sortItems at h
  split at h
  · cases h; exact .refl _
  · obtain ⟨ks, h1, h2⟩ := bind_ok.mp h
    have hk : ks.map Prod.snd = kvs := by
      have := mapR_ok_iff.mp h1
      clear h h1 h2
      rename_i hlen
      clear hlen
      induction this with
      | nil => rfl
      | cons hxy _ ih =>
        obtain ⟨k, _, h4⟩ := bind_ok.mp hxy
        cases h4
        simp [ih]
    split at h2
    · rename_i ts ht
      split at h2
      · cases h2
        rw [← hk, ← textKeys_snd ht]
        exact (sortBy_perm _ _).map _
      · cases h2
    · split at h2
      · rename_i ns hn
        cases h2
        rw [← hk, ← numKeys_snd hn]
        exact (sortBy_perm _ _).map _
      · cases h2

theorem parseDict_mem {S : Sem} {o : ParseOpts} {kvs : List (Obj × Obj)} {bs : List (List Obj)}
    (h : parseDict S o kvs = .ok bs) {b : List Obj} (hb : b ∈ bs) :
    ∃ kv ∈ kvs, createBatch o [kv.1, kv.2] = .ok b := by
  obtain ⟨items, h1, h2⟩ := bind_ok.mp h
  obtain ⟨kv, hm, hc⟩ := mapR_mem h2 hb
  exact ⟨kv, (sortItems_perm h1).mem_iff.mp hm, hc⟩

/-- The positional arguments, and the items of the only one if it is a list or tuple. -/
def Args.items (a : Args) : List Obj := a.pos ++ (asList a.pos).getD []

/-- Where a tuple comes from. -/
theorem parseArgs_mem {S : Sem} {o : ParseOpts} {a : Args} {bs : List (List Obj)}
    (h : parseArgs S o a = .ok bs) {b : List Obj} (hb : b ∈ bs) :
    ∃ g, Given a g ∧ createBatch o g = .ok b ∧ (o.minItems ≤ 2 →
      o.minItems ≤ g.length ∨ ∃ x ∈ a.items, x.isListTuple = true ∧ asTuple x = g) := by
  unfold parseArgs at h
  split at h
  · cases h
  · split at h
    · cases h
    · rename_i hassert
      obtain ⟨xs, h1, h2⟩ := bind_ok.mp h
      obtain ⟨ys, h3, h4⟩ := bind_ok.mp h2
      cases h4
      rcases List.mem_append.mp hb with hb | hb
      · unfold parsePositional at h1
        split at h1
        · rename_i hc
          obtain ⟨b', h5, h6⟩ := bind_ok.mp h1
          cases h6
          rw [List.mem_singleton.mp hb]
          refine ⟨a.pos, .whole, h5, fun _ => .inl ?_⟩
          simp only [Bool.and_eq_true, decide_eq_true_eq] at hc
          exact hc.2.1
        · have item : ∀ x ∈ a.items, parseListItem o x = .ok b → Given a (asTuple x) →
              ∃ g, Given a g ∧ createBatch o g = .ok b ∧ (o.minItems ≤ 2 →
                o.minItems ≤ g.length ∨ ∃ x ∈ a.items, x.isListTuple = true ∧ asTuple x = g) := by
            intro x hx hp hg
            obtain ⟨h5, h6⟩ := parseListItem_ok hp
            refine ⟨_, hg, h5, fun _ => ?_⟩
            cases hl : x.isListTuple with
            | true => exact .inr ⟨x, hx, hl, rfl⟩
            | false =>
              left
              have h7 : asTuple x = [x] := by cases x <;> first | rfl | cases hl
              rcases h6 with h6 | ⟨xs, rfl | rfl⟩
              · rw [h7, h6]; simp
              · cases hl
              · cases hl
          split at h1
          · rename_i zs _ hl
            obtain ⟨x, hx, hp⟩ := mapR_mem h1 hb
            exact item x (by simp [Args.items, hl, hx]) hp (.inList zs x (asList_ok hl) hx)
          · split at h1
            · obtain ⟨x, hx, hp⟩ := mapR_mem h1 hb
              exact item x (by simp [Args.items, hx]) hp (.item x hx)
            · cases h1; cases hb
      · unfold parseKeyed at h3
        split at h3
        · rename_i kvs hd
          split at h3
          · obtain ⟨⟨k, v⟩, hm, hc⟩ := parseDict_mem h3 hb
            exact ⟨[k, v], .inDict kvs k v (asDict_ok hd) hm, hc, fun hmin => .inl hmin⟩
          · cases h3
        · split at h3
          · cases h3; cases hb
          · split at h3
            · obtain ⟨⟨k, v⟩, hm, hc⟩ := parseDict_mem h3 hb
              simp only [Args.kwDict, List.mem_map, Prod.mk.injEq] at hm
              obtain ⟨⟨k', v'⟩, hm, rfl, rfl⟩ := hm
              exact ⟨[.str k', v'], .keyword k' v' hm, hc, fun hmin => .inl hmin⟩
            · cases h3

theorem KwFree.options {kw : List (Str × Obj)} (h : KwFree kw) :
    kw.any (fun p => p.1 == L!"options") = false := by
  rw [List.any_eq_false]
  intro p hp
  simpa using (h p hp).1

theorem KwFree.self {kw : List (Str × Obj)} {pos : List Obj} (h : KwFree kw) :
    kwSelf { pos := pos, kw := kw } = false := by
  unfold kwSelf
  rw [List.any_eq_false]
  intro p hp
  simpa using (h p hp).2

theorem KwFree.perm {kw kw' : List (Str × Obj)} (h : KwFree kw) (hp : kw.Perm kw') : KwFree kw' :=
  fun p hm => h p (hp.mem_iff.mpr hm)

theorem ParseOpts.Keyed.assert {o : ParseOpts} (h : o.Keyed) :
    (decide (o.maxItems < o.minItems) || (true && decide (o.maxItems ≤ 1))) = false := by
  have := h.two; have := h.min
  simp only [Bool.or_eq_false_iff, decide_eq_false_iff_not, Bool.and_eq_false_iff]
  omega

theorem parse_dict (S : Sem) {o : ParseOpts} (ho : o.Keyed) (kvs : List (Obj × Obj)) :
    parseArgs S o { pos := [.dict kvs] } = parseDict S o kvs := by
  have h1 : parsePositional o [.dict kvs] = .ok [] := by
    have : (decide (1 < o.minItems) && isArgs [.dict kvs] &&
        (decide (o.minItems ≤ 1) && decide (1 ≤ o.maxItems))) = false := by
      simp only [Bool.and_eq_false_iff, decide_eq_false_iff_not]
      omega
    unfold parsePositional
    simp only [List.length_cons, List.length_nil, Nat.zero_add, this, Bool.false_eq_true, if_false,
      asList, asDict]
    cases o.allowList <;> rfl
  unfold parseArgs
  simp only [List.any_nil, Bool.false_eq_true, if_false, ho.assert, h1, ok_bind, parseKeyed, asDict,
    ho.dict, if_true]
  cases parseDict S o kvs <;> rfl

theorem parseDict_nil (S : Sem) (o : ParseOpts) : parseDict S o [] = .ok [] := rfl

theorem parse_kw (S : Sem) {o : ParseOpts} (ho : o.Keyed) {kw : List (Str × Obj)} (h : KwFree kw) :
    parseArgs S o { kw := kw } = parseDict S o (kw.map fun p => (.str p.1, p.2)) := by
  unfold parseArgs
  have h1 : parsePositional o [] = .ok [] := by
    unfold parsePositional
    simp only [isArgs, Bool.and_false, Bool.false_and, Bool.false_eq_true, if_false, asList,
      List.isEmpty_nil, Bool.not_true]
    cases o.allowList <;> rfl
  simp only [h.options, Bool.false_eq_true, if_false, ho.assert, h1, ok_bind, parseKeyed, asDict,
    ho.dict, if_true, Args.kwDict]
  cases kw with
  | nil => rfl
  | cons p ps =>
    simp only [List.isEmpty_cons, Bool.false_eq_true, if_false]
    cases parseDict S o _ <;> rfl

theorem textKeys_str (kw : List (Str × Obj)) :
    textKeys (kw.map fun p => (SortKey.text p.1, ((.str p.1 : Obj), p.2))) =
      some (kw.map fun p => (p.1, ((.str p.1 : Obj), p.2))) := by
  induction kw with
  | nil => rfl
  | cons p ps ih => simp [textKeys, ih]

/-- Sorted items of a dictionary with string keys. -/
theorem sortItems_str (S : Sem) {kw : List (Str × Obj)} (hn : (kw.map Prod.fst).Nodup) :
    sortItems S (kw.map fun p => ((.str p.1 : Obj), p.2)) =
      .ok ((sortBy (fun a b => strLe a.1 b.1) kw).map fun p => ((.str p.1 : Obj), p.2)) := by
  have hsort : ∀ xs : List (Str × Obj),
      (sortBy (fun a b => strLe a.1 b.1) (xs.map fun p => (p.1, ((.str p.1 : Obj), p.2)))).map
        Prod.snd = (sortBy (fun a b => strLe a.1 b.1) xs).map fun p => ((.str p.1 : Obj), p.2) := by
    have hins : ∀ (x : Str × Obj) (xs : List (Str × Obj)),
        insertBy (fun a b => strLe a.1 b.1) (x.1, ((.str x.1 : Obj), x.2))
          (xs.map fun p => (p.1, ((.str p.1 : Obj), p.2))) =
        (insertBy (fun a b => strLe a.1 b.1) x xs).map fun p => (p.1, ((.str p.1 : Obj), p.2)) := by
      intro x xs
      induction xs with
      | nil => rfl
      | cons y ys ih =>
        simp only [List.map_cons, insertBy]
        split
        · rfl
        · rw [ih]; rfl
    intro xs
    have : sortBy (fun a b => strLe a.1 b.1) (xs.map fun p => (p.1, ((.str p.1 : Obj), p.2))) =
        (sortBy (fun a b => strLe a.1 b.1) xs).map fun p => (p.1, ((.str p.1 : Obj), p.2)) := by
      induction xs with
      | nil => rfl
      | cons x xs ih => simp only [List.map_cons, sortBy]; rw [ih, hins]
    rw [this, List.map_map]
    rfl
  unfold sortItems
  by_cases hl : (kw.map fun p => ((.str p.1 : Obj), p.2)).length ≤ 1
  · rw [if_pos hl]
    match kw, hl with
    | [], _ => rfl
    | [p], _ => rfl
    | _ :: _ :: _, hl => simp at hl
  · rw [if_neg hl]
    have h1 : mapR (fun kv : Obj × Obj => do
        let k ← sortKey S kv.1
        .ok (k, kv)) (kw.map fun p => ((.str p.1 : Obj), p.2)) =
        .ok (kw.map fun p => (SortKey.text p.1, ((.str p.1 : Obj), p.2))) := by
      rw [mapR_map, mapR_ok_iff, List.forall₂_map_right_iff]
      exact List.forall₂_same.mpr fun p _ => rfl
    rw [h1, ok_bind, textKeys_str]
    simp only [List.map_map]
    have h2 : (kw.map (Prod.fst ∘ fun p => (p.1, ((.str p.1 : Obj), p.2)))).Nodup := hn
    rw [if_pos h2, hsort]

theorem parseDict_sorted (S : Sem) {o : ParseOpts} {kw : List (Str × Obj)}
    (hn : (kw.map Prod.fst).Nodup) (hs : kw.Pairwise fun a b => strLe a.1 b.1 = true) :
    parseDict S o (kw.map fun p => (.str p.1, p.2)) = parseList o (pairsOf kw) := by
  unfold parseDict
  rw [sortItems_str S hn, sortBy_sorted hs, ok_bind, mapR_map]
  unfold parseList pairsOf
  rw [mapR_map]
  rfl

theorem keyed_pair : pairOpts.Keyed := ⟨rfl, by decide, by decide, by decide⟩

theorem keyed_name : nameOpts.Keyed := ⟨rfl, by decide, by decide, by decide⟩

/-- Arguments that are parsed the same way, and are not SQL objects, act the same way. -/
theorem callsAgree {a b : Args} (hs : kwSelf a = false) (hs' : kwSelf b = false)
    (hc : customArg a = none) (hc' : customArg b = none)
    (hq : (!a.pos.isEmpty && a.pos.all Obj.isConds) = false)
    (hq' : (!b.pos.isEmpty && b.pos.all Obj.isConds) = false)
    (hp : ∀ S, parseArgs S pairOpts a = parseArgs S pairOpts b)
    (hn : ∀ S, parseArgs S nameOpts a = parseArgs S nameOpts b)
    (ht : ∀ S, parseArgs S nameOpts { a with pos := a.pos.filter Obj.truthy } =
      parseArgs S nameOpts { b with pos := b.pos.filter Obj.truthy }) : CallsAgree a b := by
  have c1 : ∀ cx S on ps, condsWhere cx S on ps a = condsWhere cx S on ps b := by
    intro cx S on ps
    unfold condsWhere
    rw [hs, hs', hc, hc', hq, hq', hp]
    simp only [Bool.false_eq_true, if_false]
  have c2 : ∀ S cs, columnsAdd S cs a = columnsAdd S cs b := by
    intro S cs; simp only [columnsAdd, hs, hs', hn]
  have c3 : ∀ cx S cs, tablesSet cx S cs a = tablesSet cx S cs b := by
    intro cx S cs; simp only [tablesSet, hs, hs', ht]
  have c4 : ∀ cx S cs, ordersAdd cx S cs a = ordersAdd cx S cs b := by
    intro cx S cs; simp only [ordersAdd, hs, hs', hn]
  have c5 : ∀ cx S cs, valuesSet cx S cs a = valuesSet cx S cs b := by
    intro cx S cs; simp only [valuesSet, hs, hs', hc, hc', hp]
  have c6 : ∀ cx S ts, tablesOn cx S ts a = tablesOn cx S ts b := by
    intro cx S ts
    have : (fun t => tableOn cx S t a) = fun t => tableOn cx S t b := by
      funext t; simp only [tableOn, c1]
    simp only [tablesOn, hs, hs', this]
  constructor <;> intros <;>
    simp only [selectStep, insertStep, updateStep, deleteStep, rowsAdd, mkConds, mkNot, mkSelect,
      mkSelectFrom, mkDeleteFrom, c1, c2, c3, c4, c5, c6, hs, hs']

theorem parseDict_mem_left {S : Sem} {o : ParseOpts} {kvs : List (Obj × Obj)}
    {bs : List (List Obj)} (h : parseDict S o kvs = .ok bs) {k v : Obj} (hm : (k, v) ∈ kvs) :
    ∃ b ∈ bs, ∃ r, b = k :: v :: r := by
  obtain ⟨items, h1, h2⟩ := bind_ok.mp h
  obtain ⟨b, hb, hc⟩ := mapR_mem_left h2 ((sortItems_perm h1).mem_iff.mpr hm)
  exact ⟨b, hb, _, (createBatch_ok hc).2⟩

/-- Every item of the positional argument list that was parsed as a list is used. -/
theorem parseList_used {o : ParseOpts} {xs : List Obj} {bs bs' : List (List Obj)}
    (h : parseList o xs = .ok bs) (hs : ∀ b ∈ bs, b ∈ bs') : ∀ x ∈ xs, Used bs' x := by
  intro x hx
  obtain ⟨b, hb, hp⟩ := mapR_mem_left h hx
  obtain ⟨h1, _⟩ := parseListItem_ok hp
  obtain ⟨_, h2⟩ := createBatch_ok h1
  have hin : ∀ y ∈ asTuple x, Used bs' y := fun y hy =>
    .here b y (hs b hb) (by rw [h2]; simp [hy])
  cases x with
  | list ys => exact .list ys hin
  | tuple ys => exact .tuple ys hin
  | _ => exact hin _ (by simp [asTuple])

end SqlPuzzle
