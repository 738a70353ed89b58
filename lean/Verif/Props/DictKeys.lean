import Verif.Props.Parsing
import Verif.Spec.DictKeys

/-!
C17: in which order the items of a dictionary are taken.
-/

namespace SqlPuzzle

open Spec

private def cx0 : Ctx := ⟨.sql, ⟨id, id, fun _ => true, fun _ => [], fun _ => []⟩⟩

private theorem key_of {S : Sem} {k : Obj} {x : SortKey} (h : sortKey S k = .ok x) :
    match x with
    | .text s => KeyText S k s
    | .num i => KeyNumber k i := by
  unfold sortKey at h
  split at h
  · cases h; exact .str _
  · cases h; exact .int _
  · next b => cases h; cases b; exact .no; exact .yes
  · split at h
    · next hk =>
      obtain ⟨t, e1, e2⟩ := bind_ok.mp h
      cases e2
      exact .object hk e1
    · cases h

private theorem texts_of : ∀ {ks : List (SortKey × (Obj × Obj))} {ts : List (Str × (Obj × Obj))},
    textKeys ks = some ts → ts.map (fun t => (SortKey.text t.1, t.2)) = ks
  | [], _, h => by cases h; rfl
  | (.text s, kv) :: r, ts, h => by
    obtain ⟨t, e1, rfl⟩ := Option.map_eq_some_iff.mp h
    rw [List.map_cons, texts_of e1]
  | (.num _, _) :: _, _, h => by cases h

private theorem nums_of : ∀ {ks : List (SortKey × (Obj × Obj))} {ts : List (Int × (Obj × Obj))},
    numKeys ks = some ts → ts.map (fun t => (SortKey.num t.1, t.2)) = ks
  | [], _, h => by cases h; rfl
  | (.num s, kv) :: r, ts, h => by
    obtain ⟨t, e1, rfl⟩ := Option.map_eq_some_iff.mp h
    rw [List.map_cons, nums_of e1]
  | (.text _, _) :: _, _, h => by cases h

private theorem keys_of {S : Sem} {kvs : List (Obj × Obj)} {ks : List (SortKey × (Obj × Obj))}
    (h : mapR (fun kv => do
      let k ← sortKey S kv.1
      .ok (k, kv)) kvs = .ok ks) : ks.map Prod.snd = kvs ∧ ∀ k ∈ ks, sortKey S k.2.1 = .ok k.1 := by
  induction kvs generalizing ks with
  | nil => cases h; exact ⟨rfl, by simp⟩
  | cons kv kvs ih =>
    unfold mapR at h
    obtain ⟨y, e1, h⟩ := bind_ok.mp h
    obtain ⟨ys, e2, e3⟩ := bind_ok.mp h
    cases e3
    obtain ⟨k, e4, e5⟩ := bind_ok.mp e1
    cases e5
    obtain ⟨h1, h2⟩ := ih e2
    refine ⟨by rw [List.map_cons, h1], fun k' hk => ?_⟩
    rcases List.mem_cons.mp hk with rfl | hk
    · exact e4
    · exact h2 k' hk

/-- C17. The items of a dictionary with more than one key are taken in ascending order of the keys, each once: strings and
objects of the library by their texts, integers by their values. -/
theorem C17_ascending (S : Sem) {o : ParseOpts} (ho : o.Keyed) {kvs : List (Obj × Obj)} (h2 : 1 < kvs.length)
    {bs : List (List Obj)} (h : parseArgs S o { pos := [.dict kvs] } = .ok bs) :
    ∃ sorted : List (Obj × Obj), sorted.Perm kvs ∧ sorted.Pairwise (fun p q => KeyAtMost S p.1 q.1) ∧
      bs = sorted.map fun p => p.1 :: p.2 :: List.replicate (o.maxItems - 2) .none := by
  rw [parse_dict S ho] at h
  obtain ⟨items, e1, e2⟩ := bind_ok.mp h
  have hb : bs = items.map fun p => p.1 :: p.2 :: List.replicate (o.maxItems - 2) .none := by
    clear e1 h h2
    induction items generalizing bs with
    | nil => cases e2; rfl
    | cons kv items ih =>
      unfold mapR at e2
      obtain ⟨y, e3, e2⟩ := bind_ok.mp e2
      obtain ⟨ys, e4, e5⟩ := bind_ok.mp e2
      cases e5
      rw [List.map_cons, ← ih e4]
      unfold createBatch at e3
      split at e3
      · cases e3
      · cases e3; rfl
  refine ⟨items, ?_, ?_, hb⟩
  all_goals
    unfold sortItems at e1
    rw [if_neg (by omega)] at e1
    obtain ⟨ks, e3, e1⟩ := bind_ok.mp e1
    obtain ⟨k1, k2⟩ := keys_of e3
    split at e1
    · next ts e4 =>
      split at e1
      · next hn =>
        cases e1
        have e5 := texts_of e4
        first
        | have := ((sortBy_perm (fun a b : Str × (Obj × Obj) => strLe a.1 b.1) ts).map Prod.snd)
          rw [← k1, ← e5, List.map_map]
          exact this
        | have hs := sortBy_pairwise (linear_key (β := Obj × Obj)) ts
          have hnn : ((sortBy (fun a b : Str × (Obj × Obj) => strLe a.1 b.1) ts).map Prod.fst).Nodup :=
            ((sortBy_perm _ ts).map _).nodup_iff.mpr hn
          have hm : ∀ t ∈ sortBy (fun a b : Str × (Obj × Obj) => strLe a.1 b.1) ts, KeyText S t.2.1 t.1 := by
            intro t ht
            have ht := (sortBy_perm _ ts).mem_iff.mp ht
            exact key_of (k2 (.text t.1, t.2) (by rw [← e5]; exact List.mem_map_of_mem (f := fun t => (SortKey.text t.1, t.2)) ht))
          rw [List.pairwise_map]
          refine ((hs.and (List.pairwise_map.mp hnn)).imp_of_mem fun {a b} ha hb hab => ?_)
          exact .text (hm a ha) (hm b hb) (before_iff.mpr hab)
      · cases e1
    · split at e1
      · next ts e4 =>
        cases e1
        have e5 := nums_of e4
        first
        | have := ((sortBy_perm (fun a b : Int × (Obj × Obj) => decide (a.1 ≤ b.1)) ts).map Prod.snd)
          rw [← k1, ← e5, List.map_map]
          exact this
        | have hs := sortBy_pairwise (le := fun a b : Int × (Obj × Obj) => decide (a.1 ≤ b.1)) ⟨fun a b => by
              simp only [decide_eq_true_eq]; omega, fun {a b c} => by simp only [decide_eq_true_eq]; omega⟩ ts
          have hm : ∀ t ∈ sortBy (fun a b : Int × (Obj × Obj) => decide (a.1 ≤ b.1)) ts, KeyNumber t.2.1 t.1 := by
            intro t ht
            have ht := (sortBy_perm _ ts).mem_iff.mp ht
            exact key_of (k2 (.num t.1, t.2) (by rw [← e5]; exact List.mem_map_of_mem (f := fun t => (SortKey.num t.1, t.2)) ht))
          rw [List.pairwise_map]
          refine (hs.imp_of_mem fun {a b} ha hb hab => ?_)
          exact .number (hm a ha) (hm b hb) (of_decide_eq_true hab)
      · cases e1

/-- C17. A dictionary in which some key is a number and another one a string is refused. -/
theorem C17_mixed_keys (S : Sem) {o : ParseOpts} (ho : o.Keyed) {k k' v v' : Obj} {s : Str} {i : Int}
    (hk : KeyText S k s) (hk' : KeyNumber k' i) :
    parseArgs S o { pos := [.dict [(k, v), (k', v')]] } = .error .typeError ∧
    parseArgs S o { pos := [.dict [(k', v'), (k, v)]] } = .error .typeError := by
  have e1 : sortKey S k = .ok (.text s) := by
    cases hk with
    | str => rfl
    | object h1 h2 =>
      unfold sortKey
      split
      · cases h1
      · cases h1
      · cases h1
      · rw [if_pos h1, h2]; rfl
  have e2 : sortKey S k' = .ok (.num i) := by cases hk' <;> rfl
  rw [parse_dict S ho, parse_dict S ho]
  constructor
  · simp only [parseDict, sortItems, List.length_cons, List.length_nil, mapR, e1, e2, ok_bind, textKeys, numKeys, Option.map]
    rfl
  · simp only [parseDict, sortItems, List.length_cons, List.length_nil, mapR, e1, e2, ok_bind, textKeys, numKeys, Option.map]
    rfl

/-- `columns({2: 'b', True: 'a', 0: 'c'})`. -/
example : parseArgs (sem cx0 3) nameOpts
      { pos := [.dict [(.int 2, .str L!"b"), (.bool true, .str L!"a"), (.int 0, .str L!"c")]] } =
    .ok [[.int 0, .str L!"c"], [.bool true, .str L!"a"], [.int 2, .str L!"b"]] := by rfl

example : nameOpts.Keyed ∧ pairOpts.Keyed := ⟨keyed_name, keyed_pair⟩

example : KeyText (sem cx0 3) (.custom L!"a + 1") L!"a + 1" ∧ KeyNumber (.bool true) 1 := ⟨.object rfl rfl, .yes⟩

end SqlPuzzle
