import Verif.Proofs.RefineLists

/-! Conditions, columns and values. -/

namespace SqlPuzzle.Refine
open SqlPuzzle SqlPuzzle.Spec

theorem check_run {m : Mem} {h : Heap} (hm : Sub m (cells h)) (ts : List PyType) {v : Val} {x : Obj}
    (s : Is m v (.obj x)) : hCheck ts v h = (h, checkType ts x) := by
  simp only [hCheck, HM.reads, (like_shallow hm s).check]

theorem get_append_left {h : Heap} {p : Nat} {c : Cell} (e : h[p]? = some c) (ext : List Cell) :
    (h ++ ext)[p]? = some c := by
  obtain ⟨hl, _⟩ := List.getElem?_eq_some_iff.mp e
  rwa [List.getElem?_append_left hl]

theorem get_new (h : Heap) (c : Cell) : (h ++ [c])[h.length]? = some c := by simp

theorem cells_append {h : Heap} (ext : List Cell) : Sub (cells h) (cells (h ++ ext)) :=
  fun _ _ e => get_append_left e ext

/-- The items of an iterable. -/
theorem iterate_sim {m : Mem} {h : Heap} (hm : Sub m (cells h)) {v : Val} {x : Obj} (s : Is m v (.obj x)) :
    (∃ ys os, hIterate v h = (h, .ok (some ys)) ∧ x.iterate = some os ∧ Are m ys (os.map .obj)) ∨
      (hIterate v h = (h, .ok none) ∧ x.iterate = none) := by
  cases view s with
  | atom a =>
    cases a with
    | range xs =>
      refine .inl ⟨_, _, rfl, rfl, are_map.mpr ?_⟩
      induction xs with
      | nil => exact .nil
      | cons i xs ih => exact .cons (.atom (.int i)) (ih (.atom _))
    | str xs =>
      refine .inl ⟨_, _, rfl, rfl, are_map.mpr ?_⟩
      induction xs with
      | nil => exact .nil
      | cons i xs ih => exact .cons (.atom (.str [i])) (ih (.atom _))
    | bytes xs =>
      refine .inl ⟨_, _, rfl, rfl, are_map.mpr ?_⟩
      induction xs with
      | nil => exact .nil
      | cons i xs ih => exact .cons (.atom (.int _)) (ih (.atom _))
    | _ => exact .inr ⟨rfl, rfl⟩
  | list hp hx =>
    exact .inl ⟨_, _, by simp only [hIterate, show h[_]? = _ from hm _ _ hp], rfl, hx⟩
  | tuple hp hx =>
    exact .inl ⟨_, _, by simp only [hIterate, show h[_]? = _ from hm _ _ hp], rfl, hx⟩
  | set hp hx =>
    exact .inl ⟨_, _, by simp only [hIterate, show h[_]? = _ from hm _ _ hp], rfl, hx⟩
  | frozenset hp hx =>
    exact .inl ⟨_, _, by simp only [hIterate, show h[_]? = _ from hm _ _ hp], rfl, hx⟩
  | dict hp hx =>
    exact .inl ⟨_, _, by simp only [hIterate, show h[_]? = _ from hm _ _ hp], rfl, firsts_of_flat hx⟩
  | plain hp hk ho =>
    refine .inr ⟨by simp only [hIterate, show h[_]? = _ from hm _ _ hp], ?_⟩
    cases x <;> first | (cases ho; done) | rfl
  | rel hp | sqlValue hp | sqlRef hp | conds hp | cofc hp =>
    exact .inr ⟨by simp only [hIterate, show h[_]? = _ from hm _ _ hp], rfl⟩

/-- A program that only creates objects, and its result. -/
def Makes {α β : Type} (P : Heap → α → β → Prop) (h : Heap) (x : HM α) (y : R β) : Prop :=
  ∃ ext r, x h = (h ++ ext, r) ∧ Both (P (h ++ ext)) r y

theorem makes_error {α β : Type} {P : Heap → α → β → Prop} {h : Heap} {x : HM α} {e : Err}
    (hx : x h = (h, .error e)) : Makes P h x (.error e : R β) :=
  ⟨[], _, by rw [hx, List.append_nil], .error e⟩

/-- The stored relation: an object with the value. -/
def RelIs (m : Mem) (v : Val) (k : Rel) (y : Obj) : Prop :=
  ∃ r b, v = .ref r ∧ m r ⟨.lib (.relation k), [b]⟩ ∧ Is m b (.obj y)

section
variable {m : Mem} {h0 h : Heap} (hle : h0.length ≤ h.length) (hm : Sub (plus m h0 h) (cells h))
include hle hm

theorem relValue_sim (k : Rel) {v : Val} {x : Obj} (s : Is (plus m h0 h) v (.obj x)) :
    Makes (fun h' w y => RelIs (plus m h0 h') w k y) h (hMkRel k v) (relValue k x) := by
  have fin : ∀ (ext : List Cell) (w : Val) (y : Obj), hRelValue k v h = (h ++ ext, .ok w) →
      Is (plus m h0 (h ++ ext)) w (.obj y) → Sub (plus m h0 (h ++ ext)) (cells (h ++ ext)) →
      Makes (fun h' w y => RelIs (plus m h0 h') w k y) h (hMkRel k v)
        (if y.allowed k.allowedTypes then .ok y else .error .invalidArgument) := by
    intro ext w y e1 hw hs
    have e2 := check_run hs k.allowedTypes hw
    unfold checkType at e2
    unfold Makes hMkRel
    rw [run_ok e1]
    by_cases hy : y.allowed k.allowedTypes = true
    · rw [if_pos hy] at e2
      rw [run_ok e2, if_pos hy]
      refine ⟨ext ++ [⟨.lib (.relation k), [w]⟩], .ok (.ref (h ++ ext).length), ?_, .ok ?_⟩
      · rw [← List.append_assoc]
        rfl
      · rw [← List.append_assoc]
        refine ⟨_, w, rfl, .inr ⟨?_, get_new _ _⟩, is_mono (plus_append _) hw⟩
        simp only [List.length_append]
        omega
    · rw [if_neg hy] at e2
      rw [run_error e2, if_neg hy]
      exact ⟨ext, _, rfl, .error _⟩
  unfold relValue
  by_cases hk : k.isIn = true
  · rcases iterate_sim hm s with ⟨ys, os, e, e', hx⟩ | ⟨e, e'⟩
    · simp only [hk, if_true, e']
      refine fin [⟨.list, ys⟩] (.ref h.length) _ ?_ ?_ ?_
      · unfold hRelValue
        rw [if_pos hk, run_ok e]
        rfl
      · exact .list (.inr ⟨hle, get_new _ _⟩) (are_mono (plus_append _) hx)
      · rintro p c (hp | ⟨_, hp⟩)
        · exact cells_append _ _ _ (hm _ _ (.inl hp))
        · exact hp
    · simp only [hk, if_true, e']
      refine fin [] v _ ?_ (by rwa [List.append_nil]) (by rwa [List.append_nil])
      unfold hRelValue
      rw [if_pos hk, run_ok e, List.append_nil]
      rfl
  · simp only [hk, if_false, Bool.false_eq_true]
    refine fin [] v _ ?_ (by rwa [List.append_nil]) (by rwa [List.append_nil])
    unfold hRelValue
    rw [if_neg hk, List.append_nil]
    rfl

omit hle in
/-- Is the value a relation, and which is the default relation otherwise? -/
theorem defaultRel_sim {v : Val} {x : Obj} (s : Is (plus m h0 h) v (.obj x)) :
    (∃ k w, hDefaultRel h v = none ∧ x = .rel k w ∧ RelIs (plus m h0 h) v k w) ∨
      (hDefaultRel h v = some (defaultRel (valueInside x)) ∧ ∀ k w, x ≠ .rel k w) := by
  cases view s with
  | atom a => right; cases a <;> exact ⟨rfl, fun _ _ => Obj.noConfusion⟩
  | rel hp hv =>
    exact .inl ⟨_, _, by simp only [hDefaultRel, show h[_]? = _ from hm _ _ hp], rfl, _, _, rfl, hp, hv⟩
  | sqlValue hp hv | sqlRef hp hv =>
    refine .inr ⟨?_, fun _ _ => Obj.noConfusion⟩
    simp only [hDefaultRel, show h[_]? = _ from hm _ _ hp]
    exact congrArg some (like_shallow hm hv).rel
  | plain hp hk ho =>
    refine .inr ⟨?_, ?_⟩
    · have : valueInside x = x := by cases x <;> first | (cases ho; done) | rfl
      rw [this, ← (like_shallow hm s).rel]
      simp only [hDefaultRel, show h[_]? = _ from hm _ _ hp]
      split <;> first | rfl | simp_all [Lib.plain]
    · intro k w e
      rw [e] at ho
      cases ho
  | list hp | tuple hp | set hp | frozenset hp | dict hp | conds hp | cofc hp =>
    refine .inr ⟨?_, fun _ _ => Obj.noConfusion⟩
    refine Eq.trans ?_ (congrArg some (like_shallow hm s).rel)
    simp only [hDefaultRel, show h[_]? = _ from hm _ _ hp]

theorem mkCond_sim (on : Bool) {c v : Val} {x y : Obj} (sc : Is (plus m h0 h) c (.obj x))
    (sv : Is (plus m h0 h) v (.obj y)) :
    Makes (fun h' w d => Is (plus m h0 h') w (.cond d)) h (hMkCond on c v) (mkCond on x y) := by
  unfold Makes hMkCond mkCond condValue
  have e1 := check_run hm [.str] sc
  have e2 := check_run hm condTypes sv
  revert e1
  cases checkType [.str] x with
  | error e => intro e1; rw [run_error e1]; exact ⟨[], _, by rw [List.append_nil], .error _⟩
  | ok u1 =>
    intro e1
    rw [run_ok e1]
    revert e2
    cases checkType condTypes y with
    | error e => intro e2; rw [run_error e2]; exact ⟨[], _, by rw [List.append_nil], .error _⟩
    | ok u2 =>
      intro e2
      rw [run_ok e2]
      have fin : ∀ (ext : List Cell) (w : Val) (k : Rel) (z : Obj), RelIs (plus m h0 (h ++ ext)) w k z →
          ∃ ext' r, (HM.alloc (.lib (if on then .onCondition else .condition)) [c, w] >>= fun p =>
              HM.ret (Val.ref p) : HM Val) (h ++ ext) = (h ++ ext', r) ∧
            Both (fun w d => Is (plus m h0 (h ++ ext')) w (.cond d)) r (.ok (.cond on x k z)) := by
        rintro ext w k z ⟨r, b, rfl, hr, hb⟩
        refine ⟨ext ++ [⟨.lib (if on then .onCondition else .condition), [c, .ref r]⟩],
          .ok (.ref (h ++ ext).length), ?_, .ok ?_⟩
        · rw [← List.append_assoc]; rfl
        · rw [← List.append_assoc]
          have := plus_append (m := m) (h0 := h0) (h := h ++ ext)
            [⟨.lib (if on then .onCondition else .condition), [c, .ref r]⟩]
          refine .cond (r := r) (b := b) (.inr ⟨?_, get_new _ _⟩) (this _ _ hr)
            (is_mono ((plus_append ext).trans this) sc) (is_mono this hb)
          simp only [List.length_append]
          omega
      rcases defaultRel_sim hm sv with ⟨k, w, e, rfl, hr⟩ | ⟨e, hne⟩
      · have e3 : (HM.reads fun h => .ok (hDefaultRel h v) : HM _) h = (h, .ok none) := by
          simp only [HM.reads, e]
        rw [run_ok e3]
        have := fin [] v k w (by rwa [List.append_nil])
        rw [List.append_nil] at this
        exact this
      · have e3 : (HM.reads fun h => .ok (hDefaultRel h v) : HM _) h =
            (h, .ok (some (defaultRel (valueInside y)))) := by
          simp only [HM.reads, e]
        rw [run_ok e3]
        obtain ⟨ext, r, e4, hb⟩ := relValue_sim hle hm (defaultRel (valueInside y)) sv
        have hy : (do
            let (k, w) ← (match y with
              | .rel k w => (.ok (k, w) : R (Rel × Obj))
              | v => do
                let k := defaultRel (valueInside v)
                let w ← relValue k v
                .ok (k, w))
            .ok (CondPart.cond on x k w) : R Cond) =
            relValue (defaultRel (valueInside y)) y >>= fun w =>
              .ok (.cond on x (defaultRel (valueInside y)) w) := by
          split
          · exact absurd rfl (hne _ _)
          · dsimp only
            cases relValue (defaultRel (valueInside y)) y <;> rfl
        show ∃ ext r, _ ∧ Both _ r (do
            let (k, w) ← (match y with
              | .rel k w => (.ok (k, w) : R (Rel × Obj))
              | v => do
                let k := defaultRel (valueInside v)
                let w ← relValue k v
                .ok (k, w))
            .ok (CondPart.cond on x k w) : R Cond)
        rw [hy]
        revert e4
        generalize relValue (defaultRel (valueInside y)) y = z at hb
        cases hb with
        | error er => intro e4; rw [run_error e4]; exact ⟨ext, _, rfl, .error _⟩
        | ok hr => intro e4; rw [run_ok e4]; exact fin ext _ _ _ hr

end

/-! ### The methods -/

theorem all_conds {m : Mem} {h : Heap} (hm : Sub m (cells h)) {vs : List Val} {xs : List Obj}
    (s : Batch m vs xs) : (vs.all fun v => (shallow h v).isConds) = xs.all Obj.isConds := by
  induction are_map.mp s with
  | nil => rfl
  | cons hv hr ih =>
    rw [List.all_cons, List.all_cons, (like_shallow hm hv).conds, ih (are_map.mpr hr)]

theorem customArg_sim {m : Mem} {h : Heap} (hm : Sub m (cells h)) {a : HArgs} {b : Args} (s : ArgsAre m a b) :
    (∃ v x, hCustomArg h a = some v ∧ customArg b = some x ∧ Is m v (.obj x)) ∨
      (hCustomArg h a = none ∧ customArg b = none) := by
  obtain ⟨pos, kw⟩ := a
  obtain ⟨pos', kw'⟩ := b
  have hn : kw.map Prod.fst = kw'.map Prod.fst := s.names
  unfold hCustomArg customArg
  cases kw with
  | cons k kw =>
    cases kw' with
    | nil => cases hn
    | cons k' kw' => exact .inr ⟨rfl, rfl⟩
  | nil =>
    cases kw' with
    | cons k' kw' => cases hn
    | nil =>
      have hp : Batch m pos pos' := s.pos
      cases are_map.mp hp with
      | nil => exact .inr ⟨rfl, rfl⟩
      | @cons v x vs xs hv hr =>
        cases hr with
        | cons _ _ => exact .inr ⟨rfl, rfl⟩
        | nil =>
          dsimp only
          rw [(like_shallow hm hv).sql]
          by_cases hx : x.isSql = true
          · rw [if_pos hx, if_pos hx]; exact .inl ⟨_, _, rfl, rfl, hv⟩
          · rw [if_neg hx, if_neg hx]; exact .inr ⟨rfl, rfl⟩

section
variable {T : Runtime} {cx : Ctx} {S : Sem} (hT : Faithful T cx S) {m : Mem} {h0 : Heap} {l : Nat} {sep : Val}
  (hl0 : l < h0.length) (hm : Sub m (cells h0)) (hl : ∀ c, ¬ m l c)
include hT hl0 hm hl

theorem where_sim (on : Bool) {a : HArgs} {b : Args} (s : ArgsAre m a b) {h : Heap} {cs : List Cond}
    (i : ListAt .cond m h0 l sep h cs) :
    ∃ h', hWhere T on l a h = (h', res (condsWhere cx S on cs b).2) ∧
      ListAt .cond m h0 l sep h' (condsWhere cx S on cs b).1 := by
  have hc := sub_plus.trans (i.cells hm hl)
  unfold hWhere condsWhere
  rw [kwSelf_sim s]
  split
  · exact ⟨h, rfl, i⟩
  rcases customArg_sim hc s with ⟨v, x, e, e', hv⟩ | ⟨e, e'⟩
  · have e1 : (HM.reads fun h => .ok (hCustomArg h a) : HM _) h = (h, .ok (some v)) := by
      simp only [HM.reads, e]
    rw [run_ok e1, e']
    exact push_sim hl0 i (.condItem (is_mono sub_plus hv))
  · have e1 : (HM.reads fun h => .ok (hCustomArg h a) : HM _) h = (h, .ok none) := by
      simp only [HM.reads, e]
    rw [run_ok e1, e']
    have e2 : (HM.reads fun h => .ok (!a.pos.isEmpty && a.pos.all fun v => (shallow h v).isConds) : HM _) h =
        (h, .ok (!b.pos.isEmpty && b.pos.all Obj.isConds)) := by
      simp only [HM.reads, pos_empty s, all_conds hc s.pos]
    dsimp only
    rw [run_ok e2]
    split
    · refine each_sim (Inv := ListAt .cond m h0 l sep) (r := fun v x => Is m v (.obj x)) ?_
        (are_map.mp s.pos) h cs i
      intro v x hv h' cs' i'
      exact appendUnique_sim hl0 hm hl hT.cond i' (.condItem (is_mono sub_plus hv))
    · obtain ⟨r, e3, hb⟩ := parseArgs_sim hT hc pairOpts rfl s
      revert e3
      generalize parseArgs S pairOpts b = y at hb
      cases hb with
      | error er => intro e3; rw [run_error e3]; exact ⟨h, rfl, i⟩
      | ok hb =>
        intro e3
        rw [run_ok e3]
        unfold withR
        dsimp only
        refine each_sim (Inv := ListAt .cond m h0 l sep) ?_ hb h cs i
        intro vs xs hv h' cs' i'
        obtain ⟨hp1, hp2⟩ := pairOf_sim hv
        obtain ⟨ext, r, e4, hb⟩ := mkCond_sim i'.step.grows (i'.cells hm hl) on
          (is_mono sub_plus hp1) (is_mono sub_plus hp2)
        revert e4
        generalize mkCond on (pairOf xs).1 (pairOf xs).2 = z at hb
        cases hb with
        | error er => intro e4; rw [run_error e4]; exact ⟨_, rfl, i'.append ext⟩
        | ok hw =>
          intro e4
          rw [run_ok e4]
          exact appendUnique_sim hl0 hm hl hT.cond (i'.append ext) hw

theorem columns_sim {a : HArgs} {b : Args} (s : ArgsAre m a b) {h : Heap} {cs : List Column}
    (i : ListAt .column m h0 l sep h cs) :
    ∃ h', hColumns T l a h = (h', res (columnsAdd S cs b).2) ∧
      ListAt .column m h0 l sep h' (columnsAdd S cs b).1 := by
  have hc := sub_plus.trans (i.cells hm hl)
  unfold hColumns columnsAdd
  rw [kwSelf_sim s]
  split
  · exact ⟨h, rfl, i⟩
  obtain ⟨r, e3, hb⟩ := parseArgs_sim hT hc nameOpts rfl s
  revert e3
  generalize parseArgs S nameOpts b = y at hb
  cases hb with
  | error er => intro e3; rw [run_error e3]; exact ⟨h, rfl, i⟩
  | ok hb =>
    intro e3
    rw [run_ok e3]
    unfold withR
    dsimp only
    refine each_sim (Inv := ListAt .column m h0 l sep) ?_ hb h cs i
    intro vs xs hv h' cs' i'
    obtain ⟨hp1, hp2⟩ := pairOf_sim hv
    have hc' := sub_plus.trans (i'.cells hm hl)
    have e4 := check_run hc' [.str, .int] hp1
    have e5 := check_run hc' [.str, .none] hp2
    unfold mkColumn
    revert e4
    cases checkType [.str, .int] (pairOf xs).1 with
    | error er => intro e4; rw [run_error e4]; exact ⟨h', rfl, i'⟩
    | ok u =>
      intro e4
      rw [run_ok e4]
      revert e5
      cases checkType [.str, .none] (pairOf xs).2 with
      | error er => intro e5; rw [run_error e5]; exact ⟨h', rfl, i'⟩
      | ok u =>
        intro e5
        rw [run_ok e5]
        have e6 : HM.alloc (.lib .column) [(hPairOf vs).1, (hPairOf vs).2] h' =
          (h' ++ [⟨.lib .column, [(hPairOf vs).1, (hPairOf vs).2]⟩], .ok h'.length) := rfl
        rw [run_ok e6]
        refine appendUnique_sim hl0 hm hl hT.column (i'.append _) ?_
        exact .column (.inr ⟨i'.step.grows, get_new _ _⟩) (is_mono sub_plus hp1) (is_mono sub_plus hp2)

theorem values_sim {a : HArgs} {b : Args} (s : ArgsAre m a b) {h : Heap} {cs : List Value}
    (i : ListAt .value m h0 l sep h cs) :
    ∃ h', hValues T l a h = (h', res (valuesSet cx S cs b).2) ∧
      ListAt .value m h0 l sep h' (valuesSet cx S cs b).1 := by
  have hc := sub_plus.trans (i.cells hm hl)
  unfold hValues valuesSet
  rw [kwSelf_sim s]
  split
  · exact ⟨h, rfl, i⟩
  rcases customArg_sim hc s with ⟨v, x, e, e', hv⟩ | ⟨e, e'⟩
  · have e1 : (HM.reads fun h => .ok (hCustomArg h a) : HM _) h = (h, .ok (some v)) := by
      simp only [HM.reads, e]
    rw [run_ok e1, e']
    exact push_sim hl0 i (.valueItem (is_mono sub_plus hv))
  have e1 : (HM.reads fun h => .ok (hCustomArg h a) : HM _) h = (h, .ok none) := by
    simp only [HM.reads, e]
  rw [run_ok e1, e']
  dsimp only
  obtain ⟨r, e3, hb⟩ := parseArgs_sim hT hc pairOpts rfl s
  revert e3
  generalize parseArgs S pairOpts b = y at hb
  cases hb with
  | error er => intro e3; rw [run_error e3]; exact ⟨h, rfl, i⟩
  | ok hb =>
    intro e3
    rw [run_ok e3]
    unfold withR
    dsimp only
    refine each_sim (Inv := ListAt .value m h0 l sep) ?_ hb h cs i
    intro vs xs hv h' cs' i'
    obtain ⟨hp1, hp2⟩ := pairOf_sim hv
    have hc' := sub_plus.trans (i'.cells hm hl)
    have e4 := check_run hc' [.str] hp1
    have e5 := check_run hc' valueTypes hp2
    unfold mkValue
    revert e4
    cases checkType [.str] (pairOf xs).1 with
    | error er => intro e4; rw [run_error e4]; exact ⟨h', rfl, i'⟩
    | ok u =>
      intro e4
      rw [run_ok e4]
      revert e5
      cases checkType valueTypes (pairOf xs).2 with
      | error er => intro e5; rw [run_error e5]; exact ⟨h', rfl, i'⟩
      | ok u =>
        intro e5
        rw [run_ok e5]
        have e6 : HM.alloc (.lib .value) [(hPairOf vs).1, (hPairOf vs).2] h' =
          (h' ++ [⟨.lib .value, [(hPairOf vs).1, (hPairOf vs).2]⟩], .ok h'.length) := rfl
        rw [run_ok e6]
        refine appendUnique_sim hl0 hm hl hT.value (i'.append _) ?_
        exact .value (.inr ⟨i'.step.grows, get_new _ _⟩) (is_mono sub_plus hp1) (is_mono sub_plus hp2)

end

theorem newPart_run (c : Lib) (sep : Str) (more : List Val) (h : Heap) : hNewPart c sep more h =
    (h ++ [⟨.lib .listOfParts, [.atom (.str sep)]⟩, ⟨.lib c, .ref h.length :: more⟩],
      .ok (h.length + 1, h.length)) := by
  show ((h ++ [_]) ++ [_], _) = _
  simp

theorem get_append {h : Heap} {ext : List Cell} {n : Nat} : (h ++ ext)[h.length + n]? = ext[n]? := by
  rw [List.getElem?_append_right (by omega)]
  congr 1
  omega

theorem rows_sim {T : Runtime} {cx : Ctx} {S : Sem} (hT : Faithful T cx S) {m : Mem} {h0 : Heap} {l : Nat}
    {sep : Val} (hl0 : l < h0.length) (hm : Sub m (cells h0))
    {a : HArgs} {b : Args} (s : ArgsAre m a b) {rs : List (List Value)}
    (i : ListAt .row m h0 l sep h0 rs) :
    ∃ h', hRows T l a h0 = (h', res (rowsAdd cx S rs b).2) ∧
      ListAt .row m h0 l sep h' (rowsAdd cx S rs b).1 := by
  unfold hRows rowsAdd
  rw [run_ok (newPart_run _ _ _ h0)]
  dsimp only
  generalize hext : [(⟨.lib .listOfParts, [.atom (.str L!", ")]⟩ : Cell), ⟨.lib .values, .ref h0.length :: []⟩] = ext
  have hlen : (h0 ++ ext).length = h0.length + 2 := by rw [← hext]; simp
  have hn : ∀ c, ¬ m h0.length c := fun c hc => by
    have := hm _ _ hc
    simp [cells] at this
  have i0 : ListAt .value m (h0 ++ ext) h0.length (.atom (.str L!", ")) (h0 ++ ext) [] := by
    refine ⟨.rfl, [], ?_, .nil⟩
    have := get_append (h := h0) (ext := ext) (n := 0)
    rw [Nat.add_zero] at this
    rw [this, ← hext]
    rfl
  have hp : (h0 ++ ext)[h0.length + 1]? = some ⟨.lib .values, [.ref h0.length]⟩ := by
    rw [get_append, ← hext]; rfl
  obtain ⟨h1, e1, i1⟩ := values_sim hT (by omega) (hm.trans (cells_append ext)) hn s i0
  have hst : Step (· = l) h0 h1 := by
    refine ⟨by have := i1.step.grows; omega, fun p c hp hne => i1.step.same p c (get_append_left hp ext) ?_⟩
    have := (List.getElem?_eq_some_iff.mp hp).1
    omega
  have hsub : Sub (plus m (h0 ++ ext) h1) (plus m h0 h1) := by
    rintro p c (hp | ⟨h2, hp⟩)
    · exact .inl hp
    · exact .inr ⟨by omega, hp⟩
  have hi : ListAt .row m h0 l sep h1 rs := by
    obtain ⟨xs, hx, ha⟩ := i.list
    refine ⟨hst, xs, i1.step.same _ _ (get_append_left hx ext) (by omega), are_mono ?_ ha⟩
    rintro p c (hp | ⟨h2, hp⟩)
    · exact .inl hp
    · have := (List.getElem?_eq_some_iff.mp hp).1
      omega
  revert e1 i1
  generalize valuesSet cx S [] b = u
  obtain ⟨row, o⟩ := u
  intro e1 i1
  cases o with
  | some e => rw [run_error e1]; exact ⟨h1, rfl, hi⟩
  | none =>
    rw [run_ok e1]
    refine push_sim hl0 hi ?_
    obtain ⟨xs, hx, ha⟩ := i1.list
    refine .row (.inr ⟨by omega, i1.step.same _ _ hp (by omega)⟩) (.inr ⟨Nat.le_refl _, hx⟩) (are_mono hsub ha)

end SqlPuzzle.Refine
