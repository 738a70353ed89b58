import Verif.Proofs.RefineOwn

/-! Joins and their conditions. -/

namespace SqlPuzzle.Refine
open SqlPuzzle SqlPuzzle.Spec

theorem updateLast_append {α : Type} (f : α → Upd α) (xs : List α) (x : α) :
    updateLast f (xs ++ [x]) = some (xs ++ [(f x).1], (f x).2) := by
  induction xs with
  | nil => rfl
  | cons y ys ih =>
    cases ys with
    | nil => rfl
    | cons z zs =>
      rw [List.cons_append, List.cons_append, updateLast, ← List.cons_append, ih]
      rfl

theorem listAt_run {h : Heap} {p l : Nat} {k : Lib} {xs ys : List Val} (hk : k.keeps 0 = true)
    (hp : h[p]? = some ⟨.lib k, .ref l :: xs⟩) (hl : h[l]? = some ⟨.lib .listOfParts, ys⟩) :
    listAt h p = .ok l := by
  simp only [listAt, keptAt, hp, hk, if_true, List.getElem?_cons_zero, hl]

section
variable {T : Runtime} {cx : Ctx} {S : Sem} (hT : Faithful T cx S) {m : Mem} {h : Heap}
  (hm : Sub m (cells h))
include hT hm

/-- What the table of a new join is. -/
def NewTable (m : Mem) (h h' : Heap) (ty : JoinType) (t : Nat) (j : Join) : Prop :=
  OwnTable h' m (.ref t) ⟨j.name, j.alias, []⟩ [t, h.length] ∧ t = h.length + 1 ∧ j.type = ty ∧ j.ons = []

omit hT in
theorem joinTable_made (ty : JoinType) {n a : Val} {x y : Obj} (sn : Is m n (.obj x)) (sa : Is m a (.obj y)) :
    Makes (fun h' => NewTable m h h' ty) h (hMkTable n a)
      (do
        let t ← mkTable x y
        .ok ⟨ty, t.name, t.alias, []⟩) := by
  obtain ⟨ext, r, e, hb⟩ := mkTable_sim hm sn sa
  refine ⟨ext, r, e, ?_⟩
  generalize mkTable x y = z at hb
  cases hb with
  | error er => exact .error _
  | @ok t tab hw =>
    obtain ⟨h1, h2, h3⟩ := hw
    refine .ok ⟨?_, h2, rfl, rfl⟩
    obtain ⟨n, a, js⟩ := tab
    cases h3
    exact h1

theorem joinTable_refused (ty : JoinType) {v : Val} {x : Obj} (s : Is m v (.obj x)) {y : R Join}
    (hv : hJoinTable T v h = (HM.andThen (T.str v) fun _ => HM.raise .invalidArgument) h)
    (hy : y = if x.isSql then (do
      let _ ← S.str x
      .error .invalidArgument) else .error .invalidArgument) :
    Makes (fun h' => NewTable m h h' ty) h (hJoinTable T v) y := by
  unfold Makes
  rw [hv, hy]
  by_cases hx : x.isSql = true
  · rw [if_pos hx]
    unfold HM.andThen
    rw [hT.str h v x (is_mono hm s) hx]
    cases S.str x with
    | error e => exact ⟨[], _, by rw [List.append_nil], .error _⟩
    | ok t => exact ⟨[], _, by rw [List.append_nil]; rfl, .error _⟩
  · rw [if_neg hx]
    unfold HM.andThen
    obtain ⟨t, ht⟩ := hT.print h v x (is_mono hm s) (by simpa using hx)
    rw [ht]
    exact ⟨[], _, by rw [List.append_nil]; rfl, .error _⟩

theorem joinTable_sim (ty : JoinType) {v : Val} {x : Obj} (s : Is m v (.obj x))
    (hx : ∀ n a, x ≠ .dict [(n, a)]) :
    Makes (fun h' => NewTable m h h' ty) h (hJoinTable T v) (mkJoin S ty x) := by
  have two : ∀ {p xs os} (c : Cls), (c = .list ∨ c = .tuple) → v = .ref p → m p ⟨c, xs⟩ →
      Are m xs (List.map Thing.obj os) → (x = .list os ∨ x = .tuple os) →
      Makes (fun h' => NewTable m h h' ty) h (hJoinTable T v) (mkJoin S ty x) := by
    rintro p xs os c hc rfl hp ha ho
    have hp' : h[p]? = _ := hm _ _ hp
    cases are_map.mp ha with
    | nil =>
      refine joinTable_refused hT hm ty s ?_ ?_
      · rcases hc with rfl | rfl <;> simp only [hJoinTable, hp']
      · rcases ho with rfl | rfl <;> rfl
    | cons h1 h2 =>
      cases h2 with
      | nil =>
        refine joinTable_refused hT hm ty s ?_ ?_
        · rcases hc with rfl | rfl <;> simp only [hJoinTable, hp']
        · rcases ho with rfl | rfl <;> rfl
      | cons h2 h3 =>
        cases h3 with
        | nil =>
          have := joinTable_made hm ty h1 h2
          unfold Makes at this ⊢
          rcases hc with rfl | rfl <;> rcases ho with rfl | rfl <;> simp only [hJoinTable, hp'] <;> exact this
        | cons h3 h4 =>
          refine joinTable_refused hT hm ty s ?_ ?_
          · rcases hc with rfl | rfl <;> simp only [hJoinTable, hp']
          · rcases ho with rfl | rfl <;> rfl
  cases view s with
  | list hp ha => exact two .list (.inl rfl) rfl hp ha (.inl rfl)
  | tuple hp ha => exact two .tuple (.inr rfl) rfl hp ha (.inr rfl)
  | atom a =>
    cases a with
    | str t =>
      obtain ⟨ext, r, e, hb⟩ := joinTable_made hm ty (.atom (.str t)) (.atom .none)
      exact ⟨ext, r, e, hb⟩
    | _ => exact joinTable_refused hT hm ty s rfl rfl
  | @dict p xs kvs hp ha =>
    have hp' : h[p]? = _ := hm _ _ hp
    rcases kvs with _ | ⟨⟨k, w⟩, _ | ⟨⟨k', w'⟩, kvs⟩⟩
    · cases ha
      exact joinTable_refused hT hm ty s (by simp only [hJoinTable, hp']) rfl
    · exact absurd rfl (hx k w)
    · rw [are_iff] at ha
      cases ha with | cons _ ha => cases ha with | cons _ ha => cases ha with | cons _ ha =>
      exact joinTable_refused hT hm ty s (by simp only [hJoinTable, hp']) rfl
  | plain hp hk ho =>
    have hp' : h[_]? = _ := hm _ _ hp
    refine joinTable_refused hT hm ty s (by simp only [hJoinTable, hp']) ?_
    cases x <;> first | (cases ho; done) | rfl
  | set hp | frozenset hp | rel hp | sqlValue hp | sqlRef hp | conds hp | cofc hp =>
    have hp' : h[_]? = _ := hm _ _ hp
    exact joinTable_refused hT hm ty s (by simp only [hJoinTable, hp']) rfl

end

theorem lastTable_empty {h : Heap} {p l : Nat} {k : Lib} {sep : Val} (hk : k.keeps 0 = true)
    (hp : h[p]? = some ⟨.lib k, [.ref l]⟩) (hl : h[l]? = some ⟨.lib .listOfParts, [sep]⟩) :
    lastTable h p = .error .invalidQuery := by
  unfold lastTable
  rw [listAt_run hk hp hl]
  simp only [ok_bind, cellAt, hl]
  rfl

theorem lastTable_run {h : Heap} {p l t : Nat} {k : Lib} {sep : Val} {xs ys : List Val} (hk : k.keeps 0 = true)
    (hp : h[p]? = some ⟨.lib k, [.ref l]⟩) (hl : h[l]? = some ⟨.lib .listOfParts, sep :: (xs ++ [.ref t])⟩)
    (ht : h[t]? = some ⟨.lib .table, ys⟩) : lastTable h p = .ok t := by
  unfold lastTable
  rw [listAt_run hk hp hl]
  simp only [ok_bind, cellAt, hl, List.drop_one, List.tail_cons, List.getLast?_append, List.getLast?_singleton,
    Option.some_or, isLib, ht, decide_true, if_true]

theorem joinsAt_run {h : Heap} {t js : Nat} {a b : Val} {xs : List Val}
    (ht : h[t]? = some ⟨.lib .table, [a, b, .ref js]⟩) (hj : h[js]? = some ⟨.list, xs⟩) :
    joinsAt h t = .ok js := by
  simp only [joinsAt, keptAt, ht, show Lib.keeps .table 2 = true from rfl, if_true, hj,
    List.getElem?_cons_succ, List.getElem?_cons_zero]

section
variable {T : Runtime} {cx : Ctx} {S : Sem} (hT : Faithful T cx S) {m : Mem} {h : Heap}
  (hm : Sub m (cells h)) {p l : Nat} {k : Lib} {sep : Val} {fs : List Nat} (hk : k.keeps 0 = true)
  (hp : h[p]? = some ⟨.lib k, [.ref l]⟩)
include hT hm hk hp

theorem tablesJoin_sim (ty : JoinType) {v : Val} {x : Obj} (s : Is m v (.obj x))
    (hx : ∀ n a, x ≠ .dict [(n, a)]) {ts : List Table} (i : OwnList OwnTable m h l sep fs h ts fs) :
    ∃ h' fs', hTablesJoin T cx p ty v h = (h', res (tablesJoin cx S ts ty x).2) ∧
      OwnList OwnTable m h l sep fs h' (tablesJoin cx S ts ty x).1 fs' := by
  unfold hTablesJoin tablesJoin
  split
  · exact ⟨h, fs, rfl, i⟩
  obtain ⟨xs, hl, he⟩ := i.list
  rcases each_last he with ⟨rfl, rfl, rfl⟩ | ⟨xs', w, ts', t, fs', f, rfl, rfl, rfl, h3, h4⟩
  · rw [lastTable_empty hk hp hl]
    exact ⟨h, [], rfl, i⟩
  rw [updateLast_append]
  cases h4 with
  | @mk tp a b js xj x1 y1 jo fj htp hjs ha hb hj =>
  rw [lastTable_run hk hp hl htp]
  dsimp only
  rw [joinsAt_run htp hjs]
  dsimp only
  unfold hJoin
  obtain ⟨ext, r, e1, hb1⟩ := joinTable_sim hT hm ty s hx
  revert e1
  generalize mkJoin S ty x = z at hb1
  cases hb1 with
  | error er =>
    intro e1
    rw [run_error e1]
    refine ⟨_, fs' ++ (tp :: js :: fj), rfl, ?_⟩
    exact own_append (fun _ _ _ _ _ a b => table_frame .rfl a b) i ext
  | @ok t' j hw =>
    intro e1
    rw [run_ok e1, run_ok (newPart_run _ _ _ _)]
    dsimp only
    obtain ⟨how, rfl, hty, hons⟩ := hw
    obtain ⟨jt, jn, ja, jc⟩ := j
    dsimp only at hty hons how
    subst hty hons
    -- the new objects
    have hlen : h.length + 2 ≤ (h ++ ext).length := by
      have := table_lt how (h.length + 1) (by simp)
      omega
    generalize hh1 : h ++ ext = h1 at *
    have hs1 : Step (fun _ => False) h h1 := by rw [← hh1]; exact .append ext
    let c1 : Cell := ⟨.lib .listOfParts, [.atom (.str L!" AND ")]⟩
    let c2 : Cell := ⟨.lib .onConditions, [.ref h1.length]⟩
    let c3 : Cell := ⟨.lib .join, [.atom (.int (JoinType.number jt)), .ref (h.length + 1), .ref (h1.length + 1)]⟩
    have e2 : HM.alloc (.lib .join) [.atom (.int (JoinType.number jt)), .ref (h.length + 1), .ref (h1.length + 1)]
        (h1 ++ [c1, c2]) = (h1 ++ [c1, c2, c3], .ok (h1.length + 2)) := by
      show ((h1 ++ [c1, c2]) ++ [c3], _) = _
      simp
    show ∃ h' fs', (HM.alloc _ _ >>= _ : HM Unit) (h1 ++ [c1, c2]) = _ ∧ _
    rw [run_ok e2]
    have hold : ∀ (q : Nat) c, h[q]? = some c → (h1 ++ [c1, c2, c3])[q]? = some c := fun q c hq =>
      get_append_left (hs1.same q c hq (fun h => h)) _
    have hjl := some_lt hjs
    have hnd := List.nodup_cons.mp i.nodup
    have hnd2 := List.nodup_append.mp hnd.2
    have hlt : ∀ q ∈ fs' ++ (tp :: js :: fj), q < h.length := each_mem (fun _ _ _ => table_lt) he
    let cj : Cell := ⟨.list, xj ++ [.ref (h1.length + 2)]⟩
    have hset : ∀ q, q ≠ js → ((h1 ++ [c1, c2, c3]).set js cj)[q]? = (h1 ++ [c1, c2, c3])[q]? := fun q hq => by
      have : js ≠ q := fun e => hq e.symm
      rw [List.getElem?_set_ne this]
    have hnew : ∀ n, n < 3 → ((h1 ++ [c1, c2, c3]).set js cj)[h1.length + n]? = [c1, c2, c3][n]? := fun n _ => by
      rw [hset _ (by omega), get_append]
    have hkeep : ∀ (q : Nat) c, q ≠ js → h[q]? = some c → ((h1 ++ [c1, c2, c3]).set js cj)[q]? = some c :=
      fun q c hq hc => by rw [hset q hq]; exact hold q c hc
    have hmid : ∀ (q : Nat) c, h.length ≤ q → h1[q]? = some c → ((h1 ++ [c1, c2, c3]).set js cj)[q]? = some c :=
      fun q c hq hc => by rw [hset q (by omega)]; exact get_append_left hc _
    refine ⟨(h1 ++ [c1, c2, c3]).set js cj,
      fs' ++ (tp :: js :: (fj ++ [h1.length + 2, h.length + 1, h.length, h1.length + 1, h1.length])), ?_, ?_,
      ⟨xs' ++ [.ref tp], ?_, each_append (each_imp h3 fun v a g hg hin => table_frame .rfl hg ?_)
        (each_one (.mk ?_ ?_ ha hb (each_append (each_imp hj fun v a g hg hin => join_frame .rfl hg ?_)
          (each_one (v := .ref (h1.length + 2)) ?_))))⟩, ?_, ?_⟩
    · show HM.modify js _ (h1 ++ [c1, c2, c3]) = _
      unfold HM.modify
      rw [hold js _ hjs]
      rfl
    · refine ⟨by simp; omega, fun q c hq hn => hkeep q c ?_ hq⟩
      rintro rfl
      exact hn (.inr (by simp))
    · refine hkeep l _ ?_ hl
      rintro rfl
      exact hnd.1 (by simp)
    · intro q hq c hc
      refine hkeep q c ?_ hc
      rintro rfl
      exact hnd2.2.2 _ (hin _ hq) _ (by simp) rfl
    · refine hkeep tp _ ?_ htp
      have := (List.nodup_cons.mp hnd2.2.1).1
      rintro rfl
      exact this (by simp)
    · rw [List.getElem?_set_self (by simp; omega)]
    · intro q hq c hc
      refine hkeep q c ?_ hc
      rintro rfl
      exact (List.nodup_cons.mp (List.nodup_cons.mp hnd2.2.1).2).1 (hin _ hq)
    · cases how with
      | mk htp' hjs' ha' hb' hj' =>
        cases hj'
        refine .mk (hnew 2 (by omega)) (hmid _ _ (by omega) htp') (hmid _ _ (by omega) hjs') ha' hb'
          (hnew 1 (by omega)) (hnew 0 (by omega)) .nil
    · have hn5 : [h1.length + 2, h.length + 1, h.length, h1.length + 1, h1.length].Nodup := by
        simp; omega
      have hnf : (fs' ++ (tp :: js :: fj) ++ [h1.length + 2, h.length + 1, h.length, h1.length + 1, h1.length]).Nodup :=
        List.nodup_append.mpr ⟨hnd.2, hn5, fun q hq q' hq' => by
          have := hlt q hq
          simp only [List.mem_cons, List.not_mem_nil, or_false] at hq'
          omega⟩
      rw [List.nodup_cons]
      refine ⟨fun hin => ?_, by simpa using hnf⟩
      have : l ∈ fs' ++ (tp :: js :: fj) ++ [h1.length + 2, h.length + 1, h.length, h1.length + 1, h1.length] := by
        simpa using hin
      rcases List.mem_append.mp this with h' | h'
      · exact hnd.1 h'
      · have := some_lt hl
        simp only [List.mem_cons, List.not_mem_nil, or_false] at h'
        omega
    · intro q hq
      have : q ∈ fs' ++ (tp :: js :: fj) ++ [h1.length + 2, h.length + 1, h.length, h1.length + 1, h1.length] := by
        simpa using hq
      rcases List.mem_append.mp this with h' | h'
      · exact .inl h'
      · simp only [List.mem_cons, List.not_mem_nil, or_false] at h'
        right; omega

theorem tablesOn_sim {a : HArgs} {b : Args} (s : ArgsAre m a b) (hd : ∀ q c, m q c → q ∉ fs)
    {ts : List Table} (i : OwnList OwnTable m h l sep fs h ts fs) :
    ∃ h', hTablesOn T p a h = (h', res (tablesOn cx S ts b).2) ∧
      OwnList OwnTable (plus m h h') h l sep fs h' (tablesOn cx S ts b).1 fs := by
  have same : ∀ er : Err, ∃ h', (h, (.error er : R Unit)) = (h', res (some er)) ∧
      OwnList OwnTable (plus m h h') h l sep fs h' ts fs := fun er => by
    refine ⟨h, rfl, i.step, ?_, i.nodup, i.fresh⟩
    obtain ⟨xs, hl, he⟩ := i.list
    exact ⟨xs, hl, each_imp he fun _ _ _ hg _ => table_frame sub_plus hg fun _ _ _ h => h⟩
  unfold hTablesOn tablesOn
  rw [kwSelf_sim s]
  split
  · exact same _
  obtain ⟨xs, hl, he⟩ := i.list
  unfold lastOns
  rcases each_last he with ⟨rfl, rfl, rfl⟩ | ⟨xs', w, ts', t, fs', f, rfl, rfl, rfl, h3, h4⟩
  · rw [lastTable_empty hk hp hl]
    exact same _
  rw [updateLast_append]
  cases h4 with
  | @mk tp a1 b1 js xj x1 y1 jo fj htp hjs ha hb hj =>
  rw [lastTable_run hk hp hl htp, ok_bind, joinsAt_run htp hjs, ok_bind]
  unfold tableOn
  have hcell : cellAt h js = .ok ⟨.list, xj⟩ := by simp only [cellAt, hjs]
  rw [hcell, ok_bind]
  dsimp only
  rcases each_last hj with ⟨rfl, rfl, rfl⟩ | ⟨xj', w', jo', j, fj', g, rfl, rfl, rfl, h5, h6⟩
  · exact same _
  rw [updateLast_append]
  cases h6 with
  | @mk jp ty t' a2 b2 js' o l' sep' xc x2 y2 cs hjp ht' hj' ha2 hb2 ho hl' hxc =>
  have hlast : (xj' ++ [Val.ref jp]).getLast? = some (.ref jp) := by simp
  have hlib : isLib h jp .join = true := by simp [isLib, hjp]
  have hkept : keptAt h jp 2 = .ok o := by
    simp only [keptAt, hjp, show Lib.keeps .join 2 = true from rfl, if_true, List.getElem?_cons_succ,
      List.getElem?_cons_zero]
  rw [hlast]
  dsimp only
  rw [if_pos hlib, hkept, ok_bind, listAt_run rfl ho hl']
  dsimp only
  have hin' : l' ∈ fs' ++ (tp :: js :: (fj' ++ [jp, t', js', o, l'])) := by simp
  obtain ⟨h', e, r⟩ := where_sim hT (some_lt hl') hm (fun c hc => hd _ _ hc hin') true s
    (i := (⟨.rfl, xc, hl', are_mono sub_plus hxc⟩ : ListAt .cond m h l' sep' h cs))
  refine ⟨h', e, r.step.weaken fun q hq => .inr (by rw [hq]; exact hin'), ?_, i.nodup, i.fresh⟩
  obtain ⟨xc', hl2, hxc'⟩ := r.list
  have hnd := List.nodup_cons.mp i.nodup
  have hnd2 := List.nodup_append.mp hnd.2
  have hnd3 := List.nodup_append.mp (List.nodup_cons.mp (List.nodup_cons.mp hnd2.2.1).2).2
  have hkeep : ∀ (q : Nat) c, q ≠ l' → h[q]? = some c → h'[q]? = some c := fun q c hq hc => r.step.same q c hc hq
  refine ⟨xs' ++ [.ref tp], hkeep l _ (fun e => hnd.1 (e ▸ hin')) hl,
    each_append (each_imp h3 fun v a g hg hin => table_frame sub_plus hg ?_)
      (each_one (.mk (hkeep _ _ ?_ htp) (hkeep _ _ ?_ hjs) (is_mono sub_plus ha) (is_mono sub_plus hb)
        (each_append (each_imp h5 fun v a g hg hin => join_frame sub_plus hg ?_)
          (each_one (.mk (hkeep _ _ ?_ hjp) (hkeep _ _ ?_ ht') (hkeep _ _ ?_ hj') (is_mono sub_plus ha2)
            (is_mono sub_plus hb2) (hkeep _ _ ?_ ho) hl2 hxc')))))⟩
  · intro q hq c hc
    refine hkeep q c ?_ hc
    rintro rfl
    exact hnd2.2.2 _ (hin _ hq) _ (by simp) rfl
  · rintro rfl
    exact (List.nodup_cons.mp hnd2.2.1).1 (by simp)
  · rintro rfl
    exact (List.nodup_cons.mp (List.nodup_cons.mp hnd2.2.1).2).1 (by simp)
  · intro q hq c hc
    refine hkeep q c ?_ hc
    rintro rfl
    exact hnd3.2.2 _ (hin _ hq) _ (by simp) rfl
  all_goals
    have := hnd3.2.1
    simp only [List.nodup_cons, List.mem_cons, List.not_mem_nil, or_false, not_or] at this
    omega

end

end SqlPuzzle.Refine
