import Verif.Proofs.RefineParts

/-! Orders, tables and joins, which belong to the query that is called. -/

namespace SqlPuzzle.Refine
open SqlPuzzle SqlPuzzle.Spec

theorem withR_ok {σ α : Type} (s : σ) (a : α) (f : α → Upd σ) : withR s (.ok a) f = f a := rfl

/-! ### Frames -/

theorem each_imp {α : Type} {P Q : Val → α → List Nat → Prop} {xs : List Val} {as : List α} {fs : List Nat}
    (e : Each P xs as fs) (h : ∀ v a f, P v a f → (∀ p ∈ f, p ∈ fs) → Q v a f) : Each Q xs as fs := by
  induction e with
  | nil => exact .nil
  | cons h1 _ ih =>
    exact .cons (h _ _ _ h1 fun p hp => List.mem_append_left _ hp)
      (ih fun v a f hf hp => h v a f hf fun p h' => List.mem_append_right _ (hp p h'))

theorem each_append {α : Type} {P : Val → α → List Nat → Prop} {xs ys : List Val} {as bs : List α}
    {fs gs : List Nat} (e : Each P xs as fs) (e' : Each P ys bs gs) :
    Each P (xs ++ ys) (as ++ bs) (fs ++ gs) := by
  induction e with
  | nil => exact e'
  | cons h1 _ ih => rw [List.append_assoc]; exact .cons h1 ih

theorem each_one {α : Type} {P : Val → α → List Nat → Prop} {v : Val} {a : α} {f : List Nat} (h : P v a f) :
    Each P [v] [a] f := by
  have := Each.cons h (.nil (P := P))
  rwa [List.append_nil] at this

theorem each_last {α : Type} {P : Val → α → List Nat → Prop} {xs : List Val} {as : List α} {fs : List Nat}
    (e : Each P xs as fs) : (xs = [] ∧ as = [] ∧ fs = []) ∨ ∃ xs' v as' a fs' f, xs = xs' ++ [v] ∧
      as = as' ++ [a] ∧ fs = fs' ++ f ∧ Each P xs' as' fs' ∧ P v a f := by
  induction e with
  | nil => exact .inl ⟨rfl, rfl, rfl⟩
  | @cons v vs x xs f fs h1 _ ih =>
    right
    rcases ih with ⟨rfl, rfl, rfl⟩ | ⟨xs', w, as', a, fs', g, rfl, rfl, rfl, h3, h4⟩
    · exact ⟨[], v, [], x, [], f, rfl, rfl, by simp, .nil, h1⟩
    · exact ⟨v :: xs', w, x :: as', a, f ++ fs', g, rfl, rfl, by simp, .cons h1 h3, h4⟩

theorem each_mem {α : Type} {P : Val → α → List Nat → Prop} {Q : Nat → Prop}
    (h : ∀ v a f, P v a f → ∀ p ∈ f, Q p) {xs : List Val} {as : List α} {fs : List Nat}
    (e : Each P xs as fs) : ∀ p ∈ fs, Q p := by
  induction e with
  | nil => intro p hp; cases hp
  | cons h1 _ ih =>
    intro p hp
    rcases List.mem_append.mp hp with hp | hp
    · exact h _ _ _ h1 p hp
    · exact ih p hp

/-- The cells at `f` are the same in both memories. -/
def SameAt (f : List Nat) (h h' : Heap) : Prop := ∀ p ∈ f, ∀ c, h[p]? = some c → h'[p]? = some c

theorem some_lt {h : Heap} {p : Nat} {c : Cell} (e : h[p]? = some c) : p < h.length :=
  (List.getElem?_eq_some_iff.mp e).1

section
variable {h h' : Heap} {m m' : Mem}

theorem order_frame (hm : Sub m m') {v o f} (s : OwnOrder h m v o f) (hs : SameAt f h h') :
    OwnOrder h' m' v o f := by
  cases s with
  | mk hp ha => exact .mk (hs _ (by simp) _ hp) (is_mono hm ha)

theorem order_lt {v o f} (s : OwnOrder h m v o f) : ∀ p ∈ f, p < h.length := by
  cases s with
  | mk hp ha => intro p h'; simp only [List.mem_singleton] at h'; rw [h']; exact some_lt hp

theorem join_frame (hm : Sub m m') {v j f} (s : OwnJoin h m v j f) (hs : SameAt f h h') :
    OwnJoin h' m' v j f := by
  cases s with
  | mk hp ht hj ha hb ho hl hx =>
    exact .mk (hs _ (by simp) _ hp) (hs _ (by simp) _ ht) (hs _ (by simp) _ hj) (is_mono hm ha)
      (is_mono hm hb) (hs _ (by simp) _ ho) (hs _ (by simp) _ hl) (are_mono hm hx)

theorem join_lt {v o f} (s : OwnJoin h m v o f) : ∀ p ∈ f, p < h.length := by
  cases s with
  | mk hp ht hj ha hb ho hl hx =>
    intro p h'
    simp only [List.mem_cons, List.not_mem_nil, or_false] at h'
    rcases h' with rfl | rfl | rfl | rfl | rfl <;> apply some_lt <;> assumption

theorem table_frame (hm : Sub m m') {v t f} (s : OwnTable h m v t f) (hs : SameAt f h h') :
    OwnTable h' m' v t f := by
  cases s with
  | mk hp hj ha hb hx =>
    refine .mk (hs _ (by simp) _ hp) (hs _ (by simp) _ hj) (is_mono hm ha) (is_mono hm hb) ?_
    exact each_imp hx fun v a g hg hin => join_frame hm hg fun p hp =>
      hs p (List.mem_cons_of_mem _ (List.mem_cons_of_mem _ (hin p hp)))

theorem table_lt {v o f} (s : OwnTable h m v o f) : ∀ p ∈ f, p < h.length := by
  cases s with
  | mk hp hj ha hb hx =>
    intro p h'
    simp only [List.mem_cons] at h'
    rcases h' with rfl | rfl | h'
    · exact some_lt hp
    · exact some_lt hj
    · exact each_mem (fun v a f h => join_lt h) hx p h'

theorem join_is (hm : Sub m (cells h)) {v j f} (s : OwnJoin h m v j f) : Is (cells h) v (.join j) := by
  cases s with
  | mk hp ht hj ha hb ho hl hx =>
    exact .join hp ht hj (is_mono hm ha) (is_mono hm hb) ho hl (are_mono hm hx)

theorem each_are {α : Type} {P : Val → α → List Nat → Prop} {g : α → Thing} {m : Mem}
    (hP : ∀ v a f, P v a f → Is m v (g a)) {xs : List Val} {as : List α} {fs : List Nat}
    (e : Each P xs as fs) : Are m xs (as.map g) := by
  induction e with
  | nil => exact .nil
  | cons h1 _ ih => exact .cons (hP _ _ _ h1) ih

theorem table_is (hm : Sub m (cells h)) {v t f} (s : OwnTable h m v t f) : Is (cells h) v (.table t) := by
  cases s with
  | mk hp hj ha hb hx =>
    exact .table hp hj (is_mono hm ha) (is_mono hm hb) (each_are (g := .join) (fun _ _ _ h => join_is hm h) hx)

theorem order_is (hm : Sub m (cells h)) {v t f} (s : OwnOrder h m v t f) : Is (cells h) v (.order t) := by
  cases s with
  | mk hp ha => exact .order hp (is_mono hm ha)

end

/-! ### Lists of objects of the query -/

/-- At `l` there is the list of the objects `as` at the addresses `fs`, which were at `own` or are new. -/
structure OwnList {α : Type} (P : Heap → Mem → Val → α → List Nat → Prop) (m : Mem) (h0 : Heap) (l : Nat)
    (sep : Val) (own : List Nat) (h : Heap) (as : List α) (fs : List Nat) : Prop where
  step : Step (fun p => p = l ∨ p ∈ own) h0 h
  list : ∃ xs, h[l]? = some ⟨.lib .listOfParts, sep :: xs⟩ ∧ Each (P h m) xs as fs
  nodup : (l :: fs).Nodup
  fresh : ∀ p ∈ fs, p ∈ own ∨ h0.length ≤ p

section
variable {α : Type} {P : Heap → Mem → Val → α → List Nat → Prop} {m : Mem} {h0 : Heap} {l : Nat} {sep : Val}
  {own : List Nat}

theorem own_cells (hm : Sub m (cells h0)) (hd : ∀ p c, m p c → p ≠ l ∧ p ∉ own) {h as fs}
    (s : OwnList P m h0 l sep own h as fs) : Sub m (cells h) := fun p c hp =>
  s.step.same p c (hm p c hp) fun h => h.elim (hd p c hp).1 (hd p c hp).2

variable (hframe : ∀ h h' v a f, P h m v a f → SameAt f h h' → P h' m v a f)
include hframe

theorem own_append {h as fs} (s : OwnList P m h0 l sep own h as fs) (ext : List Cell) :
    OwnList P m h0 l sep own (h ++ ext) as fs := by
  obtain ⟨xs, hx, he⟩ := s.list
  exact ⟨s.step.trans (.append ext), ⟨xs, get_append_left hx ext,
    each_imp he fun v a f hf _ => hframe _ _ _ _ _ hf fun p _ c hc => get_append_left hc ext⟩, s.nodup, s.fresh⟩

/-- A new object is put at the end of the list. -/
theorem own_push {h as fs} (hl0 : l < h0.length) (s : OwnList P m h0 l sep own h as fs) {v : Val} {a : α}
    {f : List Nat} (hv : P h m v a f) (hf : f.Nodup) (hn : ∀ p ∈ f, h0.length ≤ p ∧ p ∉ fs) :
    ∃ h', hPush l v h = (h', .ok ()) ∧ OwnList P m h0 l sep own h' (as ++ [a]) (fs ++ f) := by
  obtain ⟨xs, hx, he⟩ := s.list
  have hl : l < h.length := Nat.lt_of_lt_of_le hl0 s.step.grows
  have hnl : l ∉ fs := (List.nodup_cons.mp s.nodup).1
  have hset : ∀ (c : Cell) (g : List Nat), l ∉ g → SameAt g h (h.set l c) := fun c g hg p hp d hd => by
    have hne : l ≠ p := fun e => hg (e ▸ hp)
    rw [List.getElem?_set_ne hne]
    exact hd
  have hnf : l ∉ f := fun h => by have := (hn l h).1; omega
  refine ⟨h.set l ⟨.lib .listOfParts, sep :: (xs ++ [v])⟩, ?_, s.step.trans (.set (.inl rfl)),
    ⟨xs ++ [v], ?_, each_append (each_imp he fun v a g hg hin => hframe _ _ _ _ _ hg ?_)
      (each_one (hframe _ _ _ _ _ hv (hset _ _ hnf)))⟩, ?_, ?_⟩
  · unfold hPush HM.modify
    simp only [hx, List.cons_append]
  · rw [List.getElem?_set_self hl]
  · exact hset _ _ fun h => hnl (hin l h)
  · rw [List.nodup_cons, List.mem_append]
    refine ⟨fun h => h.elim hnl hnf, List.nodup_append.mpr ⟨(List.nodup_cons.mp s.nodup).2, hf, ?_⟩⟩
    rintro p hp q hq rfl
    exact (hn p hq).2 hp
  · intro p hp
    rcases List.mem_append.mp hp with hp | hp
    · exact s.fresh p hp
    · exact .inr (hn p hp).1

theorem own_appendUnique {T : Runtime} {g : α → Thing} {eq : α → α → R Bool}
    (heq : ∀ h a b x y, Is (cells h) a (g x) → Is (cells h) b (g y) → T.eq a b h = (h, eq x y))
    (his : ∀ h v a f, Sub m (cells h) → P h m v a f → Is (cells h) v (g a))
    (hm : Sub m (cells h0)) (hd : ∀ p c, m p c → p ≠ l ∧ p ∉ own) {h as fs} (hl0 : l < h0.length)
    (s : OwnList P m h0 l sep own h as fs) {v : Val} {a : α} {f : List Nat} (hv : P h m v a f) (hf : f.Nodup)
    (hn : ∀ p ∈ f, h0.length ≤ p ∧ p ∉ fs) :
    ∃ h' fs', hAppendUnique T l v h = (h', res (appendUnique eq as a).2) ∧
      OwnList P m h0 l sep own h' (appendUnique eq as a).1 fs' := by
  obtain ⟨xs, hx, ha⟩ := s.list
  have hc := own_cells hm hd s
  have h1 : hItems l h = (h, .ok xs) := by
    simp only [hItems, HM.reads, cellAt, hx]
    rfl
  unfold hAppendUnique
  rw [run_ok h1]
  have h2 := some_sim (heq h) (his _ _ _ _ hc hv) (each_are (fun v a f => his h v a f hc) ha)
  unfold appendUnique
  revert h2
  cases anyR (fun q => eq q a) as with
  | error e => intro h2; rw [run_error h2]; exact ⟨h, fs, rfl, s⟩
  | ok b =>
    intro h2
    rw [run_ok h2]
    cases b with
    | true => exact ⟨h, fs, rfl, s⟩
    | false =>
      obtain ⟨h', e', s'⟩ := own_push hframe hl0 s hv hf hn
      exact ⟨h', _, e', s'⟩

end

/-! ### Tables -/

theorem mkTable_sim {m : Mem} {h : Heap} (hm : Sub m (cells h)) {n a : Val} {x y : Obj} (sn : Is m n (.obj x))
    (sa : Is m a (.obj y)) :
    Makes (fun h' t tab => OwnTable h' m (.ref t) tab [t, h.length] ∧ t = h.length + 1 ∧ tab.joins = []) h
      (hMkTable n a) (mkTable x y) := by
  unfold Makes hMkTable mkTable
  have e1 := check_run hm [.str] sn
  have e2 := check_run hm [.none, .str] sa
  revert e1
  cases checkType [.str] x with
  | error e => intro e1; rw [run_error e1]; exact ⟨[], _, by rw [List.append_nil], .error _⟩
  | ok u =>
    intro e1
    rw [run_ok e1]
    revert e2
    cases checkType [.none, .str] y with
    | error e => intro e2; rw [run_error e2]; exact ⟨[], _, by rw [List.append_nil], .error _⟩
    | ok u =>
      intro e2
      rw [run_ok e2]
      refine ⟨[⟨.list, []⟩, ⟨.lib .table, [n, a, .ref h.length]⟩], .ok (h.length + 1), ?_, .ok ⟨?_, rfl, rfl⟩⟩
      · show ((h ++ [_]) ++ [_], _) = _
        simp
      · refine .mk (js := h.length) (xs := []) ?_ ?_ sn sa .nil
        · rw [get_append]; rfl
        · have := get_append (h := h) (ext := [⟨.list, []⟩, ⟨.lib .table, [n, a, .ref h.length]⟩]) (n := 0)
          exact this

theorem filter_truthy {m : Mem} {h : Heap} (hm : Sub m (cells h)) {vs : List Val} {xs : List Obj}
    (s : Batch m vs xs) : Batch m (vs.filter fun v => (shallow h v).truthy) (xs.filter Obj.truthy) := by
  induction are_map.mp s with
  | nil => exact .nil
  | @cons v x vs xs hv hr ih =>
    have ih := ih (are_map.mpr hr)
    rw [List.filter_cons, List.filter_cons, (like_shallow hm hv).truthy]
    split
    · exact .cons hv ih
    · exact ih

section
variable {T : Runtime} {cx : Ctx} {S : Sem} (hT : Faithful T cx S) {m : Mem} {h0 : Heap} {l : Nat} {sep : Val}
  {own : List Nat} (hl0 : l < h0.length) (hm : Sub m (cells h0)) (hd : ∀ p c, m p c → p ≠ l ∧ p ∉ own)
include hT hl0 hm hd

theorem tables_sim {a : HArgs} {b : Args} (s : ArgsAre m a b) {h : Heap} {ts : List Table} {fs : List Nat}
    (i : OwnList OwnTable m h0 l sep own h ts fs) :
    ∃ h' fs', hTables T l a h = (h', res (tablesSet cx S ts b).2) ∧
      OwnList OwnTable m h0 l sep own h' (tablesSet cx S ts b).1 fs' := by
  have hc := own_cells hm hd i
  unfold hTables tablesSet
  rw [kwSelf_sim s]
  split
  · exact ⟨h, fs, rfl, i⟩
  have e0 : (HM.reads fun h => .ok (a.pos.filter fun v => (shallow h v).truthy) : HM _) h =
      (h, .ok (a.pos.filter fun v => (shallow h v).truthy)) := rfl
  rw [run_ok e0]
  have s' : ArgsAre m { a with pos := a.pos.filter fun v => (shallow h v).truthy }
      { b with pos := b.pos.filter Obj.truthy } := ⟨filter_truthy hc s.pos, s.names, s.vals⟩
  obtain ⟨r, e3, hb⟩ := parseArgs_sim hT hc nameOpts rfl s'
  revert e3
  generalize parseArgs S nameOpts { b with pos := b.pos.filter Obj.truthy } = y at hb
  cases hb with
  | error er => intro e3; rw [run_error e3]; exact ⟨h, fs, rfl, i⟩
  | ok hb =>
    intro e3
    rw [run_ok e3]
    rw [withR_ok]
    have := each_sim (Inv := fun h ts => ∃ fs, OwnList OwnTable m h0 l sep own h ts fs)
      (f := fun b => do
        let t ← hMkTable (hPairOf b).1 (hPairOf b).2
        hAppendUnique T l (.ref t))
      (g := fun ts b => withR ts (mkTable (pairOf b).1 (pairOf b).2) fun t =>
        appendUnique (tableEq cx S) ts t) ?_ hb h ts ⟨fs, i⟩
    · obtain ⟨h', e, fs', i'⟩ := this
      exact ⟨h', fs', e, i'⟩
    rintro vs xs hv h' ts' ⟨fs', i'⟩
    obtain ⟨hp1, hp2⟩ := pairOf_sim hv
    obtain ⟨ext, r, e4, hb⟩ := mkTable_sim (own_cells hm hd i') hp1 hp2
    revert e4
    generalize mkTable (pairOf xs).1 (pairOf xs).2 = z at hb
    have hfr : ∀ h h' v a f, OwnTable h m v a f → SameAt f h h' → OwnTable h' m v a f :=
      fun _ _ _ _ _ a b => table_frame .rfl a b
    cases hb with
    | error er =>
      intro e4
      rw [run_error e4]
      exact ⟨_, rfl, fs', own_append hfr i' ext⟩
    | ok hw =>
      intro e4
      rw [run_ok e4]
      obtain ⟨hw, rfl, _⟩ := hw
      have hlt' : ∀ p ∈ fs', p < h'.length := by
        obtain ⟨_, _, he⟩ := i'.list
        exact each_mem (fun _ _ _ => table_lt) he
      obtain ⟨h2, fs2, e5, i5⟩ := own_appendUnique hfr (g := .table) hT.table
        (fun _ _ _ _ h h' => table_is h h') hm hd hl0 (own_append hfr i' ext) hw
        (by simp) (fun p hp => by
          have := i'.step.grows
          simp only [List.mem_cons, List.not_mem_nil, or_false] at hp
          refine ⟨by omega, fun hin => ?_⟩
          have := hlt' p hin
          omega)
      exact ⟨h2, e5, fs2, i5⟩

/-! ### Orders -/

omit hl0 hm hd in
theorem findOrder_sim (c : Val) (x y : Obj) {h : Heap} (hm : Sub m (cells h)) (hc : Is m c (.obj x))
    {xs : List Val} {os : List Order} {fs : List Nat} (e : Each (OwnOrder h m) xs os fs) (hn : fs.Nodup) :
    (∃ er, hFindOrder T c xs h = (h, .error er) ∧ orderPut cx S os x y = .error er) ∨
    (hFindOrder T c xs h = (h, .ok none) ∧
      orderPut cx S os x y = mkOrder cx x y >>= fun o => .ok (os ++ [o])) ∨
    (∃ p a d0, ∃ os' : Bool → List Order, hFindOrder T c xs h = (h, .ok (some p)) ∧ p ∈ fs ∧
      h[p]? = some ⟨.lib .order, [a, .atom (sortAtom d0)]⟩ ∧
      orderPut cx S os x y = (orderSort cx y >>= fun d => .ok (os' d)) ∧
      ∀ d, Each (OwnOrder (h.set p ⟨.lib .order, [a, .atom (sortAtom d)]⟩) m) xs (os' d) fs) := by
  induction e with
  | nil => right; left; exact ⟨rfl, by unfold orderPut; rfl⟩
  | @cons v vs o os f fs h1 h2 ih =>
    cases h1 with
    | @mk p a d w hp ha =>
      have hnd := List.nodup_cons.mp (show (p :: fs).Nodup from hn)
      have e1 : (HM.reads fun h => cellAt h p : HM _) h = (h, .ok ⟨.lib .order, [a, .atom (sortAtom d)]⟩) := by
        simp only [HM.reads, cellAt, hp]
      have e2 := hT.obj h a c w x (is_mono hm ha) (is_mono hm hc)
      unfold hFindOrder orderPut
      rw [run_ok e1]
      simp only [if_true, List.headD_cons]
      revert e2
      cases S.eq w x with
      | error er => intro e2; left; rw [run_error e2]; exact ⟨er, rfl, rfl⟩
      | ok b =>
        intro e2
        rw [run_ok e2]
        cases b with
        | true =>
          right; right
          refine ⟨p, a, d, fun d => ⟨w, d⟩ :: os, rfl, by simp, hp, ?_, fun d' => ?_⟩
          · show (orderSort cx y >>= fun d => _) = _
            cases orderSort cx y <;> rfl
          · refine .cons (.mk (by rw [List.getElem?_set_self (some_lt hp)]) ha) ?_
            refine each_imp h2 fun v o g hg hin => order_frame .rfl hg fun q hq c hc => ?_
            have hne : p ≠ q := fun e => hnd.1 (e ▸ hin q hq)
            rw [List.getElem?_set_ne hne]
            exact hc
        | false =>
          simp only [Bool.false_eq_true, if_false, ok_bind]
          rcases ih hnd.2 with ⟨er, e3, e4⟩ | ⟨e3, e4⟩ | ⟨q, a', d0, os', e3, hq, hq', e4, he⟩
          · left; exact ⟨er, e3, by rw [e4]; rfl⟩
          · right; left
            refine ⟨e3, ?_⟩
            rw [e4]
            cases mkOrder cx x y <;> rfl
          · right; right
            refine ⟨q, a', d0, fun d' => ⟨w, d⟩ :: os' d', e3, by simp [hq], hq', ?_, fun d' => ?_⟩
            · rw [e4]
              cases orderSort cx y <;> rfl
            · refine .cons (.mk ?_ ha) (he d')
              have hne : q ≠ p := fun e => hnd.1 (e ▸ hq)
              rw [List.getElem?_set_ne hne]
              exact hp

theorem orderPut_sim {c v : Val} {x y : Obj} (hc : Is m c (.obj x)) (hv : Is m v (.obj y)) {h : Heap}
    {os : List Order} {fs : List Nat} (i : OwnList OwnOrder m h0 l sep own h os fs) :
    match orderPut cx S os x y with
    | .error e => ∃ h', hOrderPut T cx l c v h = (h', .error e) ∧ OwnList OwnOrder m h0 l sep own h' os fs
    | .ok os' => ∃ h' fs', hOrderPut T cx l c v h = (h', .ok ()) ∧ OwnList OwnOrder m h0 l sep own h' os' fs' := by
  have hcl := own_cells hm hd i
  obtain ⟨xs, hx, ha⟩ := i.list
  have h1 : hItems l h = (h, .ok xs) := by
    simp only [hItems, HM.reads, cellAt, hx]
    rfl
  have hsort : hSort cx v h = (h, orderSort cx y >>= fun d => .ok (.atom (sortAtom d))) := by
    simp only [hSort, HM.reads, (like_shallow hcl hv).sort]
    rfl
  have hfr : ∀ h h' v a f, OwnOrder h m v a f → SameAt f h h' → OwnOrder h' m v a f :=
    fun _ _ _ _ _ a b => order_frame .rfl a b
  unfold hOrderPut
  rw [run_ok h1]
  rcases findOrder_sim hT c x y hcl hc ha (List.nodup_cons.mp i.nodup).2 with
    ⟨er, e3, e4⟩ | ⟨e3, e4⟩ | ⟨p, a, d0, os', e3, hp, hp', e4, he⟩
  · rw [e4, run_error e3]
    exact ⟨h, rfl, i⟩
  · rw [e4, run_ok e3]
    unfold mkOrder
    have e5 := check_run hcl [.str, .int] hc
    dsimp only
    revert e5
    cases checkType [.str, .int] x with
    | error e => intro e5; rw [run_error e5]; exact ⟨h, rfl, i⟩
    | ok u =>
      intro e5
      rw [run_ok e5]
      revert hsort
      cases orderSort cx y with
      | error e => intro e6; rw [run_error e6]; exact ⟨h, rfl, i⟩
      | ok d =>
        intro e6
        rw [run_ok e6]
        have e7 : HM.alloc (.lib .order) [c, .atom (sortAtom d)] h =
          (h ++ [⟨.lib .order, [c, .atom (sortAtom d)]⟩], .ok h.length) := rfl
        rw [run_ok e7]
        have hlt' : ∀ p ∈ fs, p < h.length := each_mem (fun _ _ _ => order_lt) ha
        obtain ⟨h2, e8, i8⟩ := own_push hfr hl0 (own_append hfr i _)
          (OwnOrder.mk (get_new h _) hc) (by simp) (fun p hp => by
            have := i.step.grows
            simp only [List.mem_singleton] at hp
            refine ⟨by omega, fun hin => ?_⟩
            have := hlt' p hin
            omega)
        exact ⟨h2, _, e8, i8⟩
  · rw [e4, run_ok e3]
    dsimp only
    revert hsort
    cases orderSort cx y with
    | error e => intro e6; rw [run_error e6]; exact ⟨h, rfl, i⟩
    | ok d =>
      intro e6
      rw [run_ok e6]
      refine ⟨h.set p ⟨.lib .order, [a, .atom (sortAtom d)]⟩, fs, ?_, ?_, ⟨xs, ?_, he d⟩, i.nodup, i.fresh⟩
      · unfold HM.modify
        simp only [hp']
        rfl
      · refine ⟨by simpa using i.step.grows, fun q c hq hne => ?_⟩
        have hpq : p ≠ q := by
          rintro rfl
          rcases i.fresh p hp with h' | h'
          · exact hne (.inr h')
          · have := some_lt hq
            omega
        rw [List.getElem?_set_ne hpq]
        exact i.step.same q c hq hne
      · have hpl : p ≠ l := fun e => (List.nodup_cons.mp i.nodup).1 (e ▸ hp)
        rw [List.getElem?_set_ne hpl]
        exact hx

theorem orders_sim {a : HArgs} {b : Args} (s : ArgsAre m a b) {h : Heap} {os : List Order} {fs : List Nat}
    (i : OwnList OwnOrder m h0 l sep own h os fs) :
    ∃ h' fs', hOrders T cx l a h = (h', res (ordersAdd cx S os b).2) ∧
      OwnList OwnOrder m h0 l sep own h' (ordersAdd cx S os b).1 fs' := by
  have hc := own_cells hm hd i
  unfold hOrders ordersAdd
  rw [kwSelf_sim s]
  split
  · exact ⟨h, fs, rfl, i⟩
  obtain ⟨r, e3, hb⟩ := parseArgs_sim hT hc nameOpts rfl s
  revert e3
  generalize parseArgs S nameOpts b = y at hb
  cases hb with
  | error er => intro e3; rw [run_error e3]; exact ⟨h, fs, rfl, i⟩
  | ok hb =>
    intro e3
    rw [run_ok e3]
    rw [withR_ok]
    have := each_sim (Inv := fun h os => ∃ fs, OwnList OwnOrder m h0 l sep own h os fs)
      (f := fun b => hOrderPut T cx l (hPairOf b).1 (hPairOf b).2)
      (g := fun os b => withR os (orderPut cx S os (pairOf b).1 (pairOf b).2) fun r => (r, none)) ?_ hb h os ⟨fs, i⟩
    · obtain ⟨h', e, fs', i'⟩ := this
      exact ⟨h', fs', e, i'⟩
    rintro vs xs hv h' os' ⟨fs', i'⟩
    obtain ⟨hp1, hp2⟩ := pairOf_sim hv
    have := orderPut_sim hT hl0 hm hd hp1 hp2 i'
    revert this
    cases orderPut cx S os' (pairOf xs).1 (pairOf xs).2 with
    | error e => rintro ⟨h2, e2, i2⟩; exact ⟨h2, e2, fs', i2⟩
    | ok r => rintro ⟨h2, fs2, e2, i2⟩; exact ⟨h2, e2, fs2, i2⟩

end

end SqlPuzzle.Refine
