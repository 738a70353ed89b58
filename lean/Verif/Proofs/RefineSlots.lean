import Verif.Proofs.RefineQuery

/-! Programs on the parts of a query. -/

namespace SqlPuzzle.Refine
open SqlPuzzle SqlPuzzle.Spec

/-- A program on the list of a part. -/
def onL (f : Nat → HM Unit) : Nat → HM Unit := fun p h =>
  match listAt h p with
  | .error e => (h, .error e)
  | .ok l => f l h

theorem onList_eq (q : Nat) (s : Slot) (f : Nat → HM Unit) : onList q s f = onPart q s (onL f) := rfl

theorem Post.rfl {m : Mem} {h v f x} (s : OwnPart h m v x f) (hn : f.Nodup) : Post m h v f h x :=
  ⟨m, f, s, hn, .rfl, fun _ hp => .inl hp, fun _ _ hp => .inl hp⟩

/-- What is known of a part before a program runs on it. -/
structure Ready (m : Mem) (h : Heap) (p : Nat) (x : Part) (f : List Nat) : Prop where
  own : OwnPart h m (.ref p) x f
  nodup : f.Nodup
  sub : Sub m (cells h)
  apart : ∀ a c, m a c → a ∉ f

theorem part_done {h : Heap} {q : Nat} {o : Obj} {own : List Nat} (H : Holds h q o own) {k : Lib}
    {ps : List (Str × Part)} {more : List Val} (ho : queryParts o = some (k, ps, more)) {s : Slot} {i : Nat}
    {n : Str} {x : Part} (hs : slotOf k s = some (i + 1)) (hx : ps[i]? = some (n, x)) {x' : Part}
    {e : Option Err} {o' : Obj} (ho' : queryParts o' = some (k, ps.set i (n, x'), more)) {prog : Nat → HM Unit}
    (hp : ∀ p f, Ready (outside (· ∈ own) h) h p x f →
      ∃ h', prog p h = (h', res e) ∧ Post (outside (· ∈ own) h) h (.ref p) f h' x') :
    Done q h own (onPart q s prog h) o' e := by
  obtain ⟨p, f, h1, h2, h3, h4, h5⟩ := slot_sim H ho hs hx
  obtain ⟨h', e1, h6⟩ := hp p f ⟨h2, h3, outside_cells _ _, fun a c ha hf => ha.2 (h4 a hf)⟩
  obtain ⟨own', h7, h8⟩ := h5 h' x' o' h6 ho'
  refine ⟨h', own', ?_, h7, h8⟩
  simp only [onPart, h1, e1]

/-! ### Parts with a list of things they refer to -/

theorem list_post {α : Type} {g : α → Thing} {m : Mem} {h : Heap} {p l : Nat} {sep : Val} {h' : Heap}
    {as : List α} {x : Part} {c : Cell} (hp : h[p]? = some c) (hl : l < h.length) (hne : p ≠ l)
    (mk : ∀ xs, h'[p]? = some c → h'[l]? = some ⟨.lib .listOfParts, sep :: xs⟩ → Are (plus m h h') xs (as.map g) →
      OwnPart h' (plus m h h') (.ref p) x [p, l])
    (i : ListAt g m h l sep h' as) : Post m h (.ref p) [p, l] h' x := by
  obtain ⟨xs, hx, ha⟩ := i.list
  refine ⟨plus m h h', [p, l], mk xs (i.step.same p c hp hne) hx ha, by simp [hne],
    i.step.weaken (by rintro a rfl; simp), fun a ha => .inl ha, ?_⟩
  rintro a c (hc | ⟨h1, h2⟩)
  · exact .inl hc
  · refine .inr ⟨h1, ?_, h2⟩
    have := some_lt hp
    simp only [List.mem_cons, List.not_mem_nil, or_false, not_or]
    omega

theorem listAt_start {α : Type} {g : α → Thing} {m : Mem} {h : Heap} {l : Nat} {sep : Val} {xs : List Val}
    {as : List α} (hl : h[l]? = some ⟨.lib .listOfParts, sep :: xs⟩) (hx : Are m xs (as.map g)) :
    ListAt g m h l sep h as := ⟨.rfl, xs, hl, are_mono sub_plus hx⟩

theorem onL_run {h : Heap} {p l : Nat} {k : Lib} {xs ys : List Val} (hk : k.keeps 0 = true)
    (hp : h[p]? = some ⟨.lib k, .ref l :: xs⟩) (hl : h[l]? = some ⟨.lib .listOfParts, ys⟩) (f : Nat → HM Unit) :
    onL f p h = f l h := by
  simp only [onL, listAt_run hk hp hl]

section
variable {T : Runtime} {cx : Ctx} {S : Sem} (hT : Faithful T cx S) {m : Mem} {h : Heap} {p : Nat}
  {f : List Nat}
include hT

theorem conds_post {k : Lib} (hk : k.keeps 0 = true) {cs : List Cond} (r : Ready m h p (.conds k cs) f)
    {a : HArgs} {b : Args} (s : ArgsAre m a b) :
    ∃ h', onL (fun l => hWhere T false l a) p h = (h', res (condsWhere cx S false cs b).2) ∧
      Post m h (.ref p) f h' (.conds k (condsWhere cx S false cs b).1) := by
  obtain ⟨hown, hnd, hm, hap⟩ := r
  cases hown with
  | @conds _ _ l sep xs _ hp hl hx =>
    rw [onL_run hk hp hl]
    obtain ⟨h', e, i⟩ := where_sim hT (some_lt hl) hm (fun c hc => hap l c hc (by simp)) false s
      (listAt_start hl hx)
    exact ⟨h', e, list_post hp (some_lt hl) (by simpa using hnd) (fun _ a b c => .conds a b c) i⟩

theorem columns_post {cs : List Column} (r : Ready m h p (.columns cs) f)
    {a : HArgs} {b : Args} (s : ArgsAre m a b) :
    ∃ h', onL (fun l => hColumns T l a) p h = (h', res (columnsAdd S cs b).2) ∧
      Post m h (.ref p) f h' (.columns (columnsAdd S cs b).1) := by
  obtain ⟨hown, hnd, hm, hap⟩ := r
  cases hown with
  | @columns _ l sep xs _ hp hl hx =>
    rw [onL_run rfl hp hl]
    obtain ⟨h', e, i⟩ := columns_sim hT (some_lt hl) hm (fun c hc => hap l c hc (by simp)) s
      (listAt_start hl hx)
    exact ⟨h', e, list_post hp (some_lt hl) (by simpa using hnd) (fun _ a b c => .columns a b c) i⟩

theorem values_post {k : Lib} (hk : k.keeps 0 = true) {cs : List Value} (r : Ready m h p (.values k cs) f)
    {a : HArgs} {b : Args} (s : ArgsAre m a b) :
    ∃ h', onL (fun l => hValues T l a) p h = (h', res (valuesSet cx S cs b).2) ∧
      Post m h (.ref p) f h' (.values k (valuesSet cx S cs b).1) := by
  obtain ⟨hown, hnd, hm, hap⟩ := r
  cases hown with
  | @values _ _ l sep xs _ hp hl hx =>
    rw [onL_run hk hp hl]
    obtain ⟨h', e, i⟩ := values_sim hT (some_lt hl) hm (fun c hc => hap l c hc (by simp)) s
      (listAt_start hl hx)
    exact ⟨h', e, list_post hp (some_lt hl) (by simpa using hnd) (fun _ a b c => .values a b c) i⟩

theorem rows_post {rs : List (List Value)} (r : Ready m h p (.rows rs) f)
    {a : HArgs} {b : Args} (s : ArgsAre m a b) :
    ∃ h', onL (fun l => hRows T l a) p h = (h', res (rowsAdd cx S rs b).2) ∧
      Post m h (.ref p) f h' (.rows (rowsAdd cx S rs b).1) := by
  obtain ⟨hown, hnd, hm, hap⟩ := r
  cases hown with
  | @rows _ l sep xs _ hp hl hx =>
    rw [onL_run rfl hp hl]
    obtain ⟨h', e, i⟩ := rows_sim hT (some_lt hl) hm s (listAt_start hl hx)
    exact ⟨h', e, list_post hp (some_lt hl) (by simpa using hnd) (fun _ a b c => .rows a b c) i⟩

end

/-! ### Parts with a list of objects of their own -/

theorem own_post {α : Type} {P : Heap → Mem → Val → α → List Nat → Prop} {m m' : Mem} {h : Heap} {p l : Nat}
    {sep : Val} {fs : List Nat} {h' : Heap} {as : List α} {fs' : List Nat} {x : Part} {c : Cell}
    (hp : h[p]? = some c) (hn : (p :: l :: fs).Nodup)
    (mk : ∀ xs, h'[p]? = some c → h'[l]? = some ⟨.lib .listOfParts, sep :: xs⟩ → Each (P h' m') xs as fs' →
      OwnPart h' m' (.ref p) x (p :: l :: fs'))
    (hm : ∀ a c, m' a c → m a c ∨ (h.length ≤ a ∧ a ∉ p :: l :: fs' ∧ h'[a]? = some c))
    (i : OwnList P m' h l sep fs h' as fs') : Post m h (.ref p) (p :: l :: fs) h' x := by
  obtain ⟨xs, hx, ha⟩ := i.list
  have hp' : ¬ (p = l ∨ p ∈ fs) := by simpa using (List.nodup_cons.mp hn).1
  have hlt := some_lt hp
  refine ⟨m', p :: l :: fs', mk xs (i.step.same p c hp hp') hx ha, ?_,
    i.step.weaken (by rintro a (rfl | h1) <;> simp_all), ?_, hm⟩
  · refine List.nodup_cons.mpr ⟨?_, i.nodup⟩
    intro h1
    rcases List.mem_cons.mp h1 with h1 | h1
    · exact hp' (.inl h1)
    · rcases i.fresh p h1 with h2 | h2
      · exact hp' (.inr h2)
      · omega
  · intro a ha
    rcases List.mem_cons.mp ha with rfl | ha
    · simp
    rcases List.mem_cons.mp ha with rfl | ha
    · simp
    exact (i.fresh a ha).imp_left fun h1 => by simp [h1]

theorem ownList_start {α : Type} {P : Heap → Mem → Val → α → List Nat → Prop} {m : Mem} {h : Heap} {l : Nat}
    {sep : Val} {xs : List Val} {fs : List Nat} {as : List α}
    (hl : h[l]? = some ⟨.lib .listOfParts, sep :: xs⟩) (hx : Each (P h m) xs as fs) (hn : (l :: fs).Nodup) :
    OwnList P m h l sep fs h as fs := ⟨.rfl, ⟨xs, hl, hx⟩, hn, fun _ hp => .inl hp⟩

section
variable {T : Runtime} {cx : Ctx} {S : Sem} (hT : Faithful T cx S) {m : Mem} {h : Heap} {p : Nat}
  {f : List Nat}
include hT

theorem orders_post {k : Lib} (hk : k.keeps 0 = true) {os : List Order} (r : Ready m h p (.orders k os) f)
    {a : HArgs} {b : Args} (s : ArgsAre m a b) :
    ∃ h', onL (fun l => hOrders T cx l a) p h = (h', res (ordersAdd cx S os b).2) ∧
      Post m h (.ref p) f h' (.orders k (ordersAdd cx S os b).1) := by
  obtain ⟨hown, hnd, hm, hap⟩ := r
  cases hown with
  | @orders _ _ l sep xs _ fs hp hl hx =>
    rw [onL_run hk hp hl]
    have hn := (List.nodup_cons.mp hnd).2
    obtain ⟨h', fs', e, i⟩ := orders_sim hT (some_lt hl) hm
      (fun a c ha => by have := hap a c ha; simp only [List.mem_cons, not_or] at this; exact this.2) s
      (ownList_start hl hx hn)
    exact ⟨h', e, own_post hp hnd (fun _ a b c => .orders a b c) (fun _ _ h => .inl h) i⟩

theorem tables_post {k : Lib} (hk : k.keeps 0 = true) {ts : List Table} (r : Ready m h p (.tables k ts) f)
    {a : HArgs} {b : Args} (s : ArgsAre m a b) :
    ∃ h', onL (fun l => hTables T l a) p h = (h', res (tablesSet cx S ts b).2) ∧
      Post m h (.ref p) f h' (.tables k (tablesSet cx S ts b).1) := by
  obtain ⟨hown, hnd, hm, hap⟩ := r
  cases hown with
  | @tables _ _ l sep xs _ fs hp hl hx =>
    rw [onL_run hk hp hl]
    have hn := (List.nodup_cons.mp hnd).2
    obtain ⟨h', fs', e, i⟩ := tables_sim hT (some_lt hl) hm
      (fun a c ha => by have := hap a c ha; simp only [List.mem_cons, not_or] at this; exact this.2) s
      (ownList_start hl hx hn)
    exact ⟨h', e, own_post hp hnd (fun _ a b c => .tables a b c) (fun _ _ h => .inl h) i⟩

/-- `from_table(table, alias)`: a tuple is made first. -/
theorem fromTable_post {k : Lib} (hk : k.keeps 0 = true) {ts : List Table} (r : Ready m h p (.tables k ts) f)
    {t al : Val} {x y : Obj} (s1 : Is m t (.obj x)) (s2 : Is m al (.obj y)) :
    ∃ h', onL (fun l => HM.andThen (HM.alloc .tuple [t, al]) fun p => hTables T l { pos := [.ref p] }) p h =
        (h', res (tablesSet cx S ts { pos := [.tuple [x, y]] }).2) ∧
      Post m h (.ref p) f h' (.tables k (tablesSet cx S ts { pos := [.tuple [x, y]] }).1) := by
  obtain ⟨hown, hnd, hm, hap⟩ := r
  have hown' := hown
  cases hown with
  | @tables _ _ l sep xs _ fs hp hl hx =>
    rw [onL_run hk hp hl]
    have e0 : (HM.andThen (HM.alloc .tuple [t, al]) fun p => hTables T l { pos := [.ref p] }) h =
        hTables T l { pos := [.ref h.length] } (h ++ [⟨.tuple, [t, al]⟩]) := rfl
    rw [e0]
    generalize hh1 : h ++ [⟨.tuple, [t, al]⟩] = h1
    have hst : Step (fun _ => False) h h1 := by rw [← hh1]; exact .append _
    have hnew : h1[h.length]? = some ⟨.tuple, [t, al]⟩ := by rw [← hh1]; exact get_new _ _
    have hlen : h1.length = h.length + 1 := by rw [← hh1]; simp
    have hm1 : Sub (plus m h h1) (cells h1) := plus_cells hm (fun _ _ _ h => h) hst
    have hap1 : ∀ a c, plus m h h1 a c → a ∉ p :: l :: fs := by
      rintro a c (ha | ⟨ha, _⟩)
      · exact hap a c ha
      · intro h2
        have := part_lt hown' a h2
        omega
    have hsub : Sub m (plus m h h1) := sub_plus
    have s : ArgsAre (plus m h h1) { pos := [.ref h.length] } { pos := [.tuple [x, y]] } :=
      ⟨.cons (.tuple (.inr ⟨Nat.le_refl _, hnew⟩)
        (.cons (is_mono hsub s1) (.cons (is_mono hsub s2) .nil))) .nil, rfl, .nil⟩
    have hn := (List.nodup_cons.mp hnd).2
    have hf : SameAt (p :: l :: fs) h h1 := fun a _ c hc => hst.same a c hc id
    obtain ⟨h', fs', e, i⟩ := tables_sim hT (some_lt (hf l (by simp) _ hl)) hm1
      (fun a c ha => by have := hap1 a c ha; simp only [List.mem_cons, not_or] at this; exact this.2) s
      (ownList_start (hf l (by simp) _ hl) (each_imp hx fun v a g hg hin => table_frame hsub hg fun b hb =>
        hf b (by simp [hin b hb])) hn)
    refine ⟨h', e, ?_⟩
    obtain ⟨m', f', q1, q2, q3, q4, q5⟩ := own_post (m := plus m h h1) (hf p (by simp) _ hp) hnd
      (x := .tables k (tablesSet cx S ts { pos := [.tuple [x, y]] }).1)
      (fun _ a b c => .tables a b c) (fun _ _ h => .inl h) i
    refine ⟨m', f', q1, q2, ⟨Nat.le_trans hst.grows q3.grows, fun a c ha hn => q3.same a c (hst.same a c ha id) hn⟩,
      fun a ha => (q4 a ha).imp_right fun h => by omega, fun a c ha => ?_⟩
    rcases q5 a c ha with (h2 | ⟨h2, h3⟩) | ⟨h2, h3, h4⟩
    · exact .inl h2
    · have ha' : a < h1.length := some_lt h3
      have hal : a = h.length := by omega
      have hnf : a ∉ p :: l :: fs := fun h5 => by have := part_lt hown' a h5; omega
      refine .inr ⟨h2, fun h5 => ?_, q3.same a c h3 hnf⟩
      rcases q4 a h5 with h6 | h6
      · exact hnf h6
      · omega
    · exact .inr ⟨by omega, h3, h4⟩

theorem join_post {k : Lib} (hk : k.keeps 0 = true) {ts : List Table} (r : Ready m h p (.tables k ts) f)
    (ty : JoinType) {v : Val} {x : Obj} (s : Is m v (.obj x)) (hx : ∀ n a, x ≠ .dict [(n, a)]) :
    ∃ h', hTablesJoin T cx p ty v h = (h', res (tablesJoin cx S ts ty x).2) ∧
      Post m h (.ref p) f h' (.tables k (tablesJoin cx S ts ty x).1) := by
  obtain ⟨hown, hnd, hm, hap⟩ := r
  cases hown with
  | @tables _ _ l sep xs _ fs hp hl hx' =>
    obtain ⟨h', fs', e, i⟩ := tablesJoin_sim hT hm hk hp ty s hx
      (ownList_start hl hx' (List.nodup_cons.mp hnd).2)
    exact ⟨h', e, own_post hp hnd (fun _ a b c => .tables a b c) (fun _ _ h => .inl h) i⟩

theorem on_post {k : Lib} (hk : k.keeps 0 = true) {ts : List Table} (r : Ready m h p (.tables k ts) f)
    {a : HArgs} {b : Args} (s : ArgsAre m a b) :
    ∃ h', hTablesOn T p a h = (h', res (tablesOn cx S ts b).2) ∧
      Post m h (.ref p) f h' (.tables k (tablesOn cx S ts b).1) := by
  obtain ⟨hown, hnd, hm, hap⟩ := r
  have hlt := part_lt hown
  cases hown with
  | @tables _ _ l sep xs _ fs hp hl hx' =>
    obtain ⟨h', e, i⟩ := tablesOn_sim hT hm hk hp s
      (fun a c ha => by have := hap a c ha; simp only [List.mem_cons, not_or] at this; exact this.2.2)
      (ownList_start hl hx' (List.nodup_cons.mp hnd).2)
    refine ⟨h', e, own_post hp hnd (fun _ a b c => .tables a b c) ?_ i⟩
    rintro a c (ha | ⟨ha, hb⟩)
    · exact .inl ha
    · exact .inr ⟨ha, fun h2 => by have := hlt a h2; omega, hb⟩

end

end SqlPuzzle.Refine
