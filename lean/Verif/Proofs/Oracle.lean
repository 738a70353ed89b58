import Verif.Proofs.ShowsDet
import Verif.Proofs.Basic
import Verif.Proofs.Sort

/-! There are comparison, rendering and sorting of objects in memory that do what the functional model
says. -/

namespace SqlPuzzle.Refine
open SqlPuzzle SqlPuzzle.Spec

theorem cells_det (h : Heap) : ∀ p c d, cells h p c → cells h p d → c = d := by
  intro p c d h1 h2
  have : some c = some d := h1.symm.trans h2
  injection this

section
variable {h : Heap} {v : Val}

theorem obj_det {x y : Obj} (h1 : Is (cells h) v (.obj x)) (h2 : Is (cells h) v (.obj y)) : x = y := by
  cases shows_det (cells_det h) h1 _ h2 trivial; rfl

theorem cond_det {x y : Cond} (h1 : Is (cells h) v (.cond x)) (h2 : Is (cells h) v (.cond y)) : x = y := by
  cases shows_det (cells_det h) h1 _ h2 trivial; rfl

theorem value_det {x y : Value} (h1 : Is (cells h) v (.value x)) (h2 : Is (cells h) v (.value y)) : x = y := by
  cases shows_det (cells_det h) h1 _ h2 trivial; rfl

theorem column_det {x y : Column} (h1 : Is (cells h) v (.column x)) (h2 : Is (cells h) v (.column y)) : x = y := by
  cases shows_det (cells_det h) h1 _ h2 trivial; rfl

theorem table_det {x y : Table} (h1 : Is (cells h) v (.table x)) (h2 : Is (cells h) v (.table y)) : x = y := by
  cases shows_det (cells_det h) h1 _ h2 trivial; rfl

/-- The class of an object that is only an item of a list. -/
theorem item_cls {m : Mem} (hf : ∀ p c d, m p c → m p d → c = d) {p : Nat} {k : Lib} {xs : List Val}
    (hp : m p ⟨.lib k, xs⟩) (hk : (match k with
      | .condition | .onCondition | .value | .column | .table => true | _ => false) = true) {o : Obj} :
    ¬ Is m (.ref p) (.obj o) := by
  intro hv
  obtain ⟨c, ys, _, h1, h2⟩ := obj_lib hv
  cases hf _ _ _ hp h1
  cases k <;> first | (cases hk; done) | exact h2

theorem value_cond {x : Cond} {y : Value} (h1 : Is (cells h) v (.cond x)) (h2 : Is (cells h) v (.value y)) :
    ∃ o, Is (cells h) v (.obj o) := by
  cases h1 with
  | condItem hv => exact ⟨_, hv⟩
  | @cond _ on _ _ _ _ _ _ hp =>
    cases h2 with
    | valueItem hv => exact ⟨_, hv⟩
    | value hp' => cases on <;> cases cells_det h _ _ _ hp hp'

theorem column_obj {x : Column} {o : Obj} (h1 : Is (cells h) v (.column x)) : ¬ Is (cells h) v (.obj o) := by
  cases h1 with
  | column hp => exact item_cls (cells_det h) hp rfl

theorem table_obj {x : Table} {o : Obj} (h1 : Is (cells h) v (.table x)) : ¬ Is (cells h) v (.obj o) := by
  cases h1 with
  | table hp => exact item_cls (cells_det h) hp rfl

theorem column_cond {x : Column} {y : Cond} (h1 : Is (cells h) v (.column x)) : ¬ Is (cells h) v (.cond y) := by
  intro h2
  cases h2 with
  | condItem hv => exact column_obj h1 hv
  | @cond _ on _ _ _ _ _ _ hp =>
    cases h1 with
    | column hp' => cases on <;> cases cells_det h _ _ _ hp hp'

theorem table_cond {x : Table} {y : Cond} (h1 : Is (cells h) v (.table x)) : ¬ Is (cells h) v (.cond y) := by
  intro h2
  cases h2 with
  | condItem hv => exact table_obj h1 hv
  | @cond _ on _ _ _ _ _ _ hp =>
    cases h1 with
    | table hp' => cases on <;> cases cells_det h _ _ _ hp hp'

theorem column_value {x : Column} {y : Value} (h1 : Is (cells h) v (.column x)) : ¬ Is (cells h) v (.value y) := by
  intro h2
  cases h2 with
  | valueItem hv => exact column_obj h1 hv
  | value hp =>
    cases h1 with
    | column hp' => cases cells_det h _ _ _ hp hp'

theorem table_value {x : Table} {y : Value} (h1 : Is (cells h) v (.table x)) : ¬ Is (cells h) v (.value y) := by
  intro h2
  cases h2 with
  | valueItem hv => exact table_obj h1 hv
  | value hp =>
    cases h1 with
    | table hp' => cases cells_det h _ _ _ hp hp'

theorem table_column {x : Table} {y : Column} (h1 : Is (cells h) v (.table x)) : ¬ Is (cells h) v (.column y) := by
  intro h2
  cases h2 with
  | column hp =>
    cases h1 with
    | table hp' => cases cells_det h _ _ _ hp hp'

end

/-! ### Sorting looks at the keys only -/

theorem insertBy_map {α β : Type} (g : α → β) (le : α → α → Bool) (le' : β → β → Bool)
    (hle : ∀ a b, le' (g a) (g b) = le a b) (x : α) (xs : List α) :
    insertBy le' (g x) (xs.map g) = (insertBy le x xs).map g := by
  induction xs with
  | nil => rfl
  | cons y ys ih =>
    simp only [List.map_cons, insertBy, hle]
    split
    · rfl
    · rw [List.map_cons, ih]

theorem sortBy_map {α β : Type} (g : α → β) (le : α → α → Bool) (le' : β → β → Bool)
    (hle : ∀ a b, le' (g a) (g b) = le a b) (xs : List α) :
    sortBy le' (xs.map g) = (sortBy le xs).map g := by
  induction xs with
  | nil => rfl
  | cons x xs ih => simp only [List.map_cons, sortBy, ih, insertBy_map g le le' hle]

section
variable (f : Obj × Obj → Obj × Obj) (hf : ∀ p, (f p).1 = p.1)

theorem textKeys_map (xs : List (SortKey × (Obj × Obj))) :
    textKeys (xs.map fun p => (p.1, f p.2)) = (textKeys xs).map fun ts => ts.map fun p => (p.1, f p.2) := by
  induction xs with
  | nil => rfl
  | cons x xs ih =>
    obtain ⟨k, kv⟩ := x
    cases k with
    | text s =>
      simp only [List.map_cons, textKeys, ih]
      cases textKeys xs <;> rfl
    | num i => rfl

theorem numKeys_map (xs : List (SortKey × (Obj × Obj))) :
    numKeys (xs.map fun p => (p.1, f p.2)) = (numKeys xs).map fun ts => ts.map fun p => (p.1, f p.2) := by
  induction xs with
  | nil => rfl
  | cons x xs ih =>
    obtain ⟨k, kv⟩ := x
    cases k with
    | num s =>
      simp only [List.map_cons, numKeys, ih]
      cases numKeys xs <;> rfl
    | text i => rfl

include hf

theorem keys_map (S : Sem) (xs : List (Obj × Obj)) :
    mapR (fun kv => do
      let k ← sortKey S kv.1
      .ok (k, kv)) (xs.map f) =
    (mapR (fun kv => do
      let k ← sortKey S kv.1
      .ok (k, kv)) xs).map fun ks => ks.map fun p => (p.1, f p.2) := by
  induction xs with
  | nil => rfl
  | cons x xs ih =>
    simp only [List.map_cons, mapR_cons, ih, hf]
    cases sortKey S x.1 with
    | error e => rfl
    | ok k =>
      simp only [ok_bind]
      cases mapR (fun kv => do
        let k ← sortKey S kv.1
        .ok (k, kv)) xs <;> rfl

theorem sortItems_map (S : Sem) (xs : List (Obj × Obj)) :
    sortItems S (xs.map f) = (sortItems S xs).map (List.map f) := by
  unfold sortItems
  rw [List.length_map]
  split
  · rfl
  rw [keys_map f hf]
  cases mapR (fun kv => do
      let k ← sortKey S kv.1
      .ok (k, kv)) xs with
  | error e => rfl
  | ok ks =>
    simp only [Except.map, ok_bind]
    rw [textKeys_map]
    cases textKeys ks with
    | some ts =>
      simp only [Option.map_some]
      rw [List.map_map, show (Prod.fst ∘ fun p : Str × (Obj × Obj) => (p.1, f p.2)) = Prod.fst from rfl]
      split
      · rw [sortBy_map (fun p : Str × (Obj × Obj) => (p.1, f p.2)) (fun a b => strLe a.1 b.1) _ (fun _ _ => rfl)]
        dsimp only
        rw [List.map_map, List.map_map]
        rfl
      · rfl
    | none =>
      simp only [Option.map_none]
      rw [numKeys_map]
      cases numKeys ks with
      | some ts =>
        simp only [Option.map_some]
        rw [sortBy_map (fun p : Int × (Obj × Obj) => (p.1, f p.2)) (fun a b => decide (a.1 ≤ b.1)) _ (fun _ _ => rfl)]
        rw [List.map_map, List.map_map]
        rfl
      | none => rfl

end

theorem sortItems_mem {S : Sem} {xs ys : List (Obj × Obj)} (h : sortItems S xs = .ok ys) : ∀ y ∈ ys, y ∈ xs := by
  unfold sortItems at h
  split at h
  · cases h; exact fun _ h => h
  obtain ⟨ks, h1, h2⟩ := bind_ok.mp h
  have hk : ∀ k ∈ ks, k.2 ∈ xs := by
    rename_i hlen
    clear h h2 hlen
    induction xs generalizing ks with
    | nil => cases h1; simp
    | cons x xs ih =>
      rw [mapR_cons] at h1
      obtain ⟨k, e1, h1⟩ := bind_ok.mp h1
      obtain ⟨ks', e2, h1⟩ := bind_ok.mp h1
      cases h1
      obtain ⟨k', _, e1⟩ := bind_ok.mp e1
      cases e1
      intro j hj
      rcases List.mem_cons.mp hj with rfl | hj
      · exact List.mem_cons_self
      · exact List.mem_cons_of_mem _ (ih _ e2 j hj)
  have ht : ∀ {ks ts}, textKeys ks = some ts → ∀ t ∈ ts, ∃ k ∈ ks, k.2 = t.2 := by
    intro ks
    induction ks with
    | nil => intro ts e; cases e; simp
    | cons k ks ih =>
      intro ts e t htm
      obtain ⟨k, kv⟩ := k
      cases k with
      | num => cases e
      | text s =>
        unfold textKeys at e
        cases e2 : textKeys ks with
        | none => rw [e2] at e; cases e
        | some ts' =>
          rw [e2] at e
          cases e
          rcases List.mem_cons.mp htm with rfl | htm
          · exact ⟨_, List.mem_cons_self, rfl⟩
          · obtain ⟨j, hj, hj'⟩ := ih e2 t htm
            exact ⟨j, List.mem_cons_of_mem _ hj, hj'⟩
  have hn : ∀ {ks ts}, numKeys ks = some ts → ∀ t ∈ ts, ∃ k ∈ ks, k.2 = t.2 := by
    intro ks
    induction ks with
    | nil => intro ts e; cases e; simp
    | cons k ks ih =>
      intro ts e t htm
      obtain ⟨k, kv⟩ := k
      cases k with
      | text => cases e
      | num s =>
        unfold numKeys at e
        cases e2 : numKeys ks with
        | none => rw [e2] at e; cases e
        | some ts' =>
          rw [e2] at e
          cases e
          rcases List.mem_cons.mp htm with rfl | htm
          · exact ⟨_, List.mem_cons_self, rfl⟩
          · obtain ⟨j, hj, hj'⟩ := ih e2 t htm
            exact ⟨j, List.mem_cons_of_mem _ hj, hj'⟩
  intro y hy
  cases e : textKeys ks with
  | some ts =>
    rw [e] at h2
    dsimp only at h2
    split at h2
    · cases h2
      obtain ⟨t, h3, rfl⟩ := List.mem_map.mp hy
      obtain ⟨k, h4, h5⟩ := ht e t ((sortBy_perm _ _).mem_iff.mp h3)
      rw [← h5]; exact hk k h4
    · cases h2
  | none =>
    rw [e] at h2
    dsimp only at h2
    cases e2 : numKeys ks with
    | some ts =>
      rw [e2] at h2
      cases h2
      obtain ⟨t, h3, rfl⟩ := List.mem_map.mp hy
      obtain ⟨k, h4, h5⟩ := hn e2 t ((sortBy_perm _ _).mem_iff.mp h3)
      rw [← h5]; exact hk k h4
    | none => rw [e2] at h2; cases h2

/-! ### The runtime -/

/-- The keys with their positions. -/
def indexed (ps : List (Obj × Obj)) : List (Obj × Obj) := ps.zipIdx.map fun p => (p.1.1, .int p.2)

/-- The entry at the position. -/
def entryAt {α : Type} (kvs : List α) (p : Obj × Obj) : Option α :=
  match p.2 with
  | .int i => kvs[i.toNat]?
  | _ => none

theorem indexed_mem {ps : List (Obj × Obj)} {p : Obj × Obj} (h : p ∈ indexed ps) :
    ∃ (i : Nat) (q : Obj × Obj), ps[i]? = some q ∧ p = (q.1, .int i) := by
  obtain ⟨⟨q, i⟩, h1, rfl⟩ := List.mem_map.mp h
  exact ⟨i, q, List.mem_zipIdx_iff_getElem?.mp h1, rfl⟩

def fillIn (ps : List (Obj × Obj)) (p : Obj × Obj) : Obj × Obj :=
  (p.1, ((entryAt ps p).map Prod.snd).getD .none)

theorem indexed_fill (ps : List (Obj × Obj)) : (indexed ps).map (fillIn ps) = ps := by
  apply List.ext_getElem
  · simp [indexed]
  · intro i h1 h2
    simp only [indexed, List.getElem_map, List.getElem_zipIdx, fillIn, entryAt]
    simp [h2]

open Classical in
/-- Comparison, rendering and sorting by the values of the objects. -/
noncomputable def oracle (cx : Ctx) (S : Sem) : Runtime where
  eq a b h := (h,
    if H : ∃ p : Obj × Obj, Is (cells h) a (.obj p.1) ∧ Is (cells h) b (.obj p.2) then
      S.eq H.choose.1 H.choose.2
    else if H : ∃ p : Cond × Cond, Is (cells h) a (.cond p.1) ∧ Is (cells h) b (.cond p.2) then
      condEq cx S H.choose.1 H.choose.2
    else if H : ∃ p : Value × Value, Is (cells h) a (.value p.1) ∧ Is (cells h) b (.value p.2) then
      valueEq cx S H.choose.1 H.choose.2
    else if H : ∃ p : Column × Column, Is (cells h) a (.column p.1) ∧ Is (cells h) b (.column p.2) then
      columnEq S H.choose.1 H.choose.2
    else if H : ∃ p : Table × Table, Is (cells h) a (.table p.1) ∧ Is (cells h) b (.table p.2) then
      tableEq cx S H.choose.1 H.choose.2
    else .error .unmodelled)
  str a h := (h,
    if H : ∃ x : Obj, Is (cells h) a (.obj x) then
      if H.choose.isSql then S.str H.choose else .ok []
    else .error .unmodelled)
  sort kvs h := (h,
    if H : ∃ ps, PairsAre (cells h) kvs ps then
      (sortItems S (indexed H.choose)).map fun r => r.filterMap (entryAt kvs)
    else .error .unmodelled)

theorem pairs_det {h : Heap} {kvs : List (Val × Val)} {ps qs : List (Obj × Obj)} (h1 : PairsAre (cells h) kvs ps)
    (h2 : PairsAre (cells h) kvs qs) : ps = qs := by
  unfold PairsAre at h1 h2
  induction h1 generalizing qs with
  | nil => cases h2; rfl
  | cons a _ ih =>
    cases h2 with
    | cons b h2 => rw [ih h2, Prod.ext (obj_det a.1 b.1) (obj_det a.2 b.2)]

theorem pairs_sorted {m : Mem} {kvs : List (Val × Val)} {ps : List (Obj × Obj)} (hp : PairsAre m kvs ps)
    (r : List (Obj × Obj)) (hr : ∀ p ∈ r, p ∈ indexed ps) :
    PairsAre m (r.filterMap (entryAt kvs)) (r.map (fillIn ps)) := by
  unfold PairsAre at *
  induction r with
  | nil => exact .nil
  | cons p r ih =>
    obtain ⟨i, q, hi, rfl⟩ := indexed_mem (hr p List.mem_cons_self)
    have hl : i < ps.length := (List.getElem?_eq_some_iff.mp hi).1
    have hk : i < kvs.length := by rw [hp.length_eq]; exact hl
    have hki : kvs[i]? = some kvs[i] := List.getElem?_eq_getElem hk
    have hq : q = ps[i] := (List.getElem?_eq_some_iff.mp hi).2.symm
    have he : entryAt kvs (q.1, .int i) = some kvs[i] := by simp only [entryAt, Int.toNat_natCast, hki]
    have hf : fillIn ps (q.1, .int i) = q := by
      simp only [fillIn, entryAt, Int.toNat_natCast, hi]
      rfl
    rw [List.filterMap_cons_some he, List.map_cons, hf, hq]
    exact .cons (List.forall₂_iff_get.mp hp |>.2 i hk hl) (ih fun p hp => hr p (List.mem_cons_of_mem _ hp))

theorem oracle_faithful (cx : Ctx) (S : Sem) : Faithful (oracle cx S) cx S where
  obj h a b x y h1 h2 := by
    have H : ∃ p : Obj × Obj, Is (cells h) a (.obj p.1) ∧ Is (cells h) b (.obj p.2) := ⟨(x, y), h1, h2⟩
    simp only [oracle]
    rw [dif_pos H, obj_det H.choose_spec.1 h1, obj_det H.choose_spec.2 h2]
  cond h a b x y h1 h2 := by
    simp only [oracle]
    by_cases H : ∃ p : Obj × Obj, Is (cells h) a (.obj p.1) ∧ Is (cells h) b (.obj p.2)
    · rw [dif_pos H, cond_det h1 (.condItem H.choose_spec.1), cond_det h2 (.condItem H.choose_spec.2)]
      rfl
    · have H2 : ∃ p : Cond × Cond, Is (cells h) a (.cond p.1) ∧ Is (cells h) b (.cond p.2) := ⟨(x, y), h1, h2⟩
      rw [dif_neg H, dif_pos H2, cond_det H2.choose_spec.1 h1, cond_det H2.choose_spec.2 h2]
  value h a b x y h1 h2 := by
    simp only [oracle]
    by_cases H : ∃ p : Obj × Obj, Is (cells h) a (.obj p.1) ∧ Is (cells h) b (.obj p.2)
    · rw [dif_pos H, value_det h1 (.valueItem H.choose_spec.1), value_det h2 (.valueItem H.choose_spec.2)]
      rfl
    · have H1 : ¬ ∃ p : Cond × Cond, Is (cells h) a (.cond p.1) ∧ Is (cells h) b (.cond p.2) := by
        rintro ⟨p, h3, h4⟩
        obtain ⟨o, h5⟩ := value_cond h3 h1
        obtain ⟨o', h6⟩ := value_cond h4 h2
        exact H ⟨(o, o'), h5, h6⟩
      have H2 : ∃ p : Value × Value, Is (cells h) a (.value p.1) ∧ Is (cells h) b (.value p.2) := ⟨(x, y), h1, h2⟩
      rw [dif_neg H, dif_neg H1, dif_pos H2, value_det H2.choose_spec.1 h1, value_det H2.choose_spec.2 h2]
  column h a b x y h1 h2 := by
    simp only [oracle]
    have H2 : ∃ p : Column × Column, Is (cells h) a (.column p.1) ∧ Is (cells h) b (.column p.2) := ⟨(x, y), h1, h2⟩
    rw [dif_neg (fun H => H.elim fun p hp => column_obj h1 hp.1), dif_neg (fun H => H.elim fun p hp => column_cond h1 hp.1),
      dif_neg (fun H => H.elim fun p hp => column_value h1 hp.1), dif_pos H2,
      column_det H2.choose_spec.1 h1, column_det H2.choose_spec.2 h2]
  table h a b x y h1 h2 := by
    simp only [oracle]
    have H2 : ∃ p : Table × Table, Is (cells h) a (.table p.1) ∧ Is (cells h) b (.table p.2) := ⟨(x, y), h1, h2⟩
    rw [dif_neg (fun H => H.elim fun p hp => table_obj h1 hp.1), dif_neg (fun H => H.elim fun p hp => table_cond h1 hp.1),
      dif_neg (fun H => H.elim fun p hp => table_value h1 hp.1), dif_neg (fun H => H.elim fun p hp => table_column h1 hp.1),
      dif_pos H2, table_det H2.choose_spec.1 h1, table_det H2.choose_spec.2 h2]
  str h a x h1 hx := by
    simp only [oracle]
    have H : ∃ x : Obj, Is (cells h) a (.obj x) := ⟨x, h1⟩
    rw [dif_pos H, obj_det H.choose_spec h1, if_pos hx]
  print h a x h1 hx := by
    simp only [oracle]
    have H : ∃ x : Obj, Is (cells h) a (.obj x) := ⟨x, h1⟩
    rw [dif_pos H, obj_det H.choose_spec h1, if_neg (by simp [hx])]
    exact ⟨_, rfl⟩
  sort h m kvs ps hm hp := by
    have hp' : PairsAre (cells h) kvs ps := List.Forall₂.imp (fun _ _ h => ⟨shows_mono hm h.1, shows_mono hm h.2⟩) hp
    have H : ∃ ps, PairsAre (cells h) kvs ps := ⟨ps, hp'⟩
    simp only [oracle]
    rw [dif_pos H, pairs_det H.choose_spec hp']
    have e := sortItems_map (fillIn ps) (fun _ => rfl) S (indexed ps)
    rw [indexed_fill] at e
    rw [e]
    cases e2 : sortItems S (indexed ps) with
    | error er => rfl
    | ok r => exact ⟨_, rfl, pairs_sorted hp r (sortItems_mem e2)⟩

end SqlPuzzle.Refine
