import Verif.Proofs.RefineJoin

/-! A query whose part has changed. -/

namespace SqlPuzzle.Refine
open SqlPuzzle SqlPuzzle.Spec

theorem part_frame {h h' : Heap} {m m' : Mem} (hm : Sub m m') {v x f} (s : OwnPart h m v x f)
    (hs : SameAt f h h') : OwnPart h' m' v x f := by
  cases s with
  | columns hp hl hx => exact .columns (hs _ (by simp) _ hp) (hs _ (by simp) _ hl) (are_mono hm hx)
  | conds hp hl hx => exact .conds (hs _ (by simp) _ hp) (hs _ (by simp) _ hl) (are_mono hm hx)
  | orders hp hl hx =>
    exact .orders (hs _ (by simp) _ hp) (hs _ (by simp) _ hl) (each_imp hx fun v a g hg hin =>
      order_frame hm hg fun p hp => hs p (List.mem_cons_of_mem _ (List.mem_cons_of_mem _ (hin p hp))))
  | tables hp hl hx =>
    exact .tables (hs _ (by simp) _ hp) (hs _ (by simp) _ hl) (each_imp hx fun v a g hg hin =>
      table_frame hm hg fun p hp => hs p (List.mem_cons_of_mem _ (List.mem_cons_of_mem _ (hin p hp))))
  | values hp hl hx => exact .values (hs _ (by simp) _ hp) (hs _ (by simp) _ hl) (are_mono hm hx)
  | rows hp hl hx => exact .rows (hs _ (by simp) _ hp) (hs _ (by simp) _ hl) (are_mono hm hx)
  | conflict hp hl hx hv =>
    exact .conflict (hs _ (by simp) _ hp) (hs _ (by simp) _ hl) (are_mono hm hx) (is_mono hm hv)
  | limit hp => exact .limit (hs _ (by simp) _ hp)
  | outfile hp ha hb hc hd =>
    exact .outfile (hs _ (by simp) _ hp) (is_mono hm ha) (is_mono hm hb) (is_mono hm hc) (is_mono hm hd)
  | options hp hd => exact .options (hs _ (by simp) _ hp) (hs _ (by simp) _ hd)
  | flag hp => exact .flag (hs _ (by simp) _ hp)

theorem part_lt {h : Heap} {m : Mem} {v x f} (s : OwnPart h m v x f) : ∀ p ∈ f, p < h.length := by
  have two : ∀ {a b : Nat} {c d : Cell}, h[a]? = some c → h[b]? = some d → ∀ p ∈ [a, b], p < h.length := by
    intro a b c d ha hb p hp
    simp only [List.mem_cons, List.not_mem_nil, or_false] at hp
    rcases hp with rfl | rfl
    · exact some_lt ha
    · exact some_lt hb
  have one : ∀ {a : Nat} {c : Cell}, h[a]? = some c → ∀ p ∈ [a], p < h.length := by
    intro a c ha p hp
    simp only [List.mem_singleton] at hp
    rw [hp]; exact some_lt ha
  cases s with
  | columns hp hl hx => exact two hp hl
  | conds hp hl hx => exact two hp hl
  | orders hp hl hx =>
    intro p h'
    simp only [List.mem_cons] at h'
    rcases h' with rfl | rfl | h'
    · exact some_lt hp
    · exact some_lt hl
    · exact each_mem (fun _ _ _ => order_lt) hx p h'
  | tables hp hl hx =>
    intro p h'
    simp only [List.mem_cons] at h'
    rcases h' with rfl | rfl | h'
    · exact some_lt hp
    · exact some_lt hl
    · exact each_mem (fun _ _ _ => table_lt) hx p h'
  | values hp hl hx => exact two hp hl
  | rows hp hl hx => exact two hp hl
  | conflict hp hl hx hv => exact two hp hl
  | limit hp => exact one hp
  | outfile hp ha hb hc hd => exact one hp
  | options hp hd => exact two hp hd
  | flag hp => exact one hp

theorem part_ref {h : Heap} {m : Mem} {v x f} (s : OwnPart h m v x f) : ∃ p, v = .ref p := by
  cases s <;> exact ⟨_, rfl⟩

theorem each_split {α : Type} {P : Val → α → List Nat → Prop} {xs : List Val} {as : List α} {fs : List Nat}
    (e : Each P xs as fs) {i : Nat} {a : α} (ha : as[i]? = some a) :
    ∃ x1 v x2 f1 f f2, xs = x1 ++ v :: x2 ∧ x1.length = i ∧ fs = f1 ++ (f ++ f2) ∧ P v a f ∧
      Each P x1 (as.take i) f1 ∧ Each P x2 (as.drop (i + 1)) f2 := by
  induction e generalizing i with
  | nil => cases ha
  | @cons v vs x xs f fs h1 h2 ih =>
    cases i with
    | zero =>
      cases ha
      exact ⟨[], v, vs, [], f, fs, rfl, rfl, rfl, h1, .nil, h2⟩
    | succ i =>
      obtain ⟨x1, w, x2, f1, g, f2, rfl, hi, rfl, hP, e1, e2⟩ := ih ha
      exact ⟨v :: x1, w, x2, f ++ f1, g, f2, rfl, by simp [hi], by simp, hP, .cons h1 e1, e2⟩

/-- What a program did to a part: the part is now `x'`, only it has changed, and what it refers to it
referred to before, or it is new. -/
def Post (m : Mem) (h : Heap) (v : Val) (f : List Nat) (h' : Heap) (x' : Part) : Prop :=
  ∃ m' f', OwnPart h' m' v x' f' ∧ f'.Nodup ∧ Step (· ∈ f) h h' ∧ (∀ p ∈ f', p ∈ f ∨ h.length ≤ p) ∧
    ∀ p c, m' p c → m p c ∨ (h.length ≤ p ∧ p ∉ f' ∧ h'[p]? = some c)

/-- What a call does to the memory besides: objects of others stay as they are. -/
structure Outcome (h : Heap) (own : List Nat) (h' : Heap) (own' : List Nat) : Prop where
  grows : h.length ≤ h'.length
  same : ∀ (p : Nat) c, h[p]? = some c → p ∉ own → h'[p]? = some c
  fresh : ∀ p ∈ own', p ∈ own ∨ h.length ≤ p

theorem Outcome.rfl {h own} : Outcome h own h own := ⟨Nat.le_refl _, fun _ _ h _ => h, fun _ h => .inl h⟩

theorem Outcome.trans {h1 o1 h2 o2 h3 o3} (a : Outcome h1 o1 h2 o2) (b : Outcome h2 o2 h3 o3) :
    Outcome h1 o1 h3 o3 where
  grows := Nat.le_trans a.grows b.grows
  same p c hp hn := b.same p c (a.same p c hp hn) fun h' => (a.fresh p h').elim hn fun h'' => by
    have := some_lt hp; omega
  fresh p hp := (b.fresh p hp).elim (a.fresh p) fun h' => .inr (Nat.le_trans a.grows h')

theorem Outcome.sub {h own h' own'} (s : Outcome h own h' own') :
    Sub (outside (· ∈ own) h) (outside (· ∈ own') h') := fun p c hp =>
  ⟨s.same p c hp.1 hp.2, fun h' => (s.fresh p h').elim hp.2 fun h'' => by have := some_lt hp.1; omega⟩

theorem outside_cells (own : List Nat) (h : Heap) : Sub (outside (· ∈ own) h) (cells h) := fun _ _ h => h.1

/-- The result of a call: the query is `o'`, the exception is `e`. -/
def Done (q : Nat) (h : Heap) (own : List Nat) (x : Heap × R Unit) (o' : Obj) (e : Option Err) : Prop :=
  ∃ h' own', x = (h', res e) ∧ Holds h' q o' own' ∧ Outcome h own h' own'

theorem Done.same {q h own o e} (H : Holds h q o own) : Done q h own (h, res e) o e :=
  ⟨h, own, rfl, H, .rfl⟩


section
variable {h : Heap} {q : Nat} {o : Obj} {own : List Nat} (H : Holds h q o own) {k : Lib}
  {ps : List (Str × Part)} {more : List Val} (ho : queryParts o = some (k, ps, more))
include H ho

theorem holds_lib : libAt h q = some k := by
  obtain ⟨k', ps', more', d, refs, fs, ho', hq, _⟩ := H.query
  rw [ho] at ho'
  cases ho'
  simp only [libAt, hq]

/-- The part in a slot of a query, and the query after the part has changed. -/
theorem slot_sim {s : Slot} {i : Nat} {n : Str} {x : Part} (hs : slotOf k s = some (i + 1))
    (hx : ps[i]? = some (n, x)) :
    ∃ p f, partAt h q s = .ok p ∧ OwnPart h (outside (· ∈ own) h) (.ref p) x f ∧ f.Nodup ∧ (∀ a ∈ f, a ∈ own) ∧
      ∀ h' x' o', Post (outside (· ∈ own) h) h (.ref p) f h' x' →
        queryParts o' = some (k, ps.set i (n, x'), more) →
        ∃ own', Holds h' q o' own' ∧ Outcome h own h' own' := by
  obtain ⟨k', ps', more', d, refs, fs, ho', hq, hd, he, hown⟩ := H.query
  rw [ho] at ho'
  cases ho'
  have hx' : (ps.map Prod.snd)[i]? = some x := by rw [List.getElem?_map, hx]; rfl
  obtain ⟨x1, v, x2, f1, f, f2, rfl, hi, rfl, hP, e1, e2⟩ := each_split he hx'
  obtain ⟨p, rfl⟩ := part_ref hP
  have hnd := H.nodup
  rw [hown] at hnd
  have hnd1 := List.nodup_cons.mp hnd
  have hnd2 := List.nodup_cons.mp hnd1.2
  have hnd3 := List.nodup_append.mp hnd2.2
  have hnd4 := List.nodup_append.mp hnd3.2.1
  have hfo : ∀ a ∈ f, a ∈ own := fun a ha => by rw [hown]; simp [ha]
  refine ⟨p, f, ?_, hP, hnd4.1, hfo, ?_⟩
  · have hk : k.keeps (i + 1) = true := by
      rcases query_lib ho with rfl | rfl | rfl | rfl <;> rfl
    simp only [partAt, cellAt, hq, ok_bind, hs, keptAt, hk, if_true, List.getElem?_cons_succ]
    rw [List.append_assoc, List.getElem?_append_right (by omega), hi, Nat.sub_self]
    rfl
  · rintro h' x' o' ⟨m', f', hP', hnf, hst, hfr, hm'⟩ ho2
    have hlt : ∀ a ∈ own, a < h.length := by
      intro a ha
      rw [hown] at ha
      rcases List.mem_cons.mp ha with rfl | ha
      · exact some_lt hq
      rcases List.mem_cons.mp ha with rfl | ha
      · exact some_lt hd
      · exact each_mem (fun _ _ _ => part_lt) he a ha
    -- addresses of the rest are not changed
    have hrest : ∀ a ∈ q :: d :: (f1 ++ f2), a ∉ f := by
      intro a ha haf
      simp only [List.mem_cons, List.mem_append] at ha
      rcases ha with rfl | rfl | ha | ha
      · exact hnd1.1 (by simp [haf])
      · exact hnd2.1 (by simp [haf])
      · exact hnd3.2.2 a ha a (by simp [haf]) rfl
      · exact hnd4.2.2 a haf a ha rfl
    have hkeep : ∀ (a : Nat) c, a ∈ q :: d :: (f1 ++ f2) → h[a]? = some c → h'[a]? = some c := fun a c ha hc =>
      hst.same a c hc (hrest a ha)
    have hin : ∀ a, a ∈ q :: d :: (f1 ++ f2) → a ∈ own := fun a ha => by
      rw [hown]
      simp only [List.mem_cons, List.mem_append] at ha ⊢
      tauto
    have hsplit : ∀ a, a ∈ q :: d :: (f1 ++ (f' ++ f2)) ↔ a ∈ q :: d :: (f1 ++ f2) ∨ a ∈ f' := fun a => by
      simp only [List.mem_cons, List.mem_append]
      tauto
    have hout : Outcome h own h' (q :: d :: (f1 ++ (f' ++ f2))) := by
      refine ⟨hst.grows, fun a c hc hn => hst.same a c hc fun ha => hn (hfo a ha), fun a ha => ?_⟩
      rcases (hsplit a).mp ha with ha | ha
      · exact .inl (hin a ha)
      · exact (hfr a ha).imp_left (hfo a)
    have hrest' : ∀ a ∈ q :: d :: (f1 ++ f2), a ∉ f' := fun a ha haf => by
      rcases hfr a haf with h1 | h1
      · exact hrest a ha h1
      · have := hlt a (hin a ha); omega
    have hmm : Sub m' (outside (· ∈ q :: d :: (f1 ++ (f' ++ f2))) h') := by
      intro a c ha
      rcases hm' a c ha with h1 | ⟨h1, h2, h3⟩
      · exact hout.sub a c h1
      · refine ⟨h3, fun h4 => ?_⟩
        rcases (hsplit a).mp h4 with h4 | h4
        · have := hlt a (hin a h4); omega
        · exact h2 h4
    refine ⟨q :: d :: (f1 ++ (f' ++ f2)), ⟨?_, k, ps.set i (n, x'), more, d, x1 ++ .ref p :: x2, f1 ++ (f' ++ f2), ho2, ?_, ?_, ?_,
      rfl⟩, hout⟩
    · have hq' := hrest' q (by simp)
      have hd' := hrest' d (by simp)
      rw [List.nodup_cons, List.nodup_cons]
      refine ⟨?_, ?_, List.nodup_append.mpr ⟨hnd3.1, List.nodup_append.mpr ⟨hnf, hnd4.2.1, ?_⟩, ?_⟩⟩
      · have := hnd1.1
        simp only [List.mem_cons, List.mem_append, not_or] at this ⊢
        tauto
      · have := hnd2.1
        simp only [List.mem_append, not_or] at this ⊢
        tauto
      · rintro a ha b hb rfl
        exact hrest' a (by simp [hb]) ha
      · rintro a ha b hb rfl
        rcases List.mem_append.mp hb with hb | hb
        · exact hrest' a (by simp [ha]) hb
        · exact hnd3.2.2 a ha a (by simp [hb]) rfl
    · exact hkeep q _ (by simp) hq
    · have : (ps.set i (n, x')).map Prod.fst = ps.map Prod.fst := by
        have := List.getElem?_eq_some_iff.mp hx
        obtain ⟨hlt, hx⟩ := this
        apply List.ext_getElem (by simp)
        intro j h1 h2
        simp only [List.getElem_map, List.getElem_set]
        split
        · rename_i e; subst e; rw [hx]
        · rfl
      rw [this]
      exact hkeep d _ (by simp) hd
    · have hil : i < ps.length := (List.getElem?_eq_some_iff.mp hx).1
      rw [List.map_set, List.set_eq_take_append_cons_drop, if_pos (by simpa using hil)]
      have hfr1 : Sub (outside (· ∈ own) h) (outside (· ∈ q :: d :: (f1 ++ (f' ++ f2))) h') := hout.sub
      refine each_append (each_imp e1 fun v a g hg hin' => part_frame hfr1 hg fun b hb c hc =>
        hkeep b c (by simp [hin' b hb]) hc) (.cons (part_frame hmm hP' fun b _ c hc => hc)
          (each_imp e2 fun v a g hg hin' => part_frame hfr1 hg fun b hb c hc => hkeep b c (by simp [hin' b hb]) hc))

end

end SqlPuzzle.Refine
