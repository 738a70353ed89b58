import Verif.Spec.Frame
import Verif.Proofs.Basic

/-! Proofs about the effects of calls on memory. -/

namespace SqlPuzzle.FrameFacts
open SqlPuzzle SqlPuzzle.Spec SqlPuzzle.HM

theorem _root_.SqlPuzzle.Spec.Touch.mono {W W' : Nat → Prop} (hW : ∀ p, W p → W' p) {h c c'} (t : Touch W h c c') :
    Touch W' h c c' := by
  cases t with
  | same => exact .same _
  | gen => exact .gen _ _
  | table a b j v hj => exact .table a b j v (hj.imp id (hW _))
  | join => exact .join _ _ _

theorem _root_.SqlPuzzle.Spec.Undisturbed.mono {W W' : Nat → Prop} (hW : ∀ p, W p → W' p) {h h'}
    (u : Undisturbed W h h') : Undisturbed W' h h' :=
  ⟨u.grows, fun p c hc => by
    obtain ⟨c', h1, h2, h3⟩ := u.cell p c hc
    exact ⟨c', h1, h2, h3.imp (hW p) (Touch.mono hW)⟩⟩

theorem _root_.SqlPuzzle.Spec.Undisturbed.refl (W : Nat → Prop) (h : Heap) : Undisturbed W h h :=
  ⟨Nat.le_refl _, fun _ c hc => ⟨c, hc, rfl, .inr (.same c)⟩⟩

theorem _root_.SqlPuzzle.Spec.Undisturbed.trans {W : Nat → Prop} {h1 h2 h3 : Heap} (a : Undisturbed W h1 h2)
    (b : Undisturbed W h2 h3) : Undisturbed W h1 h3 := by
  refine ⟨Nat.le_trans a.grows b.grows, fun p c hc => ?_⟩
  obtain ⟨c', e1, k1, t1⟩ := a.cell p c hc
  obtain ⟨c'', e2, k2, t2⟩ := b.cell p c' e1
  refine ⟨c'', e2, k2.trans k1, ?_⟩
  rcases t1 with w | t1
  · exact .inl w
  rcases t2 with w | t2
  · exact .inl w
  refine .inr ?_
  cases t1 with
  | same =>
    cases t2 with
    | same => exact .same _
    | gen => exact .gen _ _
    | join => exact .join _ _ _
    | table x y j v hj =>
      refine .table x y j v ?_
      rcases hj with hj | hj
      · by_cases he : h1[j]? = some ⟨.list, []⟩
        · obtain ⟨d, d1, -, d3⟩ := a.cell j _ he
          rcases d3 with w | d3
          · exact .inr w
          · cases d3
            exact absurd d1 hj
        · exact .inl he
      · exact .inr hj
  | gen => cases t2 <;> exact .gen _ _
  | join => cases t2 <;> exact .join _ _ _
  | table x y j v hj => cases t2 <;> exact .table _ _ _ _ hj

theorem append_undisturbed (W : Nat → Prop) (h : Heap) (c : Cell) : Undisturbed W h (h ++ [c]) :=
  ⟨by simp, fun p d hd => ⟨d, by
    rw [List.getElem?_append_left (List.getElem?_eq_some_iff.1 hd).1]; exact hd, rfl, .inr (.same d)⟩⟩

theorem set_undisturbed {W : Nat → Prop} {h : Heap} {p : Nat} {c : Cell} (hc : h[p]? = some c)
    (hW : W p) (xs : List Val) : Undisturbed W h (h.set p ⟨c.cls, xs⟩) := by
  refine ⟨by simp, fun q d hd => ?_⟩
  by_cases hq : q = p
  · subst hq
    rw [hc] at hd
    cases hd
    exact ⟨⟨c.cls, xs⟩, by simp [(List.getElem?_eq_some_iff.1 hc).1], rfl, .inl hW⟩
  · exact ⟨d, by rw [List.getElem?_set_ne (Ne.symm hq)]; exact hd, rfl, .inr (.same d)⟩

/-- The objects in `W`, and those created since there were `N`. -/
def Fresh (N : Nat) (W : Nat → Prop) (p : Nat) : Prop := W p ∨ N ≤ p

/-- An assertion about memory that survives looking at objects. -/
def Stable (I : Heap → Prop) : Prop :=
  ∀ h h', Undisturbed (fun _ => False) h h' → I h → I h'

/-- The program changes only objects in `W` and new ones, keeps `I`, and its result satisfies `Q`. -/
def Sp (N : Nat) (W : Nat → Prop) (I : Heap → Prop) {α : Type} (m : HM α) (Q : α → Prop) : Prop :=
  ∀ h, N ≤ h.length → I h →
    Undisturbed (Fresh N W) h (m h).1 ∧ I (m h).1 ∧ ∀ a, (m h).2 = .ok a → Q a

section
variable {N : Nat} {W : Nat → Prop} {I : Heap → Prop} {α β : Type}

theorem Sp.weaken {m : HM α} {Q Q' : α → Prop} (s : Sp N W I m Q) (h : ∀ a, Q a → Q' a) :
    Sp N W I m Q' := fun hp hN hI =>
  have ⟨a, b, c⟩ := s hp hN hI
  ⟨a, b, fun x hx => h x (c x hx)⟩

theorem sp_ret {a : α} {Q : α → Prop} (h : Q a) : Sp N W I (ret a) Q := fun hp _ hI =>
  ⟨.refl _ _, hI, fun x hx => by cases hx; exact h⟩

theorem sp_raise {e : Err} {Q : α → Prop} : Sp N W I (raise e : HM α) Q := fun hp _ hI =>
  ⟨.refl _ _, hI, fun x hx => by cases hx⟩

theorem sp_ofR {r : R α} : Sp N W I (ofR r) fun _ => True := fun _hp _ hI =>
  ⟨.refl _ _, hI, fun _ _ => trivial⟩

theorem sp_reads {f : Heap → R α} : Sp N W I (reads f) fun _ => True := fun _hp _ hI =>
  ⟨.refl _ _, hI, fun _ _ => trivial⟩

theorem sp_andThen {m : HM α} {f : α → HM β} {Q : α → Prop} {Q' : β → Prop} (hm : Sp N W I m Q)
    (hf : ∀ a, Q a → Sp N W I (f a) Q') : Sp N W I (andThen m f) Q' := by
  intro h hN hI
  obtain ⟨u, i, q⟩ := hm h hN hI
  unfold andThen
  rcases e : m h with ⟨h1, _ | a⟩
  · rw [e] at u i
    exact ⟨u, i, fun x hx => by cases hx⟩
  · rw [e] at u i q
    obtain ⟨u2, i2, q2⟩ := hf a (q a rfl) h1 (Nat.le_trans hN u.grows) i
    exact ⟨u.trans u2, i2, q2⟩

theorem sp_bind {m : HM α} {f : α → HM β} {Q : α → Prop} {Q' : β → Prop} (hm : Sp N W I m Q)
    (hf : ∀ a, Q a → Sp N W I (f a) Q') : Sp N W I (m >>= f) Q' := sp_andThen hm hf

theorem sp_alloc (hI : Stable I) {c : Cls} {xs : List Val} :
    Sp N W I (alloc c xs) fun p => N ≤ p := fun h hN hi =>
  ⟨append_undisturbed _ _ _, hI _ _ (append_undisturbed _ _ _) hi, fun p hp => by cases hp; exact hN⟩

theorem sp_modify {p : Nat} {f : List Val → List Val} (hW : Fresh N W p)
    (hI : ∀ (h : Heap) c, I h → h[p]? = some c → I (h.set p ⟨c.cls, f c.fields⟩)) :
    Sp N W I (modify p f) fun _ => True := by
  intro h hN hi
  unfold HM.modify
  cases e : h[p]? with
  | none => exact ⟨.refl _ _, hi, fun _ hx => by cases hx⟩
  | some c => exact ⟨set_undisturbed e hW _, hI h c hi e, fun _ _ => trivial⟩

theorem sp_gentle (hI : Stable I) {m : HM α} (hm : ∀ h, Undisturbed (fun _ => False) h (m h).1) :
    Sp N W I m fun _ => True := fun h _ hi =>
  ⟨(hm h).mono (fun _ => False.elim), hI _ _ (hm h) hi, fun _ _ => trivial⟩

theorem sp_each {γ : Type} {f : γ → HM Unit} (xs : List γ)
    (hf : ∀ x ∈ xs, Sp N W I (f x) fun _ => True) : Sp N W I (each f xs) fun _ => True := by
  induction xs with
  | nil => exact sp_ret trivial
  | cons x xs ih =>
    exact sp_andThen (hf x (by simp)) fun _ _ => ih fun y hy => hf y (by simp [hy])

theorem sp_some {γ : Type} {f : γ → HM Bool} (xs : List γ)
    (hf : ∀ x ∈ xs, Sp N W I (f x) fun _ => True) : Sp N W I (some? f xs) fun _ => True := by
  induction xs with
  | nil => exact sp_ret trivial
  | cons x xs ih =>
    refine sp_andThen (hf x (by simp)) fun b _ => ?_
    split
    · exact sp_ret trivial
    · exact ih fun y hy => hf y (by simp [hy])

theorem stable_true : Stable fun _ => True := fun _ _ _ _ => trivial

end

section
variable {T : Runtime} (hT : Gentle T) {N : Nat} {W : Nat → Prop} {I : Heap → Prop} (hI : Stable I)
include hT hI

theorem sp_eq (a b : Val) : Sp N W I (T.eq a b) fun _ => True := sp_gentle hI (hT.eq a b)
theorem sp_str (a : Val) : Sp N W I (T.str a) fun _ => True := sp_gentle hI (hT.str a)
theorem sp_sort (a : List (Val × Val)) : Sp N W I (T.sort a) fun _ => True := sp_gentle hI (hT.sort a)

theorem sp_parseDict (o : ParseOpts) (kvs : List (Val × Val)) :
    Sp N W I (hParseDict T o kvs) fun _ => True :=
  sp_bind (sp_sort hT hI _) fun _ _ => sp_ofR

theorem sp_parseArgs (o : ParseOpts) (a : HArgs) : Sp N W I (hParseArgs T o a) fun _ => True := by
  unfold hParseArgs
  split
  · exact sp_raise
  refine sp_bind sp_reads fun xs _ => sp_bind (Q := fun _ => True) ?_ fun ys _ => sp_ret trivial
  unfold hParseKeyed
  refine sp_bind sp_reads fun d _ => ?_
  split
  · split
    · exact sp_parseDict hT hI _ _
    · exact sp_raise
  · split
    · exact sp_ret trivial
    split
    · exact sp_parseDict hT hI _ _
    · exact sp_raise

end

theorem sp_check {N W I} (ts : List PyType) (v : Val) : Sp N W I (hCheck ts v) fun _ => True := sp_reads

section
variable {T : Runtime} (hT : Gentle T) {N : Nat} {W : Nat → Prop}

abbrev Tr : Heap → Prop := fun _ => True

theorem sp_mod {p : Nat} {f : List Val → List Val} (hW : Fresh N W p) :
    Sp N W Tr (modify p f) fun _ => True := sp_modify hW fun _ _ _ _ => trivial

include hT

theorem sp_appendUnique {l : Nat} (hl : Fresh N W l) (v : Val) :
    Sp N W Tr (hAppendUnique T l v) fun _ => True := by
  refine sp_bind sp_reads fun xs _ => sp_bind (sp_some xs fun x _ => sp_eq hT stable_true x v)
    fun b _ => ?_
  split
  · exact sp_ret trivial
  · exact sp_mod hl

omit hT in
theorem sp_iterate (v : Val) : Sp N W Tr (hIterate v) fun _ => True := by
  refine sp_gentle stable_true fun h => ?_
  unfold hIterate
  split <;> try exact .refl _ _
  rename_i p
  split <;> try exact .refl _ _
  rename_i xs e
  refine ⟨by simp, fun q d hd => ?_⟩
  by_cases hq : q = p
  · subst hq
    rw [e] at hd
    cases hd
    exact ⟨⟨.gen, []⟩, by simp [(List.getElem?_eq_some_iff.1 e).1], rfl, .inr (.gen _ _)⟩
  · exact ⟨d, by rw [List.getElem?_set_ne (Ne.symm hq)]; exact hd, rfl, .inr (.same d)⟩

omit hT in
theorem sp_mkCond (on : Bool) (col v : Val) : Sp N W Tr (hMkCond on col v) fun _ => True := by
  refine sp_bind (sp_check _ _) fun _ _ => sp_bind (sp_check _ _) fun _ _ =>
    sp_bind sp_reads fun k _ => sp_bind (Q := fun _ => True) ?_ fun r _ =>
    sp_bind (sp_alloc stable_true) fun c _ => sp_ret trivial
  split
  · exact sp_ret trivial
  · refine sp_bind (Q := fun _ => True) ?_ fun w _ => sp_bind (sp_check _ _) fun _ _ =>
      sp_bind (sp_alloc stable_true) fun _ _ => sp_ret trivial
    unfold hRelValue
    split
    · refine sp_bind (sp_iterate v) fun xs _ => ?_
      split
      · exact sp_bind (sp_alloc stable_true) fun _ _ => sp_ret trivial
      · exact sp_ret trivial
    · exact sp_ret trivial

theorem sp_where (on : Bool) {l : Nat} (hl : Fresh N W l) (a : HArgs) :
    Sp N W Tr (hWhere T on l a) fun _ => True := by
  unfold hWhere
  split
  · exact sp_raise
  refine sp_bind sp_reads fun o _ => ?_
  split
  · exact sp_mod hl
  refine sp_bind sp_reads fun all _ => ?_
  split
  · exact sp_each _ fun v _ => sp_appendUnique hT hl v
  · exact sp_bind (sp_parseArgs hT stable_true _ _) fun bs _ => sp_each _ fun b _ =>
      sp_bind (sp_mkCond _ _ _) fun c _ => sp_appendUnique hT hl c

theorem sp_columns {l : Nat} (hl : Fresh N W l) (a : HArgs) :
    Sp N W Tr (hColumns T l a) fun _ => True := by
  unfold hColumns
  split
  · exact sp_raise
  exact sp_bind (sp_parseArgs hT stable_true _ _) fun bs _ => sp_each _ fun b _ =>
    sp_bind (sp_check _ _) fun _ _ => sp_bind (sp_check _ _) fun _ _ =>
    sp_bind (sp_alloc stable_true) fun _ _ => sp_appendUnique hT hl _

omit hT in
theorem sp_mkTable (n a : Val) : Sp N W Tr (hMkTable n a) fun _ => True :=
  sp_bind (sp_check _ _) fun _ _ => sp_bind (sp_check _ _) fun _ _ =>
    sp_bind (sp_alloc stable_true) fun _ _ => (sp_alloc stable_true).weaken fun _ _ => trivial

theorem sp_tables {l : Nat} (hl : Fresh N W l) (a : HArgs) :
    Sp N W Tr (hTables T l a) fun _ => True := by
  unfold hTables
  split
  · exact sp_raise
  exact sp_bind sp_reads fun _ _ => sp_bind (sp_parseArgs hT stable_true _ _) fun bs _ =>
    sp_each _ fun b _ => sp_bind (sp_mkTable _ _) fun _ _ => sp_appendUnique hT hl _

theorem sp_values {l : Nat} (hl : Fresh N W l) (a : HArgs) :
    Sp N W Tr (hValues T l a) fun _ => True := by
  unfold hValues
  split
  · exact sp_raise
  refine sp_bind sp_reads fun o _ => ?_
  split
  · exact sp_mod hl
  exact sp_bind (sp_parseArgs hT stable_true _ _) fun bs _ => sp_each _ fun b _ =>
    sp_bind (sp_check _ _) fun _ _ => sp_bind (sp_check _ _) fun _ _ =>
    sp_bind (sp_alloc stable_true) fun _ _ => sp_appendUnique hT hl _

omit hT in
theorem sp_newPart (c : Lib) (sep : Str) (more : List Val) :
    Sp N W Tr (hNewPart c sep more) fun r => N ≤ r.1 ∧ N ≤ r.2 :=
  sp_bind (sp_alloc stable_true) fun _ h1 => sp_bind (sp_alloc stable_true) fun _ h2 =>
    sp_ret ⟨h2, h1⟩

theorem sp_rows {l : Nat} (hl : Fresh N W l) (a : HArgs) :
    Sp N W Tr (hRows T l a) fun _ => True :=
  sp_bind (sp_newPart _ _ _) fun _ hr => sp_bind (sp_values hT (.inr hr.2) a) fun _ _ => sp_mod hl

/-- The orders of the list at `l` were in it at first, or are new. -/
def OrderInv (N l : Nat) (c0 : Cell) (h : Heap) : Prop :=
  ∃ c, h[l]? = some c ∧ c.cls = .lib .listOfParts ∧
    ∀ b, Val.ref b ∈ c.fields → N ≤ b ∨ Val.ref b ∈ c0.fields

omit hT in
theorem orderInv_stable (N l : Nat) (c0 : Cell) : Stable (OrderInv N l c0) := by
  rintro h h' u ⟨⟨k, xs⟩, hc, rfl, hb⟩
  obtain ⟨c', h1, h2, h3⟩ := u.cell l _ hc
  rcases h3 with w | t
  · exact w.elim
  · cases t
    exact ⟨_, h1, rfl, hb⟩

theorem orders_frame (cx : Ctx) {q l : Nat} {h0 : Heap} {c0 : Cell} (hl0 : h0[l]? = some c0)
    (hk : c0.cls = .lib .listOfParts) (hown : Own h0 q l) (a : HArgs) :
    Undisturbed (Fresh h0.length (Own h0 q)) h0 (hOrders T cx l a h0).1 := by
  have hlt := (List.getElem?_eq_some_iff.1 hl0).1
  -- class of old objects does not change, so the history from `h0` is kept as an assertion
  let J : Heap → Prop := fun h => OrderInv h0.length l c0 h ∧
    ∀ (b : Nat) d, h0[b]? = some d → ∃ d', h[b]? = some d' ∧ d'.cls = d.cls
  have cls_of : ∀ h h' W, Undisturbed W h h' →
      (∀ (b : Nat) d, h0[b]? = some d → ∃ d', h[b]? = some d' ∧ d'.cls = d.cls) →
      ∀ (b : Nat) d, h0[b]? = some d → ∃ d', h'[b]? = some d' ∧ d'.cls = d.cls := by
    intro h h' W u hh b d hd
    obtain ⟨d', e1, e2⟩ := hh b d hd
    obtain ⟨d'', e3, e4, -⟩ := u.cell b d' e1
    exact ⟨d'', e3, e4.trans e2⟩
  have hJ : Stable J := fun h h' u hj =>
    ⟨orderInv_stable _ _ _ _ _ u hj.1, cls_of _ _ _ u hj.2⟩
  have put : ∀ col sort, Sp h0.length (Own h0 q) J (hOrderPut T cx l col sort) fun _ => True := by
    intro col sort h hN hj
    -- the items of the list
    obtain ⟨⟨c, hc, hck, hb⟩, hcls⟩ := hj
    have key : ∀ xs : List Val, (∀ b, Val.ref b ∈ xs → h0.length ≤ b ∨ Val.ref b ∈ c0.fields) →
        Sp h0.length (Own h0 q) J (hFindOrder T col xs)
          fun o => ∀ b, o = some b → Fresh h0.length (Own h0 q) b := by
      intro xs
      induction xs with
      | nil => intro _; exact sp_ret (by intro b hb; cases hb)
      | cons x xs ih =>
        intro hxs
        cases x with
        | atom _ => exact sp_raise
        | ref o =>
          have ho := hxs o (by simp)
          intro h1 hN1 hj1
          have rest := ih fun b hb => hxs b (by simp [hb])
          simp only [hFindOrder]
          show Undisturbed _ h1 (andThen (reads fun h => cellAt h o) _ h1).1 ∧ _
          cases e : h1[o]? with
          | none =>
            have : (andThen (reads fun h => cellAt h o) (fun c =>
                if c.cls = .lib .order then do
                  let same ← T.eq (c.fields.headD (.atom .none)) col
                  if same then ret (some o) else hFindOrder T col xs
                else raise .unmodelled)) h1 = (h1, .error .unmodelled) := by
              simp [andThen, reads, cellAt, e]
            refine ⟨?_, ?_, ?_⟩
            · rw [this]; exact .refl _ _
            · exact (congrArg (fun r => J r.1) this).mpr hj1
            · intro a ha
              have := (congrArg Prod.snd this).symm.trans ha
              cases this
          | some d =>
            have run : (andThen (reads fun h => cellAt h o) (fun c =>
                if c.cls = .lib .order then do
                  let same ← T.eq (c.fields.headD (.atom .none)) col
                  if same then ret (some o) else hFindOrder T col xs
                else raise .unmodelled)) h1 = (if d.cls = .lib .order then do
                  let same ← T.eq (d.fields.headD (.atom .none)) col
                  if same then ret (some o) else hFindOrder T col xs
                else raise .unmodelled : HM (Option Nat)) h1 := by
              simp [andThen, reads, cellAt, e]
            have body : Sp h0.length (Own h0 q) J (if d.cls = .lib .order then do
                  let same ← T.eq (d.fields.headD (.atom .none)) col
                  if same then ret (some o) else hFindOrder T col xs
                else raise .unmodelled : HM (Option Nat))
                fun o => ∀ b, o = some b → Fresh h0.length (Own h0 q) b := by
              split
              · rename_i hd
                refine sp_bind (sp_eq hT hJ _ _) fun same _ => ?_
                split
                · refine sp_ret ?_
                  rintro b ⟨⟩
                  rcases ho with ho | ho
                  · exact .inr ho
                  · by_cases hlt : o < h0.length
                    · obtain ⟨d', e1, e2⟩ := hj1.2 o _ (List.getElem?_eq_getElem hlt)
                      rw [e] at e1
                      cases e1
                      exact .inl (hown.item hl0 (.inl hk) ho (List.getElem?_eq_getElem hlt)
                        (.inl (e2 ▸ hd)))
                    · exact .inr (Nat.le_of_not_lt hlt)
                · exact rest
              · exact sp_raise
            obtain ⟨b1, b2, b3⟩ := body h1 hN1 hj1
            exact ⟨by rw [run]; exact b1, (congrArg (fun r => J r.1) run).mpr b2,
              fun a ha => b3 a ((congrArg Prod.snd run).symm.trans ha)⟩
    have run : hOrderPut T cx l col sort h = (do
        let o ← hFindOrder T col (c.fields.drop 1)
        match o with
        | none => do
          hCheck [.str, .int] col
          let d ← hSort cx sort
          let o ← alloc (.lib .order) [col, d]
          hPush l (.ref o)
        | some o => do
          let d ← hSort cx sort
          modify o fun xs => [xs.headD (.atom .none), d] : HM Unit) h := by
      show andThen (hItems l) _ h = _
      simp only [andThen, hItems, reads, cellAt, hc]
      rfl
    rw [run]
    refine sp_bind (key _ fun b hb' => hb b (List.mem_of_mem_drop hb')) ?_ h hN
      ⟨⟨c, hc, hck, hb⟩, hcls⟩
    intro o ho
    split
    · refine sp_bind (sp_check _ _) fun _ _ => sp_bind sp_reads fun d _ =>
        sp_bind (sp_alloc hJ) fun o hfresh => sp_modify (.inl hown) ?_
      rintro h2 c2 ⟨⟨c3, i1, i2, i3⟩, i4⟩ hc2
      rw [i1] at hc2
      cases hc2
      refine ⟨⟨⟨c2.cls, c2.fields ++ [.ref o]⟩, by simp [(List.getElem?_eq_some_iff.1 i1).1], i2, ?_⟩,
        cls_of _ _ _ (set_undisturbed (W := fun _ => True) i1 trivial _) i4⟩
      intro b hb'
      rcases List.mem_append.1 hb' with hb' | hb'
      · exact i3 b hb'
      · rcases List.mem_singleton.1 hb' with e
        cases e
        exact .inl hfresh
    · rename_i o'
      refine sp_bind (Q := fun d => ∀ b, d ≠ Val.ref b) ?_ fun d hd => sp_modify (ho _ rfl) ?_
      · intro h2 hN2 hj2
        refine ⟨.refl _ _, hj2, ?_⟩
        intro v hv b hb
        subst hb
        simp only [hSort, reads, bind_ok] at hv
        obtain ⟨_, _, hv⟩ := hv
        cases hv
      · rintro h2 c2 ⟨⟨c3, i1, i2, i3⟩, i4⟩ hc2
        refine ⟨?_, cls_of _ _ _ (set_undisturbed (W := fun _ => True) hc2 trivial _) i4⟩
        by_cases hol : o' = l
        · subst hol
          rw [i1] at hc2
          cases hc2
          refine ⟨⟨c2.cls, [c2.fields.headD (.atom .none), d]⟩,
            by simp [(List.getElem?_eq_some_iff.1 i1).1], i2, ?_⟩
          intro b hb'
          rcases List.mem_cons.1 hb' with hb' | hb'
          · refine i3 b ?_
            cases hf : c2.fields with
            | nil => rw [hf] at hb'; cases hb'
            | cons x xs => rw [hf] at hb'; simp at hb'; simp [hb']
          · rcases List.mem_singleton.1 hb' with e
            exact absurd e.symm (hd b)
        · exact ⟨c3, by rw [List.getElem?_set_ne hol]; exact i1, i2, i3⟩
  have whole : Sp h0.length (Own h0 q) J (hOrders T cx l a) fun _ => True := by
    unfold hOrders
    split
    · exact sp_raise
    exact sp_bind (sp_parseArgs hT hJ _ _) fun bs _ => sp_each _ fun b _ => put _ _
  exact (whole h0 (Nat.le_refl _)
    ⟨⟨c0, hl0, hk, fun b hb => .inr hb⟩, fun b d hd => ⟨d, hd, rfl⟩⟩).1

end

/-! ### Where the calls write -/

theorem own_kept {h : Heap} {q p i b : Nat} (o : Own h q p) (e : keptAt h p i = .ok b) :
    Own h q b := by
  unfold keptAt at e
  split at e <;> try cases e
  rename_i k xs hc
  split at e <;> try cases e
  rename_i hk
  split at e <;> cases e
  rename_i hb
  exact o.attr hc hb hk

theorem own_list {h : Heap} {q p l : Nat} (o : Own h q p) (e : listAt h p = .ok l) :
    Own h q l ∧ ∃ c, h[l]? = some c ∧ c.cls = .lib .listOfParts := by
  unfold listAt at e
  split at e <;> try cases e
  rename_i l' hl
  split at e <;> cases e
  rename_i hc
  exact ⟨own_kept o hl, _, hc, rfl⟩

theorem own_part {h : Heap} {q p : Nat} {s : Slot} (e : partAt h q s = .ok p) : Own h q p := by
  unfold partAt at e
  rw [bind_ok] at e
  obtain ⟨c, -, e⟩ := e
  split at e <;> try cases e
  split at e <;> try cases e
  exact own_kept .self e

theorem cellAt_ok {h : Heap} {p : Nat} {c : Cell} : cellAt h p = .ok c ↔ h[p]? = some c := by
  unfold cellAt
  split <;> simp [*]

theorem isLib_true {h : Heap} {p : Nat} {k : Lib} (e : isLib h p k = true) :
    ∃ d, h[p]? = some d ∧ d.cls = .lib k := by
  unfold isLib at e
  split at e
  · rename_i c xs hc
    exact ⟨_, hc, by simpa using e⟩
  · cases e

theorem own_lastTable {h : Heap} {q p t : Nat} (o : Own h q p) (e : lastTable h p = .ok t) :
    Own h q t := by
  unfold lastTable at e
  simp only [bind_ok] at e
  obtain ⟨l, hl, c, hc, e⟩ := e
  obtain ⟨ol, c', hc', hk⟩ := own_list o hl
  rw [cellAt_ok] at hc
  rw [hc] at hc'
  cases hc'
  split at e <;> try cases e
  rename_i t' ht
  split at e <;> cases e
  rename_i hi
  obtain ⟨d, hd, hdk⟩ := isLib_true hi
  exact ol.item hc (.inl hk) (List.mem_of_mem_drop (List.mem_of_getLast? ht)) hd (.inr (.inl hdk))

theorem own_joins {h : Heap} {q t js : Nat} (o : Own h q t) (e : joinsAt h t = .ok js) :
    Own h q js ∧ ∃ c, h[js]? = some c ∧ c.cls = .list := by
  unfold joinsAt at e
  split at e <;> try cases e
  rename_i l' hl
  split at e <;> cases e
  rename_i hc
  exact ⟨own_kept o hl, _, hc, rfl⟩

theorem own_lastOns {h : Heap} {q p l : Nat} (o : Own h q p) (e : lastOns h p = .ok l) :
    Own h q l := by
  unfold lastOns at e
  simp only [bind_ok] at e
  obtain ⟨t, ht, js, hjs, c, hc, e⟩ := e
  have ot := own_lastTable o ht
  obtain ⟨oj, c', hc', hk⟩ := own_joins ot hjs
  rw [cellAt_ok] at hc
  rw [hc] at hc'
  cases hc'
  split at e <;> try cases e
  rename_i j hj
  split at e <;> try cases e
  rename_i hi
  obtain ⟨d, hd, hdk⟩ := isLib_true hi
  have oo := oj.item hc (.inr hk) (List.mem_of_getLast? hj) hd (.inr (.inr hdk))
  rw [bind_ok] at e
  obtain ⟨ons, ho, e⟩ := e
  exact (own_list (own_kept oo ho) e).1

/-! ### Calls -/

/-- New objects need not be mentioned. -/
theorem drop_fresh {W : Nat → Prop} {h h' : Heap} (u : Undisturbed (Fresh h.length W) h h') :
    Undisturbed W h h' := by
  refine ⟨u.grows, fun p c hc => ?_⟩
  obtain ⟨c', h1, h2, h3⟩ := u.cell p c hc
  refine ⟨c', h1, h2, ?_⟩
  have hp := (List.getElem?_eq_some_iff.1 hc).1
  rcases h3 with (w | w) | t
  · exact .inl w
  · exact absurd hp (Nat.not_lt.2 w)
  · refine .inr ?_
    cases t with
    | same => exact .same _
    | gen => exact .gen _ _
    | join => exact .join _ _ _
    | table a b j v hj =>
      refine .table a b j v ?_
      rcases hj with hj | hj | hj
      · exact .inl hj
      · exact .inr hj
      · refine .inl fun e => ?_
        exact absurd (List.getElem?_eq_some_iff.1 e).1 (Nat.not_lt.2 hj)

theorem Sp.run {W : Nat → Prop} {α : Type} {m : HM α} {Q : α → Prop} {h : Heap}
    (s : Sp h.length W Tr m Q) : Undisturbed W h (m h).1 :=
  drop_fresh (s h (Nat.le_refl _) trivial).1

section
variable {T : Runtime} (hT : Gentle T) {h : Heap} {q : Nat}

theorem onPart_frame {s : Slot} {f : Nat → HM Unit} {W : Nat → Prop}
    (hf : ∀ p, Own h q p → Undisturbed W h (f p h).1) : Undisturbed W h (onPart q s f h).1 := by
  unfold onPart
  split
  · exact .refl _ _
  · rename_i p e
    exact hf p (own_part e)

theorem onList_frame {s : Slot} {f : Nat → HM Unit} {W : Nat → Prop}
    (hf : ∀ l c, Own h q l → h[l]? = some c → c.cls = .lib .listOfParts →
      Undisturbed W h (f l h).1) : Undisturbed W h (onList q s f h).1 := by
  refine onPart_frame fun p o => ?_
  split
  · exact .refl _ _
  · rename_i l e
    obtain ⟨ol, c, hc, hk⟩ := own_list o e
    exact hf l c ol hc hk

theorem onList_sp {s : Slot} {f : Nat → HM Unit} {W : Nat → Prop} {Q : Unit → Prop}
    (hf : ∀ l, Own h q l → Sp h.length W Tr (f l) Q) : Undisturbed W h (onList q s f h).1 :=
  onList_frame fun l _ o _ _ => (hf l o).run

theorem onPart_sp {s : Slot} {f : Nat → HM Unit} {W : Nat → Prop} {Q : Unit → Prop}
    (hf : ∀ p, Own h q p → Sp h.length W Tr (f p) Q) : Undisturbed W h (onPart q s f h).1 :=
  onPart_frame fun p o => (hf p o).run

theorem sp_setAttr {N : Nat} {W : Nat → Prop} {p i : Nat} {v : Val} (hp : Fresh N W p) :
    Sp N W Tr (hSetAttr p i v) fun _ => True := sp_mod hp

theorem sp_offset {N : Nat} {W : Nat → Prop} {p : Nat} {v : Val} (hp : Fresh N W p) :
    Sp N W Tr (hOffset p v) fun _ => True := by
  refine sp_bind (sp_check _ _) fun _ _ => sp_bind sp_reads fun o _ => ?_
  split
  · exact sp_bind sp_ofR fun _ _ => sp_setAttr hp
  · exact sp_setAttr hp

theorem sp_limit {N : Nat} {W : Nat → Prop} {p : Nat} {v w : Val} (hp : Fresh N W p) :
    Sp N W Tr (hLimit p v w) fun _ => True := by
  refine sp_bind (sp_check _ _) fun _ _ => sp_bind sp_reads fun o _ => ?_
  split
  · exact sp_bind (sp_setAttr hp) fun _ _ => sp_setAttr hp
  · refine sp_bind sp_ofR fun _ _ => sp_bind (sp_setAttr hp) fun _ _ => sp_bind sp_reads fun f _ => ?_
    split
    · exact sp_ret trivial
    · exact sp_offset hp

theorem option_frame {p : Nat} {key value : Str} (o : Own h q p) :
    Undisturbed (Own h q) h (hOption p key value h).1 := by
  unfold hOption
  split
  · exact .refl _ _
  · rename_i d e
    exact (sp_mod (N := h.length) (.inl (own_kept o e))).run

include hT

theorem joinTable_frame {W : Nat → Prop} (arg : Val)
    (hW : ∀ p k v, arg = .ref p → h[p]? = some ⟨.dict, [k, v]⟩ → W p) :
    Undisturbed (Fresh h.length W) h (hJoinTable T arg h).1 := by
  have bad : Undisturbed (Fresh h.length W) h
      (andThen (T.str arg) (fun _ => (raise .invalidArgument : HM Nat)) h).1 :=
    (sp_andThen (sp_str hT stable_true arg) (fun _ _ => sp_raise (Q := fun _ => True))
      h (Nat.le_refl _) trivial).1
  have ok : ∀ n a, Undisturbed (Fresh h.length W) h (hMkTable n a h).1 := fun n a =>
    (sp_mkTable n a h (Nat.le_refl _) trivial).1
  unfold hJoinTable
  split
  · exact ok _ _
  · rename_i p
    split
    · exact ok _ _
    · exact ok _ _
    · rename_i n a e
      exact (sp_andThen (sp_mod (.inl (hW p n a rfl e))) (fun _ _ => sp_mkTable n a)
        h (Nat.le_refl _) trivial).1
    · exact bad
  · exact bad

theorem join_frame {W : Nat → Prop} {js : Nat} (hjs : W js) (ty : JoinType) (arg : Val)
    (hW : ∀ p k v, arg = .ref p → h[p]? = some ⟨.dict, [k, v]⟩ → W p) :
    Undisturbed W h (hJoin T js ty arg h).1 := by
  have u := joinTable_frame hT arg hW
  refine drop_fresh ?_
  show Undisturbed _ h (andThen (hJoinTable T arg) _ h).1
  unfold andThen
  rcases e : hJoinTable T arg h with ⟨h1, _ | t⟩
  · rw [e] at u
    exact u
  · rw [e] at u
    refine u.trans ?_
    have rest : Sp h.length W Tr (do
        let (ons, _) ← hNewPart .onConditions L!" AND " []
        let j ← alloc (.lib .join) [.atom (.int ty.number), .ref t, .ref ons]
        HM.modify js fun xs => xs ++ [.ref j] : HM Unit) fun _ => True :=
      sp_bind (sp_newPart _ _ _) fun _ _ => sp_bind (sp_alloc stable_true) fun _ _ => sp_mod (.inl hjs)
    exact (rest h1 u.grows trivial).1

omit hT in
theorem sp_mkRef {N : Nat} {W : Nat → Prop} (v : Val) :
    Sp N W Tr (hMkRef v) fun _ => True :=
  sp_bind (sp_alloc stable_true) fun _ hp => sp_bind (sp_alloc stable_true) fun _ _ =>
    sp_bind (sp_alloc stable_true) fun _ _ => sp_bind (sp_mod (.inr hp)) fun _ _ => sp_ret trivial

theorem onDuplicate_frame (cx : Ctx) (a : HArgs) :
    Undisturbed (Own h q) h (hOnDuplicate T cx q a h).1 := by
  unfold hOnDuplicate
  split
  · exact .refl _ _
  have seq : ∀ (m n : HM Unit), (∀ g, (n g).1 = g) → Undisturbed (Own h q) h (m h).1 →
      Undisturbed (Own h q) h ((m >>= fun _ => n) h).1 := by
    intro m n hn hm
    show Undisturbed _ h (andThen m (fun _ => n) h).1
    unfold andThen
    rcases e : m h with ⟨h1, _ | t⟩ <;> rw [e] at hm
    · exact hm
    · simpa only [hn] using hm
  cases hb : cx.backend <;>
    simp only [Backend.supportsOnDuplicateKeyUpdate, Backend.supportsOnConflictDoUpdate,
      Backend.supportsReplaceInto]
  · exact .refl _ _
  · exact seq _ _ (fun _ => rfl) (onList_sp fun l o => sp_values hT (.inl o) a)
  · refine (?_ : Undisturbed (Own h q) h ((onPart q .conflict
      (fun p => onList q .conflict fun l => hOnConflict T p l a) >>= fun _ => ret ()) h).1)
    refine seq _ _ (fun _ => rfl) (onPart_frame fun p o => onList_sp (Q := fun _ => True)
      fun l o' => ?_)
    unfold hOnConflict
    split
    · exact sp_raise
    split
    · exact sp_bind (sp_mkRef _) fun _ _ => sp_bind (sp_setAttr (.inl o)) fun _ _ =>
        sp_values hT (.inl o') _
    · exact sp_raise
  · refine (?_ : Undisturbed (Own h q) h ((if !a.pos.isEmpty || !a.kw.isEmpty then raise .exception
      else onPart q .keyword fun p => hSetAttr p 0 (.atom (.bool true)) : HM Unit) h).1)
    split
    · exact .refl _ _
    · exact onPart_sp fun p o => sp_setAttr (.inl o)

theorem call_frame (cx : Ctx) (call : HCall) :
    Undisturbed (fun p => Own h q p ∨ JoinedDict h call p) h (hCall T cx q call h).1 := by
  have up : ∀ {h'}, Undisturbed (Own h q) h h' →
      Undisturbed (fun p => Own h q p ∨ JoinedDict h call p) h h' := fun u => u.mono fun _ => .inl
  unfold hCall
  split
  · exact .refl _ _
  split
  · exact up (onList_sp fun l o => sp_columns hT (.inl o) _)
  · exact up (onList_sp fun l o => sp_tables hT (.inl o) _)
  · exact up (onList_sp fun l o => sp_andThen (sp_alloc stable_true) fun _ _ => sp_tables hT (.inl o) _)
  · exact up (onList_sp fun l o => sp_where hT _ (.inl o) _)
  · exact up (onList_frame fun l c o hc hk => drop_fresh (orders_frame hT cx hc hk o _))
  · exact up (onList_frame fun l c o hc hk => drop_fresh (orders_frame hT cx hc hk o _))
  · exact up (onList_frame fun l c o hc hk => drop_fresh (orders_frame hT cx hc hk o _))
  · exact up (onPart_sp fun p o => sp_limit (.inl o))
  · exact up (onPart_sp fun p o => sp_offset (.inl o))
  · exact up (onPart_sp fun p o => sp_bind (sp_check _ _) fun _ _ => sp_setAttr (.inl o))
  · exact up (onPart_frame fun p o => option_frame o)
  · exact up (onPart_sp fun p o => sp_setAttr (.inl o))
  · exact up (onList_sp fun l o => sp_tables hT (.inl o) _)
  · split
    · exact .refl _ _
    · exact up (onList_sp fun l o => sp_rows hT (.inl o) _)
  · exact up (onDuplicate_frame hT cx _)
  · exact up (onList_sp fun l o => sp_tables hT (.inl o) _)
  · exact up (onList_sp fun l o => sp_values hT (.inl o) _)
  · exact up (sp_setAttr (N := h.length) (.inl .self)).run
  · exact up (sp_setAttr (N := h.length) (.inl .self)).run
  · exact up (onList_sp fun l o => sp_tables hT (.inl o) _)
  · exact up (onList_sp fun l o => sp_tables hT (.inl o) _)
  · exact up (onList_sp fun l o => sp_andThen (sp_alloc stable_true) fun _ _ => sp_tables hT (.inl o) _)
  · split
    · exact .refl _ _
    · rename_i l e
      exact up (sp_where (N := h.length) hT _ (.inl (own_list .self e).1) _).run
  · exact up (sp_setAttr (N := h.length) (.inl .self)).run
  · exact up (sp_setAttr (N := h.length) (.inl .self)).run
  · exact up (sp_bind (N := h.length) (sp_str hT stable_true _) fun _ _ => sp_setAttr (.inl .self)).run
  · exact up (onList_sp fun l o => sp_where hT _ (.inl o) _)
  · split
    · exact .refl _ _
    split
    · exact .refl _ _
    refine onPart_frame fun p o => ?_
    unfold hTablesJoin
    split
    · exact .refl _ _
    split
    · exact .refl _ _
    split
    · exact .refl _ _
    rename_i ht _ _ hjs
    refine join_frame hT (.inl (own_joins (own_lastTable o ht) hjs).1) _ _ ?_
    rintro p k v rfl hd
    exact .inr ⟨_, k, v, rfl, hd⟩
  · split
    · exact .refl _ _
    refine up (onPart_frame fun p o => ?_)
    unfold hTablesOn
    split
    · exact .refl _ _
    split
    · exact .refl _ _
    rename_i l e
    exact (sp_where (N := h.length) hT _ (.inl (own_lastOns o e)) _).run
  · split
    · exact .refl _ _
    · exact up (onPart_frame fun p o => option_frame o)
  · exact up (sp_andThen (N := h.length) (sp_str hT stable_true _) fun _ _ => sp_ret (Q := fun _ => True) trivial).run
  · exact up (sp_andThen (N := h.length) (sp_eq hT stable_true _ _) fun _ _ => sp_ret (Q := fun _ => True) trivial).run
  · exact .refl _ _

end

end SqlPuzzle.FrameFacts
