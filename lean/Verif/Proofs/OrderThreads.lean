import Verif.Proofs.Accumulate
import Verif.Spec.OrderThreads
import Verif.Spec.Threads
import Mathlib.Data.List.Induction
import Mathlib.Data.List.Nodup

/-!
Invariants of calls of `order_by` and `group_by` by several threads.
-/

namespace SqlPuzzle

open Spec

/-- The columns of orders. -/
def colsOf (os : List Order) : List Obj := os.map OrderS.col

/-- Orders as uses. -/
def usesOf (os : List Order) : List Use := os.map fun o => (o.col, o.desc)

/-- A column given by name or by number. -/
def PlainKey (c : Obj) : Prop := (∃ s, c = .str s) ∨ ∃ i, c = .int i

theorem PlainKey.scalar {c : Obj} (h : PlainKey c) : c.scalar = true := by
  rcases h with ⟨s, rfl⟩ | ⟨i, rfl⟩ <;> rfl

theorem PlainKey.make {cx : Ctx} {c s : Obj} {d : Bool} (h : PlainKey c) (hd : SortDirection cx s d) :
    mkOrder cx c s = .ok ⟨c, d⟩ := by
  have hd := (orderSort_iff cx s d).mpr hd
  unfold mkOrder
  rw [hd]
  rcases h with ⟨s, rfl⟩ | ⟨i, rfl⟩ <;> rfl

/-- What a thread in a phase has still to do; `cs` are the columns that are there, `known` those it knows of. -/
def Doing (cx : Ctx) (cs known : List Obj) : OrderPhase → List Use → Prop
  | .next todo, rest => Uses cx todo rest
  | .look c s k todo, rest => ∃ d more, rest = (c, d) :: more ∧ PlainKey c ∧ SortDirection cx s d ∧ Uses cx todo more ∧
      k ≤ cs.length ∧ ∀ j < k, cs[j]? ≠ some c
  | .add o todo, rest => ∃ more, rest = (o.col, o.desc) :: more ∧ PlainKey o.col ∧ Uses cx todo more ∧ o.col ∉ known
  | .change k s todo, rest => ∃ c d more, rest = (c, d) :: more ∧ SortDirection cx s d ∧ Uses cx todo more ∧
      cs[k]? = some c
  | .done, rest => rest = []
  | .raised _, _ => False

/-- What is known of a thread whose call gives `us`, of which it has appended `mine`; no other call gives the columns
`ex`. -/
structure OThr (cx : Ctx) (os0 w : List Order) (us : List Use) (ex : Obj → Prop) (mine : List Obj) (ph : OrderPhase) :
    Prop where
  past : ∃ past rest, us = past ++ rest ∧ Doing cx (colsOf w) (colsOf os0 ++ mine) ph rest ∧
    mine.Sublist (past.map Prod.fst) ∧ (∀ u ∈ past, u.1 ∈ colsOf w) ∧
    ∀ c, ex c → ∀ o ∈ w, o.col = c → LastValue (usesOf os0 ++ past) c o.desc
  nodup : mine.Nodup
  fresh : ∀ c ∈ mine, c ∉ colsOf os0
  sub : ∀ c ∈ colsOf os0 ++ mine, c ∈ colsOf w
  known : ∀ c, ex c → c ∈ colsOf w → c ∈ colsOf os0 ++ mine
  once : ∀ c, ex c → ∀ j j' : Nat, (colsOf w)[j]? = some c → (colsOf w)[j']? = some c → j = j'

variable {cx : Ctx} {n : Nat}

theorem Doing.more {cs known more : List Obj} {ph : OrderPhase} {rest : List Use} (h : Doing cx cs known ph rest) :
    Doing cx (cs ++ more) known ph rest := by
  cases ph with
  | look c s k todo =>
    obtain ⟨d, r, h1, h2, h3, h4, h5, h6⟩ := h
    refine ⟨d, r, h1, h2, h3, h4, by simp; omega, fun j hj => ?_⟩
    rw [List.getElem?_append_left (by omega)]
    exact h6 j hj
  | change k s todo =>
    obtain ⟨c, d, r, h1, h2, h3, h4⟩ := h
    refine ⟨c, d, r, h1, h2, h3, ?_⟩
    obtain ⟨hk, _⟩ := List.getElem?_eq_some_iff.mp h4
    rw [List.getElem?_append_left hk]
    exact h4
  | _ => exact h

/-- What other threads do: they append other columns, and change directions of other columns. -/
theorem OThr.other {os0 w w' : List Order} {us : List Use} {ex : Obj → Prop} {mine : List Obj} {ph : OrderPhase}
    (h : OThr cx os0 w us ex mine ph) {more : List Obj} (h1 : colsOf w' = colsOf w ++ more)
    (h2 : ∀ c ∈ more, ¬ ex c) (h3 : ∀ o ∈ w', ex o.col → o ∈ w) : OThr cx os0 w' us ex mine ph where
  past := by
    obtain ⟨past, rest, p1, p2, p3, p4, p5⟩ := h.past
    refine ⟨past, rest, p1, ?_, p3, fun u hu => ?_, ?_⟩
    · rw [h1]; exact p2.more
    · rw [h1]; exact List.mem_append_left _ (p4 u hu)
    · rintro c hc o ho rfl
      exact p5 _ hc o (h3 o ho hc) rfl
  nodup := h.nodup
  fresh := h.fresh
  sub := fun c hc => by rw [h1]; exact List.mem_append_left _ (h.sub c hc)
  known := by
    intro c hc hm
    rw [h1] at hm
    rcases List.mem_append.mp hm with hm | hm
    · exact h.known c hc hm
    · exact absurd hc (h2 c hm)
  once := by
    intro c hc j j' e e'
    rw [h1] at e e'
    have in_front : ∀ j : Nat, (colsOf w ++ more)[j]? = some c → (colsOf w)[j]? = some c := by
      intro j e
      rcases Nat.lt_or_ge j (colsOf w).length with hj | hj
      · rwa [List.getElem?_append_left hj] at e
      · rw [List.getElem?_append_right hj] at e
        exact absurd hc (h2 c (List.mem_of_getElem? e))
    exact h.once c hc j j' (in_front j e) (in_front j' e')

/-- The column that a step appends. -/
def addedCol : OrderPhase → List Obj
  | .add o _ => [o.col]
  | _ => []

private theorem cols_modify (w : List Order) (k : Nat) (d : Bool) :
    colsOf (w.modify k fun o => { o with desc := d }) = colsOf w := by
  unfold colsOf
  refine List.ext_getElem? fun j => ?_
  simp only [List.getElem?_map, List.getElem?_modify]
  cases w[j]? with
  | none => rfl
  | some o =>
    by_cases h : k = j <;> simp [h]

/-- What a step of a thread does to the list. -/
theorem step_list {w : List Order} {us : List Use} {ex : Obj → Prop} {mine : List Obj} {ph : OrderPhase}
    {os0 : List Order} (h : OThr cx os0 w us ex mine ph) (S : Sem) :
    colsOf (orderThreadStep cx S w ph).1 = colsOf w ++ addedCol ph ∧
    (∀ c ∈ addedCol ph, c ∈ us.map Prod.fst) ∧
    ∀ o ∈ (orderThreadStep cx S w ph).1, o ∈ w ∨ (o.col, o.desc) ∈ us := by
  obtain ⟨past, rest, p1, p2, -, -, -⟩ := h.past
  cases ph with
  | next todo =>
    cases todo with
    | nil => exact ⟨by simp [orderThreadStep, addedCol], by simp [addedCol], fun o h => .inl h⟩
    | cons p todo => exact ⟨by simp [orderThreadStep, addedCol], by simp [addedCol], fun o h => .inl h⟩
  | look c s k todo =>
    have : (orderThreadStep cx S w (.look c s k todo)).1 = w := by
      simp only [orderThreadStep]
      split
      · split <;> rfl
      · split <;> rfl
    rw [this]
    exact ⟨by simp [addedCol], by simp [addedCol], fun o h => .inl h⟩
  | add o todo =>
    obtain ⟨more, r1, -⟩ := p2
    subst r1
    refine ⟨by simp [orderThreadStep, addedCol, colsOf], ?_, fun x hx => ?_⟩
    · intro c hc
      rw [List.mem_singleton.mp hc, p1]
      simp
    · rcases List.mem_append.mp hx with hx | hx
      · exact .inl hx
      · rw [List.mem_singleton.mp hx, p1]; simp
  | change k s todo =>
    obtain ⟨c, d, more, r1, r2, r3, r4⟩ := p2
    subst r1
    have e : (orderThreadStep cx S w (.change k s todo)).1 = w.modify k fun o => { o with desc := d } := by
      simp only [orderThreadStep, (orderSort_iff cx s d).mpr r2]
    rw [e]
    refine ⟨by rw [cols_modify]; simp [addedCol], by simp [addedCol], fun x hx => ?_⟩
    obtain ⟨j, hj⟩ := List.mem_iff_getElem?.mp hx
    rw [List.getElem?_modify] at hj
    cases hw : w[j]? with
    | none => rw [hw] at hj; cases hj
    | some o =>
      rw [hw] at hj
      by_cases hk : k = j
      · subst hk
        simp only [if_true, Option.map_eq_map, Option.map_some, Option.some.injEq] at hj
        right
        have : c = o.col := by
          unfold colsOf at r4
          rw [List.getElem?_map, hw] at r4
          exact (Option.some.inj r4).symm
        rw [← hj, p1, this]
        simp
      · simp only [hk, if_false, Option.map_eq_map, Option.map_some, Option.some.injEq] at hj
        left
        rw [← hj]
        exact List.mem_of_getElem? hw
  | done => exact ⟨by simp [orderThreadStep, addedCol], by simp [addedCol], fun o h => .inl h⟩
  | raised e => exact p2.elim

private theorem last_more {us : List Use} {c c' : Obj} {d d' : Bool} (h : LastValue us c d) (hne : c' ≠ c) :
    LastValue (us ++ [(c', d')]) c d := .there c' d' h hne

/-- A step of the thread itself. -/
theorem OThr.step {os0 w : List Order} {us : List Use} {ex : Obj → Prop} {mine : List Obj} {ph : OrderPhase}
    (h : OThr cx os0 w us ex mine ph) (hp : ∀ o ∈ w, PlainKey o.col) :
    OThr cx os0 (orderThreadStep cx (sem cx (n + 1)) w ph).1 us ex (mine ++ addedCol ph)
      (orderThreadStep cx (sem cx (n + 1)) w ph).2 := by
  obtain ⟨past, rest, p1, p2, p3, p4, p5⟩ := h.past
  have same : ∀ ph', addedCol ph = [] → Doing cx (colsOf w) (colsOf os0 ++ mine) ph' rest →
      OThr cx os0 w us ex (mine ++ addedCol ph) ph' := by
    intro ph' e hd
    rw [e, List.append_nil]
    exact ⟨⟨past, rest, p1, hd, p3, p4, p5⟩, h.nodup, h.fresh, h.sub, h.known, h.once⟩
  cases ph with
  | next todo =>
    cases todo with
    | nil =>
      refine same _ rfl ?_
      cases p2
      rfl
    | cons p todo =>
      obtain ⟨c, s⟩ := p
      cases p2 with
      | @cons _ u _ more r1 r2 =>
        obtain ⟨u1, d⟩ := u
        obtain ⟨r3, r4, r5⟩ := r1
        have r4 : u1 = c := r4
        subst r4
        exact same (.look u1 s 0 todo) rfl ⟨d, more, rfl, r3, r5, r2, Nat.zero_le _, by simp⟩
  | look c s k todo =>
    obtain ⟨d, more, r1, r2, r3, r4, r5, r6⟩ := p2
    cases hw : w[k]? with
    | none =>
      simp only [orderThreadStep, hw, r2.make r3]
      refine same (.add ⟨c, d⟩ todo) rfl ⟨more, r1, r2, r4, fun hm => ?_⟩
      obtain ⟨j, hj⟩ := List.mem_iff_getElem?.mp (h.sub _ hm)
      have hlen : (colsOf w).length ≤ k := by
        unfold colsOf
        rw [List.length_map]
        exact List.getElem?_eq_none_iff.mp hw
      have := (List.getElem?_eq_some_iff.mp hj).1
      exact r6 j (by omega) hj
    | some o =>
      have hk : (colsOf w)[k]? = some o.col := by unfold colsOf; rw [List.getElem?_map, hw]; rfl
      obtain ⟨r, e1, e2⟩ := eqF_scalar cx (sem cx n) (hp o (List.mem_of_getElem? hw)).scalar r2.scalar
      have e1 : (sem cx (n + 1)).eq o.col c = .ok r := e1
      simp only [orderThreadStep, hw, e1]
      cases r with
      | true =>
        refine same (.change k s todo) rfl ⟨c, d, more, r1, r3, r4, ?_⟩
        rw [hk, e2.mp rfl]
      | false =>
        refine same (.look c s (k + 1) todo) rfl ⟨d, more, r1, r2, r3, r4, (List.getElem?_eq_some_iff.mp hk).1, fun j hj e => ?_⟩
        rcases Nat.lt_succ_iff_lt_or_eq.mp hj with hj | rfl
        · exact r6 j hj e
        · rw [hk] at e
          have : false = true := e2.mpr (Option.some.inj e)
          cases this
  | add o todo =>
    obtain ⟨more, r1, r2, r3, r4⟩ := p2
    subst r1
    have hcols : colsOf (w ++ [o]) = colsOf w ++ [o.col] := by simp [colsOf]
    have hm : o.col ∉ mine := fun hm => r4 (List.mem_append_right _ hm)
    show OThr cx os0 (w ++ [o]) us ex (mine ++ [o.col]) (.next todo)
    refine ⟨⟨past ++ [(o.col, o.desc)], more, by rw [p1]; simp, r3, ?_, ?_, ?_⟩, ?_, ?_, ?_, ?_, ?_⟩
    · rw [List.map_append]
      exact p3.append (.refl _)
    · intro u hu
      rw [hcols]
      rcases List.mem_append.mp hu with hu | hu
      · exact List.mem_append_left _ (p4 u hu)
      · rw [List.mem_singleton.mp hu]; simp
    · rintro c hc x hx rfl
      rw [← List.append_assoc]
      rcases List.mem_append.mp hx with hx | hx
      · by_cases e : o.col = x.col
        · refine absurd (h.known _ hc ?_) (e ▸ r4)
          exact List.mem_map_of_mem (f := OrderS.col) hx
        · exact last_more (p5 _ hc x hx rfl) e
      · rw [List.mem_singleton.mp hx]; exact .here _ _ _
    · rw [List.nodup_append]
      exact ⟨h.nodup, by simp, by rintro a ha b hb rfl; rw [List.mem_singleton.mp hb] at ha; exact hm ha⟩
    · intro c hc
      rcases List.mem_append.mp hc with hc | hc
      · exact h.fresh c hc
      · rw [List.mem_singleton.mp hc]; exact fun hx => r4 (List.mem_append_left _ hx)
    · intro c hc
      rw [hcols]
      rw [← List.append_assoc] at hc
      rcases List.mem_append.mp hc with hc | hc
      · exact List.mem_append_left _ (h.sub c hc)
      · exact List.mem_append_right _ hc
    · intro c hc hx
      rw [hcols] at hx
      rw [← List.append_assoc]
      rcases List.mem_append.mp hx with hx | hx
      · exact List.mem_append_left _ (h.known c hc hx)
      · exact List.mem_append_right _ hx
    · intro c hc j j' e e'
      rw [hcols] at e e'
      have key : ∀ j : Nat, (colsOf w ++ [o.col])[j]? = some c →
          (colsOf w)[j]? = some c ∨ (j = (colsOf w).length ∧ c = o.col) := by
        intro j e
        rcases Nat.lt_or_ge j (colsOf w).length with hj | hj
        · rw [List.getElem?_append_left hj] at e; exact .inl e
        · rw [List.getElem?_append_right hj] at e
          obtain ⟨h1, h2⟩ := List.getElem?_eq_some_iff.mp e
          simp only [List.length_singleton] at h1
          refine .inr ⟨by omega, ?_⟩
          simpa [show j - (colsOf w).length = 0 by omega] using e.symm
      have out : ∀ j : Nat, (colsOf w)[j]? = some c → c ≠ o.col := by
        rintro j e rfl
        exact r4 (h.known _ hc (List.mem_of_getElem? e))
      rcases key j e with e | ⟨e, h1⟩ <;> rcases key j' e' with e' | ⟨e', h2⟩
      · exact h.once c hc j j' e e'
      · exact absurd h2 (out j e)
      · exact absurd h1 (out j' e')
      · omega
  | change k s todo =>
    obtain ⟨c0, d, more, r1, r2, r3, r4⟩ := p2
    subst r1
    have e0 : orderThreadStep cx (sem cx (n + 1)) w (.change k s todo) =
        (w.modify k fun o => { o with desc := d }, .next todo) := by
      simp only [orderThreadStep, (orderSort_iff cx s d).mpr r2]
    rw [e0]
    show OThr cx os0 (w.modify k fun o => { o with desc := d }) us ex (mine ++ []) (.next todo)
    rw [List.append_nil]
    refine ⟨⟨past ++ [(c0, d)], more, by rw [p1]; simp, r3, ?_, ?_, ?_⟩, h.nodup, h.fresh, ?_, ?_, ?_⟩
    · rw [List.map_append]
      exact p3.trans (List.sublist_append_left _ _)
    · intro u hu
      rw [cols_modify]
      rcases List.mem_append.mp hu with hu | hu
      · exact p4 u hu
      · rw [List.mem_singleton.mp hu]; exact List.mem_of_getElem? r4
    · rintro c hc x hx rfl
      rw [← List.append_assoc]
      obtain ⟨j, hj⟩ := List.mem_iff_getElem?.mp hx
      rw [List.getElem?_modify] at hj
      cases hw : w[j]? with
      | none => rw [hw] at hj; cases hj
      | some o =>
        rw [hw] at hj
        have hcj : (colsOf w)[j]? = some o.col := by unfold colsOf; rw [List.getElem?_map, hw]; rfl
        by_cases hk : k = j
        · subst hk
          simp only [if_true, Option.map_eq_map, Option.map_some, Option.some.injEq] at hj
          have : c0 = o.col := Option.some.inj (r4.symm.trans hcj)
          rw [← hj, this]
          exact .here _ _ _
        · simp only [hk, if_false, Option.map_eq_map, Option.map_some, Option.some.injEq] at hj
          subst hj
          refine last_more (p5 _ hc o (List.mem_of_getElem? hw) rfl) ?_
          rintro rfl
          exact hk (h.once _ hc k j r4 hcj)
    · rw [cols_modify]; exact h.sub
    · rw [cols_modify]; exact h.known
    · rw [cols_modify]; exact h.once
  | done => exact same _ rfl p2
  | raised e => exact p2.elim


/-- The state of all threads after any schedule. -/
structure OInv (cx : Ctx) (os0 : List Order) (uss : List (List Use)) (w : OrderWorld) (tags : List (Nat × Obj)) :
    Prop where
  cols : colsOf w.1 = colsOf os0 ++ tags.map Prod.snd
  tag : ∀ t ∈ tags, t.1 < uss.length
  len : w.2.length = uss.length
  plain : ∀ o ∈ w.1, PlainKey o.col
  dir : ∀ o ∈ w.1, o ∈ os0 ∨ ∃ us ∈ uss, (o.col, o.desc) ∈ us
  thr : ∀ i us, uss[i]? = some us → ∃ ph, w.2[i]? = some ph ∧
    OThr cx os0 w.1 us (OnlyIn uss i) (numbered i tags) ph

theorem numbered_append {α : Type} (i : Nat) (a b : List (Nat × α)) :
    numbered i (a ++ b) = numbered i a ++ numbered i b := by
  unfold numbered; rw [List.filterMap_append]

theorem numbered_same {α : Type} (i : Nat) (xs : List α) : numbered i (xs.map fun x => (i, x)) = xs := by
  induction xs with
  | nil => rfl
  | cons x xs ih => simp only [numbered, List.map_cons, List.filterMap_cons, if_true] at ih ⊢; rw [ih]

theorem numbered_differ {α : Type} {i j : Nat} (h : i ≠ j) (xs : List α) :
    numbered j (xs.map fun x => (i, x)) = [] := by
  induction xs with
  | nil => rfl
  | cons x xs ih => simp only [numbered, List.map_cons, List.filterMap_cons, h, if_false] at ih ⊢; exact ih

theorem OInv.tick {os0 : List Order} {uss : List (List Use)} (hpl : ∀ us ∈ uss, ∀ u ∈ us, PlainKey u.1) {w : OrderWorld}
    {tags : List (Nat × Obj)} (h : OInv cx os0 uss w tags) (i : Nat) :
    ∃ tags', OInv cx os0 uss (orderTick cx (sem cx (n + 1)) w i) tags' := by
  unfold orderTick
  cases hph : w.2[i]? with
  | none => exact ⟨tags, h⟩
  | some ph =>
    obtain ⟨hi, _⟩ := List.getElem?_eq_some_iff.mp hph
    have hi' : i < uss.length := by rw [← h.len]; exact hi
    have hus := List.getElem?_eq_getElem hi'
    obtain ⟨ph', e', ht⟩ := h.thr i _ hus
    rw [hph] at e'
    cases e'
    obtain ⟨s1, s2, s3⟩ := step_list ht (sem cx (n + 1))
    have hst := ht.step (n := n) h.plain
    dsimp only
    generalize orderThreadStep cx (sem cx (n + 1)) w.1 ph = r at *
    have hin : uss[i] ∈ uss := List.getElem_mem hi'
    refine ⟨tags ++ (addedCol ph).map fun c => (i, c), ?_, ?_, ?_, ?_, ?_, ?_⟩
    · show colsOf r.1 = _
      rw [s1, h.cols, List.map_append, List.map_map, List.append_assoc]
      congr 2
      exact (List.map_id _).symm
    · intro t ht
      rcases List.mem_append.mp ht with ht | ht
      · exact h.tag t ht
      · obtain ⟨c, _, rfl⟩ := List.mem_map.mp ht
        exact hi'
    · show (w.2.set i r.2).length = _
      rw [List.length_set]; exact h.len
    · intro o ho
      rcases s3 o ho with ho | ho
      · exact h.plain o ho
      · exact hpl _ hin _ ho
    · intro o ho
      rcases s3 o ho with ho | ho
      · exact h.dir o ho
      · exact .inr ⟨_, hin, ho⟩
    · intro j us hj
      show ∃ ph, (w.2.set i r.2)[j]? = some ph ∧ OThr cx os0 r.1 us _ _ ph
      rw [numbered_append]
      by_cases hij : i = j
      · subst hij
        rw [hus] at hj
        cases hj
        refine ⟨r.2, by rw [List.getElem?_set_self hi], ?_⟩
        rw [numbered_same]
        exact hst
      · obtain ⟨ph', e', ht'⟩ := h.thr j us hj
        refine ⟨ph', by rw [List.getElem?_set_ne hij]; exact e', ?_⟩
        rw [numbered_differ hij, List.append_nil]
        refine ht'.other s1 (fun c hc hex => hij ?_) fun o ho hex => ?_
        · exact hex i _ hus (s2 c hc)
        · refine (s3 o ho).resolve_right fun hm => hij ?_
          exact hex i _ hus (List.mem_map.mpr ⟨_, hm, rfl⟩)

theorem OInv.run {os0 : List Order} {uss : List (List Use)} (hpl : ∀ us ∈ uss, ∀ u ∈ us, PlainKey u.1) {w : OrderWorld}
    {tags : List (Nat × Obj)} (h : OInv cx os0 uss w tags) (schedule : List Nat) :
    ∃ tags', OInv cx os0 uss (runOrderThreads cx (sem cx (n + 1)) w schedule) tags' := by
  induction schedule generalizing w tags with
  | nil => exact ⟨tags, h⟩
  | cons i s ih =>
    obtain ⟨tags', h'⟩ := h.tick (n := n) hpl i
    exact ih h'

theorem startOrder_uses {a : Args} {us : List Use} (h : GivesUses cx a us) (S : Sem) :
    ∃ ps, startOrder S a = .next ps ∧ Uses cx ps us := by
  obtain ⟨ps, h1, h2⟩ := h
  obtain ⟨h3, h4⟩ := givesNames_parse h1 S
  refine ⟨ps, ?_, h2⟩
  unfold startOrder
  rw [h4, h3]
  simp only [Bool.false_eq_true, if_false, rows2, List.map_map]
  congr 1
  conv => rhs; rw [← List.map_id ps]
  rfl

theorem uses_plain {ps : List (Obj × Obj)} {us : List Use} (h : Uses cx ps us) : ∀ u ∈ us, PlainKey u.1 := by
  induction h with
  | nil => simp
  | cons h1 _ ih =>
    intro u hu
    rcases List.mem_cons.mp hu with rfl | hu
    · rw [h1.2.1]; exact h1.1
    · exact ih u hu

theorem OInv.start {os0 : List Order} (hp : ∀ o ∈ os0, PlainKey o.col) (hn : (colsOf os0).Nodup) {calls : List Args}
    {uss : List (List Use)} (hg : List.Forall₂ (GivesUses cx) calls uss) (S : Sem) :
    OInv cx os0 uss (os0, calls.map (startOrder S)) [] where
  cols := by simp
  tag := by simp
  len := by simp [hg.length_eq]
  plain := hp
  dir := fun o ho => .inl ho
  thr := by
    intro i us hi
    have hl := hg.length_eq
    obtain ⟨hi', rfl⟩ := List.getElem?_eq_some_iff.mp hi
    have hc : i < calls.length := by omega
    obtain ⟨ps, h1, h2⟩ := startOrder_uses ((List.forall₂_iff_get.mp hg).2 i hc hi') S
    refine ⟨.next ps, ?_, ?_⟩
    · simp only [List.getElem?_map, List.getElem?_eq_getElem hc]
      exact congrArg some h1
    · refine ⟨⟨[], _, rfl, h2, ?_, by simp, ?_⟩, ?_, ?_, ?_, ?_, ?_⟩
      · exact List.Sublist.refl []
      · rintro c _ o ho rfl
        rw [List.append_nil]
        obtain ⟨a, b, rfl⟩ := List.append_of_mem ho
        unfold colsOf at hn
        rw [List.map_append, List.map_cons, List.nodup_append] at hn
        obtain ⟨_, h4, _⟩ := hn
        have h5 := (List.nodup_cons.mp h4).1
        have : ∀ b : List Order, o.col ∉ b.map OrderS.col →
            LastValue (usesOf (a ++ o :: b)) o.col o.desc := by
          intro b
          induction b using List.reverseRecOn with
          | nil => intro _; simpa [usesOf] using LastValue.here (usesOf a) o.col o.desc
          | append_singleton b x ih =>
            intro hb
            simp only [List.map_append, List.mem_append, List.map_cons, List.map_nil, List.mem_singleton, not_or] at hb
            have := LastValue.there x.col x.desc (ih hb.1) (fun e => hb.2 e.symm)
            simpa [usesOf] using this
        exact this b h5
      · exact List.nodup_nil
      · intro c hc; cases hc
      · intro c hc
        rw [show numbered i ([] : List (Nat × Obj)) = [] from rfl, List.append_nil] at hc
        exact hc
      · intro c _ hc; exact List.mem_append_left _ hc
      · intro c _ j j' e e'
        obtain ⟨hj, e⟩ := List.getElem?_eq_some_iff.mp e
        obtain ⟨hj', e'⟩ := List.getElem?_eq_some_iff.mp e'
        exact (List.Nodup.getElem_inj_iff hn).mp (e.trans e'.symm)

/-! ### Every call ends -/

/-- How many entries a thread has still to do. -/
def OrderPhase.left : OrderPhase → Nat
  | .next todo => todo.length
  | .look _ _ _ todo | .add _ todo | .change _ _ todo => todo.length + 1
  | .done | .raised _ => 0

/-- How many steps a thread has still to make when there are at most `m` orders. -/
def orderCost (m : Nat) : OrderPhase → Nat
  | .next todo => todo.length * (m + 4) + 1
  | .look _ _ k todo => (m - k) + 2 + (todo.length * (m + 4) + 1)
  | .add _ todo | .change _ _ todo => 1 + (todo.length * (m + 4) + 1)
  | .done | .raised _ => 0

theorem orderCost_step (S : Sem) {m : Nat} {w : List Order} (hw : w.length ≤ m) (ph : OrderPhase) :
    orderCost m (orderThreadStep cx S w ph).2 ≤ orderCost m ph - 1 := by
  cases ph with
  | next todo =>
    match todo with
    | [] => simp [orderThreadStep, orderCost]
    | (c, s) :: todo =>
      simp only [orderThreadStep, orderCost, List.length_cons, Nat.add_mul]
      omega
  | look c s k todo =>
    simp only [orderThreadStep]
    split
    · split
      · simp only [orderCost]; omega
      · simp only [orderCost]; omega
    · rename_i o ho
      have := (List.getElem?_eq_some_iff.mp ho).1
      split
      · simp only [orderCost]; omega
      · simp only [orderCost]; omega
      · simp only [orderCost]; omega
  | add o todo => simp only [orderThreadStep, orderCost]; omega
  | change k s todo =>
    simp only [orderThreadStep]
    split
    · simp only [orderCost]; omega
    · simp only [orderCost]; omega
  | done => simp [orderThreadStep, orderCost]
  | raised e => simp [orderThreadStep, orderCost]

/-- The orders there and those to come. -/
def orderCapacity (w : OrderWorld) : Nat := w.1.length + (w.2.map OrderPhase.left).sum

theorem orderLeft_step (S : Sem) (w : List Order) (ph : OrderPhase) :
    (orderThreadStep cx S w ph).1.length + (orderThreadStep cx S w ph).2.left ≤ w.length + ph.left := by
  cases ph with
  | next todo =>
    match todo with
    | [] => simp [orderThreadStep, OrderPhase.left]
    | (c, s) :: todo => simp [orderThreadStep, OrderPhase.left]
  | look c s k todo =>
    simp only [orderThreadStep]
    split
    · split <;> simp [OrderPhase.left]
    · split <;> simp [OrderPhase.left]
  | add o todo => simp [orderThreadStep, OrderPhase.left]; omega
  | change k s todo =>
    simp only [orderThreadStep]
    split <;> simp [OrderPhase.left]
  | done => simp [orderThreadStep]
  | raised e => simp [orderThreadStep]

private theorem sum_set {phs : List OrderPhase} {i : Nat} {ph : OrderPhase} (h : phs[i]? = some ph) (ph' : OrderPhase) :
    ((phs.set i ph').map OrderPhase.left).sum + ph.left = (phs.map OrderPhase.left).sum + ph'.left := by
  induction phs generalizing i with
  | nil => cases h
  | cons x xs ih =>
    cases i with
    | zero =>
      simp only [List.getElem?_cons_zero, Option.some.injEq] at h
      subst h
      simp only [List.set_cons_zero, List.map_cons, List.sum_cons]
      omega
    | succ i =>
      simp only [List.getElem?_cons_succ] at h
      have := ih h
      simp only [List.set_cons_succ, List.map_cons, List.sum_cons]
      omega

theorem orderCapacity_tick (S : Sem) (w : OrderWorld) (i : Nat) :
    orderCapacity (orderTick cx S w i) ≤ orderCapacity w := by
  unfold orderTick
  split
  · exact Nat.le_refl _
  · rename_i ph hph
    have h1 := orderLeft_step (cx := cx) S w.1 ph
    have h2 := sum_set hph (orderThreadStep cx S w.1 ph).2
    simp only [orderCapacity]
    omega

theorem orderRun_cost (S : Sem) {m : Nat} {w : OrderWorld} (hm : orderCapacity w ≤ m) {i : Nat} {ph : OrderPhase}
    (hi : w.2[i]? = some ph) (s : List Nat) :
    ∃ ph', (runOrderThreads cx S w s).2[i]? = some ph' ∧ orderCost m ph' ≤ orderCost m ph - s.count i := by
  induction s generalizing w ph with
  | nil => exact ⟨ph, hi, by simp⟩
  | cons j s ih =>
    have hm' : orderCapacity (orderTick cx S w j) ≤ m := Nat.le_trans (orderCapacity_tick S w j) hm
    by_cases hij : j = i
    · subst hij
      have hlt := (List.getElem?_eq_some_iff.mp hi).1
      have hi' : (orderTick cx S w j).2[j]? = some (orderThreadStep cx S w.1 ph).2 := by
        unfold orderTick
        rw [hi]
        simp [hlt]
      obtain ⟨ph', h1, h2⟩ := ih hm' hi'
      refine ⟨ph', h1, ?_⟩
      have hw : w.1.length ≤ m := by unfold orderCapacity at hm; omega
      have h3 := orderCost_step (cx := cx) S hw ph
      rw [List.count_cons_self]; omega
    · have hi' : (orderTick cx S w j).2[i]? = some ph := by
        unfold orderTick
        split
        · exact hi
        · simp [List.getElem?_set_ne hij, hi]
      obtain ⟨ph', h1, h2⟩ := ih hm' hi'
      refine ⟨ph', h1, ?_⟩
      rw [List.count_cons_of_ne hij]
      exact h2

theorem orderCost_ended {m : Nat} {ph : OrderPhase} (h : orderCost m ph = 0) : ph = .done ∨ ∃ e, ph = .raised e := by
  cases ph with
  | next todo => simp [orderCost] at h
  | look _ _ _ todo => simp [orderCost] at h
  | add _ todo => simp [orderCost] at h
  | change _ _ todo => simp [orderCost] at h
  | done => exact .inl rfl
  | raised e => exact .inr ⟨e, rfl⟩

theorem start_capacity {calls : List Args} {uss : List (List Use)} (hg : List.Forall₂ (GivesUses cx) calls uss) (S : Sem) :
    ((calls.map (startOrder S)).map OrderPhase.left).sum = uss.flatten.length := by
  induction hg with
  | nil => rfl
  | cons h _ ih =>
    obtain ⟨ps, h1, h2⟩ := startOrder_uses h S
    simp only [List.map_cons, List.sum_cons, h1, OrderPhase.left, List.flatten_cons, List.length_append, ih]
    rw [h2.length_eq]

/-! ### One thread alone -/

/-- One thread alone comes from one state to another. -/
def OrderAlone (cx : Ctx) (S : Sem) (s t : List Order × OrderPhase) : Prop :=
  ∃ k, runOrderThreads cx S (s.1, [s.2]) (List.replicate k 0) = (t.1, [t.2])

theorem OrderAlone.refl {S : Sem} (s : List Order × OrderPhase) : OrderAlone cx S s s := ⟨0, rfl⟩

theorem OrderAlone.step {S : Sem} {s t : List Order × OrderPhase}
    (h : OrderAlone cx S (orderThreadStep cx S s.1 s.2) t) : OrderAlone cx S s t := by
  obtain ⟨k, hk⟩ := h
  exact ⟨k + 1, hk⟩

theorem OrderAlone.trans {S : Sem} {s t u : List Order × OrderPhase} (h1 : OrderAlone cx S s t)
    (h2 : OrderAlone cx S t u) : OrderAlone cx S s u := by
  obtain ⟨k, hk⟩ := h1
  obtain ⟨m, hm⟩ := h2
  refine ⟨k + m, ?_⟩
  rw [← List.replicate_append_replicate, runOrderThreads, List.foldl_append]
  have : List.foldl (orderTick cx S) (s.1, [s.2]) (List.replicate k 0) = (t.1, [t.2]) := hk
  rw [this]
  exact hm

theorem look_alone (S : Sem) (front os : List Order) (c s : Obj) (todo : List (Obj × Obj)) :
    OrderAlone cx S (front ++ os, .look c s front.length todo) (match orderPut cx S os c s with
      | .error e => (front ++ os, .raised e)
      | .ok r => (front ++ r, .next todo)) := by
  induction os generalizing front with
  | nil =>
    apply OrderAlone.step
    unfold orderPut
    simp only [orderThreadStep, List.append_nil, List.getElem?_eq_none (Nat.le_refl _)]
    cases mkOrder cx c s with
    | error e => exact .refl _
    | ok o => exact .step (.refl _)
  | cons o os ih =>
    apply OrderAlone.step
    unfold orderPut
    have hk : (front ++ o :: os)[front.length]? = some o := by simp
    simp only [orderThreadStep, hk]
    cases S.eq o.col c with
    | error e => exact .refl _
    | ok b =>
      cases b with
      | true =>
        apply OrderAlone.step
        simp only [orderThreadStep]
        cases orderSort cx s with
        | error e => exact .refl _
        | ok d =>
          have : (front ++ o :: os).modify front.length (fun o => { o with desc := d }) =
              front ++ { o with desc := d } :: os := by
            rw [List.modify_eq_set_getElem?, hk]
            simp
          simp only [this]
          exact .refl _
      | false =>
        have := ih (front ++ [o])
        simp only [List.append_assoc, List.singleton_append, List.length_append, List.length_singleton] at this
        refine this.trans ?_
        cases orderPut cx S os c s with
        | error e => exact .refl _
        | ok r => exact .refl _

/-- The phase in which a call has ended. -/
def orderEnded : Option Err → OrderPhase
  | none => .done
  | some e => .raised e

theorem orders_alone (S : Sem) (os : List Order) (bs : List (List Obj)) :
    OrderAlone cx S (os, .next (bs.map pairOf))
      ((forUpd (fun os b => withR os (orderPut cx S os (pairOf b).1 (pairOf b).2) fun r => (r, none)) os bs).1,
        orderEnded (forUpd (fun os b => withR os (orderPut cx S os (pairOf b).1 (pairOf b).2) fun r => (r, none))
          os bs).2) := by
  induction bs generalizing os with
  | nil => exact .step (.refl _)
  | cons b bs ih =>
    rw [List.map_cons]
    apply OrderAlone.step
    unfold forUpd
    have := look_alone (cx := cx) S [] os (pairOf b).1 (pairOf b).2 (bs.map pairOf)
    refine OrderAlone.trans this ?_
    cases orderPut cx S os (pairOf b).1 (pairOf b).2 with
    | error e => exact .refl _
    | ok r => exact ih r

theorem ordersAdd_alone (S : Sem) (os : List Order) (a : Args) :
    OrderAlone cx S (os, startOrder S a) ((ordersAdd cx S os a).1, orderEnded (ordersAdd cx S os a).2) := by
  unfold startOrder ordersAdd
  split
  · exact .refl _
  · cases parseArgs S nameOpts a with
    | error e => exact .refl _
    | ok bs => exact orders_alone S os bs

end SqlPuzzle
