import Verif.Proofs.OrderThreads
import Verif.Proofs.Threads

/-!
C58 for `order_by` and `group_by`: calls by several threads.
-/

namespace SqlPuzzle

open Spec

variable (cx : Ctx) (n : Nat)

private theorem inv_of {os : List Order} (ho : PlainOrders os) {calls : List Args} {given : List (List Use)}
    (hg : List.Forall₂ (GivesUses cx) calls given) (schedule : List Nat) :
    ∃ tags, OInv cx os given (orderThreads cx (n + 1) os calls schedule) tags := by
  refine (OInv.start ho.1 ho.2 hg (sem cx (n + 1))).run ?_ schedule
  intro us hus
  obtain ⟨i, hi, rfl⟩ := List.mem_iff_getElem.mp hus
  obtain ⟨ps, _, h⟩ := (List.forall₂_iff_get.mp hg).2 i (by rw [hg.length_eq]; exact hi) hi
  exact uses_plain h

/-- C58 for `order_by` and `group_by` with names or numbers of columns.  At every moment: the orders that were there
come first, in their order; after them come orders that the calls give, those of one call in the order in which it
first gives them, none of them twice and none by a column that was there before; every direction is the one that was
there or one that a call gives for this column; and when a call has ended, all its columns are there. -/
theorem C58_orders (os : List Order) (ho : PlainOrders os) (calls : List Args) (given : List (List Use))
    (hg : List.Forall₂ (GivesUses cx) calls given) (schedule : List Nat) :
    ∃ added : List (Nat × Obj),
      (orderThreads cx (n + 1) os calls schedule).1.map OrderS.col = os.map OrderS.col ++ added.map Prod.snd ∧
      (∀ t ∈ added, t.1 < calls.length) ∧
      (∀ o ∈ (orderThreads cx (n + 1) os calls schedule).1, o ∈ os ∨ ∃ us ∈ given, (o.col, o.desc) ∈ us) ∧
      ∀ i us, given[i]? = some us →
        (numbered i added).Sublist (us.map Prod.fst) ∧ (numbered i added).Nodup ∧
        (∀ o ∈ os, o.col ∉ numbered i added) ∧
        ((orderThreads cx (n + 1) os calls schedule).2[i]? = some .done →
          ∀ u ∈ us, ∃ o ∈ (orderThreads cx (n + 1) os calls schedule).1, o.col = u.1) := by
  obtain ⟨tags, h⟩ := inv_of cx n ho hg schedule
  refine ⟨tags, h.cols, fun t ht => by rw [hg.length_eq]; exact h.tag t ht, h.dir, fun i us hi => ?_⟩
  obtain ⟨ph, h1, h2⟩ := h.thr i us hi
  obtain ⟨past, rest, p1, p2, p3, p4, -⟩ := h2.past
  refine ⟨?_, h2.nodup, ?_, ?_⟩
  · rw [p1, List.map_append]
    exact p3.trans (List.sublist_append_left _ _)
  · intro o hm hx
    exact h2.fresh _ hx (List.mem_map_of_mem (f := OrderS.col) hm)
  · intro hd u hu
    rw [h1] at hd
    cases hd
    cases p2
    rw [p1, List.append_nil] at hu
    obtain ⟨o, h3, h4⟩ := List.mem_map.mp (p4 u hu)
    exact ⟨o, h3, h4⟩

/-- C58. A column that only one of the calls gives is, when this call has ended, in the clause exactly once, with the
direction that the call gave last: no other thread can undo it. -/
theorem C58_order_own (os : List Order) (ho : PlainOrders os) (calls : List Args) (given : List (List Use))
    (hg : List.Forall₂ (GivesUses cx) calls given) (schedule : List Nat) (i : Nat) (us : List Use)
    (hi : given[i]? = some us) (hd : (orderThreads cx (n + 1) os calls schedule).2[i]? = some .done)
    (c : Obj) (hc : c ∈ us.map Prod.fst) (hx : OnlyIn given i c) :
    ∃ (k : Nat) (d : Bool), (orderThreads cx (n + 1) os calls schedule).1[k]? = some ⟨c, d⟩ ∧ LastValue us c d ∧
      ∀ (k' : Nat) (o : Order), (orderThreads cx (n + 1) os calls schedule).1[k']? = some o → o.col = c → k' = k := by
  obtain ⟨tags, h⟩ := inv_of cx n ho hg schedule
  obtain ⟨ph, h1, h2⟩ := h.thr i us hi
  obtain ⟨past, rest, p1, p2, -, p4, p5⟩ := h2.past
  rw [h1] at hd
  cases hd
  cases p2
  rw [List.append_nil] at p1
  subst p1
  obtain ⟨u, hu, rfl⟩ := List.mem_map.mp hc
  obtain ⟨o, h3, h4⟩ := List.mem_map.mp (p4 u hu)
  obtain ⟨k, hk⟩ := List.mem_iff_getElem?.mp h3
  have hlast := p5 _ hx o h3 h4
  refine ⟨k, o.desc, by rw [hk, ← h4], ?_, fun k' o' hk' e => ?_⟩
  · have : ∀ (us : List Use) (c : Obj) (d : Bool), c ∈ us.map Prod.fst → LastValue (usesOf os ++ us) c d →
        LastValue us c d := by
      intro us
      induction us using List.reverseRecOn with
      | nil => intro c d hm; cases hm
      | append_singleton us u ih =>
        intro c d hm hl
        rw [← List.append_assoc] at hl
        generalize hz : usesOf os ++ us ++ [u] = z at hl
        cases hl with
        | here a b v =>
          obtain ⟨_, e⟩ := List.append_inj' hz rfl
          cases e
          exact .here _ _ _
        | @there a b v c' v' hl hne =>
          obtain ⟨e1, e2⟩ := List.append_inj' hz rfl
          cases e2
          subst e1
          refine .there _ _ (ih c d ?_ hl) hne
          rw [List.map_append] at hm
          rcases List.mem_append.mp hm with hm | hm
          · exact hm
          · exact absurd (List.mem_singleton.mp hm).symm hne
    exact this _ _ _ hc hlast
  · refine h2.once _ hx k' k ?_ ?_
    · unfold colsOf; rw [List.getElem?_map, hk', ← e]; rfl
    · unfold colsOf; rw [List.getElem?_map, hk, ← h4]; rfl

/-- C58. An order whose column none of the calls gives stays where it is, with its direction. -/
theorem C58_order_kept (os : List Order) (ho : PlainOrders os) (calls : List Args) (given : List (List Use))
    (hg : List.Forall₂ (GivesUses cx) calls given) (schedule : List Nat) (k : Nat) (o : Order) (hk : os[k]? = some o)
    (hx : ∀ us ∈ given, o.col ∉ us.map Prod.fst) :
    (orderThreads cx (n + 1) os calls schedule).1[k]? = some o := by
  obtain ⟨tags, h⟩ := inv_of cx n ho hg schedule
  have hc : (colsOf (orderThreads cx (n + 1) os calls schedule).1)[k]? = some o.col := by
    have h0 : (colsOf os)[k]? = some o.col := by unfold colsOf; rw [List.getElem?_map, hk]; rfl
    rw [h.cols, List.getElem?_append_left (List.getElem?_eq_some_iff.mp h0).1, h0]
  unfold colsOf at hc
  rw [List.getElem?_map] at hc
  cases he : (orderThreads cx (n + 1) os calls schedule).1[k]? with
  | none => rw [he] at hc; cases hc
  | some o' =>
    rw [he] at hc
    have e : o'.col = o.col := Option.some.inj hc
    rcases h.dir o' (List.mem_of_getElem? he) with hm | ⟨us, h1, h2⟩
    · have := List.inj_on_of_nodup_map ho.2 hm (List.mem_of_getElem? hk) e
      rw [this]
    · refine absurd (List.mem_map.mpr ⟨_, h2, rfl⟩) (e ▸ hx us h1)

/-- C58. No call waits for another, and none raises: with `m` orders there and given, a call has ended after
`(m + 1) * (m + 4)` steps of its own, whatever the other threads do. -/
theorem C58_order_ends (os : List Order) (ho : PlainOrders os) (calls : List Args) (given : List (List Use))
    (hg : List.Forall₂ (GivesUses cx) calls given) (m : Nat) (hm : m = os.length + given.flatten.length)
    (i : Nat) (hi : i < calls.length) (schedule : List Nat) (hs : (m + 1) * (m + 4) ≤ schedule.count i) :
    (orderThreads cx (n + 1) os calls schedule).2[i]? = some .done := by
  have hc : orderCapacity (os, calls.map (startOrder (sem cx (n + 1)))) = m := by
    unfold orderCapacity
    rw [hm, ← start_capacity hg (sem cx (n + 1))]
  have hi' : i < given.length := by rw [← hg.length_eq]; exact hi
  obtain ⟨ps, e1, e2⟩ := startOrder_uses ((List.forall₂_iff_get.mp hg).2 i hi hi') (sem cx (n + 1))
  have hph : (calls.map (startOrder (sem cx (n + 1))))[i]? = some (.next ps) := by
    rw [List.getElem?_map, List.getElem?_eq_getElem hi]
    exact congrArg some e1
  obtain ⟨ph, h1, h2⟩ := orderRun_cost (cx := cx) (sem cx (n + 1)) (Nat.le_of_eq hc) hph schedule
  have hle : ps.length ≤ m := by
    rw [e2.length_eq, hm, List.length_flatten]
    have := mem_sum (List.mem_map.mpr ⟨given[i], List.getElem_mem hi', rfl⟩ : given[i].length ∈ given.map List.length)
    simp only [List.get_eq_getElem]
    omega
  have h0 : orderCost m ph = 0 := by
    have h3 : ps.length * (m + 4) ≤ m * (m + 4) := Nat.mul_le_mul_right _ hle
    have h5 : orderCost m (.next ps) = ps.length * (m + 4) + 1 := rfl
    rw [h5] at h2
    have h4 : (m + 1) * (m + 4) = m * (m + 4) + (m + 4) := by rw [Nat.add_mul, Nat.one_mul]
    omega
  rcases orderCost_ended h0 with rfl | ⟨e, rfl⟩
  · exact h1
  · exfalso
    obtain ⟨tags, h⟩ := inv_of cx n ho hg schedule
    obtain ⟨ph', h4, h5⟩ := h.thr i _ (List.getElem?_eq_getElem hi')
    have h1' : (orderThreads cx (n + 1) os calls schedule).2[i]? = some (.raised e) := h1
    rw [h1'] at h4
    cases h4
    obtain ⟨_, _, _, p2, _⟩ := h5.past
    exact p2

/-- C58. A thread that is not interrupted does what the call does, whatever the arguments: the same orders, and the
same error or none. -/
theorem C58_alone_order (q : Select) (a : Args) : ∃ steps,
    orderThreads cx n q.orderBy [a] (List.replicate steps 0) =
      ((selectStep cx (sem cx n) q (.orderBy a)).1.orderBy,
        [match (selectStep cx (sem cx n) q (.orderBy a)).2 with
          | none => .done
          | some e => .raised e]) := by
  obtain ⟨k, hk⟩ := ordersAdd_alone (cx := cx) (sem cx n) q.orderBy a
  refine ⟨k, ?_⟩
  unfold orderThreads
  rw [List.map_singleton, hk]
  rfl

@[inherit_doc C58_alone_order]
theorem C58_alone_group (q : Select) (a : Args) : ∃ steps,
    orderThreads cx n q.groupBy [a] (List.replicate steps 0) =
      ((selectStep cx (sem cx n) q (.groupBy a)).1.groupBy,
        [match (selectStep cx (sem cx n) q (.groupBy a)).2 with
          | none => .done
          | some e => .raised e]) := by
  obtain ⟨k, hk⟩ := ordersAdd_alone (cx := cx) (sem cx n) q.groupBy a
  refine ⟨k, ?_⟩
  unfold orderThreads
  rw [List.map_singleton, hk]
  rfl

/-! ### A column may be listed twice, and then a later call changes only the first -/

private def cx0 : Ctx := ⟨.sql, ⟨id, id, fun _ => true, fun _ => [], fun _ => []⟩⟩

private def up (k : Str) : Args := { pos := [.str k] }
private def down (k : Str) : Args := { pos := [.tuple [.str k, .str L!"DESC"]] }

/-- C58 in full, for `order_by`: no column is listed twice. -/
def C58_order_claim : Prop :=
  ∀ (cx : Ctx) (n : Nat) (calls : List Args) (given : List (List Use)), List.Forall₂ (GivesUses cx) calls given →
    ∀ schedule, ((orderThreads cx (n + 1) [] calls schedule).1.map OrderS.col).Nodup

private theorem ascending_nil : Ascending [] [] := ⟨[], .refl _, .nil, rfl⟩

private theorem up_uses (cx : Ctx) (k : Str) : GivesUses cx (up k) [(.str k, false)] :=
  ⟨[(.str k, .none)] ++ [], .usual (by intro kvs h; cases h) (.cons (.name (by intro s h; cases h)) .nil)
    ascending_nil (by intro p hp; cases hp),
    .cons ⟨.inl ⟨_, rfl⟩, rfl, .inl ⟨rfl, rfl⟩⟩ .nil⟩

private theorem down_uses (k : Str) : GivesUses cx0 (down k) [(.str k, true)] :=
  ⟨[(.str k, .str L!"DESC")] ++ [], .usual (by intro kvs h; cases h) (.cons (.pair (.two (.tuple _))) .nil)
    ascending_nil (by intro p hp; cases hp),
    .cons ⟨.inl ⟨_, rfl⟩, rfl, .inr ⟨L!"DESC", rfl, .inr ⟨rfl, rfl⟩⟩⟩ .nil⟩

/-- Two threads that order by the same column may both find that it is not there, and list it twice. -/
theorem C58_refuted_order : ¬ C58_order_claim := by
  intro h
  have := h cx0 1 [up L!"a", down L!"a"] _ (.cons (up_uses _ _) (.cons (down_uses _) .nil)) [0, 0, 1, 1, 0, 1]
  have e : (orderThreads cx0 2 [] [up L!"a", down L!"a"] [0, 0, 1, 1, 0, 1]).1 =
      [⟨.str L!"a", false⟩, ⟨.str L!"a", true⟩] := rfl
  rw [e] at this
  simp at this

/-! ### Examples -/

/-- Two threads, interleaved: `order_by('a')` and `order_by(('b', 'DESC'))`. -/
example : (orderThreads cx0 2 [⟨.str L!"b", false⟩] [up L!"a", down L!"b"] [0, 1, 1, 0, 1, 0, 0, 0, 1]).1 =
    [⟨.str L!"b", true⟩, ⟨.str L!"a", false⟩] := by rfl

example : (orderThreads cx0 2 [⟨.str L!"b", false⟩] [up L!"a", down L!"b"] [0, 1, 1, 0, 1, 0, 0, 0, 1]).2 =
    [.done, .done] := by rfl

example : List.Forall₂ (GivesUses cx0) [up L!"a", down L!"b"] [[(.str L!"a", false)], [(.str L!"b", true)]] :=
  .cons (up_uses _ _) (.cons (down_uses _) .nil)

example : PlainOrders [⟨.str L!"b", false⟩] :=
  ⟨fun o ho => by rw [List.mem_singleton.mp ho]; exact .inl ⟨_, rfl⟩, List.nodup_singleton _⟩

example : OnlyIn [[(.str L!"a", false)], [(.str L!"b", true)]] 1 (.str L!"b") := by
  intro j us h hc
  match j with
  | 0 =>
    simp only [List.getElem?_cons_zero, Option.some.injEq] at h
    subst h
    simp at hc
  | 1 => rfl
  | j + 2 => cases h

end SqlPuzzle
