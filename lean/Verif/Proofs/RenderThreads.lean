import Verif.Spec.RenderThreads
import Verif.Proofs.Rendering

/-!
Rendering by several threads (C65).
-/

namespace SqlPuzzle

open Spec

section
variable {cx : Ctx} {S : Sem}

/-! ### One thread in one table -/

/-- Steps of one thread in one table, nobody else moving. -/
inductive PaintGoes (cx : Ctx) (S : Sem) : TableMem → Paint → TableMem → Paint → Prop where
  | refl (m p) : PaintGoes cx S m p m p
  | step {m p m1 p1 m2 p2} (h : paintStep cx S m p = (m1, p1)) (k : PaintGoes cx S m1 p1 m2 p2) :
    PaintGoes cx S m p m2 p2

theorem PaintGoes.trans {m p m1 p1 m2 p2} (h : PaintGoes cx S m p m1 p1) (k : PaintGoes cx S m1 p1 m2 p2) :
    PaintGoes cx S m p m2 p2 := by
  induction h with
  | refl => exact k
  | step h _ ih => exact .step h (ih k)

theorem PaintGoes.one {m p m1 p1} (h : paintStep cx S m p = (m1, p1)) : PaintGoes cx S m p m1 p1 := .step h (.refl _ _)

/-- Numbers and joins. -/
abbrev NumbersAre (m : TableMem) (xs : List Nat) (js : List Join) : Prop :=
  List.Forall₂ (fun i j => m.joins[i]? = some j) xs js

theorem NumbersAre.joinsOf {m : TableMem} {xs : List Nat} {js : List Join} (h : NumbersAre m xs js) :
    m.joinsOf xs = js := by
  induction h with
  | nil => rfl
  | cons h _ ih => rw [TableMem.joinsOf, List.filterMap_cons, h]; exact congrArg _ ih

theorem numbers_of {m : TableMem} {xs : List Nat} (h : ∀ i ∈ xs, i < m.joins.length) :
    NumbersAre m xs (m.joinsOf xs) := by
  induction xs with
  | nil => exact .nil
  | cons x xs ih =>
    rw [TableMem.joinsOf, List.filterMap_cons, List.getElem?_eq_getElem (h x (by simp))]
    exact .cons (List.getElem?_eq_getElem _) (ih fun i hi => h i (by simp [hi]))

abbrev GroupsAre (m : TableMem) (gs : List (Nat × List Nat)) (GS : List (Join × List Join)) : Prop :=
  List.Forall₂ (fun g G => m.joins[g.1]? = some G.1 ∧ NumbersAre m g.2 G.2) gs GS

/-- The numbers in groups. -/
def numbersIn (gs : List (Nat × List Nat)) : List Nat := gs.flatMap fun g => g.1 :: g.2

theorem groupNumber_spec {m : TableMem} {gs : List (Nat × List Nat)} {GS : List (Join × List Join)}
    (h : GroupsAre m gs GS) {j : Nat} {J : Join} (hj : m.joins[j]? = some J) :
    match groupInsert cx S GS J with
    | .error e => groupNumber cx S m gs j = .error e
    | .ok GS' => ∃ gs', groupNumber cx S m gs j = .ok gs' ∧ GroupsAre m gs' GS' ∧
        (numbersIn gs').Perm (j :: numbersIn gs) := by
  induction h with
  | nil => exact ⟨_, rfl, .cons ⟨hj, .nil⟩ .nil, .refl _⟩
  | @cons g G gs GS h1 h2 ih =>
    obtain ⟨h, t⟩ := g
    obtain ⟨H, T⟩ := G
    simp only [groupInsert, groupNumber, h1.1, hj]
    cases hs : sameJoin cx S H J with
    | error e => rfl
    | ok b =>
      cases b with
      | true =>
        refine ⟨_, rfl, .cons ⟨h1.1, List.rel_append h1.2 (.cons hj .nil)⟩ h2, ?_⟩
        simp only [numbersIn, List.flatMap_cons, List.cons_append, List.append_assoc, List.nil_append]
        exact ((List.perm_middle (l₁ := t)).cons h).trans (.swap _ _ _)
      | false =>
        cases hg : groupInsert cx S GS J with
        | error e =>
          rw [hg] at ih
          show (groupNumber cx S m gs j >>= _) = _
          rw [ih]
          simp [bind, Except.bind]
        | ok GS' =>
          rw [hg] at ih
          obtain ⟨gs', e1, e2, e3⟩ := ih
          simp only [bind, Except.bind, e1]
          refine ⟨_, rfl, .cons h1 e2, ?_⟩
          simp only [numbersIn, List.flatMap_cons, List.cons_append] at e3 ⊢
          exact ((e3.append_left (h :: t)).trans (List.perm_middle)).trans (by simp)

theorem group_goes {m : TableMem} {l : Nat} {ids : List Nat} (hl : m.list l = ids) :
    ∀ {rest : List Nat} {js : List Join} {i : Nat} {gs : List (Nat × List Nat)} {GS : List (Join × List Join)},
      ids.drop i = rest → NumbersAre m rest js → GroupsAre m gs GS →
      match groupJoins cx S GS js with
      | .error e => PaintGoes cx S m (.group l i gs) m (.raised e)
      | .ok GS' => ∃ gs', PaintGoes cx S m (.group l i gs) m (.clear gs') ∧ GroupsAre m gs' GS' ∧
          (numbersIn gs').Perm (rest ++ numbersIn gs) := by
  intro rest
  induction rest with
  | nil =>
    intro js i gs GS hi hn hg
    cases hn
    have : (m.list l)[i]? = none := by
      rw [hl, List.getElem?_eq_none_iff]
      exact List.drop_eq_nil_iff.mp hi
    exact ⟨gs, .one (by simp only [paintStep, this]), hg, .refl _⟩
  | cons x rest ih =>
    intro js i gs GS hi hn hg
    obtain ⟨J, js, hj, hn', rfl⟩ := List.forall₂_cons_left_iff.mp hn
    have hx : (m.list l)[i]? = some x := by
      rw [hl, ← List.head?_drop, hi]
      rfl
    have hr : ids.drop (i + 1) = rest := by
      rw [← List.tail_drop, hi]
      rfl
    have g := groupNumber_spec (cx := cx) (S := S) hg hj
    rw [groupJoins]
    cases hG : groupInsert cx S GS J with
    | error e =>
      rw [hG] at g
      exact .one (by simp only [paintStep, hx, g])
    | ok GS1 =>
      rw [hG] at g
      obtain ⟨gs1, e1, e2, e3⟩ := g
      have s : paintStep cx S m (.group l i gs) = (m, .group l (i + 1) gs1) := by simp only [paintStep, hx, e1]
      have k := ih hr hn' e2
      show match groupJoins cx S GS1 js with | .error e => _ | .ok GS' => _
      cases hG' : groupJoins cx S GS1 js with
      | error e =>
        rw [hG'] at k
        exact .step s k
      | ok GS' =>
        rw [hG'] at k
        obtain ⟨gs', k1, k2, k3⟩ := k
        refine ⟨gs', .step s k1, k2, k3.trans ?_⟩
        exact (e3.append_left rest).trans (List.perm_middle)

/-- The result of a group. -/
theorem groupResult_spec {m : TableMem} {g : Nat × List Nat} {G : Join × List Join}
    (h : m.joins[g.1]? = some G.1 ∧ NumbersAre m g.2 G.2) :
    ((groupResult m g).2 = false → NumbersAre m (groupResult m g).1 (collapseGroup G)) ∧
    ((groupResult m g).2 = true → (groupResult m g).1 = [g.1] ∧ collapseGroup G = [{ G.1 with type := .inner }]) ∧
    (groupResult m g).1.Sublist (g.1 :: g.2) := by
  have hn : NumbersAre m (g.1 :: g.2) (G.1 :: G.2) := .cons h.1 h.2
  have he : g.2.isEmpty = G.2.isEmpty := by
    rw [Bool.eq_iff_iff, List.isEmpty_iff_length_eq_zero, List.isEmpty_iff_length_eq_zero, h.2.length_eq]
  have hall : ((G.1 :: G.2).all fun j => some j.type == (m.joins[g.1]?).map (·.type)) =
      (G.1 :: G.2).all fun j => j.type == G.1.type := by
    rw [h.1]
    congr 1
  unfold groupResult collapseGroup
  simp only [hn.joinsOf, he, hall]
  split
  · simp
  · split
    · simpa using h.1
    · simpa using ⟨h.1, h.2⟩

theorem list_clear (m : TableMem) :
    ({ m with lists := m.lists ++ [[]], cur := m.lists.length } : TableMem).list m.lists.length = [] := by
  simp [TableMem.list]

theorem numbers_modify {m : TableMem} {xs : List Nat} {js : List Join} {i : Nat} {f : Join → Join}
    (h : NumbersAre m xs js) (hi : i ∉ xs) : NumbersAre { m with joins := m.joins.modify i f } xs js := by
  induction h with
  | nil => exact .nil
  | @cons x j xs js h _ ih =>
    refine .cons ?_ (ih fun k => hi (by simp [k]))
    have : i ≠ x := fun e => hi (by simp [e])
    simpa [List.getElem?_modify, this] using h

theorem groups_modify {m : TableMem} {gs : List (Nat × List Nat)} {GS : List (Join × List Join)} {i : Nat} {f : Join → Join}
    (h : GroupsAre m gs GS) (hi : i ∉ numbersIn gs) : GroupsAre { m with joins := m.joins.modify i f } gs GS := by
  induction h with
  | nil => exact .nil
  | @cons g G gs GS h _ ih =>
    simp only [numbersIn, List.flatMap_cons, List.mem_append, List.mem_cons, not_or] at hi
    have a := numbers_modify (f := f) (List.Forall₂.cons h.1 h.2 : NumbersAre m (g.1 :: g.2) _)
      (i := i) (by simpa using hi.1)
    refine .cons ⟨?_, ?_⟩ (ih hi.2)
    · cases a with | cons a _ => exact a
    · cases a with | cons _ a => exact a

theorem list_append {m : TableMem} (h : m.cur < m.lists.length) (xs : List Nat) :
    (m.append xs).list m.cur = m.list m.cur ++ xs := by
  simp [TableMem.append, TableMem.list, h]

theorem fill_goes : ∀ {gs : List (Nat × List Nat)} {GS : List (Join × List Join)} {m : TableMem} {acc : List Nat}
    {js : List Join}, GroupsAre m gs GS → m.cur < m.lists.length → m.list m.cur = acc → NumbersAre m acc js →
    (acc ++ numbersIn gs).Nodup →
    ∃ m', PaintGoes cx S m (.fill gs) m' (.show m'.cur 0 []) ∧ m'.cur < m'.lists.length ∧ (m'.list m'.cur).Nodup ∧
      NumbersAre m' (m'.list m'.cur) (js ++ GS.flatMap collapseGroup) ∧ m'.name = m.name ∧ m'.alias = m.alias := by
  intro gs
  induction gs with
  | nil =>
    intro GS m acc js hg hc ha hn hd
    cases hg
    refine ⟨m, .one rfl, hc, ?_, ?_, rfl, rfl⟩
    · rw [ha]
      simpa [numbersIn] using hd
    · rw [ha]
      simpa using hn
  | cons g gs ih =>
    intro GS m acc js hg hc ha hn hd
    obtain ⟨G, GS, h, hg', rfl⟩ := List.forall₂_cons_left_iff.mp hg
    obtain ⟨r1, r2, r3⟩ := groupResult_spec h
    have hd' : (acc ++ ((g.1 :: g.2) ++ numbersIn gs)).Nodup := hd
    have nd : ((acc ++ (groupResult m g).1) ++ numbersIn gs).Nodup := by
      rw [List.append_assoc]
      exact hd'.sublist ((r3.append_right _).append_left _)
    cases hr : (groupResult m g).2 with
    | false =>
      have n1 : NumbersAre m (acc ++ (groupResult m g).1) (js ++ collapseGroup G) := List.rel_append hn (r1 hr)
      obtain ⟨m', k1, k2, k3, k4, k5, k6⟩ := ih (m := m.append (groupResult m g).1) hg' (by simpa [TableMem.append] using hc)
        (list_append hc _) (by rw [ha]; exact n1) (by rw [ha]; exact nd)
      refine ⟨m', .step (m1 := m) (p1 := .push (groupResult m g).1 gs) ?_ (.step rfl k1), k2, k3, ?_, k5, k6⟩
      · simp [paintStep, hr]
      · simpa [List.flatMap_cons, List.append_assoc] using k4
    | true =>
      obtain ⟨e1, e2⟩ := r2 hr
      have hi : g.1 ∉ acc := by
        intro h
        exact (List.nodup_append.mp hd').2.2 _ h _ (by simp) rfl
      have hi' : g.1 ∉ numbersIn gs := by
        intro h
        have := (List.nodup_append.mp hd').2.1
        rw [List.cons_append, List.nodup_cons] at this
        exact this.1 (by simp [h])
      let m1 : TableMem := { m with joins := m.joins.modify g.1 fun j => { j with type := .inner } }
      have n1 : NumbersAre m1 (acc ++ [g.1]) (js ++ [{ G.1 with type := .inner }]) := by
        refine List.rel_append (numbers_modify hn hi) (.cons ?_ .nil)
        simp [h.1]
      obtain ⟨m', k1, k2, k3, k4, k5, k6⟩ := ih (m := m1.append [g.1]) (groups_modify hg' hi')
        (by simpa [TableMem.append] using hc) (list_append (m := m1) hc _)
        (by rw [show m1.list m1.cur = acc from ha]; exact n1)
        (by rw [show m1.list m1.cur = acc from ha]; rw [e1] at nd; exact nd)
      refine ⟨m', .step (m1 := m1) (p1 := .push [g.1] gs) ?_ (.step rfl k1), k2, k3, ?_, k5, k6⟩
      · simp [paintStep, hr, e1, m1]
      · simpa [List.flatMap_cons, List.append_assoc, e2] using k4

theorem show_goes {m : TableMem} {l : Nat} {ids : List Nat} (hl : m.list l = ids) :
    ∀ {rest : List Nat} {js out : List Join} {i : Nat}, ids.drop i = rest → NumbersAre m rest js →
      PaintGoes cx S m (.show l i out) m
        (match mapR (joinText cx S) (out ++ js) with
        | .error e => .raised e
        | .ok _ => .done (some (out ++ js))) := by
  intro rest
  induction rest with
  | nil =>
    intro js out i hi hn
    cases hn
    have : (m.list l)[i]? = none := by
      rw [hl, List.getElem?_eq_none_iff]
      exact List.drop_eq_nil_iff.mp hi
    refine .one ?_
    rw [List.append_nil]
    simp only [paintStep, this]
    cases mapR (joinText cx S) out <;> rfl
  | cons x rest ih =>
    intro js out i hi hn
    obtain ⟨J, js, hj, hn', rfl⟩ := List.forall₂_cons_left_iff.mp hn
    have hx : (m.list l)[i]? = some x := by
      rw [hl, ← List.head?_drop, hi]
      rfl
    have hr : ids.drop (i + 1) = rest := by
      rw [← List.tail_drop, hi]
      rfl
    have := ih (out := out ++ [J]) hr hn'
    rw [List.append_assoc] at this
    exact .step (m1 := m) (p1 := .show l (i + 1) (out ++ [J])) (by simp only [paintStep, hx, hj]) this

/-- One table, rendered by one thread. -/
theorem paint_alone {m : TableMem} (hr : AtRest m) :
    ∃ m' p, PaintGoes cx S m .test m' p ∧ AtRest m' ∧ m'.table = (strTable cx S m.table).1 ∧
      match (strTable cx S m.table).2 with
      | some e => p = .raised e
      | none => ∃ o t, p = .done o ∧ shownText cx S m.name m.alias o = .ok t ∧ tableText cx S m.table = .ok t := by
  obtain ⟨h1, h2, h3⟩ := hr
  have hn := numbers_of h3
  unfold strTable
  simp only [show m.table.name = m.name from rfl, show m.table.alias = m.alias from rfl,
    show m.table.joins = m.joinsOf (m.list m.cur) from rfl]
  cases ha : aliasedText cx S m.name m.alias with
  | error e => exact ⟨m, .raised e, .one (by simp only [paintStep, ha]), ⟨h1, h2, h3⟩, rfl, rfl⟩
  | ok a =>
    have he : (m.joinsOf (m.list m.cur)).isEmpty = (m.list m.cur).isEmpty := by
      rw [Bool.eq_iff_iff, List.isEmpty_iff_length_eq_zero, List.isEmpty_iff_length_eq_zero, hn.length_eq]
    simp only [he]
    cases hj : (m.list m.cur).isEmpty with
    | true =>
      refine ⟨m, .done none, .one (by simp [paintStep, ha, hj]), ⟨h1, h2, h3⟩, rfl, none, a, rfl, ha, ?_⟩
      unfold tableText
      simp only [show m.table.name = m.name from rfl, show m.table.alias = m.alias from rfl,
        show m.table.joins = m.joinsOf (m.list m.cur) from rfl, ha, he, hj]
      rfl
    | false =>
      have s1 : paintStep cx S m .test = (m, .load) := by simp [paintStep, ha, hj]
      have s2 : paintStep cx S m .load = (m, .group m.cur 0 []) := rfl
      have g := group_goes (cx := cx) (S := S) (m := m) (l := m.cur) rfl (i := 0) (rest := m.list m.cur) rfl hn .nil
      unfold minimizeJoins
      cases hG : groupJoins cx S [] (m.joinsOf (m.list m.cur)) with
      | error e =>
        rw [hG] at g
        exact ⟨m, .raised e, .step s1 (.step s2 g), ⟨h1, h2, h3⟩, rfl, rfl⟩
      | ok GS =>
        rw [hG] at g
        obtain ⟨gs, g1, g2, g3⟩ := g
        let m1 : TableMem := { m with lists := m.lists ++ [[]], cur := m.lists.length }
        obtain ⟨m', k1, k2, k3, k4, k5, k6⟩ := fill_goes (cx := cx) (S := S) (m := m1) (gs := gs) (GS := GS) (acc := []) (js := [])
          g2 (by simp [m1]) (list_clear m) .nil (by
            rw [List.nil_append]
            refine g3.nodup_iff.mpr ?_
            simpa [numbersIn] using h2)
        rw [List.nil_append] at k4
        have s3 := show_goes (cx := cx) (S := S) (m := m') (l := m'.cur) rfl (i := 0) (out := []) (rest := m'.list m'.cur) rfl k4
        rw [List.nil_append] at s3
        have r : AtRest m' := by
          refine ⟨k2, k3, fun i hi => ?_⟩
          obtain ⟨k, hk, rfl⟩ := List.mem_iff_getElem.mp hi
          have := (List.forall₂_iff_get.mp k4).2 k hk (k4.length_eq ▸ hk)
          exact (List.getElem?_eq_some_iff.mp this).1
        have whole := (PaintGoes.step s1 (.step s2 g1)).trans (.step (show paintStep cx S m (.clear gs) = (m1, .fill gs) from rfl)
          (k1.trans s3))
        refine ⟨m', _, whole, r, ?_, ?_⟩
        · show m'.table = (⟨m.name, m.alias, GS.flatMap collapseGroup⟩ : Table)
          rw [TableMem.table, k4.joinsOf, k5, k6]
        · show match (match mapR (joinText cx S) (GS.flatMap collapseGroup) with | .error e => some e | .ok _ => none) with
            | some e => _ | none => _
          cases ht : mapR (joinText cx S) (GS.flatMap collapseGroup) with
          | error e => rfl
          | ok ts =>
            refine ⟨_, a ++ ' ' :: joinS [' '] ts, rfl, ?_, ?_⟩
            · simp only [shownText, ha, ht]
              rfl
            · unfold tableText minimizeJoins
              simp only [show m.table.name = m.name from rfl, show m.table.alias = m.alias from rfl,
                show m.table.joins = m.joinsOf (m.list m.cur) from rfl, ha, he, hj, hG]
              simp [bind, Except.bind, ht]

/-! ### One thread -/

/-- Thread `i` makes steps, the others do not. -/
def Goes (cx : Ctx) (S : Sem) (i : Nat) (w w' : List TableMem × List Worker) : Prop :=
  ∃ k, runWorkers cx S w (List.replicate k i) = w'

theorem Goes.refl (i : Nat) (w) : Goes cx S i w w := ⟨0, rfl⟩

theorem Goes.trans {i : Nat} {w1 w2 w3} (h : Goes cx S i w1 w2) (k : Goes cx S i w2 w3) : Goes cx S i w1 w3 := by
  obtain ⟨a, rfl⟩ := h
  obtain ⟨b, rfl⟩ := k
  refine ⟨a + b, ?_⟩
  rw [List.replicate_add, runWorkers, List.foldl_append]
  rfl

theorem Goes.step {i : Nat} {w w'} (h : workerTick cx S w i = w') : Goes cx S i w w' := ⟨1, h⟩

theorem set_set_same {α : Type} (xs : List α) (i : Nat) (a b : α) : (xs.set i a).set i b = xs.set i b := List.set_set _

theorem worker_step {i : Nat} {ms : List TableMem} {ws : List Worker} {shown : List (Option (List Join))} {p : Paint}
    {m m1 : TableMem} {p1 : Paint} (hi : i < ws.length) (hm : ms[shown.length]? = some m)
    (h : paintStep cx S m p = (m1, p1)) :
    Goes cx S i (ms, ws.set i (.render shown p)) (ms.set shown.length m1, ws.set i (afterPaint shown p1)) := by
  refine .step ?_
  unfold workerTick
  simp only [List.getElem?_set_self hi, workerStep, hm, h, List.set_set]

theorem worker_goes {i : Nat} {shown : List (Option (List Join))} {m m' : TableMem} {p p' : Paint}
    (h : PaintGoes cx S m p m' p') : ∀ {ms : List TableMem} {ws : List Worker}, i < ws.length →
    ms[shown.length]? = some m → (∀ o, p ≠ .done o) →
    Goes cx S i (ms, ws.set i (.render shown p)) (ms.set shown.length m', ws.set i (afterPaint shown p')) := by
  induction h with
  | refl m p =>
    intro ms ws hi hm hp
    have : ms.set shown.length m = ms := by
      obtain ⟨hl, rfl⟩ := List.getElem?_eq_some_iff.mp hm
      exact List.set_getElem_self hl
    rw [this]
    cases p with
    | done o => exact absurd rfl (hp o)
    | _ => exact .refl _ _
  | @step m p m1 p1 m2 p2 h k ih =>
    intro ms ws hi hm hp
    have s := worker_step (ws := ws) hi hm h
    have hl := (List.getElem?_eq_some_iff.mp hm).1
    by_cases hd : ∃ o, p1 = .done o
    · obtain ⟨o, rfl⟩ := hd
      have : m2 = m1 ∧ p2 = .done o := by
        clear ih s h
        generalize hp1 : Paint.done o = p1 at k
        induction k with
        | refl => exact ⟨rfl, rfl⟩
        | step h _ ih =>
          subst hp1
          cases h
          exact ih rfl
      obtain ⟨rfl, rfl⟩ := this
      exact s
    · have := ih (ms := ms.set shown.length m1) (ws := ws) hi (List.getElem?_set_self hl) fun o e => hd ⟨o, e⟩
      rw [List.set_set] at this
      refine s.trans ?_
      cases p1 with
      | done o => exact absurd ⟨o, rfl⟩ hd
      | _ => exact this

/-- The text of one table as a thread wrote it. -/
def shownPair (cx : Ctx) (S : Sem) (p : Table × Option (List Join)) : R Str := shownText cx S p.1.name p.1.alias p.2

theorem tables_alone {i : Nat} {ws : List Worker} (hi : i < ws.length) :
    ∀ {ms pre : List TableMem} {shown : List (Option (List Join))}, (∀ m ∈ ms, AtRest m) → pre.length = shown.length →
    ∃ ms' outs now, Goes cx S i (pre ++ ms, ws.set i (.render shown .test))
        (pre ++ ms', ws.set i (.render (shown ++ outs) now)) ∧ (∀ m ∈ ms', AtRest m) ∧
      ms'.map TableMem.table = (strTables cx S (ms.map TableMem.table)).1 ∧
      match (strTables cx S (ms.map TableMem.table)).2 with
      | some e => now = .raised e ∧ outs.length < ms.length
      | none => now = .test ∧ outs.length = ms.length ∧
        ∃ ts, mapR (shownPair cx S) ((ms.map TableMem.table).zip outs) = .ok ts ∧
          mapR (tableText cx S) (ms.map TableMem.table) = .ok ts := by
  intro ms
  induction ms with
  | nil =>
    intro pre shown _ hp
    exact ⟨[], [], .test, by simpa using Goes.refl _ _, by simp, rfl, rfl, rfl, [], rfl, rfl⟩
  | cons m ms ih =>
    intro pre shown hr hp
    obtain ⟨m', p, g, r', e1, e2⟩ := paint_alone (cx := cx) (S := S) (hr m (by simp))
    have hm : (pre ++ m :: ms)[shown.length]? = some m := by
      rw [← hp]
      simp
    have g' := worker_goes (i := i) (shown := shown) g (ws := ws) hi hm (fun o h => by cases h)
    have hset : (pre ++ m :: ms).set shown.length m' = pre ++ m' :: ms := by
      rw [← hp]
      simp
    rw [hset] at g'
    simp only [List.map_cons, strTables]
    cases hs : strTable cx S m.table with
    | mk t e =>
      rw [hs] at e1 e2
      cases e with
      | some e =>
        simp only at e2
        subst e2
        refine ⟨m' :: ms, [], .raised e, by simpa [afterPaint] using g', ?_, by simpa using e1, rfl, by simp⟩
        intro x hx
        rcases List.mem_cons.mp hx with rfl | hx
        · exact r'
        · exact hr x (by simp [hx])
      | none =>
        obtain ⟨o, u, rfl, t1, t2⟩ := e2
        obtain ⟨ms', outs, now, k1, k2, k3, k4⟩ := ih (pre := pre ++ [m']) (shown := shown ++ [o])
          (fun x hx => hr x (by simp [hx])) (by simp [hp])
        refine ⟨m' :: ms', o :: outs, now, ?_, ?_, ?_, ?_⟩
        · refine g'.trans ?_
          simpa [afterPaint] using k1
        · intro x hx
          rcases List.mem_cons.mp hx with rfl | hx
          · exact r'
          · exact k2 x hx
        · simp only [List.map_cons]
          rw [e1, k3]
        · simp only
          cases hs2 : (strTables cx S (ms.map TableMem.table)).2 with
          | some e =>
            rw [hs2] at k4
            exact ⟨k4.1, by simpa using k4.2⟩
          | none =>
            rw [hs2] at k4
            obtain ⟨a, b, ts, c, d⟩ := k4
            refine ⟨a, by simp [b], u :: ts, ?_, ?_⟩
            · have : shownPair cx S (m.table, o) = .ok u := t1
              rw [List.zip_cons_cons, mapR_cons, this, ok_bind, c]
              rfl
            · rw [mapR_cons, t2, ok_bind, d]
              rfl

theorem runWorkers_append (w) (xs ys : List Nat) :
    runWorkers cx S w (xs ++ ys) = runWorkers cx S (runWorkers cx S w xs) ys := List.foldl_append

/-- A thread that has ended does not move. -/
theorem ended_tick {ts : List Table} {w : List TableMem × List Worker} {i : Nat} (hl : w.1.length = ts.length)
    (h : Ended ts w i) : workerTick cx S w i = w := by
  have same : ∀ {k : Worker}, w.2[i]? = some k → w.2.set i k = w.2 := by
    intro k hk
    obtain ⟨hl, rfl⟩ := List.getElem?_eq_some_iff.mp hk
    exact List.set_getElem_self hl
  unfold workerTick
  rcases h with ⟨shown, h, he⟩ | ⟨e, shown, h⟩ | h | ⟨e, h⟩
  · rw [h]
    simp only [workerStep]
    rw [show w.1[shown.length]? = none from List.getElem?_eq_none (by omega)]
    simp only
    rw [same h]
  · rw [h]
    simp only [workerStep]
    split
    · simp only
      rw [same h]
    · rename_i m hm
      simp only [paintStep, afterPaint]
      rw [same h]
      obtain ⟨hl, rfl⟩ := List.getElem?_eq_some_iff.mp hm
      rw [List.set_getElem_self]
  · rw [h]
    simp only [workerStep]
    rw [same h]
  · rw [h]
    simp only [workerStep]
    rw [same h]

theorem ended_stays {ts : List Table} {w : List TableMem × List Worker} {i : Nat} (hl : w.1.length = ts.length)
    (h : Ended ts w i) (k : Nat) : runWorkers cx S w (List.replicate k i) = w := by
  induction k with
  | zero => rfl
  | succ k ih =>
    rw [List.replicate_succ, runWorkers, List.foldl_cons, ended_tick hl h]
    exact ih

theorem workerStep_length (ms : List TableMem) (k : Worker) : (workerStep cx S ms k).1.length = ms.length := by
  unfold workerStep
  split
  · split
    · rfl
    · simp
  · split
    · rfl
    · simp
  · rfl
  · rfl

theorem workerTick_length (w : List TableMem × List Worker) (i : Nat) :
    (workerTick cx S w i).1.length = w.1.length ∧ (workerTick cx S w i).2.length = w.2.length := by
  unfold workerTick
  split
  · exact ⟨rfl, rfl⟩
  · exact ⟨workerStep_length _ _, by simp⟩

theorem runWorkers_length (w : List TableMem × List Worker) (xs : List Nat) :
    (runWorkers cx S w xs).1.length = w.1.length ∧ (runWorkers cx S w xs).2.length = w.2.length := by
  induction xs generalizing w with
  | nil => exact ⟨rfl, rfl⟩
  | cons x xs ih =>
    obtain ⟨a, b⟩ := workerTick_length (cx := cx) (S := S) w x
    obtain ⟨c, d⟩ := ih (workerTick cx S w x)
    exact ⟨c.trans a, d.trans b⟩

/-- The other threads do not move. -/
theorem tick_other (w : List TableMem × List Worker) {i j : Nat} (h : j ≠ i) :
    (workerTick cx S w i).2[j]? = w.2[j]? := by
  unfold workerTick
  split
  · rfl
  · exact List.getElem?_set_ne (Ne.symm h)

theorem run_other (w : List TableMem × List Worker) {xs : List Nat} {j : Nat} (h : j ∉ xs) :
    (runWorkers cx S w xs).2[j]? = w.2[j]? := by
  induction xs generalizing w with
  | nil => rfl
  | cons x xs ih =>
    simp only [List.mem_cons, not_or] at h
    exact (ih (workerTick cx S w x) h.2).trans (tick_other w h.1)

/-! ### Any schedule: an invariant of memory and of every thread -/

/-- What holds at the start and is kept by the steps of all threads, holds for ever. -/
theorem workers_inv {I : List TableMem → Prop} {J : Worker → Prop}
    (step : ∀ ms k, I ms → J k → I (workerStep cx S ms k).1 ∧ J (workerStep cx S ms k).2)
    {w : List TableMem × List Worker} (h1 : I w.1) (h2 : ∀ k ∈ w.2, J k) (xs : List Nat) :
    I (runWorkers cx S w xs).1 ∧ ∀ k ∈ (runWorkers cx S w xs).2, J k := by
  induction xs generalizing w with
  | nil => exact ⟨h1, h2⟩
  | cons x xs ih =>
    refine ih (w := workerTick cx S w x) ?_ ?_
    · unfold workerTick
      split
      · exact h1
      · rename_i k hk
        exact (step _ _ h1 (h2 k (List.mem_of_getElem? hk))).1
    · unfold workerTick
      split
      · exact h2
      · rename_i k hk
        intro y hy
        rcases List.mem_or_eq_of_mem_set hy with hy | rfl
        · exact h2 y hy
        · exact (step _ _ h1 (h2 k (List.mem_of_getElem? hk))).2

/-! ### Tables without joins -/

/-- A thread that renders tables without joins. -/
def PlainWorker (cx : Ctx) (S : Sem) (ts : List Table) : Worker → Prop
  | .render shown now => shown = List.replicate shown.length none ∧
    (∃ us, mapR (fun t : Table => aliasedText cx S t.name t.alias) (ts.take shown.length) = .ok us) ∧
    shown.length ≤ ts.length ∧
    (now = .test ∨ ∃ e t, ts[shown.length]? = some t ∧ aliasedText cx S t.name t.alias = .error e ∧ now = .raised e)
  | _ => False

theorem mapR_take_succ {α β : Type} {f : α → R β} {xs : List α} {k : Nat} {x : α} {us : List β} {u : β}
    (h : mapR f (xs.take k) = .ok us) (hx : xs[k]? = some x) (hu : f x = .ok u) :
    mapR f (xs.take (k + 1)) = .ok (us ++ [u]) := by
  induction xs generalizing k us with
  | nil => cases hx
  | cons y xs ih =>
    cases k with
    | zero =>
      cases hx
      cases h
      simp only [Nat.zero_add, List.take_succ_cons, List.take_zero, mapR_cons, hu]
      rfl
    | succ k =>
      rw [List.take_succ_cons, mapR_cons] at h
      obtain ⟨v, hv, h⟩ := bind_ok.mp h
      obtain ⟨vs, hvs, h⟩ := bind_ok.mp h
      cases h
      rw [List.take_succ_cons, mapR_cons, hv, ok_bind, ih hvs hx]
      rfl

theorem plain_step {ts : List Table} (hts : ∀ t ∈ ts, t.joins = []) (k : Worker) (hk : PlainWorker cx S ts k) :
    (workerStep cx S (ts.map TableMem.ofTable) k).1 = ts.map TableMem.ofTable ∧
    PlainWorker cx S ts (workerStep cx S (ts.map TableMem.ofTable) k).2 := by
  cases k with
  | render shown now =>
    obtain ⟨h1, h2, h3, h4⟩ := hk
    cases hm : ts[shown.length]? with
    | none =>
      have : (ts.map TableMem.ofTable)[shown.length]? = none := by simp [List.getElem?_map, hm]
      simp only [workerStep, this]
      exact ⟨trivial, h1, h2, h3, h4⟩
    | some t =>
      have hm' : (ts.map TableMem.ofTable)[shown.length]? = some (TableMem.ofTable t) := by simp [List.getElem?_map, hm]
      have hl : shown.length < ts.length := (List.getElem?_eq_some_iff.mp hm).1
      have hset : (ts.map TableMem.ofTable).set shown.length (TableMem.ofTable t) = ts.map TableMem.ofTable := by
        obtain ⟨a, b⟩ := List.getElem?_eq_some_iff.mp hm'
        rw [← b, List.set_getElem_self]
      simp only [workerStep, hm']
      rcases h4 with rfl | ⟨e, t', ht', he, rfl⟩
      · simp only [paintStep, show (TableMem.ofTable t).name = t.name from rfl,
          show (TableMem.ofTable t).alias = t.alias from rfl]
        cases ha : aliasedText cx S t.name t.alias with
        | error e =>
          simp only [afterPaint]
          exact ⟨hset, h1, h2, h3, .inr ⟨e, t, hm, ha, rfl⟩⟩
        | ok u =>
          have : ((TableMem.ofTable t).list (TableMem.ofTable t).cur).isEmpty = true := by
            simp [TableMem.ofTable, TableMem.list, hts t (List.mem_of_getElem? hm)]
          simp only [this, if_true, afterPaint]
          obtain ⟨us, h2⟩ := h2
          refine ⟨hset, ?_, ⟨_, by rw [List.length_append]; exact mapR_take_succ h2 hm ha⟩, by simpa [Nat.succ_le_iff] using hl, .inl rfl⟩
          rw [List.length_append, List.length_singleton, List.replicate_succ', ← h1]
      · rw [hm] at ht'
        cases ht'
        simp only [paintStep, afterPaint]
        exact ⟨hset, h1, h2, h3, .inr ⟨e, t, hm, he, rfl⟩⟩
  | join j => exact hk.elim
  | joined => exact hk.elim
  | raised e => exact hk.elim

/-! ### What threads write was given -/

/-- A thread that writes or adds given joins only. -/
def GivenWorker (given : List Join) : Worker → Prop
  | .render shown now => (∀ o ∈ shown, ∀ js, o = some js → ∀ d ∈ js, AmongJoins given d) ∧
    (∀ l i js, now = .show l i js → ∀ d ∈ js, AmongJoins given d) ∧ ∀ o, now ≠ .done o
  | .join j => j ∈ given
  | _ => True

/-- All joins in memory were given. -/
def GivenMem (given : List Join) (m : TableMem) : Prop := ∀ d ∈ m.joins, AmongJoins given d

theorem given_self {given : List Join} {d : Join} (h : d ∈ given) : AmongJoins given d := ⟨d, h, .inl rfl⟩

theorem given_inner {given : List Join} {d d' : Join} (h : AmongJoins given d) (h' : AmongJoins given d') (hi : d'.type = .inner) :
    AmongJoins given { d with type := .inner } := by
  have : ∃ g' ∈ given, g'.type = .inner := by
    obtain ⟨g, hg, rfl | ⟨_, k⟩⟩ := h'
    · exact ⟨_, hg, hi⟩
    · exact k
  obtain ⟨g, hg, rfl | ⟨rfl, _⟩⟩ := h
  · exact ⟨_, hg, .inr ⟨rfl, this⟩⟩
  · exact ⟨g, hg, .inr ⟨rfl, this⟩⟩

theorem mem_joinsOf {m : TableMem} {xs : List Nat} {d : Join} (h : d ∈ m.joinsOf xs) : d ∈ m.joins := by
  obtain ⟨i, _, hi⟩ := List.mem_filterMap.mp h
  exact List.mem_of_getElem? hi

theorem given_modify {given : List Join} {m : TableMem} (hm : GivenMem given m) {d' : Join} (hd : AmongJoins given d')
    (hi : d'.type = .inner) (k : Nat) :
    GivenMem given { m with joins := m.joins.modify k fun j => { j with type := .inner } } := by
  intro d h
  obtain ⟨i, hl, rfl⟩ := List.mem_iff_getElem.mp h
  simp only [List.length_modify] at hl
  rw [List.getElem_modify]
  split
  · exact given_inner (hm _ (List.getElem_mem hl)) hd hi
  · exact hm _ (List.getElem_mem hl)

theorem given_paint {given : List Join} {m : TableMem} {p : Paint} (hm : GivenMem given m)
    (hp : ∀ l i js, p = .show l i js → ∀ d ∈ js, AmongJoins given d) :
    GivenMem given (paintStep cx S m p).1 ∧
    (∀ l i js, (paintStep cx S m p).2 = .show l i js → ∀ d ∈ js, AmongJoins given d) ∧
    ((∀ o, p ≠ .done o) → ∀ js, (paintStep cx S m p).2 = .done (some js) → ∀ d ∈ js, AmongJoins given d) := by
  cases p with
  | test =>
    simp only [paintStep]
    split
    · exact ⟨hm, by simp, by simp⟩
    · refine ⟨hm, ?_, ?_⟩
      · intro l i js
        dsimp only
        split <;> simp
      · intro _ js
        dsimp only
        split <;> simp
  | load => exact ⟨hm, by simp [paintStep], by simp [paintStep]⟩
  | group l i gs =>
    simp only [paintStep]
    split
    · exact ⟨hm, by simp, by simp⟩
    · split
      · exact ⟨hm, by simp, by simp⟩
      · exact ⟨hm, by simp, by simp⟩
  | clear gs => exact ⟨hm, by simp [paintStep], by simp [paintStep]⟩
  | fill gs =>
    cases gs with
    | nil =>
      refine ⟨hm, ?_, by simp [paintStep]⟩
      intro l i js h d hd
      simp only [paintStep, Paint.show.injEq] at h
      rw [← h.2.2] at hd
      cases hd
    | cons g gs =>
      refine ⟨?_, by simp [paintStep], by simp [paintStep]⟩
      simp only [paintStep]
      split
      · rename_i hr
        unfold groupResult at hr
        simp only at hr
        split at hr
        · rename_i hc
          rw [Bool.and_eq_true, List.any_eq_true] at hc
          obtain ⟨_, d', h1, h2⟩ := hc
          exact given_modify hm (hm _ (mem_joinsOf h1)) (by simpa using h2) _
        · split at hr <;> cases hr
      · exact hm
  | push xs gs => exact ⟨hm, by simp [paintStep], by simp [paintStep]⟩
  | «show» l i js =>
    simp only [paintStep]
    split
    · split
      · exact ⟨hm, by simp, by simp⟩
      · refine ⟨hm, by simp, ?_⟩
        intro _ js' h
        cases h
        exact hp l i js rfl
    · split
      · exact ⟨hm, by simp, by simp⟩
      · rename_i d hd
        refine ⟨hm, ?_, by simp⟩
        intro l' i' js' h x hx
        cases h
        rcases List.mem_append.mp hx with hx | hx
        · exact hp l i js rfl x hx
        · rw [List.mem_singleton.mp hx]
          exact hm _ (List.mem_of_getElem? hd)
  | done o => exact ⟨hm, by simp [paintStep], fun h => absurd rfl (h o)⟩
  | raised e => exact ⟨hm, by simp [paintStep], by simp [paintStep]⟩

theorem afterPaint_given {given : List Join} {shown : List (Option (List Join))} {p : Paint}
    (h1 : ∀ o ∈ shown, ∀ js, o = some js → ∀ d ∈ js, AmongJoins given d)
    (h2 : ∀ l i js, p = .show l i js → ∀ d ∈ js, AmongJoins given d)
    (h3 : ∀ js, p = .done (some js) → ∀ d ∈ js, AmongJoins given d) : GivenWorker given (afterPaint shown p) := by
  cases p with
  | done o =>
    refine ⟨?_, by simp, by simp⟩
    intro o' ho js e
    subst e
    rcases List.mem_append.mp ho with ho | ho
    · exact h1 _ ho js rfl
    · rw [List.mem_singleton] at ho
      subst ho
      exact h3 js rfl
  | _ => exact ⟨h1, h2, by simp⟩

theorem given_step {given : List Join} (ms : List TableMem) (k : Worker) (hm : ∀ m ∈ ms, GivenMem given m)
    (hk : GivenWorker given k) : (∀ m ∈ (workerStep cx S ms k).1, GivenMem given m) ∧
    GivenWorker given (workerStep cx S ms k).2 := by
  cases k with
  | render shown now =>
    obtain ⟨h1, h2, h3⟩ := hk
    simp only [workerStep]
    split
    · exact ⟨hm, h1, h2, h3⟩
    · rename_i m e
      obtain ⟨a, b, c⟩ := given_paint (cx := cx) (S := S) (hm m (List.mem_of_getElem? e)) h2
      refine ⟨?_, afterPaint_given h1 b (c h3)⟩
      intro x hx
      rcases List.mem_or_eq_of_mem_set hx with hx | rfl
      · exact hm x hx
      · exact a
  | join j =>
    simp only [workerStep]
    split
    · exact ⟨hm, trivial⟩
    · rename_i m e
      refine ⟨?_, trivial⟩
      intro x hx
      rcases List.mem_or_eq_of_mem_set hx with hx | rfl
      · exact hm x hx
      · intro d hd
        rcases List.mem_append.mp hd with hd | hd
        · exact hm m (List.mem_of_getLast? e) d hd
        · rw [List.mem_singleton.mp hd]
          exact given_self hk
  | joined => exact ⟨hm, trivial⟩
  | raised e => exact ⟨hm, trivial⟩

end

end SqlPuzzle
