import Verif.Spec.Interrupt
import Verif.Proofs.RenderThreads

/-!
Lemmas about renderings that are interrupted.
-/

namespace SqlPuzzle

open Spec

section
variable {cx : Ctx} {S : Sem}

theorem paint_linear {m p m1 p1 m2 p2} (h : PaintGoes cx S m p m1 p1) (k : PaintGoes cx S m p m2 p2) :
    PaintGoes cx S m1 p1 m2 p2 ∨ PaintGoes cx S m2 p2 m1 p1 := by
  induction h with
  | refl => exact .inl k
  | step h h' ih =>
    cases k with
    | refl => exact .inr (.step h h')
    | step k k' =>
      rw [h] at k
      cases k
      exact ih k'

/-- The thread has written, or is writing, the list of joins. -/
def Late : Paint → Bool
  | .fill _ | .push .. | .show .. | .done _ | .raised _ => true
  | _ => false

/-- The thread will not change the table any more. -/
def PastFill : Paint → Bool
  | .show .. | .done _ | .raised _ => true
  | _ => false

theorem early_step (m : TableMem) (p : Paint) : (paintStep cx S m p).1 = m ∨ Late (paintStep cx S m p).2 = true := by
  cases p with
  | test => simp only [paintStep]; split <;> exact .inl rfl
  | load => exact .inl rfl
  | group l i gs =>
    simp only [paintStep]
    split
    · exact .inl rfl
    · split <;> exact .inl rfl
  | clear gs => exact .inr rfl
  | fill gs => cases gs <;> exact .inr rfl
  | push xs gs => exact .inr rfl
  | «show» l i js =>
    simp only [paintStep]
    split
    · split <;> exact .inr rfl
    · split <;> exact .inr rfl
  | done o => exact .inl rfl
  | raised e => exact .inl rfl

theorem late_step {m : TableMem} {p : Paint} (h : Late p = true) : Late (paintStep cx S m p).2 = true := by
  cases p with
  | fill gs => cases gs <;> rfl
  | push xs gs => rfl
  | «show» l i js =>
    simp only [paintStep]
    split
    · split <;> rfl
    · split <;> rfl
  | done o => rfl
  | raised e => rfl
  | _ => cases h

theorem quiet_step {m : TableMem} {p : Paint} (h : PastFill p = true) :
    (paintStep cx S m p).1 = m ∧ PastFill (paintStep cx S m p).2 = true := by
  cases p with
  | «show» l i js =>
    simp only [paintStep]
    split
    · split <;> exact ⟨rfl, rfl⟩
    · split <;> exact ⟨rfl, rfl⟩
  | done o => exact ⟨rfl, rfl⟩
  | raised e => exact ⟨rfl, rfl⟩
  | _ => cases h

theorem early_goes {m p m1 p1} (h : PaintGoes cx S m p m1 p1) : m1 = m ∨ Late p1 = true := by
  have : ∀ {m0}, m = m0 ∨ Late p = true → m1 = m0 ∨ Late p1 = true := by
    induction h with
    | refl => exact id
    | @step m p m1 p1 m2 p2 h _ ih =>
      intro m0 h0
      refine ih ?_
      rcases h0 with rfl | h0
      · have := early_step (cx := cx) (S := S) m p
        rw [h] at this
        exact this
      · have := late_step (cx := cx) (S := S) (m := m) h0
        rw [h] at this
        exact .inr this
  exact this (.inl rfl)

theorem quiet_goes {m p m1 p1} (h : PaintGoes cx S m p m1 p1) (hp : PastFill p = true) : m1 = m := by
  induction h with
  | refl => rfl
  | @step m p m1 p1 m2 p2 h _ ih =>
    have := quiet_step (cx := cx) (S := S) (m := m) hp
    rw [h] at this
    exact (ih this.2).trans this.1

/-- Where a thread is that renders one table, it has not changed it yet, or is filling the list, or has left it as the
functional model says. -/
theorem paint_path {m0 m : TableMem} {p : Paint} (hr : AtRest m0) (h : PaintGoes cx S m0 .test m p)
    (hp : ∀ gs, p ≠ .fill gs) (hp' : ∀ xs gs, p ≠ .push xs gs) :
    AtRest m ∧ (m.table = m0.table ∨ m.table = (strTable cx S m0.table).1) := by
  rcases early_goes h with rfl | hl
  · exact ⟨hr, .inl rfl⟩
  have hq : PastFill p = true := by
    cases p with
    | fill gs => exact absurd rfl (hp gs)
    | push xs gs => exact absurd rfl (hp' xs gs)
    | «show» => rfl
    | done => rfl
    | raised => rfl
    | _ => cases hl
  obtain ⟨m', p', h1, h2, h3, h4⟩ := paint_alone (cx := cx) (S := S) hr
  have hq' : PastFill p' = true := by
    split at h4
    · rw [h4]; rfl
    · obtain ⟨o, t, rfl, _⟩ := h4; rfl
  have e : m' = m := by
    rcases paint_linear h h1 with k | k
    · exact quiet_goes k hq
    · exact (quiet_goes k hq').symm
  subst e
  exact ⟨h2, .inr h3⟩

/-! ### Filling the list of joins again -/

/-- While a thread fills the list, what it has put there and what it will put there is the whole list. -/
def Filling (all : List Join) (m : TableMem) : Paint → Prop
  | .fill gs => ∃ GS acc js, GroupsAre m gs GS ∧ m.cur < m.lists.length ∧ m.list m.cur = acc ∧ NumbersAre m acc js ∧
      (acc ++ numbersIn gs).Nodup ∧ js ++ GS.flatMap collapseGroup = all
  | .push xs gs => ∃ GS acc js ys, GroupsAre m gs GS ∧ m.cur < m.lists.length ∧ m.list m.cur = acc ∧
      NumbersAre m acc js ∧ NumbersAre m xs ys ∧ (acc ++ xs ++ numbersIn gs).Nodup ∧
      js ++ ys ++ GS.flatMap collapseGroup = all
  | _ => True

/-- Past the loop over the groups, or in it. -/
theorem filling_step {all : List Join} {m : TableMem} {p : Paint} (hp : Late p = true) (h : Filling all m p) :
    Filling all (paintStep cx S m p).1 (paintStep cx S m p).2 := by
  cases p with
  | fill gs =>
    cases gs with
    | nil => trivial
    | cons g gs =>
      obtain ⟨GS', acc, js, hg, hc, ha, hn, hd, he⟩ := h
      obtain ⟨G, GS, h, hg', rfl⟩ := List.forall₂_cons_left_iff.mp hg
      obtain ⟨r1, r2, r3⟩ := groupResult_spec h
      have hd' : (acc ++ ((g.1 :: g.2) ++ numbersIn gs)).Nodup := hd
      have nd : ((acc ++ (groupResult m g).1) ++ numbersIn gs).Nodup := by
        rw [List.append_assoc]
        exact hd'.sublist ((r3.append_right _).append_left _)
      rw [List.flatMap_cons, ← List.append_assoc] at he
      simp only [paintStep]
      cases hr : (groupResult m g).2 with
      | false => exact ⟨GS, acc, js, collapseGroup G, hg', hc, ha, hn, r1 hr, nd, he⟩
      | true =>
        obtain ⟨e1, e2⟩ := r2 hr
        have hi : g.1 ∉ acc := by
          intro h
          exact (List.nodup_append.mp hd').2.2 _ h _ (by simp) rfl
        have hi' : g.1 ∉ numbersIn gs := by
          intro h
          have := (List.nodup_append.mp hd').2.1
          rw [List.cons_append, List.nodup_cons] at this
          exact this.1 (by simp [h])
        refine ⟨GS, acc, js, collapseGroup G, groups_modify hg' hi', hc, ha, numbers_modify hn hi, ?_, nd, he⟩
        rw [e1, e2]
        exact .cons (by simp [h.1]) .nil
  | push xs gs =>
    obtain ⟨GS, acc, js, ys, hg, hc, ha, hn, hx, hd, he⟩ := h
    refine ⟨GS, acc ++ xs, js ++ ys, hg, by simpa [paintStep, TableMem.append] using hc, ?_, List.rel_append hn hx, hd, he⟩
    rw [← ha]
    exact list_append hc xs
  | «show» l i js =>
    simp only [paintStep]
    split
    · split <;> trivial
    · split <;> trivial
  | done o => trivial
  | raised e => trivial
  | _ => cases hp

theorem filling_goes {all : List Join} {m p m1 p1} (h : PaintGoes cx S m p m1 p1) (hp : Late p = true)
    (hf : Filling all m p) : Filling all m1 p1 := by
  induction h with
  | refl => exact hf
  | @step m p m1 p1 m2 p2 h _ ih =>
    have a := late_step (cx := cx) (S := S) (m := m) hp
    have b := filling_step (cx := cx) (S := S) hp hf
    rw [h] at a b
    exact ih a b

theorem late_goes {m p m1 p1} (h : PaintGoes cx S m p m1 p1) (hp : Late p = true) : Late p1 = true := by
  induction h with
  | refl => exact hp
  | @step m p m1 p1 m2 p2 h _ ih =>
    have a := late_step (cx := cx) (S := S) (m := m) hp
    rw [h] at a
    exact ih a

theorem quiet_ends {m p m1 p1} (h : PaintGoes cx S m p m1 p1) (hp : PastFill p = true) : PastFill p1 = true := by
  induction h with
  | refl => exact hp
  | @step m p m1 p1 m2 p2 h _ ih =>
    have a := (quiet_step (cx := cx) (S := S) (m := m) hp).2
    rw [h] at a
    exact ih a

theorem numbers_bound {m : TableMem} {xs : List Nat} {js : List Join} (h : NumbersAre m xs js) :
    ∀ i ∈ xs, i < m.joins.length := by
  induction h with
  | nil => simp
  | cons h _ ih =>
    intro i hi
    rcases List.mem_cons.mp hi with rfl | hi
    · exact (List.getElem?_eq_some_iff.mp h).1
    · exact ih i hi

/-- Nobody but the thread makes a new list. -/
theorem late_cur {m p m1 p1} (h : PaintGoes cx S m p m1 p1) (hp : Late p = true) : m1.cur = m.cur := by
  induction h with
  | refl => rfl
  | @step m p m1 p1 m2 p2 h _ ih =>
    have a := late_step (cx := cx) (S := S) (m := m) hp
    have b : (paintStep cx S m p).1.cur = m.cur := by
      cases p with
      | fill gs =>
        cases gs with
        | nil => rfl
        | cons g gs => simp only [paintStep]; split <;> rfl
      | push xs gs => rfl
      | «show» l i js => rw [(quiet_step rfl).1]
      | done o => rfl
      | raised e => rfl
      | _ => cases hp
    rw [h] at a b
    exact (ih a).trans b

/-- Before it fills the list, the thread has cleared it. -/
theorem came_by_clear {m0 m : TableMem} {p : Paint} (h : PaintGoes cx S m0 .test m p) (hl : Late p = true)
    (hq : PastFill p = false) : ∃ gs, PaintGoes cx S m0 .test m0 (.clear gs) ∧
      PaintGoes cx S { m0 with lists := m0.lists ++ [[]], cur := m0.lists.length } (.fill gs) m p := by
  have key : ∀ {m1 p1}, PaintGoes cx S m1 p1 m p → m1 = m0 → Late p1 = false → PaintGoes cx S m0 .test m1 p1 →
      ∃ gs, PaintGoes cx S m0 .test m0 (.clear gs) ∧
        PaintGoes cx S { m0 with lists := m0.lists ++ [[]], cur := m0.lists.length } (.fill gs) m p := by
    intro m1 p1 h1
    induction h1 with
    | refl => intro _ e; rw [hl] at e; cases e
    | @step m1 p1 m2 p2 m3 p3 e k ih =>
      intro e0 e1 e2
      subst e0
      have e3 : PaintGoes cx S m1 .test m2 p2 := e2.trans (.one e)
      have quiet : PastFill p2 = true → False := fun e' => by rw [quiet_ends k e'] at hq; cases hq
      cases p1 with
      | test =>
        simp only [paintStep] at e
        split at e
        · cases e; exact (quiet rfl).elim
        · cases e
          refine ih h hl hq rfl ?_ e3
          split at e3
          · rename_i he; simp only [he, if_true] at quiet; exact (quiet rfl).elim
          · rename_i he; simp only [he]; rfl
      | load => cases e; exact ih h hl hq rfl rfl e3
      | group l i gs =>
        simp only [paintStep] at e
        split at e
        · cases e; exact ih h hl hq rfl rfl e3
        · split at e
          · cases e; exact (quiet rfl).elim
          · cases e; exact ih h hl hq rfl rfl e3
      | clear gs => cases e; exact ⟨gs, e2, k⟩
      | _ => cases e1
  exact key h rfl rfl (.refl _ _)

/-- A thread that stops while it fills the list leaves the first of the merged joins. -/
theorem paint_cut {m0 m : TableMem} {p : Paint} (hr : AtRest m0) (h : PaintGoes cx S m0 .test m p)
    (hp : (∃ gs, p = .fill gs) ∨ ∃ xs gs, p = .push xs gs) :
    AtRest m ∧ m.table.joins <+: (strTable cx S m0.table).1.joins := by
  have hl : Late p = true := by rcases hp with ⟨_, rfl⟩ | ⟨_, _, rfl⟩ <;> rfl
  have hq : PastFill p = false := by rcases hp with ⟨_, rfl⟩ | ⟨_, _, rfl⟩ <;> rfl
  obtain ⟨gs, c1, c2⟩ := came_by_clear h hl hq
  obtain ⟨h1, h2, h3⟩ := hr
  have hn := numbers_of h3
  have one : ∀ {p'}, paintStep cx S m0 .test = (m0, p') → PastFill p' = true → False := by
    intro p' e hq'
    cases h with
    | refl => cases hl
    | step e' k =>
      rw [e] at e'
      cases e'
      exact Bool.false_ne_true (hq.symm.trans (quiet_ends k hq'))
  unfold strTable
  simp only [show m0.table.name = m0.name from rfl, show m0.table.alias = m0.alias from rfl,
    show m0.table.joins = m0.joinsOf (m0.list m0.cur) from rfl]
  cases ha : aliasedText cx S m0.name m0.alias with
  | error e => exact (one (by simp only [paintStep, ha]; rfl) rfl).elim
  | ok a =>
    have he : (m0.joinsOf (m0.list m0.cur)).isEmpty = (m0.list m0.cur).isEmpty := by
      rw [Bool.eq_iff_iff, List.isEmpty_iff_length_eq_zero, List.isEmpty_iff_length_eq_zero, hn.length_eq]
    simp only [he]
    cases hj : (m0.list m0.cur).isEmpty with
    | true => exact (one (p' := .done none) (by simp [paintStep, ha, hj]) rfl).elim
    | false =>
      have s1 : paintStep cx S m0 .test = (m0, .load) := by simp [paintStep, ha, hj]
      have s2 : paintStep cx S m0 .load = (m0, .group m0.cur 0 []) := rfl
      have g := group_goes (cx := cx) (S := S) (m := m0) (l := m0.cur) rfl (i := 0) (rest := m0.list m0.cur) rfl hn .nil
      unfold minimizeJoins
      cases hG : groupJoins cx S [] (m0.joinsOf (m0.list m0.cur)) with
      | error e =>
        exfalso
        rw [hG] at g
        rcases paint_linear c1 (.step s1 (.step s2 g)) with k | k
        · cases k with
          | step e' k =>
            cases e'
            have := late_cur k rfl
            simp only at this
            omega
        · exact absurd (quiet_ends k rfl) (by simp [PastFill])
      | ok GS =>
        rw [hG] at g
        obtain ⟨gs', g1, g2, g3⟩ := g
        have : gs' = gs := by
          rcases paint_linear c1 (.step s1 (.step s2 g1)) with k | k
          · cases k with
            | refl => rfl
            | step e' k => cases e'; exact absurd (late_goes k rfl) (by simp [Late])
          · cases k with
            | refl => rfl
            | step e' k => cases e'; exact absurd (late_goes k rfl) (by simp [Late])
        subst this
        have f := filling_goes (all := GS.flatMap collapseGroup) c2 rfl ⟨GS, [], [], g2, by simp, list_clear m0, .nil, by
          rw [List.nil_append]
          refine g3.nodup_iff.mpr ?_
          simpa [numbersIn] using h2, rfl⟩
        show AtRest m ∧ m.joinsOf (m.list m.cur) <+: GS.flatMap collapseGroup
        rcases hp with ⟨gs, rfl⟩ | ⟨xs, gs, rfl⟩
        · obtain ⟨GS', acc, js, _, hc, ha, hn, hd, he⟩ := f
          refine ⟨⟨hc, ?_, ?_⟩, ?_⟩
          · rw [ha]; exact (List.nodup_append.mp hd).1
          · rw [ha]; exact numbers_bound hn
          · rw [ha, hn.joinsOf, ← he]; exact List.prefix_append _ _
        · obtain ⟨GS', acc, js, ys, _, hc, ha, hn, _, hd, he⟩ := f
          refine ⟨⟨hc, ?_, ?_⟩, ?_⟩
          · rw [ha]; exact (List.nodup_append.mp (List.nodup_append.mp hd).1).1
          · rw [ha]; exact numbers_bound hn
          · rw [ha, hn.joinsOf, ← he, List.append_assoc]; exact List.prefix_append _ _


theorem paint_names {m p m1 p1} (h : PaintGoes cx S m p m1 p1) : m1.name = m.name ∧ m1.alias = m.alias := by
  have step : ∀ (m : TableMem) (p : Paint), (paintStep cx S m p).1.name = m.name ∧ (paintStep cx S m p).1.alias = m.alias := by
    intro m p
    cases p with
    | test => simp only [paintStep]; split <;> exact ⟨rfl, rfl⟩
    | load => exact ⟨rfl, rfl⟩
    | group l i gs =>
      simp only [paintStep]
      split
      · exact ⟨rfl, rfl⟩
      · split <;> exact ⟨rfl, rfl⟩
    | clear gs => exact ⟨rfl, rfl⟩
    | fill gs =>
      cases gs with
      | nil => exact ⟨rfl, rfl⟩
      | cons g gs => simp only [paintStep]; split <;> exact ⟨rfl, rfl⟩
    | push xs gs => exact ⟨rfl, rfl⟩
    | «show» l i js =>
      simp only [paintStep]
      split
      · split <;> exact ⟨rfl, rfl⟩
      · split <;> exact ⟨rfl, rfl⟩
    | done o => exact ⟨rfl, rfl⟩
    | raised e => exact ⟨rfl, rfl⟩
  induction h with
  | refl => exact ⟨rfl, rfl⟩
  | @step m p m1 p1 m2 p2 h _ ih =>
    have := step m p
    rw [h] at this
    exact ⟨ih.1.trans this.1, ih.2.trans this.2⟩

theorem PaintGoes.snoc {m p m1 p1} (h : PaintGoes cx S m p m1 p1) :
    PaintGoes cx S m p (paintStep cx S m1 p1).1 (paintStep cx S m1 p1).2 := h.trans (.one rfl)

/-- The tables in memory while one thread renders them: those before the current one are finished, those after it are
untouched. -/
structure Along (cx : Ctx) (S : Sem) (ms0 ms : List TableMem) (shown : List (Option (List Join))) (now : Paint) : Prop where
  length : ms.length = ms0.length
  before : ∀ {j m0 m}, j < shown.length → ms0[j]? = some m0 → ms[j]? = some m → ∃ o, PaintGoes cx S m0 .test m (.done o)
  current : ∀ {m0 m}, ms0[shown.length]? = some m0 → ms[shown.length]? = some m → PaintGoes cx S m0 .test m now
  after : ∀ {j}, shown.length < j → ms[j]? = ms0[j]?
  going : ∀ o, now ≠ .done o

theorem along_start (ms : List TableMem) : Along cx S ms ms [] .test :=
  ⟨rfl, by intro j _ _ h; simp at h, fun {m0 m} h h' => by rw [h] at h'; cases h'; exact .refl _ _, fun _ => rfl, by simp⟩

theorem along_step {ms0 ms : List TableMem} {shown : List (Option (List Join))} {now : Paint}
    (h : Along cx S ms0 ms shown now) : ∃ shown' now', (workerStep cx S ms (.render shown now)).2 = .render shown' now' ∧
      Along cx S ms0 (workerStep cx S ms (.render shown now)).1 shown' now' := by
  cases hm : ms[shown.length]? with
  | none => exact ⟨shown, now, by simp only [workerStep, hm], by simp only [workerStep, hm]; exact h⟩
  | some m =>
    simp only [workerStep, hm]
    obtain ⟨hl, _⟩ := List.getElem?_eq_some_iff.mp hm
    have hl0 : shown.length < ms0.length := h.length ▸ hl
    obtain ⟨m0, hm0⟩ : ∃ m0, ms0[shown.length]? = some m0 := ⟨_, List.getElem?_eq_getElem hl0⟩
    have hs : PaintGoes cx S m0 .test (paintStep cx S m now).1 (paintStep cx S m now).2 := (h.current hm0 hm).snoc
    by_cases hd : ∃ o, (paintStep cx S m now).2 = .done o
    · obtain ⟨o, hd⟩ := hd
      rw [hd] at hs ⊢
      refine ⟨shown ++ [o], .test, rfl, ?_, ?_, ?_, ?_, by simp⟩
      · simp [h.length]
      · intro j m0' m' hj h1 h2
        rw [List.length_append, List.length_singleton] at hj
        rcases Nat.lt_succ_iff_lt_or_eq.mp hj with hj | rfl
        · rw [List.getElem?_set_ne (Nat.ne_of_gt hj)] at h2
          exact h.before hj h1 h2
        · rw [List.getElem?_set_self hl] at h2
          cases h2
          rw [hm0] at h1
          cases h1
          exact ⟨o, hs⟩
      · intro m0' m' h1 h2
        rw [List.length_append, List.length_singleton] at h1 h2
        rw [List.getElem?_set_ne (by omega), h.after (by omega), h1] at h2
        cases h2
        exact .refl _ _
      · intro j hj
        rw [List.length_append, List.length_singleton] at hj
        rw [List.getElem?_set_ne (by omega), h.after (by omega)]
    · have e : afterPaint shown (paintStep cx S m now).2 = .render shown (paintStep cx S m now).2 := by
        cases hp : (paintStep cx S m now).2 with
        | done o => exact absurd ⟨o, hp⟩ hd
        | _ => rfl
      refine ⟨shown, _, e, by simp [h.length], ?_, ?_, ?_, fun o ho => hd ⟨o, ho⟩⟩
      · intro j m0' m' hj h1 h2
        rw [List.getElem?_set_ne (Nat.ne_of_gt hj)] at h2
        exact h.before hj h1 h2
      · intro m0' m' h1 h2
        rw [List.getElem?_set_self hl] at h2
        cases h2
        rw [hm0] at h1
        cases h1
        exact hs
      · intro j hj
        rw [List.getElem?_set_ne (Nat.ne_of_lt hj), h.after hj]

theorem along_run {ms0 : List TableMem} {ws : List Worker} {i : Nat} (hi : ws[i]? = some aboutToRender) (k : Nat) :
    ∃ shown now, (runWorkers cx S (ms0, ws) (List.replicate k i)).2[i]? = some (.render shown now) ∧
      Along cx S ms0 (runWorkers cx S (ms0, ws) (List.replicate k i)).1 shown now := by
  induction k with
  | zero => exact ⟨[], .test, hi, along_start ms0⟩
  | succ k ih =>
    obtain ⟨shown, now, h1, h2⟩ := ih
    obtain ⟨shown', now', h3, h4⟩ := along_step h2
    rw [List.replicate_succ', runWorkers_append]
    generalize runWorkers cx S (ms0, ws) (List.replicate k i) = w at h1 h2 h3 h4 ⊢
    have e : runWorkers cx S w [i] = ((workerStep cx S w.1 (.render shown now)).1,
        w.2.set i (workerStep cx S w.1 (.render shown now)).2) := by
      simp only [runWorkers, List.foldl_cons, List.foldl_nil, workerTick, h1]
    rw [e]
    refine ⟨shown', now', ?_, h4⟩
    rw [List.getElem?_set_self (List.getElem?_eq_some_iff.mp h1).1, h3]

end

/-- What one interrupted thread leaves. -/
theorem interrupted {cx : Ctx} {n : Nat} {ts : List Table} {ms : List TableMem} {ws : List Worker} {i : Nat}
    (hold : Holding ms ts) (rest : ∀ m ∈ ms, AtRest m) (hi : ws[i]? = some aboutToRender) (k : Nat)
    (w : List TableMem × List Worker) (hw : w = runWorkers cx (sem cx n) (ms, ws) (List.replicate k i)) :
    ∃ ts' c, Holding w.1 ts' ∧ (∀ m ∈ w.1, AtRest m) ∧ (∀ j ≠ i, w.2[j]? = ws[j]?) ∧ ts'.length = ts.length ∧
      ∀ (j : Nat) t t', ts[j]? = some t → ts'[j]? = some t' →
        Intact cx n t t' ∨ (j = c ∧ Refilling w i ∧ CutOff cx n t t') := by
  subst hw
  obtain ⟨shown, now, h1, h2⟩ := along_run (cx := cx) (S := sem cx n) (ms0 := ms) hi k
  have hother : ∀ j ≠ i, (runWorkers cx (sem cx n) (ms, ws) (List.replicate k i)).2[j]? = ws[j]? := fun j hj =>
    run_other _ (fun h => hj (List.eq_of_mem_replicate h))
  generalize runWorkers cx (sem cx n) (ms, ws) (List.replicate k i) = w at h1 h2 hother ⊢
  have each : ∀ (j : Nat) m0 m, ms[j]? = some m0 → w.1[j]? = some m → AtRest m ∧
      (Intact cx n m0.table m.table ∨ (j = shown.length ∧ Refilling w i ∧ CutOff cx n m0.table m.table)) := by
    intro j m0 m e1 e2
    have r0 := rest m0 (List.mem_of_getElem? e1)
    rcases Nat.lt_trichotomy j shown.length with hj | rfl | hj
    · obtain ⟨o, ho⟩ := h2.before hj e1 e2
      obtain ⟨a, b⟩ := paint_path r0 ho (by simp) (by simp)
      exact ⟨a, .inl b⟩
    · have hc := h2.current e1 e2
      by_cases hp : (∃ gs, now = .fill gs) ∨ ∃ xs gs, now = .push xs gs
      · obtain ⟨a, b⟩ := paint_cut r0 hc hp
        obtain ⟨c, d⟩ := paint_names hc
        refine ⟨a, .inr ⟨rfl, ⟨shown, ?_⟩, c, d, b⟩⟩
        rcases hp with ⟨gs, rfl⟩ | ⟨xs, gs, rfl⟩
        · exact .inl ⟨gs, h1⟩
        · exact .inr ⟨xs, gs, h1⟩
      · rw [not_or] at hp
        obtain ⟨a, b⟩ := paint_path r0 hc (fun gs e => hp.1 ⟨gs, e⟩) (fun xs gs e => hp.2 ⟨xs, gs, e⟩)
        exact ⟨a, .inl b⟩
    · rw [h2.after hj, e1] at e2
      cases e2
      exact ⟨r0, .inl (.inl rfl)⟩
  refine ⟨w.1.map TableMem.table, shown.length, rfl, ?_, hother, ?_, ?_⟩
  · intro m hm
    obtain ⟨j, hj⟩ := List.mem_iff_getElem?.mp hm
    have hl : j < ms.length := h2.length ▸ (List.getElem?_eq_some_iff.mp hj).1
    exact (each j _ m (List.getElem?_eq_getElem hl) hj).1
  · rw [List.length_map, h2.length, ← hold, List.length_map]
  · intro j t t' e1 e2
    rw [← hold, List.getElem?_map] at e1
    rw [List.getElem?_map] at e2
    obtain ⟨m0, f1, rfl⟩ := Option.map_eq_some_iff.mp e1
    obtain ⟨m, f2, rfl⟩ := Option.map_eq_some_iff.mp e2
    exact (each j m0 m f1 f2).2

end SqlPuzzle
