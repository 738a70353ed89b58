import Verif.Props.Threads
import Verif.Spec.RowThreads
import Mathlib.Data.List.Nodup
import Mathlib.Data.List.Range

/-!
C81: rows that several threads add to one INSERT.
-/

namespace SqlPuzzle

open Spec

variable {cx : Ctx} {S : Sem}

/-! ### One thread -/

/-- The next state of a thread does not depend on the rows of the query. -/
private def localStep (cx : Ctx) (S : Sem) (ph : RowPhase) : RowPhase := (rowStep cx S [] ph).2

private def rowsAfter (rows : List (List Value)) : RowPhase → List (List Value)
  | .append row => rows ++ [row]
  | _ => rows

private theorem step_local (rows : List (List Value)) (ph : RowPhase) :
    rowStep cx S rows ph = (rowsAfter rows ph, localStep cx S ph) := by
  cases ph with
  | making row p => cases p <;> rfl
  | _ => rfl

private def single (cx : Ctx) (S : Sem) (s : List Value × Phase Value) : List Value × Phase Value :=
  threadStep (valueEq cx S) s.1 s.2

private theorem single_run (k : Nat) : ∀ s : List Value × Phase Value,
    runThreads (valueEq cx S) (s.1, [s.2]) (List.replicate k 0) =
      (((single cx S)^[k] s).1, [((single cx S)^[k] s).2]) := by
  induction k with
  | zero => intro s; rfl
  | succ k ih => intro s; exact ih (single cx S s)

/-- Setting the values of the new object ends as `Values().set(…)` does. -/
private theorem single_ends (a : Args) : ∃ k, (single cx S)^[k] ([], startSet S a) =
    ((valuesSet cx S [] a).1, endedWith (valuesSet cx S [] a).2) := by
  have : Alone (valueEq cx S) ([], startSet S a)
      ((valuesSet cx S [] a).1, endedWith (valuesSet cx S [] a).2) := by
    unfold startSet valuesSet
    split
    · exact .refl _
    · cases customArg a with
      | some o => exact .step (.step (.refl _))
      | none =>
        simp only
        unfold startLoop
        cases parseArgs S pairOpts a with
        | error e => exact .refl _
        | ok bs => exact loop_alone _ _ bs
  obtain ⟨k, hk⟩ := this
  refine ⟨k, ?_⟩
  rw [single_run] at hk
  obtain ⟨h1, h2⟩ := Prod.mk.inj hk
  exact Prod.ext h1 (List.head_eq_of_cons_eq h2)

private theorem single_fixed {s : List Value × Phase Value} (h : s.2 = .done ∨ ∃ e, s.2 = .raised e) (k : Nat) :
    (single cx S)^[k] s = s := by
  have : single cx S s = s := by
    obtain ⟨r, p⟩ := s
    rcases h with h | ⟨e, h⟩ <;> (cases h; rfl)
  exact Function.iterate_fixed this k

private theorem ended_or (x : Option Err) : endedWith (α := Value) x = .done ∨ ∃ e, endedWith (α := Value) x = .raised e := by
  cases x with
  | none => exact .inl rfl
  | some e => exact .inr ⟨e, rfl⟩

/-- When setting the values has ended, it has ended so. -/
private theorem single_result {a : Args} {j : Nat} {s : List Value × Phase Value}
    (hj : (single cx S)^[j] ([], startSet S a) = s) (h : s.2 = .done ∨ ∃ e, s.2 = .raised e) :
    s = ((valuesSet cx S [] a).1, endedWith (valuesSet cx S [] a).2) := by
  obtain ⟨k, hk⟩ := single_ends (cx := cx) (S := S) a
  have h1 : (single cx S)^[k + j] ([], startSet S a) = s := by
    rw [Function.iterate_add_apply, hj, single_fixed h]
  have h2 : (single cx S)^[j + k] ([], startSet S a) =
      ((valuesSet cx S [] a).1, endedWith (valuesSet cx S [] a).2) := by
    rw [Function.iterate_add_apply, hk, single_fixed (ended_or _)]
  rw [← h1, Nat.add_comm, h2]

/-- A thread that has made some steps of the call. -/
private inductive During (cx : Ctx) (S : Sem) (a : Args) : Nat → RowPhase → Prop
  | making (c : Nat) : During cx S a c
      (.making ((single cx S)^[c] ([], startSet S a)).1 ((single cx S)^[c] ([], startSet S a)).2)
  | append {c : Nat} : (valuesSet cx S [] a).2 = none → During cx S a c (.append (valuesSet cx S [] a).1)
  | done {c : Nat} : (valuesSet cx S [] a).2 = none → During cx S a c .done
  | raised {c : Nat} {e : Err} : (valuesSet cx S [] a).2 = some e → During cx S a c (.raised e)

private theorem During.step {a : Args} {c : Nat} {ph : RowPhase} (h : During cx S a c ph) :
    During cx S a (c + 1) (localStep cx S ph) := by
  cases h with
  | append h => exact .done h
  | done h => exact .done h
  | raised h => exact .raised h
  | making =>
    have key := fun h => single_result (cx := cx) (S := S) (a := a) (j := c) rfl h
    have hm := During.making (cx := cx) (S := S) (a := a) (c + 1)
    rw [Function.iterate_succ_apply'] at hm
    generalize (single cx S)^[c] ([], startSet S a) = s at *
    obtain ⟨r, p⟩ := s
    cases p with
    | done =>
      obtain ⟨h1, h2⟩ := Prod.mk.inj (key (.inl rfl))
      show During cx S a (c + 1) (.append r)
      rw [h1]
      refine .append ?_
      cases hv : (valuesSet cx S [] a).2 with
      | none => rfl
      | some e => rw [hv] at h2; cases h2
    | raised e =>
      obtain ⟨h1, h2⟩ := Prod.mk.inj (key (.inr ⟨e, rfl⟩))
      show During cx S a (c + 1) (.raised e)
      refine .raised ?_
      cases hv : (valuesSet cx S [] a).2 with
      | none => rw [hv] at h2; cases h2
      | some e' => rw [hv] at h2; cases h2; rfl
    | next todo => exact hm
    | scan p i todo => exact hm
    | add p todo => exact hm

private theorem during (a : Args) (c : Nat) : During cx S a c ((localStep cx S)^[c] (startValues S a)) := by
  induction c with
  | zero => exact .making 0
  | succ c ih =>
    rw [Function.iterate_succ_apply']
    exact ih.step

/-- After so many steps the row is made. -/
private theorem During.ends (a : Args) : ∃ k, ∀ c ph, During cx S a c ph → k ≤ c →
    (∀ r p, localStep cx S ph ≠ .making r p) := by
  obtain ⟨k, hk⟩ := single_ends (cx := cx) (S := S) a
  refine ⟨k, fun c ph h hc r p e => ?_⟩
  cases h with
  | append h => cases e
  | done h => cases e
  | raised h => cases e
  | making =>
    obtain ⟨j, rfl⟩ := Nat.exists_eq_add_of_le hc
    rw [Nat.add_comm, Function.iterate_add_apply, hk, single_fixed (ended_or _)] at e
    rcases ended_or (valuesSet cx S [] a).2 with h | ⟨x, h⟩ <;> (rw [h] at e; cases e)

/-! ### All threads -/

/-- The row that a call makes. -/
private def rowMade (cx : Ctx) (S : Sem) (calls : List Args) (i : Nat) : Option (List Value) :=
  (calls[i]?).map fun a => (valuesSet cx S [] a).1

private theorem world (rows : List (List Value)) (calls : List Args) (schedule : List Nat) :
    let w := runRowThreads cx S (rows, calls.map (startValues S)) schedule
    w.2.length = calls.length ∧ ∃ order : List Nat, order.Nodup ∧ (∀ i, i ∈ order ↔ w.2[i]? = some .done) ∧
      w.1 = rows ++ order.filterMap (rowMade cx S calls) ∧
      ∀ i a, calls[i]? = some a → w.2[i]? = some ((localStep cx S)^[schedule.count i] (startValues S a)) := by
  induction schedule using List.reverseRecOn with
  | nil =>
    refine ⟨by simp [runRowThreads], [], List.nodup_nil, fun i => ?_, by simp [runRowThreads], fun i a ha => ?_⟩
    · simp only [List.not_mem_nil, false_iff, runRowThreads, List.foldl_nil, List.getElem?_map]
      cases calls[i]? <;> simp [startValues]
    · simp [runRowThreads, ha]
  | append_singleton schedule j ih =>
    have e0 : runRowThreads cx S (rows, calls.map (startValues S)) (schedule ++ [j]) =
        rowTick cx S (runRowThreads cx S (rows, calls.map (startValues S)) schedule) j := by
      simp [runRowThreads]
    rw [e0]
    simp only at ih ⊢
    generalize runRowThreads cx S (rows, calls.map (startValues S)) schedule = w at ih
    obtain ⟨hl, order, h1, h2, h3, h4⟩ := ih
    have hcount : ∀ i, (schedule ++ [j]).count i = schedule.count i + if i = j then 1 else 0 := by
      intro i
      rw [List.count_append, List.count_singleton]
      congr 1
      by_cases h : i = j
      · simp [h]
      · simp [h, Ne.symm h]
    cases hj : w.2[j]? with
    | none =>
      have e : rowTick cx S w j = w := by unfold rowTick; rw [hj]
      rw [e]
      refine ⟨hl, order, h1, h2, h3, fun i a ha => ?_⟩
      have hi : i ≠ j := by
        rintro rfl
        rw [h4 i a ha] at hj
        cases hj
      rw [hcount, if_neg hi]
      exact h4 i a ha
    | some ph =>
      have e : rowTick cx S w j = ((rowStep cx S w.1 ph).1, w.2.set j (rowStep cx S w.1 ph).2) := by
        unfold rowTick; rw [hj]
      rw [e, step_local]
      have hjl : j < w.2.length := (List.getElem?_eq_some_iff.mp hj).1
      have hget : ∀ i, (w.2.set j (localStep cx S ph))[i]? =
          if i = j then some (localStep cx S ph) else w.2[i]? := by
        intro i
        by_cases h : i = j
        · subst h; simp [hjl]
        · simp [h, List.getElem?_set_ne (Ne.symm h)]
      have h4' : ∀ i a, calls[i]? = some a → (w.2.set j (localStep cx S ph))[i]? =
          some ((localStep cx S)^[(schedule ++ [j]).count i] (startValues S a)) := by
        intro i a ha
        have hp := h4 i a ha
        rw [hget, hcount]
        by_cases h : i = j
        · subst h
          rw [hj] at hp
          cases hp
          rw [if_pos rfl, if_pos rfl, Function.iterate_succ_apply']
        · rw [if_neg h, if_neg h]
          exact hp
      obtain ⟨a, ha⟩ : ∃ a, calls[j]? = some a := ⟨_, List.getElem?_eq_getElem (hl ▸ hjl)⟩
      refine ⟨by simpa using hl, ?_⟩
      by_cases happ : ∃ row, ph = .append row
      · obtain ⟨row, rfl⟩ := happ
        have hd := during (cx := cx) (S := S) a (schedule.count j)
        have hp := h4 j a ha
        rw [hj] at hp
        rw [← Option.some.inj hp] at hd
        have hrow : rowMade cx S calls j = some row := by
          cases hd
          simp [rowMade, ha]
        have hnot : j ∉ order := fun hm => by
          rw [h2, hj] at hm
          cases hm
        refine ⟨order ++ [j], ?_, ?_, ?_, h4'⟩
        · exact List.nodup_append.mpr ⟨h1, List.nodup_singleton j, fun x hx y hy => by
            cases List.mem_singleton.mp hy
            rintro rfl
            exact hnot hx⟩
        · intro i
          rw [hget, List.mem_append, List.mem_singleton]
          by_cases h : i = j
          · subst h
            simp only [or_true, if_true, true_iff]
            rfl
          · simp only [h, or_false, if_false]
            exact h2 i
        · show w.1 ++ [row] = _
          rw [h3, List.filterMap_append, List.append_assoc]
          simp [hrow]
      · have hrows : rowsAfter w.1 ph = w.1 := by
          cases ph with
          | append row => exact absurd ⟨row, rfl⟩ happ
          | _ => rfl
        refine ⟨order, h1, fun i => ?_, by rw [← h3]; exact hrows, h4'⟩
        rw [hget, h2]
        by_cases h : i = j
        · subst h
          rw [hj, if_pos rfl]
          cases ph with
          | append row => exact absurd ⟨row, rfl⟩ happ
          | making r p => cases p <;> simp [localStep, rowStep]
          | done => simp [localStep, rowStep]
          | raised e => simp [localStep, rowStep]
        · rw [if_neg h]

/-! ### The property -/

private theorem values_rows (q : Insert) (a : Args) : insertStep cx S q (.values a) =
    match (valuesSet cx S [] a).2 with
    | none => ({ q with rows := q.rows ++ [(valuesSet cx S [] a).1] }, none)
    | some e => (q, some e) := by
  simp only [insertStep]
  by_cases hk : kwSelf a = true
  · rw [if_pos hk]
    have : valuesSet cx S [] a = ([], some .typeError) := by unfold valuesSet; rw [if_pos hk]
    rw [this]
  · rw [if_neg hk]
    unfold rowsAdd
    generalize valuesSet cx S [] a = v
    obtain ⟨r, e⟩ := v
    cases e <;> rfl

private theorem calls_rows (calls : List Args) : ∀ (order : List Nat) (q : Insert),
    (∀ i ∈ order, ∀ a, calls[i]? = some a → (valuesSet cx S [] a).2 = none) →
    runOps (insertStep cx S) q (callsInOrder calls order) =
      { q with rows := q.rows ++ order.filterMap (rowMade cx S calls) } := by
  intro order
  induction order with
  | nil => intro q _; simp [callsInOrder, runOps]
  | cons i order ih =>
    intro q h
    have ih' := fun q => ih q fun j hj => h j (List.mem_cons_of_mem _ hj)
    unfold callsInOrder at ih' ⊢
    rw [List.filterMap_cons, List.filterMap_cons]
    cases ha : calls[i]? with
    | none =>
      simp only [Option.map_none, rowMade, ha]
      exact ih' q
    | some a =>
      simp only [Option.map_some, rowMade, ha]
      rw [runOps_cons, values_rows, h i List.mem_cons_self a ha, ih']
      simp

/-- C81. Several threads call `values` on one INSERT.  After the steps of any schedule, also when some of the calls have
not ended or have raised, the statement is the one that the calls that have come back give when they are made one
after another, in some order: each row is there once, whole, and nothing else. -/
theorem C81_rows (n : Nat) (q : Insert) (calls : List Args) (schedule : List Nat) :
    ∃ order : List Nat, order.Nodup ∧
      (∀ i, i ∈ order ↔ CameBack (valuesThreads cx n q calls schedule) i) ∧
      { q with rows := (valuesThreads cx n q calls schedule).1 } =
        runOps (insertStep cx (sem cx n)) q (callsInOrder calls order) := by
  obtain ⟨hl, order, h1, h2, h3, h4⟩ := world (cx := cx) (S := sem cx n) q.rows calls schedule
  refine ⟨order, h1, h2, ?_⟩
  rw [calls_rows]
  · unfold valuesThreads
    rw [h3]
  · intro i hi a ha
    have hd := during (cx := cx) (S := sem cx n) a (schedule.count i)
    have hp := h4 i a ha
    rw [(h2 i).mp hi] at hp
    rw [← Option.some.inj hp] at hd
    cases hd with
    | done h => exact h

/-- C81, how a call ends: as it does when no other thread is there. -/
theorem C81_outcome (n : Nat) (q : Insert) (calls : List Args) (schedule : List Nat) (i : Nat) (a : Args)
    (ha : calls[i]? = some a) :
    (CameBack (valuesThreads cx n q calls schedule) i →
      (insertStep cx (sem cx n) q (.values a)).2 = none) ∧
    (∀ e, Raised (valuesThreads cx n q calls schedule) i e →
      (insertStep cx (sem cx n) q (.values a)).2 = some e) := by
  obtain ⟨_, _, _, _, _, h4⟩ := world (cx := cx) (S := sem cx n) q.rows calls schedule
  have hd := during (cx := cx) (S := sem cx n) a (schedule.count i)
  have hp := h4 i a ha
  rw [values_rows]
  constructor
  · intro h
    unfold CameBack valuesThreads at h
    rw [hp] at h
    rw [Option.some.inj h] at hd
    cases hd with
    | done h => rw [h]
  · intro e h
    unfold Raised valuesThreads at h
    rw [hp] at h
    rw [Option.some.inj h] at hd
    cases hd with
    | raised h => rw [h]

/-- C81, each call ends: after a number of own steps that depends on the call alone, whatever the others do. -/
theorem C81_ends (n : Nat) (a : Args) : ∃ k, ∀ (q : Insert) (calls : List Args) (schedule : List Nat) (i : Nat),
    calls[i]? = some a → k ≤ schedule.count i →
    CameBack (valuesThreads cx n q calls schedule) i ∨ ∃ e, Raised (valuesThreads cx n q calls schedule) i e := by
  obtain ⟨k, hk⟩ := During.ends (cx := cx) (S := sem cx n) a
  refine ⟨k + 2, fun q calls schedule i ha hc => ?_⟩
  obtain ⟨_, _, _, _, _, h4⟩ := world (cx := cx) (S := sem cx n) q.rows calls schedule
  have hp := h4 i a ha
  obtain ⟨c, hc2⟩ := Nat.exists_eq_add_of_le hc
  rw [hc2, show k + 2 + c = (k + c) + 1 + 1 by omega, Function.iterate_succ_apply', Function.iterate_succ_apply'] at hp
  have h5 := hk _ _ (during (cx := cx) (S := sem cx n) a (k + c)) (Nat.le_add_right k c)
  unfold CameBack Raised valuesThreads
  rw [hp]
  generalize localStep cx (sem cx n) ((localStep cx (sem cx n))^[k + c] (startValues (sem cx n) a)) = ph at h5
  cases ph with
  | making r p => exact absurd rfl (h5 r p)
  | append row => exact .inl rfl
  | done => exact .inl rfl
  | raised e => exact .inr ⟨e, rfl⟩

/-- C81, when all calls have ended: the statement is the one that the same calls give when they are made one after
another, in some order. -/
theorem C81_linear (n : Nat) (q : Insert) (calls : List Args) (schedule : List Nat)
    (h : ∀ i, i < calls.length → CameBack (valuesThreads cx n q calls schedule) i ∨
      ∃ e, Raised (valuesThreads cx n q calls schedule) i e) :
    ∃ order : List Args, order.Perm calls ∧
      { q with rows := (valuesThreads cx n q calls schedule).1 } =
        runOps (insertStep cx (sem cx n)) q (order.map .values) := by
  obtain ⟨order, h1, h2, h3⟩ := C81_rows (cx := cx) n q calls schedule
  have hlt : ∀ i ∈ order, i < calls.length := fun i hi => by
    obtain ⟨hl, _⟩ := world (cx := cx) (S := sem cx n) q.rows calls schedule
    have := (List.getElem?_eq_some_iff.mp ((h2 i).mp hi)).1
    exact hl ▸ this
  let rest := (List.range calls.length).filter fun i => i ∉ order
  have hperm : (order ++ rest).Perm (List.range calls.length) := by
    rw [List.perm_ext_iff_of_nodup]
    · intro i
      simp only [rest, List.mem_append, List.mem_filter, List.mem_range, decide_eq_true_eq]
      constructor
      · rintro (hi | hi)
        · exact hlt i hi
        · exact hi.1
      · intro hi
        by_cases hm : i ∈ order
        · exact .inl hm
        · exact .inr ⟨hi, hm⟩
    · refine List.nodup_append.mpr ⟨h1, List.nodup_range.filter _, fun x hx y hy hxy => ?_⟩
      subst hxy
      simp [rest, hx] at hy
    · exact List.nodup_range
  have hcalls : ((List.range calls.length).filterMap fun i => calls[i]?) = calls := by
    have e : (List.range calls.length).map (fun i => calls[i]?) = calls.map some := by
      refine List.ext_getElem? fun i => ?_
      by_cases hi : i < calls.length
      · simp [hi]
      · simp [hi]
    have e2 : ((List.range calls.length).filterMap fun i => calls[i]?) =
        ((List.range calls.length).map fun i => calls[i]?).filterMap id := by
      rw [List.filterMap_map]
      rfl
    rw [e2, e, List.filterMap_map]
    simp
  refine ⟨(order ++ rest).filterMap fun i => calls[i]?, (hperm.filterMap _).trans (.of_eq hcalls), ?_⟩
  have hops : ((order ++ rest).filterMap fun i => calls[i]?).map InsertOp.values =
      callsInOrder calls order ++ callsInOrder calls rest := by
    rw [List.map_filterMap, List.filterMap_append]
    rfl
  have hrest : ∀ (is : List Nat) (q' : Insert), (∀ i ∈ is, i ∈ rest) →
      runOps (insertStep cx (sem cx n)) q' (callsInOrder calls is) = q' := by
    intro is
    induction is with
    | nil => intro q' _; rfl
    | cons i is ih =>
      intro q' hi
      have ih' := ih q' fun j hj => hi j (List.mem_cons_of_mem _ hj)
      unfold callsInOrder at ih' ⊢
      rw [List.filterMap_cons]
      cases ha : calls[i]? with
      | none => exact ih'
      | some a =>
        have hm := hi i List.mem_cons_self
        simp only [rest, List.mem_filter, List.mem_range, decide_eq_true_eq] at hm
        obtain ⟨e, he⟩ := (h i hm.1).resolve_left fun k => hm.2 ((h2 i).mpr k)
        have hv := (C81_outcome (cx := cx) n q calls schedule i a ha).2 e he
        have hv' : (valuesSet cx (sem cx n) [] a).2 = some e := by
          rw [values_rows] at hv
          cases hx : (valuesSet cx (sem cx n) [] a).2 with
          | none => rw [hx] at hv; cases hv
          | some e' => rw [hx] at hv; exact hv
        simp only [Option.map_some]
        rw [runOps_cons, values_rows, hv']
        exact ih'
  rw [hops, runOps_append, ← h3, hrest rest _ fun i hi => hi]

private def cx0 : Ctx := ⟨.sql, ⟨id, id, fun _ => true, fun _ => [], fun _ => []⟩⟩

private def row (i : Int) : Args := { kw := [(L!"a", .int i), (L!"b", .int (i + 10))] }

/-- Two threads that make their rows at the same time; the one that began last ends first. -/
example : (valuesThreads cx0 4 {} [row 1, row 2]
    [0, 0, 0, 1, 1, 1, 1, 1, 0, 0, 0, 1, 1, 1, 1, 1, 0, 1, 0, 0, 0, 0, 0]).1 =
      [[.value (.str L!"a") (.int 2), .value (.str L!"b") (.int 12)],
       [.value (.str L!"a") (.int 1), .value (.str L!"b") (.int 11)]] := by rfl

private def three : RowWorld := valuesThreads cx0 4 {} [row 1, { pos := [.int 5] }, row 2]
  (List.replicate 12 2 ++ List.replicate 12 1 ++ List.replicate 12 0)

/-- `values(a=1, b=11)`, `values(5)` and `values(a=2, b=12)` by three threads: the second raises, the others come back. -/
example : CameBack three 0 ∧ Raised three 1 .invalidArgument ∧ CameBack three 2 ∧ three.1.length = 2 :=
  ⟨rfl, rfl, rfl, rfl⟩

end SqlPuzzle
