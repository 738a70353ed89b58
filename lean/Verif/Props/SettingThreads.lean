import Verif.Proofs.SettingThreads
import Verif.Proofs.Uniq
import Mathlib.Logic.Function.Iterate

/-!
C82: settings of one SELECT made by several threads.
-/

namespace SqlPuzzle

open Spec

variable {cx : Ctx} {S : Sem}

/-! ### The claim, and why it is false -/

/-- C82 in full: whatever the schedule, once all threads have made their calls the query is as some order of the calls,
in which each thread keeps its own order, leaves it. -/
def C82_claim : Prop :=
  ∀ (cx : Ctx) (S : Sem) (q : Select) (programs : List (List SelectOp)) (schedule : List Nat),
    (∀ p ∈ programs, ∀ op ∈ p, IsSetting op) →
    (∀ i < programs.length, AllMade (settingThreads q programs schedule) i) →
    ∃ order, OrderOfCalls programs (settingThreads q programs schedule) order ∧
      (settingThreads q programs schedule).1 = runOps (selectStep cx S) q (order.map (·.2))

private def cx82 : Ctx := ⟨.sql, ⟨id, id, fun _ => true, fun _ => [], fun _ => []⟩⟩

/-- The calls of an order are calls of the programs. -/
private theorem order_mem {programs : List (List SelectOp)} {w : SettingWorld} {order : List (Nat × SelectOp)}
    (h : OrderOfCalls programs w order) {op : SelectOp} (hop : op ∈ order.map (·.2)) :
    ∃ p ∈ programs, op ∈ p := by
  obtain ⟨c, hc, rfl⟩ := List.mem_map.mp hop
  have hl := h.1 c hc
  refine ⟨programs[c.1], List.getElem_mem hl, ?_⟩
  refine (h.2 c.1 _ (List.getElem?_eq_getElem hl)).1.subset ?_
  exact List.mem_filterMap.mpr ⟨c, hc, by simp⟩

/-- One thread calls `limit(10, 20)`, another `limit(5, 30)`. -/
private def pages : List (List SelectOp) := [[.limit (.int 10) (.int 20)], [.limit (.int 5) (.int 30)]]

private theorem pages_limit (l : List SelectOp) (h : ∀ op ∈ l, ∃ p ∈ pages, op ∈ p) :
    (runOps (selectStep cx82 (sem cx82 0)) {} l).limit ≠ ⟨some 5, some 20⟩ := by
  suffices ∀ q : Select, (q.limit = {} ∨ q.limit = ⟨some 10, some 20⟩ ∨ q.limit = ⟨some 5, some 30⟩) →
      ((runOps (selectStep cx82 (sem cx82 0)) q l).limit = {} ∨
        (runOps (selectStep cx82 (sem cx82 0)) q l).limit = ⟨some 10, some 20⟩ ∨
        (runOps (selectStep cx82 (sem cx82 0)) q l).limit = ⟨some 5, some 30⟩) by
    rcases this {} (Or.inl rfl) with e | e | e <;> rw [e] <;> simp
  induction l with
  | nil => exact fun q hq => hq
  | cons op l ih =>
    intro q hq
    refine ih (fun op h' => h op (List.mem_cons_of_mem _ h')) _ ?_
    obtain ⟨p, hp, hop⟩ := h op List.mem_cons_self
    simp only [pages, List.mem_cons, List.not_mem_nil, or_false] at hp
    rcases hp with rfl | rfl <;> cases List.mem_singleton.mp hop
    · exact Or.inr (Or.inl rfl)
    · exact Or.inr (Or.inr rfl)

/-- C82 is false: of the calls `limit(10, 20)` and `limit(5, 30)` by two threads the query may keep the limit of one and
the offset of the other. -/
theorem C82_refuted : ¬ C82_claim := by
  intro h
  obtain ⟨order, ho, he⟩ := h cx82 (sem cx82 0) {} pages [0, 0, 1, 1, 1, 0]
    (by
      intro p hp op hop
      simp only [pages, List.mem_cons, List.not_mem_nil, or_false] at hp
      rcases hp with rfl | rfl <;> cases List.mem_singleton.mp hop <;> trivial)
    (by
      intro i hi
      have : i = 0 ∨ i = 1 := by simp only [pages, List.length_cons, List.length_nil] at hi; omega
      rcases this with rfl | rfl <;> rfl)
  refine pages_limit (order.map (·.2)) (fun op hop => order_mem ho hop) ?_
  rw [← he]; rfl

/-! ### What holds -/

private theorem made_all {program made todo : List SelectOp} {writes : List Write}
    (h : OnTheWay program made writes todo) :
    made <+: program ∧ (writes = [] → todo = [] → made = program) := by
  constructor
  · by_cases hw : writes = []
    · rw [h.idle hw]; exact List.prefix_append _ _
    · obtain ⟨op, pre, e, _⟩ := h.busy hw
      rw [e]; exact List.prefix_append _ _
  · intro hw ht
    rw [h.idle hw, ht, List.append_nil]

private theorem moment_order {q : Select} {programs : List (List SelectOp)} {w : SettingWorld}
    {order : List (Nat × SelectOp)} (m : Moment cx S q programs w order) : OrderOfCalls programs w order := by
  refine ⟨m.numbers, fun i program h => ?_⟩
  obtain ⟨writes, todo, h1, h2⟩ := m.threads i program h
  refine ⟨(made_all h2).1, fun hm => ?_⟩
  rw [AllMade, h1] at hm
  cases hm
  exact (made_all h2).2 rfl rfl

/-- C82, for calls that do not say something of the limit and of the offset at once: whatever the schedule, at every
moment the query is as some order of calls, in which each thread keeps its own order, leaves it; the calls of a thread
that has made all of them are all there. -/
theorem C82_partial {q : Select} {programs : List (List SelectOp)} (schedule : List Nat)
    (hs : ∀ p ∈ programs, ∀ op ∈ p, IsSetting op) (hone : ∀ p ∈ programs, ∀ op ∈ p, ¬ BothAtOnce op) :
    ∃ order, OrderOfCalls programs (settingThreads q programs schedule) order ∧
      (settingThreads q programs schedule).1 = runOps (selectStep cx S) q (order.map (·.2)) := by
  obtain ⟨order, m⟩ := moment (cx := cx) (S := S) (q := q) hs schedule
  exact ⟨order, moment_order m, m.whole hone⟩

/-- C82, for all calls and all of the query but its limit and offset. -/
theorem C82_rest_partial {q : Select} {programs : List (List SelectOp)} (schedule : List Nat)
    (hs : ∀ p ∈ programs, ∀ op ∈ p, IsSetting op) :
    ∃ order, OrderOfCalls programs (settingThreads q programs schedule) order ∧
      { (settingThreads q programs schedule).1 with limit := {} } =
        { runOps (selectStep cx S) q (order.map (·.2)) with limit := {} } := by
  obtain ⟨order, m⟩ := moment (cx := cx) (S := S) (q := q) hs schedule
  exact ⟨order, moment_order m, m.rest⟩

/-- What an assignment changes the limit and the offset to. -/
private theorem apply_limit (q : Select) (w : Write) :
    ((w.apply q).limit.limit = q.limit.limit ∨ w = .limit (w.apply q).limit.limit) ∧
    ((w.apply q).limit.offset = q.limit.offset ∨ w = .offset (w.apply q).limit.offset) := by
  cases w with
  | outfile f v => cases f <;> exact ⟨Or.inl rfl, Or.inl rfl⟩
  | limit v => exact ⟨Or.inr rfl, Or.inl rfl⟩
  | offset v => exact ⟨Or.inl rfl, Or.inr rfl⟩
  | _ => exact ⟨Or.inl rfl, Or.inl rfl⟩

/-- A step changes nothing, or makes an assignment of a call of the thread's program. -/
private theorem tick_cases {q : Select} {programs : List (List SelectOp)}
    (hs : ∀ p ∈ programs, ∀ op ∈ p, IsSetting op) (schedule : List Nat) (i : Nat) :
    (settingThreads q programs (schedule ++ [i])).1 = (settingThreads q programs schedule).1 ∨
    ∃ program op w, programs[i]? = some program ∧ op ∈ program ∧ w ∈ callWrites op ∧
      (settingThreads q programs (schedule ++ [i])).1 = w.apply (settingThreads q programs schedule).1 := by
  obtain ⟨order, m⟩ := moment (cx := cx82) (S := sem cx82 0) (q := q) hs schedule
  rw [settingThreads_snoc]
  generalize settingThreads q programs schedule = w at m ⊢
  unfold settingTick
  cases hw : w.2[i]? with
  | none => exact Or.inl rfl
  | some s =>
    have hi := (List.getElem?_eq_some_iff.mp hw).1
    simp only
    cases s with
    | reads r => exact Or.inl rfl
    | calls writes todo =>
      cases writes with
      | nil => cases todo <;> exact Or.inl rfl
      | cons w' ws =>
        have hne : i ≠ programs.length := by
          rintro rfl
          obtain ⟨r, hr⟩ := m.reader
          rw [hw] at hr; cases hr
        have hlt : i < programs.length := by have := m.length; omega
        obtain ⟨writes, todo', h1, h2⟩ := m.threads i _ (List.getElem?_eq_getElem hlt)
        rw [hw] at h1; cases h1
        obtain ⟨op, pre, e, hc⟩ := h2.busy (by simp)
        exact Or.inr ⟨programs[i], op, w', List.getElem?_eq_getElem hlt, by rw [e]; simp, by rw [hc]; simp, rfl⟩

/-- C82: whatever the calls and the schedule, the limit of the query is at every moment the one it had at first or one
that some call says, and so is the offset. -/
theorem C82_values {q : Select} {programs : List (List SelectOp)} (schedule : List Nat)
    (hs : ∀ p ∈ programs, ∀ op ∈ p, IsSetting op) :
    ((settingThreads q programs schedule).1.limit.limit = q.limit.limit ∨
      ∃ p ∈ programs, ∃ op ∈ p, saysLimit op = some (settingThreads q programs schedule).1.limit.limit) ∧
    ((settingThreads q programs schedule).1.limit.offset = q.limit.offset ∨
      ∃ p ∈ programs, ∃ op ∈ p, saysOffset op = some (settingThreads q programs schedule).1.limit.offset) := by
  induction schedule using List.reverseRecOn with
  | nil => exact ⟨Or.inl rfl, Or.inl rfl⟩
  | append_singleton schedule i ih =>
    rcases tick_cases (q := q) hs schedule i with e | ⟨program, op, w, hp, hop, hw, e⟩
    · rw [e]; exact ih
    · rw [e]
      have ha := apply_limit (settingThreads q programs schedule).1 w
      have hm := List.mem_of_getElem? hp
      constructor
      · rcases ha.1 with h | h
        · rw [h]; exact ih.1
        · rw [h] at hw; exact Or.inr ⟨program, hm, op, hop, saysLimit_of_write hw⟩
      · rcases ha.2 with h | h
        · rw [h]; exact ih.2
        · rw [h] at hw; exact Or.inr ⟨program, hm, op, hop, saysOffset_of_write hw⟩

/-! ### One thread that sets the limit and the offset -/

private theorem apply_limit_congr {q q' : Select} (h : q.limit = q'.limit) (w : Write) :
    (w.apply q).limit = (w.apply q').limit := by
  cases w with
  | outfile f v => cases f <;> exact h
  | limit v => simp only [Write.apply]; rw [h]
  | offset v => simp only [Write.apply]; rw [h]
  | _ => exact h

private theorem applies_limit_congr (ws : List Write) : ∀ {q q' : Select}, q.limit = q'.limit →
    (ws.foldl Write.apply q).limit = (ws.foldl Write.apply q').limit := by
  induction ws with
  | nil => exact fun h => h
  | cons w ws ih => exact fun h => ih (apply_limit_congr h w)

private theorem quiet_limit {op : SelectOp} (h : saysLimit op = none ∧ saysOffset op = none) {w : Write}
    (hw : w ∈ callWrites op) (q : Select) : (w.apply q).limit = q.limit := by
  cases w with
  | limit v => rw [saysLimit_of_write hw] at h; cases h.1
  | offset v => rw [saysOffset_of_write hw] at h; cases h.2
  | outfile f v => cases f <;> rfl
  | _ => rfl

private theorem one_thread {q : Select} {programs : List (List SelectOp)} {i : Nat} {program : List SelectOp}
    (hs : ∀ p ∈ programs, ∀ op ∈ p, IsSetting op) (hi : programs[i]? = some program)
    (hothers : ∀ j p, j ≠ i → programs[j]? = some p → ∀ op ∈ p, saysLimit op = none ∧ saysOffset op = none)
    (schedule : List Nat) :
    ∃ made writes todo, (settingThreads q programs schedule).2[i]? = some (.calls writes todo) ∧
      program = made ++ todo ∧
      (writes.foldl Write.apply (settingThreads q programs schedule).1).limit =
        (runOps (selectStep cx S) q made).limit := by
  induction schedule using List.reverseRecOn with
  | nil =>
    refine ⟨[], [], program, ?_, rfl, rfl⟩
    have hl := (List.getElem?_eq_some_iff.mp hi).1
    show (programs.map (Setter.calls []) ++ [Setter.reads .isSet])[i]? = _
    rw [List.getElem?_append_left (by simpa using hl), List.getElem?_map, hi]; rfl
  | append_singleton schedule j ih =>
    obtain ⟨made, writes, todo, h1, h2, h3⟩ := ih
    by_cases hj : j = i
    · subst hj
      rw [settingThreads_snoc]
      generalize settingThreads q programs schedule = w at h1 h3 ⊢
      have hl := (List.getElem?_eq_some_iff.mp h1).1
      unfold settingTick
      rw [h1]
      simp only
      rw [List.getElem?_set_self hl]
      cases writes with
      | nil =>
        cases todo with
        | nil => exact ⟨made, [], [], rfl, h2, h3⟩
        | cons op todo =>
          refine ⟨made ++ [op], callWrites op, todo, rfl, by rw [h2]; simp, ?_⟩
          have hop := hs program (List.mem_of_getElem? hi) op (by rw [h2]; simp)
          rw [runOps_snoc, ← callWrites_apply hop]
          exact applies_limit_congr _ h3
      | cons w' ws => exact ⟨made, ws, todo, rfl, h2, h3⟩
    · refine ⟨made, writes, todo, ?_, h2, ?_⟩
      · rw [settingThreads_snoc]
        unfold settingTick
        split
        · exact h1
        · simp only
          rw [List.getElem?_set_ne hj]; exact h1
      · rw [← h3]
        refine applies_limit_congr _ ?_
        rcases tick_cases (q := q) hs schedule j with e | ⟨p, op, w, hp, hop, hw, e⟩
        · rw [e]
        · rw [e, quiet_limit (hothers j p hj hp op hop) hw]

/-- C82, when all calls that say something of the limit or of the offset are made by one thread: once it has made its
calls, whatever the others do meanwhile, the limit and the offset are what its calls leave. -/
theorem C82_one_thread_partial {q : Select} {programs : List (List SelectOp)} {i : Nat} {program : List SelectOp}
    (schedule : List Nat) (hs : ∀ p ∈ programs, ∀ op ∈ p, IsSetting op) (hi : programs[i]? = some program)
    (hothers : ∀ j p, j ≠ i → programs[j]? = some p → ∀ op ∈ p, saysLimit op = none ∧ saysOffset op = none)
    (hmade : AllMade (settingThreads q programs schedule) i) :
    (settingThreads q programs schedule).1.limit = (runOps (selectStep cx S) q program).limit := by
  obtain ⟨made, writes, todo, h1, h2, h3⟩ := one_thread (cx := cx) (S := S) (q := q) hs hi hothers schedule
  rw [AllMade, h1] at hmade
  cases hmade
  rw [h2, List.append_nil, ← h3]; rfl

/-- C82: a thread that has the query for itself leaves it as its calls do. -/
theorem C82_alone {q : Select} {program : List SelectOp} (schedule : List Nat) (hs : ∀ op ∈ program, IsSetting op)
    (hmade : AllMade (settingThreads q [program] schedule) 0) :
    (settingThreads q [program] schedule).1 = runOps (selectStep cx S) q program := by
  have hs' : ∀ p ∈ [program], ∀ op ∈ p, IsSetting op := fun p hp => List.mem_singleton.mp hp ▸ hs
  have hlimit := C82_one_thread_partial (cx := cx) (S := S) (q := q) (i := 0) schedule hs' rfl
    (by
      intro j p hj hp
      cases j with
      | zero => exact absurd rfl hj
      | succ j => simp at hp) hmade
  obtain ⟨order, ho, hrest⟩ := C82_rest_partial (cx := cx) (S := S) (q := q) schedule hs'
  have hall : order.map (·.2) = program := by
    rw [← (ho.2 0 program rfl).2 hmade]
    have : ∀ l : List (Nat × SelectOp), (∀ c ∈ l, c.1 < 1) → l.map (·.2) = callsBy 0 l := by
      intro l
      induction l with
      | nil => intro _; rfl
      | cons c l ih =>
        intro h
        have h0 : c.1 = 0 := by have := h c List.mem_cons_self; omega
        rw [List.map_cons, ih fun c hc => h c (List.mem_cons_of_mem _ hc)]
        simp [callsBy, h0]
    exact this order ho.1
  rw [hall] at hrest
  generalize (settingThreads q [program] schedule).1 = a at hlimit hrest
  generalize runOps (selectStep cx S) q program = b at hlimit hrest
  cases a; cases b
  simp only at hlimit
  subst hlimit
  simpa using hrest

/-- C82: calls do not wait for each other: wherever the threads are, enough steps of one of them end its calls. -/
theorem C82_ends {q : Select} {programs : List (List SelectOp)} (schedule : List Nat) {i : Nat}
    (hs : ∀ p ∈ programs, ∀ op ∈ p, IsSetting op) (hi : i < programs.length) :
    ∃ k, AllMade (settingThreads q programs (schedule ++ List.replicate k i)) i := by
  obtain ⟨order, m⟩ := moment (cx := cx82) (S := sem cx82 0) (q := q) hs schedule
  obtain ⟨writes, todo, h, -⟩ := m.threads i _ (List.getElem?_eq_getElem hi)
  have : ∀ k, settingThreads q programs (schedule ++ List.replicate k i) =
      runSettings (settingThreads q programs schedule) (List.replicate k i) := by
    intro k; simp [settingThreads, runSettings, List.foldl_append]
  simp only [this]
  generalize settingThreads q programs schedule = w at h
  clear m this
  induction todo generalizing writes w with
  | nil =>
    induction writes generalizing w with
    | nil => exact ⟨0, h⟩
    | cons a ws ih =>
      have hl := (List.getElem?_eq_some_iff.mp h).1
      obtain ⟨k, hk⟩ := ih (settingTick w i) (by
        unfold settingTick; rw [h]; simp only; rw [List.getElem?_set_self hl]; rfl)
      exact ⟨k + 1, hk⟩
  | cons op todo iht =>
    induction writes generalizing w with
    | nil =>
      have hl := (List.getElem?_eq_some_iff.mp h).1
      obtain ⟨k, hk⟩ := iht (callWrites op) (settingTick w i) (by
        unfold settingTick; rw [h]; simp only; rw [List.getElem?_set_self hl]; rfl)
      exact ⟨k + 1, hk⟩
    | cons a ws ih =>
      have hl := (List.getElem?_eq_some_iff.mp h).1
      obtain ⟨k, hk⟩ := ih (settingTick w i) (by
        unfold settingTick; rw [h]; simp only; rw [List.getElem?_set_self hl]; rfl)
      exact ⟨k + 1, hk⟩

/-! ### The clause written meanwhile -/

/-- C82 in full, for the text: a LIMIT clause that is written while threads make their calls is the clause of some
limit and some offset. -/
def C82_text_claim : Prop :=
  ∀ (q : Select) (programs : List (List SelectOp)) (schedule : List Nat) (text : Str),
    (∀ p ∈ programs, ∀ op ∈ p, IsSetting op) → ClauseWritten (settingThreads q programs schedule) text →
    ∃ l o, text = limitText ⟨l, o⟩

/-- The query with `limit(5)`. -/
private def five : Select := { limit := ⟨some 5, none⟩ }

/-- That is false: if another thread calls `limit(None)` meanwhile, the clause may be `LIMIT None`. -/
theorem C82_text_refuted : ¬ C82_text_claim := by
  intro h
  obtain ⟨l, o, e⟩ := h five [[.limit .none .none]] [1, 1, 0, 0, 1, 1] L!"LIMIT None"
    (by intro p hp op hop; cases List.mem_singleton.mp hp; cases List.mem_singleton.mp hop; trivial) rfl
  have num : ∀ (i : Int) (t : Str), intText i ++ t ≠ L!"None" :=
    fun i t h' => int_head h' (by decide)
  have strip : ∀ t : Str, L!"LIMIT None" = L!"LIMIT " ++ t → t = L!"None" := fun t e =>
    (List.append_cancel_left (as := L!"LIMIT ") (bs := L!"None") e).symm
  cases l with
  | none =>
    cases o with
    | none => cases e
    | some o => exact absurd (congrArg List.head? e) (by decide : some 'L' ≠ some 'O')
  | some l =>
    cases o with
    | none => exact num l [] (by rw [List.append_nil]; exact strip _ e)
    | some o =>
      refine num l (' ' :: L!"OFFSET " ++ intText o) (strip _ ?_)
      rw [e]; simp [limitText]

/-- The reading of the last thread. -/
private def Told (q : Select) (programs : List (List SelectOp)) (schedule : List Nat) : Reading → Prop
  | .isSet | .limit => True
  | .isSetOffset => ∃ s₁, s₁ <+: schedule ∧ (settingThreads q programs s₁).1.limit.limit = none
  | .limitText => ((settingThreads q programs schedule).1.limit.limit).isSome
  | .offset res => ∃ s₁, s₁ <+: schedule ∧ res = limitText ⟨(settingThreads q programs s₁).1.limit.limit, none⟩
  | .offsetText res => ((settingThreads q programs schedule).1.limit.offset).isSome ∧
      ∃ s₁, s₁ <+: schedule ∧ ∀ o, res ++ L!"OFFSET " ++ intText o =
        limitText ⟨(settingThreads q programs s₁).1.limit.limit, some o⟩
  | .wrote res => ∃ s₁ s₂, s₁ <+: schedule ∧ s₂ <+: schedule ∧
      res = limitText ⟨(settingThreads q programs s₁).1.limit.limit, (settingThreads q programs s₂).1.limit.offset⟩

private theorem told {q : Select} {programs : List (List SelectOp)}
    (hs : ∀ p ∈ programs, ∀ op ∈ p, IsSetting op) (hc : ∀ p ∈ programs, ∀ op ∈ p, ¬ Clears op)
    (schedule : List Nat) : ∃ r, (settingThreads q programs schedule).2[programs.length]? = some (.reads r) ∧
      Told q programs schedule r := by
  induction schedule using List.reverseRecOn with
  | nil =>
    refine ⟨.isSet, ?_, trivial⟩
    show (programs.map (Setter.calls []) ++ [Setter.reads .isSet])[programs.length]? = _
    rw [List.getElem?_append_right (by simp)]; simp
  | append_singleton schedule i ih =>
    obtain ⟨r, hr, ht⟩ := ih
    have pre : ∀ {s : List Nat}, s <+: schedule → s <+: schedule ++ [i] :=
      fun h => h.trans (List.prefix_append _ _)
    by_cases hi : i = programs.length
    · have hstep : settingThreads q programs (schedule ++ [i]) =
          ((settingThreads q programs schedule).1, (settingThreads q programs schedule).2.set i
            (.reads (r.step (settingThreads q programs schedule).1.limit))) := by
        rw [settingThreads_snoc]
        unfold settingTick
        rw [hi, hr]; rfl
      have hl := (List.getElem?_eq_some_iff.mp hr).1
      refine ⟨r.step (settingThreads q programs schedule).1.limit, ?_, ?_⟩
      · rw [hstep]; simp only; rw [hi, List.getElem?_set_self hl]
      · have same : (settingThreads q programs (schedule ++ [i])).1 = (settingThreads q programs schedule).1 := by
          rw [hstep]
        have here : schedule <+: schedule ++ [i] := List.prefix_append _ _
        cases r with
        | isSet =>
          simp only [Reading.step]
          split
          · trivial
          · rename_i h; exact ⟨schedule, here, by simpa using h⟩
        | isSetOffset =>
          obtain ⟨s₁, h1, h2⟩ := ht
          simp only [Reading.step]
          split
          · trivial
          · rename_i h
            refine ⟨s₁, schedule, pre h1, here, ?_⟩
            have h' : (settingThreads q programs schedule).1.limit.offset = none := by simpa using h
            rw [h2, h']; rfl
        | limit =>
          simp only [Reading.step]
          split
          · rename_i h; simp only [Told, same]; exact h
          · rename_i h
            refine ⟨schedule, here, ?_⟩
            have h' : (settingThreads q programs schedule).1.limit.limit = none := by simpa using h
            rw [h']; rfl
        | limitText =>
          refine ⟨schedule, here, ?_⟩
          obtain ⟨l, hl⟩ := Option.isSome_iff_exists.mp ht
          rw [hl]; rfl
        | offset res =>
          obtain ⟨s₁, h1, h2⟩ := ht
          simp only [Reading.step]
          split
          · rename_i h
            refine ⟨by rw [same]; exact h, s₁, pre h1, fun o => ?_⟩
            rw [h2]
            cases (settingThreads q programs s₁).1.limit.limit with
            | none => rfl
            | some l => simp [limitText]
          · rename_i h
            refine ⟨s₁, schedule, pre h1, here, ?_⟩
            have h' : (settingThreads q programs schedule).1.limit.offset = none := by simpa using h
            rw [h2, h']
        | offsetText res =>
          obtain ⟨h0, s₁, h1, h2⟩ := ht
          refine ⟨s₁, schedule, pre h1, here, ?_⟩
          obtain ⟨o, ho⟩ := Option.isSome_iff_exists.mp h0
          rw [ho, ← h2 o]; rfl
        | wrote res =>
          obtain ⟨s₁, s₂, h1, h2, h3⟩ := ht
          exact ⟨s₁, s₂, pre h1, pre h2, h3⟩
    · refine ⟨r, ?_, ?_⟩
      · rw [settingThreads_snoc]
        unfold settingTick
        split
        · exact hr
        · simp only
          rw [List.getElem?_set_ne hi]; exact hr
      · have keep : (((settingThreads q programs schedule).1.limit.limit).isSome →
              ((settingThreads q programs (schedule ++ [i])).1.limit.limit).isSome) ∧
            (((settingThreads q programs schedule).1.limit.offset).isSome →
              ((settingThreads q programs (schedule ++ [i])).1.limit.offset).isSome) := by
          rcases tick_cases (q := q) hs schedule i with e | ⟨program, op, w, hp, hop, hw, e⟩
          · rw [e]; exact ⟨fun h => h, fun h => h⟩
          · rw [e]
            have ha := apply_limit (settingThreads q programs schedule).1 w
            have hcl := hc program (List.mem_of_getElem? hp) op hop
            constructor
            · rcases ha.1 with h | h
              · rw [h]; exact fun h => h
              · rw [h] at hw
                intro _
                cases hv : (w.apply (settingThreads q programs schedule).1).limit.limit with
                | some _ => rfl
                | none => exact absurd (Or.inl (hv ▸ saysLimit_of_write hw)) hcl
            · rcases ha.2 with h | h
              · rw [h]; exact fun h => h
              · rw [h] at hw
                intro _
                cases hv : (w.apply (settingThreads q programs schedule).1).limit.offset with
                | some _ => rfl
                | none => exact absurd (Or.inr (hv ▸ saysOffset_of_write hw)) hcl
        cases r with
        | isSet => trivial
        | limit => trivial
        | isSetOffset => obtain ⟨s₁, h1, h2⟩ := ht; exact ⟨s₁, pre h1, h2⟩
        | limitText => exact keep.1 ht
        | offset res => obtain ⟨s₁, h1, h2⟩ := ht; exact ⟨s₁, pre h1, h2⟩
        | offsetText res => obtain ⟨h0, s₁, h1, h2⟩ := ht; exact ⟨keep.2 h0, s₁, pre h1, h2⟩
        | wrote res => obtain ⟨s₁, s₂, h1, h2, h3⟩ := ht; exact ⟨s₁, s₂, pre h1, pre h2, h3⟩

/-- C82, for the text, when no call clears the limit or the offset: the clause is that of the limit that the query had at
some moment and of the offset that it had at some moment. -/
theorem C82_text_partial {q : Select} {programs : List (List SelectOp)} {schedule : List Nat} {text : Str}
    (hs : ∀ p ∈ programs, ∀ op ∈ p, IsSetting op) (hc : ∀ p ∈ programs, ∀ op ∈ p, ¬ Clears op)
    (hw : ClauseWritten (settingThreads q programs schedule) text) :
    ∃ s₁ s₂, s₁ <+: schedule ∧ s₂ <+: schedule ∧ text = limitText
      ⟨(settingThreads q programs s₁).1.limit.limit, (settingThreads q programs s₂).1.limit.offset⟩ := by
  obtain ⟨r, hr, ht⟩ := told (q := q) hs hc schedule
  obtain ⟨_, m⟩ := moment (cx := cx82) (S := sem cx82 0) (q := q) hs schedule
  rw [ClauseWritten, List.getLast?_eq_getElem?, m.length, Nat.add_sub_cancel, hr] at hw
  cases hw
  exact ht

/-- C82: a thread that nobody disturbs writes the clause of the limit and the offset that the query has. -/
theorem C82_text_alone (q : Select) (programs : List (List SelectOp)) :
    ∃ k, ClauseWritten (settingThreads q programs (List.replicate k programs.length)) (limitText q.limit) := by
  have run : ∀ (k : Nat) (r : Reading),
      runSettings (q, programs.map (Setter.calls []) ++ [.reads r]) (List.replicate k programs.length) =
        (q, programs.map (Setter.calls []) ++ [.reads ((Reading.step q.limit)^[k] r)]) := by
    intro k
    induction k with
    | zero => intro r; rfl
    | succ k ih =>
      intro r
      have one : settingTick (q, programs.map (Setter.calls []) ++ [.reads r]) programs.length =
          (q, programs.map (Setter.calls []) ++ [.reads (r.step q.limit)]) := by
        unfold settingTick
        simp only
        rw [List.getElem?_append_right (by simp)]
        simp [settingStep, List.set_append_right]
      show runSettings (settingTick _ programs.length) (List.replicate k programs.length) = _
      rw [one, ih]; rfl
  refine ⟨6, ?_⟩
  unfold ClauseWritten settingThreads
  rw [run]
  simp only [List.getLast?_append, List.getLast?_singleton, Option.some_or]
  generalize q.limit = l
  obtain ⟨l, o⟩ := l
  cases l <;> cases o <;> simp [Reading.step, Function.iterate_succ, limitText, attributeText]

/-! ### Cases -/

/-- One thread calls `limit(10)` and `distinct()`, another `offset(20)`, `limit('x')`, which raises, and
`for_update()`. -/
private def apart : List (List SelectOp) :=
  [[.limit (.int 10) .none, .option .distinct (.bool true)],
    [.offset (.int 20), .limit (.str L!"x") .none, .forUpdate (.bool true)]]

private theorem apart_calls : ∀ p ∈ apart, ∀ op ∈ p, IsSetting op ∧ ¬ BothAtOnce op ∧ ¬ Clears op := by
  intro p hp op hop
  simp only [apart, List.mem_cons, List.not_mem_nil, or_false] at hp
  rcases hp with rfl | rfl <;> simp only [List.mem_cons, List.not_mem_nil, or_false] at hop
  · rcases hop with rfl | rfl <;> exact ⟨trivial, by simp [BothAtOnce, saysLimit, saysOffset],
      by simp [Clears, saysLimit, saysOffset]⟩
  · rcases hop with rfl | rfl | rfl <;> exact ⟨trivial, by simp [BothAtOnce, saysLimit, saysOffset],
      by simp [Clears, saysLimit, saysOffset, offsetOf]⟩

/-- `C82_partial`: in the middle of it, the query is as calls in some order leave it. -/
example : ∃ order, OrderOfCalls apart (settingThreads {} apart [0, 1, 1, 0, 1, 0, 1]) order ∧
    (settingThreads {} apart [0, 1, 1, 0, 1, 0, 1]).1 =
      runOps (selectStep cx82 (sem cx82 1)) {} (order.map (·.2)) :=
  C82_partial _ (fun p hp op hop => (apart_calls p hp op hop).1) (fun p hp op hop => (apart_calls p hp op hop).2.1)

/-- At the end both have made their calls, and the settings are all there. -/
example : AllMade (settingThreads {} apart [0, 1, 1, 0, 1, 0, 1, 1, 0]) 0 ∧
    AllMade (settingThreads {} apart [0, 1, 1, 0, 1, 0, 1, 1, 0]) 1 ∧
    (settingThreads {} apart [0, 1, 1, 0, 1, 0, 1, 1, 0]).1.limit = ⟨some 10, some 20⟩ ∧
    (settingThreads {} apart [0, 1, 1, 0, 1, 0, 1, 1, 0]).1.forUpdate = true ∧
    (settingThreads {} apart [0, 1, 1, 0, 1, 0, 1, 1, 0]).1.opts.isOn .distinct = true :=
  ⟨rfl, rfl, rfl, rfl, rfl⟩

/-- `C82_text_partial`: the offset came while the clause was being written. -/
example : ClauseWritten (settingThreads {} apart [0, 0, 2, 2, 2, 1, 1, 2, 2]) L!"LIMIT 10 OFFSET 20" ∧
    ClauseWritten (settingThreads {} apart [0, 0, 2, 2, 2, 2, 1, 1]) L!"LIMIT 10" :=
  ⟨rfl, rfl⟩

/-- One thread calls `limit(10, 20)` and `limit(None)`, another `distinct()`. -/
private def oneSets : List (List SelectOp) :=
  [[.limit (.int 10) (.int 20), .limit .none .none], [.option .distinct (.bool true)]]

/-- `C82_one_thread_partial`. -/
example : (settingThreads {} oneSets [0, 0, 1, 0, 0, 1, 0, 0]).1.limit =
    (runOps (selectStep cx82 (sem cx82 1)) {} [.limit (.int 10) (.int 20), .limit .none .none]).limit := by
  refine C82_one_thread_partial (i := 0) _ ?_ rfl ?_ rfl
  · intro p hp op hop
    simp only [oneSets, List.mem_cons, List.not_mem_nil, or_false] at hp
    rcases hp with rfl | rfl <;> simp only [List.mem_cons, List.not_mem_nil, or_false] at hop
    · rcases hop with rfl | rfl <;> trivial
    · cases hop; trivial
  · intro j p hj hp op hop
    match j, hp with
    | 0, _ => exact absurd rfl hj
    | 1, hp => cases hp; cases List.mem_singleton.mp hop; exact ⟨rfl, rfl⟩

/-- `C82_values`: in the middle of `limit(None)` the limit is the one it says and the offset the one said before. -/
example : (settingThreads {} oneSets [0, 0, 0, 0, 0]).1.limit = ⟨none, some 20⟩ := rfl

end SqlPuzzle
