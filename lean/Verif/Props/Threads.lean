import Verif.Proofs.Threads
import Verif.Proofs.Accumulate
import Verif.Spec.Threads

/-!
C58: Calls by several threads.

Each of the threads makes one call.  A thread that makes several calls is the same as several threads of which
the schedule takes one after the other, so the theorems, which are about all schedules, cover it.
-/

namespace SqlPuzzle

open Spec

variable (cx : Ctx) (n : Nat)

/-- The conditions `ps` of a query on which several threads call `where` (or `having`), after the steps of the
schedule. -/
def whereThreads (ps : List Cond) (calls : List Args) (schedule : List Nat) : World Cond :=
  runThreads (condEq cx (sem cx n)) (ps, calls.map (startWhere (sem cx n) false)) schedule

/-- The same for `columns`. -/
def columnsThreads (cs : List Column) (calls : List Args) (schedule : List Nat) : World Column :=
  runThreads (columnEq (sem cx n)) (cs, calls.map (startColumns (sem cx n))) schedule

/-- The same for `set`. -/
def setThreads (vs : List Value) (calls : List Args) (schedule : List Nat) : World Value :=
  runThreads (valueEq cx (sem cx n)) (vs, calls.map (startSet (sem cx n))) schedule

/-- The same for `from_`. -/
def fromThreads (ts : List Table) (calls : List Args) (schedule : List Nat) : World Table :=
  runThreads (tableEq cx (sem cx n)) (ts, calls.map (startFrom (sem cx n))) schedule

/-! ### Helpers -/

private theorem mine_numbered {α : Type} (tags : List (Nat × α)) (i : Nat) :
    minePart tags i = numbered i tags := by
  unfold minePart numbered
  induction tags with
  | nil => rfl
  | cons t tags ih =>
    rw [List.filter_cons, List.filterMap_cons]
    by_cases h : t.1 = i
    · simp [h, ih]
    · simp [h, ih]

private theorem startWhere_start (S : Sem) (on : Bool) (a : Args) : (startWhere S on a).Start := by
  unfold startWhere
  split
  · trivial
  · split
    · trivial
    · split
      · trivial
      · unfold startLoop
        split <;> trivial

private theorem startColumns_start (S : Sem) (a : Args) : (startColumns S a).Start := by
  unfold startColumns
  split
  · trivial
  · unfold startLoop
    split <;> trivial

private theorem startSet_start (S : Sem) (a : Args) : (startSet S a).Start := by
  unfold startSet
  split
  · trivial
  · split
    · trivial
    · unfold startLoop
      split <;> trivial

private theorem forall2_at {β γ : Type} {r : β → γ → Prop} {xs : List β} {ys : List γ}
    (h : List.Forall₂ r xs ys) {i : Nat} {x : β} {y : γ} (hx : xs[i]? = some x) (hy : ys[i]? = some y) :
    r x y := by
  obtain ⟨hi, rfl⟩ := List.getElem?_eq_some_iff.mp hx
  obtain ⟨hj, rfl⟩ := List.getElem?_eq_some_iff.mp hy
  exact (List.forall₂_iff_get.mp h).2 i hi hj

/-- What a call gives, and what it will make. -/
private def Makes {α : Type} (todo : List (R α)) (cs : List α) : Prop :=
  List.Forall₂ (fun r c => ∀ c', r = .ok c' → c' = c) todo cs

private theorem makes_past {α : Type} {past : List α} {rest : List (R α)} {cs : List α}
    (h : Makes (past.map .ok ++ rest) cs) : past <+: cs ∧ (rest = [] → past = cs) := by
  induction past generalizing cs with
  | nil =>
    refine ⟨List.nil_prefix, ?_⟩
    rintro rfl
    cases h
    rfl
  | cons x xs ih =>
    cases h with
    | cons h1 h2 =>
      obtain ⟨h3, h4⟩ := ih h2
      have := h1 x rfl
      subst this
      exact ⟨List.cons_prefix_cons.mpr ⟨rfl, h3⟩, fun h => by rw [h4 h]⟩

private theorem where_makes {S : Sem} {a : Args} {cs : List Cond} (h : GivesConds a cs) :
    Makes (startWhere S false a).todo cs := by
  cases h with
  | @pairs a ps h1 h2 =>
    obtain ⟨h3, h4⟩ := givesPairs_parse h1 S
    unfold startWhere
    rw [h4, givesPairs_custom h1, notAll_of h2, h3]
    simp only [Bool.false_eq_true, if_false, startLoop, Phase.todo, rows2, Makes, List.map_map]
    rw [List.forall₂_map_left_iff, List.forall₂_map_right_iff]
    exact List.forall₂_same.mpr fun p _ c hc => mkCond_condOf hc
  | alone o ho =>
    have : startWhere S false { pos := [o] } = .add (.item o) [] := by
      simp [startWhere, kwSelf, customArg, ho]
    rw [this]
    exact .cons (fun c hc => by cases hc; rfl) .nil
  | @together xs hl hx =>
    have : startWhere S false { pos := xs } = .next (xs.map fun o => .ok (.item o)) := by
      have h1 : customArg { pos := xs } = none := by
        match xs, hl with
        | a :: b :: xs, _ => rfl
      have h2 : (!xs.isEmpty && xs.all Obj.isConds) = true := by
        match xs, hl with
        | a :: b :: ys, _ =>
          simp only [List.isEmpty_cons, Bool.not_false, Bool.true_and, List.all_eq_true]
          exact fun x h => isConds_iff.mpr (hx x h)
      simp only [startWhere, kwSelf, h1, h2]
      rfl
    rw [this]
    simp only [Phase.todo, Makes]
    rw [List.forall₂_map_left_iff, List.forall₂_map_right_iff]
    exact List.forall₂_same.mpr fun p _ c hc => by cases hc; rfl

private theorem where_loop {S : Sem} {a : Args} (h : LooksFirst a) : (startWhere S false a).Loop := by
  unfold startWhere
  split
  · trivial
  · split
    · rename_i o ho
      unfold customArg at ho
      split at ho
      · rename_i x h1 h2
        have ha : a = { pos := [x] } := by cases a; simp_all
        rw [h x ha] at ho
        cases ho
      · cases ho
    · split
      · trivial
      · unfold startLoop
        split <;> trivial

private theorem columns_makes {S : Sem} {a : Args} {ps : List (Obj × Obj)} (h : GivesNames a ps) :
    Makes (startColumns S a).todo (ps.map fun p => (⟨p.1, p.2⟩ : Column)) := by
  obtain ⟨h3, h4⟩ := givesNames_parse h S
  unfold startColumns
  rw [h4, h3]
  simp only [Bool.false_eq_true, if_false, startLoop, Phase.todo, rows2, Makes, List.map_map]
  rw [List.forall₂_map_left_iff, List.forall₂_map_right_iff]
  refine List.forall₂_same.mpr fun p _ c hc => ?_
  simp only [Function.comp, mkColumn] at hc
  obtain ⟨_, _, hc⟩ := bind_ok.mp hc
  obtain ⟨_, _, hc⟩ := bind_ok.mp hc
  cases hc
  rfl

private theorem columns_loop {S : Sem} {a : Args} : (startColumns S a).Loop := by
  unfold startColumns
  split
  · trivial
  · unfold startLoop
    split <;> trivial

private theorem set_makes {S : Sem} {a : Args} {ps : List (Obj × Obj)} (h : GivesPairs a ps) :
    Makes (startSet S a).todo (ps.map fun p => (.value p.1 p.2 : Value)) := by
  obtain ⟨h3, h4⟩ := givesPairs_parse h S
  unfold startSet
  rw [h4, givesPairs_custom h, h3]
  simp only [Bool.false_eq_true, if_false, startLoop, Phase.todo, rows2, Makes, List.map_map]
  rw [List.forall₂_map_left_iff, List.forall₂_map_right_iff]
  refine List.forall₂_same.mpr fun p _ c hc => ?_
  simp only [Function.comp, mkValue] at hc
  obtain ⟨_, _, hc⟩ := bind_ok.mp hc
  obtain ⟨_, _, hc⟩ := bind_ok.mp hc
  cases hc
  rfl

private theorem set_loop {S : Sem} {a : Args} {ps : List (Obj × Obj)} (h : GivesPairs a ps) :
    (startSet S a).Loop := by
  unfold startSet
  rw [givesPairs_custom h]
  split
  · trivial
  · unfold startLoop
    simp only
    split <;> trivial

private theorem startFrom_start (S : Sem) (a : Args) : (startFrom S a).Start := by
  unfold startFrom
  split
  · trivial
  · unfold startLoop
    split <;> trivial

private theorem from_loop {S : Sem} {a : Args} : (startFrom S a).Loop := by
  unfold startFrom
  split
  · trivial
  · unfold startLoop
    split <;> trivial

private theorem from_makes {S : Sem} {a : Args} {ps : List (Obj × Obj)} (h : GivesNames a ps)
    (hd : a.pos ≠ [.dict []]) (hp : ∀ p ∈ ps, ExactTable p) :
    Makes (startFrom S a).todo (ps.map fun p => (⟨p.1, p.2, []⟩ : Table)) := by
  obtain ⟨h3, h4⟩ := givesNames_parse h S
  unfold startFrom
  rw [h4, tables_filter h hd hp, h3]
  simp only [Bool.false_eq_true, if_false, startLoop, Phase.todo, rows2, Makes, List.map_map]
  rw [List.forall₂_map_left_iff, List.forall₂_map_right_iff]
  refine List.forall₂_same.mpr fun p hm c hc => ?_
  have := (exactTable_mk (hp p hm)).1
  simp only [Function.comp, pairOf] at hc
  rw [this] at hc
  cases hc
  rfl

/-- The facts about a world, for any kind of parts. -/
private theorem threads_core {α : Type} {eq : α → α → R Bool} {ps : List α} {calls : List Args}
    {start : Args → Phase α} (hs : ∀ a, (start a).Start) (schedule : List Nat) :
    ∃ added : List (Nat × α),
      (runThreads eq (ps, calls.map start) schedule).1 = ps ++ added.map Prod.snd ∧
      (∀ t ∈ added, t.1 < calls.length) ∧
      ∀ i a, calls[i]? = some a → ∃ ph,
        (runThreads eq (ps, calls.map start) schedule).2[i]? = some ph ∧
        (∀ cs, Makes (start a).todo cs → (numbered i added).Sublist cs ∧
          (ph = .done → ∀ c ∈ cs, ∃ d ∈ (runThreads eq (ps, calls.map start) schedule).1,
            d = c ∨ eq d c = .ok true)) ∧
        ((start a).Loop → (numbered i added).Pairwise (fun c d => eq c d = .ok false) ∧
          ∀ c ∈ ps, ∀ d ∈ numbered i added, eq c d = .ok false) := by
  obtain ⟨tags, h1, h2, h3, h4⟩ := inv_run (eq := eq) (w0 := (ps, calls.map start))
    (inv_start fun ph hp => by
      obtain ⟨a, _, rfl⟩ := List.mem_map.mp hp
      exact hs a) schedule
  refine ⟨tags, h1, fun t ht => by simpa using h2 t ht, fun i a hi => ?_⟩
  obtain ⟨ph, hph, ht⟩ := h4 i (start a) (by simp [hi])
  rw [mine_numbered] at ht
  refine ⟨ph, hph, fun cs hm => ?_, ht.uniq⟩
  obtain ⟨past, rest, p1, p2, p3, p4⟩ := ht.past
  rw [p1] at hm
  obtain ⟨m1, m2⟩ := makes_past hm
  refine ⟨p2.trans m1.sublist, ?_⟩
  rintro rfl c hc
  rw [← m2 (p4 (by simp))] at hc
  exact p3 c hc

/-! ### WHERE and HAVING -/

/-- C58. Several threads call `where` on one query.  After the steps of any schedule, also when some of the
calls have not ended, or have raised, the clause consists of the conditions that were there, unmoved, and then
of conditions that the calls give; those of one call are in the order in which it gives them, none of them
twice or equal to a condition that was there before. -/
theorem C58_where_partial (ps : List Cond) (calls : List Args) (given : List (List Cond))
    (hg : List.Forall₂ GivesConds calls given) (schedule : List Nat) :
    ∃ added : List (Nat × Cond),
      (whereThreads cx n ps calls schedule).1 = ps ++ added.map Prod.snd ∧
      (∀ t ∈ added, t.1 < calls.length) ∧
      ∀ i a cs, calls[i]? = some a → given[i]? = some cs →
        (numbered i added).Sublist cs ∧
        (LooksFirst a →
          (numbered i added).Pairwise (fun c d => (sem cx (n + 1)).eq (.conds [c]) (.conds [d]) = .ok false) ∧
          ∀ c ∈ ps, ∀ d ∈ numbered i added,
            (sem cx (n + 1)).eq (.conds [c]) (.conds [d]) = .ok false) := by
  obtain ⟨added, h1, h2, h3⟩ := threads_core (eq := condEq cx (sem cx n)) (ps := ps) (calls := calls)
    (startWhere_start (sem cx n) false) schedule
  refine ⟨added, h1, h2, fun i a cs ha hc => ?_⟩
  obtain ⟨ph, _, h4, h5⟩ := h3 i a ha
  simp only [eq_single]
  refine ⟨(h4 cs (where_makes ?_)).1, fun hl => h5 (where_loop hl)⟩
  exact forall2_at hg ha hc

/-- C58. When a call has ended without an error, every condition it gives is in the clause, by itself or by one
that is `==` to it, whatever the other threads do meanwhile or later. -/
theorem C58_represented (ps : List Cond) (calls : List Args) (i : Nat) (a : Args) (cs : List Cond)
    (ha : calls[i]? = some a) (hg : GivesConds a cs) (schedule : List Nat)
    (hd : (whereThreads cx n ps calls schedule).2[i]? = some .done) (c : Cond) (hc : c ∈ cs) :
    ∃ d ∈ (whereThreads cx n ps calls schedule).1, d = c ∨
      (sem cx (n + 1)).eq (.conds [d]) (.conds [c]) = .ok true := by
  obtain ⟨_, _, _, h3⟩ := threads_core (eq := condEq cx (sem cx n)) (ps := ps) (calls := calls)
    (startWhere_start (sem cx n) false) schedule
  obtain ⟨ph, hp, h4, _⟩ := h3 i a ha
  have : ph = .done := Option.some.inj (hp.symm.trans hd)
  obtain ⟨d, h5, h6⟩ := (h4 cs (where_makes hg)).2 this c hc
  exact ⟨d, h5, by rwa [eq_single]⟩

/-- C58. Conditions are only ever appended: what is in the clause at some moment is there at every later
moment, in the same place. -/
theorem C58_grows (ps : List Cond) (calls : List Args) (now later : List Nat) :
    (whereThreads cx n ps calls now).1 <+: (whereThreads cx n ps calls (now ++ later)).1 := by
  unfold whereThreads
  rw [show runThreads (condEq cx (sem cx n)) (ps, calls.map (startWhere (sem cx n) false)) (now ++ later) =
    runThreads (condEq cx (sem cx n)) (runThreads (condEq cx (sem cx n))
      (ps, calls.map (startWhere (sem cx n) false)) now) later from List.foldl_append]
  exact run_grows _ _

/-- The number of conditions that calls give, at most. -/
private theorem where_capacity {S : Sem} {calls : List Args} {given : List (List Cond)}
    (hg : List.Forall₂ GivesConds calls given) :
    ((calls.map (startWhere S false)).map fun ph => ph.todo.length).sum = given.flatten.length := by
  induction hg with
  | nil => rfl
  | cons h _ ih =>
    simp only [List.map_cons, List.sum_cons, ih, List.flatten_cons, List.length_append]
    rw [(where_makes (S := S) h).length_eq]

/-- C58. No call waits for another: with `m` conditions there and given, a call has ended after
`(m + 1) * (m + 4)` steps of its own, whatever the other threads do. -/
theorem C58_ends (ps : List Cond) (calls : List Args) (given : List (List Cond))
    (hg : List.Forall₂ GivesConds calls given) (m : Nat) (hm : m = ps.length + given.flatten.length)
    (i : Nat) (hi : i < calls.length) (schedule : List Nat) (hs : (m + 1) * (m + 4) ≤ schedule.count i) :
    (whereThreads cx n ps calls schedule).2[i]? = some .done ∨
      ∃ e, (whereThreads cx n ps calls schedule).2[i]? = some (.raised e) := by
  have hc : capacity (ps, calls.map (startWhere (sem cx n) false)) = m := by
    unfold capacity
    rw [hm, ← where_capacity (S := sem cx n) hg]
  obtain ⟨ph, h1, h2⟩ := run_ends (eq := condEq cx (sem cx n))
    (w := (ps, calls.map (startWhere (sem cx n) false)))
    (fun ph hp => by
      obtain ⟨a, _, rfl⟩ := List.mem_map.mp hp
      exact startWhere_start _ _ a) (i := i) (by simpa using hi) (s := schedule) (by rw [hc]; exact hs)
  cases ph with
  | done => exact .inl h1
  | raised e => exact .inr ⟨e, h1⟩
  | next _ => exact h2.elim
  | scan _ _ _ => exact h2.elim
  | add _ _ => exact h2.elim

/-- The phase of a call that has ended. -/
private theorem where_alone (S : Sem) (ps : List Cond) (a : Args) :
    Alone (condEq cx S) (ps, startWhere S false a)
      ((condsWhere cx S false ps a).1, endedWith (condsWhere cx S false ps a).2) := by
  unfold startWhere condsWhere
  split
  · exact .refl _
  · cases customArg a with
    | some o => exact .step (.step (.refl _))
    | none =>
      simp only
      split
      · have := loop_alone (eq := condEq cx S) (fun o : Obj => (.ok (.item o) : R Cond)) ps a.pos
        simpa only [withR] using this
      · unfold startLoop
        cases parseArgs S pairOpts a with
        | error e => exact .refl _
        | ok bs => exact loop_alone _ ps bs

/-- C58. A thread that is not interrupted does what the call does: the same conditions, and the same error or
none. -/
theorem C58_alone (q : Select) (a : Args) : ∃ steps,
    whereThreads cx n q.where_ [a] (List.replicate steps 0) =
      ((selectStep cx (sem cx n) q (.where_ a)).1.where_,
        [match (selectStep cx (sem cx n) q (.where_ a)).2 with
          | none => .done
          | some e => .raised e]) := by
  obtain ⟨k, hk⟩ := where_alone cx (sem cx n) q.where_ a
  refine ⟨k, ?_⟩
  unfold whereThreads
  rw [List.map_singleton, hk]
  simp only [selectStep, Upd.map]
  rfl

/-! ### Columns and assignments -/

private theorem exact_threads {α : Type} {eq : α → α → R Bool} {P : α → Prop}
    (he : ∀ a b, P a → P b → ∃ r, eq a b = .ok r ∧ (r = true ↔ a = b)) {ps : List α} (hps : ∀ c ∈ ps, P c)
    {calls : List Args} {start : Args → Phase α} (hs : ∀ a, (start a).Start) {given : List (List α)}
    (hg : List.Forall₂ (fun a cs => Makes (start a).todo cs ∧ (start a).Loop) calls given)
    (hx : ∀ cs ∈ given, ∀ c ∈ cs, P c) (schedule : List Nat) :
    ∃ added : List (Nat × α),
      (runThreads eq (ps, calls.map start) schedule).1 = ps ++ added.map Prod.snd ∧
      (∀ t ∈ added, t.1 < calls.length) ∧
      ∀ i cs, given[i]? = some cs →
        (numbered i added).Sublist cs ∧ (numbered i added).Nodup ∧ (∀ c ∈ ps, c ∉ numbered i added) ∧
        ((runThreads eq (ps, calls.map start) schedule).2[i]? = some .done →
          ∀ c ∈ cs, c ∈ (runThreads eq (ps, calls.map start) schedule).1) := by
  obtain ⟨added, h1, h2, h3⟩ := threads_core (eq := eq) (ps := ps) (calls := calls) hs schedule
  have hat : ∀ {i : Nat}, i < calls.length → ∃ a cs, calls[i]? = some a ∧ given[i]? = some cs := by
    intro i hi
    exact ⟨_, _, List.getElem?_eq_getElem hi, List.getElem?_eq_getElem (hg.length_eq ▸ hi)⟩
  have hmem : ∀ c ∈ (runThreads eq (ps, calls.map start) schedule).1, P c := by
    intro c hc
    rw [h1] at hc
    rcases List.mem_append.mp hc with hc | hc
    · exact hps c hc
    · obtain ⟨⟨i, _⟩, ht, rfl⟩ := List.mem_map.mp hc
      obtain ⟨a, cs, ha, hcs⟩ := hat (h2 _ ht)
      obtain ⟨ph, _, h4, _⟩ := h3 i a ha
      refine hx cs (List.mem_of_getElem? hcs) _ (((h4 cs (forall2_at hg ha hcs).1).1).subset ?_)
      unfold numbered
      exact List.mem_filterMap.mpr ⟨_, ht, by simp⟩
  have hne : ∀ {c d : α}, P c → P d → eq c d = .ok false → c ≠ d := by
    intro c d hc hd h
    obtain ⟨r, e1, e2⟩ := he c d hc hd
    rw [e1] at h
    cases h
    exact fun h => absurd (e2.mpr h) (by simp)
  refine ⟨added, h1, h2, fun i cs hcs => ?_⟩
  have hi : i < calls.length := by
    rw [hg.length_eq]
    exact (List.getElem?_eq_some_iff.mp hcs).1
  have ha := List.getElem?_eq_getElem hi
  obtain ⟨m1, m2⟩ := forall2_at hg ha hcs
  obtain ⟨ph, hp, h4, h5⟩ := h3 i _ ha
  obtain ⟨h6, h7⟩ := h4 cs m1
  obtain ⟨h8, h9⟩ := h5 m2
  have hP := hx cs (List.mem_of_getElem? hcs)
  refine ⟨h6, ?_, ?_, ?_⟩
  · refine h8.imp_of_mem fun hc hd h => hne (hP _ (h6.subset hc)) (hP _ (h6.subset hd)) h
  · intro c hc hm
    exact hne (hps c hc) (hP c (h6.subset hm)) (h9 c hc c hm) rfl
  · intro hd c hc
    have : ph = .done := Option.some.inj (hp.symm.trans hd)
    obtain ⟨d, hd1, rfl | hd2⟩ := h7 this c hc
    · exact hd1
    · obtain ⟨r, e1, e2⟩ := he d c (hmem d hd1) (hP c hc)
      rw [e1] at hd2
      cases hd2
      rwa [← e2.mp rfl]

/-- C58 for columns given as strings or numbers, with or without an alias: the columns that were there,
unmoved, then columns that the calls give, those of one call in order, each once and none that was there
before; and when a call has ended all its columns are there. -/
theorem C58_columns (cols : List Column) (hcols : ∀ c ∈ cols, ExactColumn (c.name, c.alias))
    (calls : List Args) (given : List (List (Obj × Obj))) (hg : List.Forall₂ GivesNames calls given)
    (hx : ∀ ps ∈ given, ∀ p ∈ ps, ExactColumn p) (schedule : List Nat) :
    ∃ added : List (Nat × Column),
      (columnsThreads cx (n + 1) cols calls schedule).1 = cols ++ added.map Prod.snd ∧
      (∀ t ∈ added, t.1 < calls.length) ∧
      ∀ i ps, given[i]? = some ps →
        (numbered i added).Sublist (ps.map fun p => ⟨p.1, p.2⟩) ∧
        (numbered i added).Nodup ∧ (∀ c ∈ cols, c ∉ numbered i added) ∧
        ((columnsThreads cx (n + 1) cols calls schedule).2[i]? = some .done →
          ∀ p ∈ ps, ⟨p.1, p.2⟩ ∈ (columnsThreads cx (n + 1) cols calls schedule).1) := by
  obtain ⟨added, h1, h2, h3⟩ := exact_threads (eq := columnEq (sem cx (n + 1))) (P := PlainColumn)
    (fun a b ha hb => columnEq_plain cx n ha hb) (fun c hc => (exactColumn_mk (hcols c hc)).2)
    (startColumns_start (sem cx (n + 1)))
    (given := given.map fun ps => ps.map fun p => (⟨p.1, p.2⟩ : Column))
    (List.forall₂_map_right_iff.mpr (hg.imp fun a ps h => ⟨columns_makes h, columns_loop⟩))
    (by
      intro cs hcs c hc
      obtain ⟨ps, hps, rfl⟩ := List.mem_map.mp hcs
      obtain ⟨p, hp, rfl⟩ := List.mem_map.mp hc
      exact (exactColumn_mk (hx ps hps p hp)).2) schedule
  refine ⟨added, h1, h2, fun i ps hps => ?_⟩
  obtain ⟨h4, h5, h6, h7⟩ := h3 i (ps.map fun p => ⟨p.1, p.2⟩) (by simp [hps])
  exact ⟨h4, h5, h6, fun hd p hp => h7 hd _ (List.mem_map.mpr ⟨p, hp, rfl⟩)⟩

/-- C58 for assignments of an UPDATE, likewise. -/
theorem C58_set (sets : List (Obj × Obj)) (hsets : ∀ p ∈ sets, ExactAssignment p)
    (calls : List Args) (given : List (List (Obj × Obj))) (hg : List.Forall₂ GivesPairs calls given)
    (hx : ∀ ps ∈ given, ∀ p ∈ ps, ExactAssignment p) (schedule : List Nat) :
    ∃ added : List (Nat × Value),
      (setThreads cx (n + 1) (sets.map fun p => .value p.1 p.2) calls schedule).1 =
        (sets.map fun p => .value p.1 p.2) ++ added.map Prod.snd ∧
      (∀ t ∈ added, t.1 < calls.length) ∧
      ∀ i ps, given[i]? = some ps →
        (numbered i added).Sublist (ps.map fun p => .value p.1 p.2) ∧
        (numbered i added).Nodup ∧ (∀ p ∈ sets, .value p.1 p.2 ∉ numbered i added) ∧
        ((setThreads cx (n + 1) (sets.map fun p => .value p.1 p.2) calls schedule).2[i]? = some .done →
          ∀ p ∈ ps, .value p.1 p.2 ∈
            (setThreads cx (n + 1) (sets.map fun p => .value p.1 p.2) calls schedule).1) := by
  obtain ⟨added, h1, h2, h3⟩ := exact_threads (eq := valueEq cx (sem cx (n + 1))) (P := PlainValue)
    (fun a b ha hb => valueEq_plain cx n ha hb) (ps := sets.map fun p => .value p.1 p.2)
    (by
      intro c hc
      obtain ⟨p, hp, rfl⟩ := List.mem_map.mp hc
      exact (exactAssignment_mk (hsets p hp)).2)
    (startSet_start (sem cx (n + 1)))
    (given := given.map fun ps => ps.map fun p => (.value p.1 p.2 : Value))
    (List.forall₂_map_right_iff.mpr (hg.imp fun a ps h => ⟨set_makes h, set_loop h⟩))
    (by
      intro cs hcs c hc
      obtain ⟨ps, hps, rfl⟩ := List.mem_map.mp hcs
      obtain ⟨p, hp, rfl⟩ := List.mem_map.mp hc
      exact (exactAssignment_mk (hx ps hps p hp)).2) schedule
  refine ⟨added, h1, h2, fun i ps hps => ?_⟩
  obtain ⟨h4, h5, h6, h7⟩ := h3 i (ps.map fun p => .value p.1 p.2) (by simp [hps])
  exact ⟨h4, h5, fun p hp => h6 _ (List.mem_map.mpr ⟨p, hp, rfl⟩),
    fun hd p hp => h7 hd _ (List.mem_map.mpr ⟨p, hp, rfl⟩)⟩

/-- C58 for tables, while no thread joins others to them: the tables that were there, unmoved, then tables that
the calls give, those of one call in order, each once and none that was there before; and when a call has ended
all its tables are there. -/
theorem C58_tables (ts : List (Obj × Obj)) (hts : ∀ p ∈ ts, ExactTable p)
    (calls : List Args) (given : List (List (Obj × Obj))) (hg : List.Forall₂ GivesNames calls given)
    (hd : ∀ a ∈ calls, a.pos ≠ [.dict []]) (hx : ∀ ps ∈ given, ∀ p ∈ ps, ExactTable p)
    (schedule : List Nat) :
    ∃ added : List (Nat × Table),
      (fromThreads cx (n + 1) (ts.map fun p => ⟨p.1, p.2, []⟩) calls schedule).1 =
        (ts.map fun p => ⟨p.1, p.2, []⟩) ++ added.map Prod.snd ∧
      (∀ t ∈ added, t.1 < calls.length) ∧
      ∀ i ps, given[i]? = some ps →
        (numbered i added).Sublist (ps.map fun p => ⟨p.1, p.2, []⟩) ∧
        (numbered i added).Nodup ∧ (∀ p ∈ ts, ⟨p.1, p.2, []⟩ ∉ numbered i added) ∧
        ((fromThreads cx (n + 1) (ts.map fun p => ⟨p.1, p.2, []⟩) calls schedule).2[i]? = some .done →
          ∀ p ∈ ps, ⟨p.1, p.2, []⟩ ∈
            (fromThreads cx (n + 1) (ts.map fun p => ⟨p.1, p.2, []⟩) calls schedule).1) := by
  have hg2 : List.Forall₂ (fun a cs => Makes (startFrom (sem cx (n + 1)) a).todo cs ∧
      (startFrom (sem cx (n + 1)) a).Loop) calls
      (given.map fun ps => ps.map fun p => (⟨p.1, p.2, []⟩ : Table)) := by
    rw [List.forall₂_map_right_iff]
    clear schedule
    induction hg with
    | nil => exact .nil
    | cons h _ ih =>
      exact .cons ⟨from_makes h (hd _ (by simp)) (hx _ (by simp)), from_loop⟩
        (ih (fun a ha => hd a (by simp [ha])) fun ps hps => hx ps (by simp [hps]))
  obtain ⟨added, h1, h2, h3⟩ := exact_threads (eq := tableEq cx (sem cx (n + 1))) (P := PlainTable)
    (fun a b ha hb => tableEq_plain cx n ha hb) (ps := ts.map fun p => ⟨p.1, p.2, []⟩)
    (by
      intro c hc
      obtain ⟨p, hp, rfl⟩ := List.mem_map.mp hc
      exact (exactTable_mk (hts p hp)).2)
    (startFrom_start (sem cx (n + 1))) hg2
    (by
      intro cs hcs c hc
      obtain ⟨ps, hps, rfl⟩ := List.mem_map.mp hcs
      obtain ⟨p, hp, rfl⟩ := List.mem_map.mp hc
      exact (exactTable_mk (hx ps hps p hp)).2) schedule
  refine ⟨added, h1, h2, fun i ps hps => ?_⟩
  obtain ⟨h4, h5, h6, h7⟩ := h3 i (ps.map fun p => ⟨p.1, p.2, []⟩) (by simp [hps])
  exact ⟨h4, h5, fun p hp => h6 _ (List.mem_map.mpr ⟨p, hp, rfl⟩),
    fun hd p hp => h7 hd _ (List.mem_map.mpr ⟨p, hp, rfl⟩)⟩

/-- C58 for `from_`: a thread that is not interrupted does what the call does. -/
theorem C58_alone_tables (q : Select) (a : Args) : ∃ steps,
    fromThreads cx n q.tables [a] (List.replicate steps 0) =
      ((selectStep cx (sem cx n) q (.from_ a)).1.tables,
        [match (selectStep cx (sem cx n) q (.from_ a)).2 with
          | none => .done
          | some e => .raised e]) := by
  have : Alone (tableEq cx (sem cx n)) (q.tables, startFrom (sem cx n) a)
      ((tablesSet cx (sem cx n) q.tables a).1, endedWith (tablesSet cx (sem cx n) q.tables a).2) := by
    unfold startFrom tablesSet
    split
    · exact .refl _
    · unfold startLoop
      cases parseArgs (sem cx n) nameOpts { a with pos := a.pos.filter Obj.truthy } with
      | error e => exact .refl _
      | ok bs => exact loop_alone _ _ bs
  obtain ⟨k, hk⟩ := this
  refine ⟨k, ?_⟩
  unfold fromThreads
  rw [List.map_singleton, hk]
  rfl

/-- C58 for `columns` and `set`: a thread that is not interrupted does what the call does. -/
theorem C58_alone_columns (q : Select) (a : Args) : ∃ steps,
    columnsThreads cx n q.columns [a] (List.replicate steps 0) =
      ((selectStep cx (sem cx n) q (.columns a)).1.columns,
        [match (selectStep cx (sem cx n) q (.columns a)).2 with
          | none => .done
          | some e => .raised e]) := by
  have : Alone (columnEq (sem cx n)) (q.columns, startColumns (sem cx n) a)
      ((columnsAdd (sem cx n) q.columns a).1, endedWith (columnsAdd (sem cx n) q.columns a).2) := by
    unfold startColumns columnsAdd
    split
    · exact .refl _
    · unfold startLoop
      cases parseArgs (sem cx n) nameOpts a with
      | error e => exact .refl _
      | ok bs => exact loop_alone _ _ bs
  obtain ⟨k, hk⟩ := this
  refine ⟨k, ?_⟩
  unfold columnsThreads
  rw [List.map_singleton, hk]
  rfl

@[inherit_doc C58_alone_columns]
theorem C58_alone_set (q : Update) (a : Args) : ∃ steps,
    setThreads cx n q.values [a] (List.replicate steps 0) =
      ((updateStep cx (sem cx n) q (.set a)).1.values,
        [match (updateStep cx (sem cx n) q (.set a)).2 with
          | none => .done
          | some e => .raised e]) := by
  have : Alone (valueEq cx (sem cx n)) (q.values, startSet (sem cx n) a)
      ((valuesSet cx (sem cx n) q.values a).1, endedWith (valuesSet cx (sem cx n) q.values a).2) := by
    unfold startSet valuesSet
    split
    · exact .refl _
    · cases customArg a with
      | some o => exact .step (.step (.refl _))
      | none =>
        simp only
        unfold startLoop
        cases parseArgs (sem cx n) pairOpts a with
        | error e => exact .refl _
        | ok bs => exact loop_alone _ _ bs
  obtain ⟨k, hk⟩ := this
  refine ⟨k, ?_⟩
  unfold setThreads
  rw [List.map_singleton, hk]
  rfl

/-! ### What does not hold -/

private def cx0 : Ctx := ⟨.sql, ⟨id, id, fun _ => true, fun _ => [], fun _ => []⟩⟩

private def call (k : Str) : Args := { kw := [(k, .int 1)] }

/-- C58 in full: no two conditions of the clause are equal. -/
def C58_claim : Prop :=
  ∀ (cx : Ctx) (n : Nat) (calls : List Args) (schedule : List Nat), (∀ a ∈ calls, LooksFirst a) →
    (whereThreads cx n [] calls schedule).1.Pairwise fun c d =>
      (sem cx (n + 1)).eq (.conds [c]) (.conds [d]) = .ok false

/-- Two threads that call `where(a=1)` may both find that the condition is not there, and add it twice. -/
theorem C58_refuted : ¬ C58_claim := by
  intro h
  have := h cx0 2 [call L!"a", call L!"a"] [0, 0, 1, 1, 0, 1] (by
    intro a ha o h
    simp only [List.mem_cons, List.not_mem_nil, or_false, or_self] at ha
    subst ha
    cases h)
  revert this
  decide

/-! ### Examples -/

example : (whereThreads cx0 2 [] [call L!"a", call L!"b"] [0, 0, 1, 1, 1, 0, 0, 1, 1]).1 =
    [.cond false (.str L!"b") .eq (.int 1), .cond false (.str L!"a") .eq (.int 1)] := by rfl

example : (whereThreads cx0 2 [] [call L!"a", call L!"b"] [0, 0, 1, 1, 1, 0, 0, 1, 1]).2 =
    [.done, .done] := by rfl

/-- Two threads that call `from_('a', 'b')` and `from_('b')`: here `b` comes twice. -/
example : (fromThreads cx0 2 [] [{ pos := [.str L!"a", .str L!"b"] }, { pos := [.str L!"b"] }]
      [0, 0, 0, 0, 0, 0, 1, 1, 1, 0, 1, 0]).1 =
    [⟨.str L!"a", .none, []⟩, ⟨.str L!"b", .none, []⟩, ⟨.str L!"b", .none, []⟩] := by rfl

example : GivesNames { pos := [.str L!"a", .str L!"b"] }
    [(.str L!"a", .none), (.str L!"b", .none)] ∧ ExactTable (.str L!"a", .none) :=
  ⟨.usual (qs := []) (fun _ h => by cases h) (.cons (.name (by rintro _ ⟨⟩)) (.cons (.name (by rintro _ ⟨⟩)) .nil))
    ⟨[], .refl _, .nil, rfl⟩ (by simp [KwFree]), ⟨L!"a", by decide, rfl⟩, .inl rfl⟩

example : GivesConds (call L!"a") [.cond false (.str L!"a") .eq (.int 1)] := by
  have h : GivesPairs (call L!"a") ([] ++ [(.str L!"a", .int 1)]) :=
    .usual .nothing ⟨[(L!"a", .int 1)], .refl _, List.pairwise_singleton _ _, rfl⟩ (by
      intro p hp
      simp only [List.mem_cons, List.not_mem_nil, or_false] at hp
      subst hp
      decide)
  exact .pairs h (fun h => absurd rfl h)

end SqlPuzzle
