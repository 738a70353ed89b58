import Mathlib.Algebra.BigOperators.Group.List.Basic
import Verif.Model.Threads

/-!
Invariants of calls by several threads.
-/

namespace SqlPuzzle

variable {α : Type} {eq : α → α → R Bool}

/-- The entries a thread has still to deal with, the current one included. -/
def Phase.todo : Phase α → List (R α)
  | .next todo => todo
  | .scan p _ todo | .add p todo => .ok p :: todo
  | .done | .raised _ => []

/-- A call that looks for equal parts: not one that appends a single SQL object. -/
def Phase.Loop : Phase α → Prop
  | .add .. => False
  | _ => True

/-- The phases in which a call begins. -/
def Phase.Start : Phase α → Prop
  | .next _ | .add _ [] | .raised _ => True
  | _ => False

/-- What is known of a thread that began in `ph0` and is in `ph`, when the list is `w`, of which it has
appended `mine`. -/
structure Thr (eq : α → α → R Bool) (ps0 : List α) (ph0 : Phase α) (w mine : List α) (ph : Phase α) : Prop where
  past : ∃ past rest, ph0.todo = past.map .ok ++ rest ∧ mine.Sublist past ∧
    (∀ x ∈ past, ∃ y ∈ w, y = x ∨ eq y x = .ok true) ∧ ((∀ e, ph ≠ .raised e) → rest = ph.todo)
  mem : ∀ x ∈ mine, x ∈ w
  pre : ∀ x ∈ ps0, x ∈ w
  uniq : ph0.Loop → mine.Pairwise (fun x y => eq x y = .ok false) ∧
    ∀ x ∈ ps0, ∀ y ∈ mine, eq x y = .ok false
  scan : ∀ p k todo, ph = .scan p k todo → k ≤ w.length ∧
    ∀ j q, j < k → w[j]? = some q → eq q p = .ok false
  add : ∀ p todo, ph = .add p todo → ph0.Loop → ∀ x, x ∈ ps0 ∨ x ∈ mine → eq x p = .ok false

theorem Thr.start {ps0 : List α} {ph0 : Phase α} (h : ph0.Start) : Thr eq ps0 ph0 ps0 [] ph0 where
  past := ⟨[], ph0.todo, rfl, .slnil, by simp, fun _ => rfl⟩
  mem := by simp
  pre := fun _ h => h
  uniq := by simp
  scan := by
    rintro p k todo rfl
    exact h.elim
  add := by
    rintro p todo rfl hl
    exact hl.elim

/-- Other threads may append. -/
theorem Thr.other {ps0 : List α} {ph0 : Phase α} {w mine : List α} {ph : Phase α}
    (h : Thr eq ps0 ph0 w mine ph) (more : List α) : Thr eq ps0 ph0 (w ++ more) mine ph where
  past := by
    obtain ⟨past, rest, h1, h2, h3, h4⟩ := h.past
    refine ⟨past, rest, h1, h2, fun x hx => ?_, h4⟩
    obtain ⟨y, hy, hy'⟩ := h3 x hx
    exact ⟨y, List.mem_append_left _ hy, hy'⟩
  mem := fun x hx => List.mem_append_left _ (h.mem x hx)
  pre := fun x hx => List.mem_append_left _ (h.pre x hx)
  uniq := h.uniq
  scan := by
    intro p k todo e
    obtain ⟨h1, h2⟩ := h.scan p k todo e
    refine ⟨by simp; omega, fun j q hj hq => h2 j q hj ?_⟩
    rwa [List.getElem?_append_left (by omega)] at hq
  add := h.add

/-- What a step appends. -/
def appended : Phase α → List α
  | .add p _ => [p]
  | _ => []

theorem threadStep_list (w : List α) (ph : Phase α) : (threadStep eq w ph).1 = w ++ appended ph := by
  cases ph with
  | next todo =>
    match todo with
    | [] => simp [threadStep, appended]
    | .ok p :: todo => simp [threadStep, appended]
    | .error e :: todo => simp [threadStep, appended]
  | scan p i todo =>
    simp only [threadStep, appended, List.append_nil]
    split
    · rfl
    · split <;> rfl
  | add p todo => rfl
  | done => simp [threadStep, appended]
  | raised e => simp [threadStep, appended]

/-- A step of the thread itself. -/
theorem Thr.step {ps0 : List α} {ph0 : Phase α} {w mine : List α} {ph : Phase α}
    (h : Thr eq ps0 ph0 w mine ph) :
    Thr eq ps0 ph0 (threadStep eq w ph).1 (mine ++ appended ph) (threadStep eq w ph).2 := by
  obtain ⟨past, rest, h1, h2, h3, h4⟩ := h.past
  have raise : ∀ e, (appended ph = []) → Thr eq ps0 ph0 w (mine ++ appended ph) (.raised e) := by
    intro e ha
    rw [ha, List.append_nil]
    exact ⟨⟨past, rest, h1, h2, h3, fun h => absurd rfl (h e)⟩, h.mem, h.pre, h.uniq,
      fun _ _ _ h => (by cases h), fun _ _ h => by cases h⟩
  cases ph with
  | next todo =>
    match todo, h4 with
    | [], h4 =>
      simp only [threadStep, appended, List.append_nil]
      exact ⟨⟨past, rest, h1, h2, h3, fun _ => h4 (by simp)⟩, h.mem, h.pre, h.uniq,
        fun _ _ _ h => (by cases h), fun _ _ h => by cases h⟩
    | .ok p :: todo, h4 =>
      simp only [threadStep, appended, List.append_nil]
      refine ⟨⟨past, rest, h1, h2, h3, fun _ => h4 (by simp)⟩, h.mem, h.pre, h.uniq, ?_,
        fun _ _ h => by cases h⟩
      rintro _ _ _ ⟨⟩
      exact ⟨Nat.zero_le _, fun j _ hj => absurd hj (Nat.not_lt_zero j)⟩
    | .error e :: todo, h4 => exact raise e rfl
  | scan p i todo =>
    have hr := h4 (by simp)
    obtain ⟨hs1, hs2⟩ := h.scan p i todo rfl
    simp only [threadStep]
    split
    · rename_i hi
      simp only [appended, List.append_nil]
      refine ⟨⟨past, rest, h1, h2, h3, fun _ => hr⟩, h.mem, h.pre, h.uniq, fun _ _ _ h => (by cases h), ?_⟩
      rintro _ _ ⟨⟩ _ x hx
      have hx : x ∈ w := hx.elim (h.pre x) (h.mem x)
      obtain ⟨j, hj, rfl⟩ := List.getElem_of_mem hx
      have : w.length ≤ i := by simpa using hi
      exact hs2 j _ (by omega) (by simp [hj])
    · rename_i q hq
      split
      · exact raise _ rfl
      · rename_i he
        simp only [appended, List.append_nil]
        refine ⟨⟨past ++ [p], todo, ?_, ?_, ?_, fun _ => rfl⟩, h.mem, h.pre, h.uniq,
          fun _ _ _ h => (by cases h), fun _ _ h => by cases h⟩
        · rw [h1, hr]; simp [Phase.todo]
        · exact h2.trans (List.sublist_append_left _ _)
        · intro x hx
          rcases List.mem_append.mp hx with hx | hx
          · exact h3 x hx
          · rw [List.mem_singleton.mp hx]
            exact ⟨q, List.mem_of_getElem? hq, .inr he⟩
      · rename_i he
        simp only [appended, List.append_nil]
        refine ⟨⟨past, rest, h1, h2, h3, fun _ => hr⟩, h.mem, h.pre, h.uniq, ?_, fun _ _ h => by cases h⟩
        rintro _ _ _ ⟨⟩
        have hlt : i < w.length := by
          rcases Nat.lt_or_ge i w.length with h | h
          · exact h
          · rw [List.getElem?_eq_none h] at hq; cases hq
        refine ⟨hlt, fun j q' hj hq' => ?_⟩
        rcases Nat.lt_succ_iff_lt_or_eq.mp hj with hj | rfl
        · exact hs2 j q' hj hq'
        · rw [hq] at hq'
          cases hq'
          exact he
  | add p todo =>
    have hr := h4 (by simp)
    simp only [threadStep, appended]
    refine ⟨⟨past ++ [p], todo, ?_, ?_, ?_, fun _ => rfl⟩, ?_, ?_, ?_,
      fun _ _ _ h => (by cases h), fun _ _ h => by cases h⟩
    · rw [h1, hr]; simp [Phase.todo]
    · exact h2.append (.refl _)
    · intro x hx
      rcases List.mem_append.mp hx with hx | hx
      · obtain ⟨y, hy, hy'⟩ := h3 x hx
        exact ⟨y, List.mem_append_left _ hy, hy'⟩
      · exact ⟨x, List.mem_append_right _ hx, .inl rfl⟩
    · intro x hx
      rcases List.mem_append.mp hx with hx | hx
      · exact List.mem_append_left _ (h.mem x hx)
      · exact List.mem_append_right _ hx
    · exact fun x hx => List.mem_append_left _ (h.pre x hx)
    · intro hl
      obtain ⟨u1, u2⟩ := h.uniq hl
      have ha := h.add p todo rfl hl
      refine ⟨?_, ?_⟩
      · rw [List.pairwise_append]
        refine ⟨u1, List.pairwise_singleton _ _, fun x hx y hy => ?_⟩
        rw [List.mem_singleton.mp hy]
        exact ha x (.inr hx)
      · intro x hx y hy
        rcases List.mem_append.mp hy with hy | hy
        · exact u2 x hx y hy
        · rw [List.mem_singleton.mp hy]
          exact ha x (.inl hx)
  | done =>
    simp only [threadStep, appended, List.append_nil]
    exact h
  | raised e => exact raise e rfl

/-- What the thread number `i` has appended. -/
def minePart (tags : List (Nat × α)) (i : Nat) : List α := (tags.filter fun t => t.1 == i).map Prod.snd

/-- The state of all threads after any schedule. -/
def Inv (eq : α → α → R Bool) (w0 w : World α) : Prop :=
  ∃ tags : List (Nat × α), w.1 = w0.1 ++ tags.map Prod.snd ∧ (∀ t ∈ tags, t.1 < w0.2.length) ∧
    w.2.length = w0.2.length ∧
    ∀ i ph0, w0.2[i]? = some ph0 → ∃ ph, w.2[i]? = some ph ∧ Thr eq w0.1 ph0 w.1 (minePart tags i) ph

theorem inv_start {w0 : World α} (h : ∀ ph ∈ w0.2, ph.Start) : Inv eq w0 w0 :=
  ⟨[], by simp, by simp, rfl, fun _ ph0 hi => ⟨ph0, hi, Thr.start (h ph0 (List.mem_of_getElem? hi))⟩⟩

theorem inv_tick {w0 w : World α} (h : Inv eq w0 w) (i : Nat) : Inv eq w0 (tick eq w i) := by
  obtain ⟨tags, h1, h1', h2, h3⟩ := h
  unfold tick
  split
  · exact ⟨tags, h1, h1', h2, h3⟩
  · rename_i ph hph
    have hi : i < w0.2.length := by
      rw [← h2]
      rcases Nat.lt_or_ge i w.2.length with h | h
      · exact h
      · rw [List.getElem?_eq_none h] at hph; cases hph
    refine ⟨tags ++ (appended ph).map fun p => (i, p), ?_, ?_, by simpa using h2, ?_⟩
    · simp only [threadStep_list, h1, List.map_append, List.map_map, List.append_assoc]
      congr 2
      exact (List.map_id _).symm
    · intro t ht
      rcases List.mem_append.mp ht with ht | ht
      · exact h1' t ht
      · obtain ⟨p, _, rfl⟩ := List.mem_map.mp ht
        exact hi
    · intro j ph0 hj
      obtain ⟨ph', hph', ht⟩ := h3 j ph0 hj
      by_cases hij : i = j
      · subst hij
        rw [hph] at hph'
        cases hph'
        refine ⟨(threadStep eq w.1 ph).2, by simp [h2, hi], ?_⟩
        have e : minePart (tags ++ (appended ph).map fun p => (i, p)) i = minePart tags i ++ appended ph := by
          simp [minePart, List.filter_append, List.filter_map]
          cases ph <;> simp [appended]
        rw [e]
        exact ht.step
      · refine ⟨ph', by simp [List.getElem?_set_ne hij, hph'], ?_⟩
        have e : minePart (tags ++ (appended ph).map fun p => (i, p)) j = minePart tags j := by
          unfold minePart
          rw [List.filter_append, List.map_append]
          have : ((appended ph).map fun p => (i, p)).filter (fun t => t.1 == j) = [] := by
            rw [List.filter_eq_nil_iff]
            intro t ht
            obtain ⟨p, _, rfl⟩ := List.mem_map.mp ht
            simpa using hij
          rw [this]
          simp
        rw [e, show (threadStep eq w.1 ph).1 = _ from threadStep_list _ _]
        exact ht.other _

theorem inv_run {w0 w : World α} (h : Inv eq w0 w) (s : List Nat) : Inv eq w0 (runThreads eq w s) := by
  induction s generalizing w with
  | nil => exact h
  | cons i s ih => exact ih (inv_tick h i)

/-- The list only grows at its end. -/
theorem run_grows (w : World α) (s : List Nat) : w.1 <+: (runThreads eq w s).1 := by
  induction s generalizing w with
  | nil => exact List.prefix_refl _
  | cons i s ih =>
    refine List.IsPrefix.trans ?_ (ih (tick eq w i))
    unfold tick
    split
    · exact List.prefix_refl _
    · rename_i ph hph
      exact ⟨_, (threadStep_list _ _).symm⟩

/-! ### Every call ends -/

/-- An upper bound of the steps a thread has still to make, if the list has at most `m` parts. -/
def cost (m : Nat) : Phase α → Nat
  | .next todo => todo.length * (m + 3) + 1
  | .scan _ k todo => todo.length * (m + 3) + 1 + (m - k) + 2
  | .add _ todo => todo.length * (m + 3) + 1 + 1
  | .done | .raised _ => 0

def Phase.Ended : Phase α → Prop
  | .done | .raised _ => True
  | _ => False

theorem cost_step {m : Nat} {w : List α} (hm : w.length ≤ m) (ph : Phase α) :
    cost m (threadStep eq w ph).2 + 1 ≤ cost m ph ∨ ph.Ended ∧ (threadStep eq w ph).2 = ph := by
  cases ph with
  | next todo =>
    left
    match todo with
    | [] => simp [threadStep, cost]
    | .ok p :: todo =>
      simp only [threadStep, cost, List.length_cons, Nat.succ_mul]
      omega
    | .error e :: todo => simp [threadStep, cost]
  | scan p i todo =>
    left
    simp only [threadStep]
    split
    · simp only [cost]; omega
    · rename_i q hq
      have hlt : i < w.length := by
        rcases Nat.lt_or_ge i w.length with h | h
        · exact h
        · rw [List.getElem?_eq_none h] at hq; cases hq
      split <;> simp only [cost] <;> omega
  | add p todo => left; simp only [threadStep, cost]; omega
  | done => exact .inr ⟨trivial, rfl⟩
  | raised e => exact .inr ⟨trivial, rfl⟩

theorem ended_iff {m : Nat} {ph : Phase α} : ph.Ended ↔ cost m ph = 0 := by
  cases ph <;> simp [Phase.Ended, cost]

/-- The parts there and those to come. -/
def capacity (w : World α) : Nat := w.1.length + (w.2.map fun ph => ph.todo.length).sum

theorem todo_step (w : List α) (ph : Phase α) :
    (appended ph).length + (threadStep eq w ph).2.todo.length ≤ ph.todo.length := by
  cases ph with
  | next todo =>
    match todo with
    | [] => simp [threadStep, appended, Phase.todo]
    | .ok p :: todo => simp [threadStep, appended, Phase.todo]
    | .error e :: todo => simp [threadStep, appended, Phase.todo]
  | scan p i todo =>
    simp only [threadStep]
    split
    · simp [appended, Phase.todo]
    · split <;> simp [appended, Phase.todo]
  | add p todo => simp [threadStep, appended, Phase.todo]; omega
  | done => simp [threadStep, appended]
  | raised e => simp [threadStep, appended]

theorem capacity_tick (w : World α) (i : Nat) : capacity (tick eq w i) ≤ capacity w := by
  unfold tick
  split
  · exact Nat.le_refl _
  · rename_i ph hph
    have h1 := todo_step (eq := eq) w.1 ph
    have h2 : ((w.2.set i (threadStep eq w.1 ph).2).map fun ph => ph.todo.length).sum + ph.todo.length =
        (w.2.map fun ph => ph.todo.length).sum + (threadStep eq w.1 ph).2.todo.length := by
      generalize (threadStep eq w.1 ph).2 = ph'
      obtain ⟨_, phs⟩ := w
      simp only at hph ⊢
      clear h1
      induction phs generalizing i with
      | nil => cases hph
      | cons x xs ih =>
        cases i with
        | zero =>
          simp only [List.getElem?_cons_zero, Option.some.injEq] at hph
          subst hph
          simp only [List.set_cons_zero, List.map_cons, List.sum_cons]
          omega
        | succ i =>
          simp only [List.getElem?_cons_succ] at hph
          have := ih i hph
          simp only [List.set_cons_succ, List.map_cons, List.sum_cons]
          omega
    simp only [capacity, threadStep_list, List.length_append]
    omega

theorem run_cost {m : Nat} {w : World α} (hm : capacity w ≤ m) {i : Nat} {ph : Phase α}
    (hi : w.2[i]? = some ph) (s : List Nat) :
    ∃ ph', (runThreads eq w s).2[i]? = some ph' ∧ cost m ph' ≤ cost m ph - s.count i := by
  induction s generalizing w ph with
  | nil => exact ⟨ph, hi, by simp⟩
  | cons j s ih =>
    have hm' : capacity (tick eq w j) ≤ m := Nat.le_trans (capacity_tick w j) hm
    by_cases hij : j = i
    · subst hij
      have hlt : j < w.2.length := by
        rcases Nat.lt_or_ge j w.2.length with h | h
        · exact h
        · rw [List.getElem?_eq_none h] at hi; cases hi
      have hi' : (tick eq w j).2[j]? = some (threadStep eq w.1 ph).2 := by
        unfold tick
        rw [hi]
        simp [hlt]
      obtain ⟨ph', h1, h2⟩ := ih hm' hi'
      refine ⟨ph', h1, ?_⟩
      have hw : w.1.length ≤ m := by unfold capacity at hm; omega
      rcases cost_step (eq := eq) hw ph with h | ⟨h, h'⟩
      · rw [List.count_cons_self]; omega
      · rw [h'] at h2
        rw [(ended_iff (m := m)).mp h] at h2 ⊢
        omega
    · have hi' : (tick eq w j).2[i]? = some ph := by
        unfold tick
        split
        · exact hi
        · simp [List.getElem?_set_ne hij, hi]
      obtain ⟨ph', h1, h2⟩ := ih hm' hi'
      refine ⟨ph', h1, ?_⟩
      rw [List.count_cons_of_ne hij]
      exact h2

theorem mem_sum {x : Nat} {xs : List Nat} (h : x ∈ xs) : x ≤ xs.sum := by
  induction xs with
  | nil => cases h
  | cons y ys ih =>
    rw [List.sum_cons]
    rcases List.mem_cons.mp h with rfl | h
    · omega
    · have := ih h; omega

/-- Every thread ends after a bounded number of its own steps. -/
theorem run_ends {w : World α} (hs : ∀ ph ∈ w.2, ph.Start) {i : Nat} (hi : i < w.2.length) {s : List Nat}
    (h : (capacity w + 1) * (capacity w + 4) ≤ s.count i) :
    ∃ ph, (runThreads eq w s).2[i]? = some ph ∧ ph.Ended := by
  obtain ⟨ph', h1, h2⟩ := run_cost (eq := eq) (m := capacity w) (Nat.le_refl _)
    (List.getElem?_eq_getElem hi) s
  refine ⟨ph', h1, (ended_iff (m := capacity w)).mpr ?_⟩
  have hmem := List.getElem_mem hi
  have hst := hs _ hmem
  have hle : (w.2[i]).todo.length ≤ capacity w := by
    have := mem_sum (List.mem_map.mpr ⟨w.2[i], hmem, rfl⟩ :
      (w.2[i]).todo.length ∈ w.2.map fun ph => ph.todo.length)
    unfold capacity
    omega
  have hc : cost (capacity w) w.2[i] ≤ (capacity w + 1) * (capacity w + 4) := by
    generalize w.2[i] = ph at hst hle
    generalize capacity w = m at hle
    cases ph with
    | next todo =>
      simp only [cost, Phase.todo] at hle ⊢
      have : todo.length * (m + 3) ≤ m * (m + 3) := Nat.mul_le_mul_right _ hle
      have : (m + 1) * (m + 4) = m * (m + 3) + (2 * m + 4) := by
        simp only [Nat.add_mul, Nat.mul_add]; omega
      omega
    | scan p k todo => exact hst.elim
    | add p todo =>
      match todo, hst with
      | [], _ =>
        have : (m + 1) * (m + 4) = m * (m + 3) + (2 * m + 4) := by
          simp only [Nat.add_mul, Nat.mul_add]; omega
        simp only [cost, List.length_nil]
        omega
    | done => exact Nat.zero_le _
    | raised e => exact Nat.zero_le _
  omega

/-! ### One thread alone -/

/-- One thread alone comes from one state to another. -/
def Alone (eq : α → α → R Bool) (s t : List α × Phase α) : Prop :=
  ∃ n, runThreads eq (s.1, [s.2]) (List.replicate n 0) = (t.1, [t.2])

theorem Alone.refl (s : List α × Phase α) : Alone eq s s := ⟨0, rfl⟩

theorem Alone.step {s t : List α × Phase α} (h : Alone eq (threadStep eq s.1 s.2) t) : Alone eq s t := by
  obtain ⟨n, hn⟩ := h
  exact ⟨n + 1, hn⟩

theorem Alone.trans {s t u : List α × Phase α} (h1 : Alone eq s t) (h2 : Alone eq t u) : Alone eq s u := by
  obtain ⟨n, hn⟩ := h1
  obtain ⟨m, hm⟩ := h2
  refine ⟨n + m, ?_⟩
  rw [← List.replicate_append_replicate, runThreads, List.foldl_append]
  have : List.foldl (tick eq) (s.1, [s.2]) (List.replicate n 0) = (t.1, [t.2]) := hn
  rw [this]
  exact hm

theorem scan_alone (ps : List α) (p : α) (todo : List (R α)) (k : Nat) :
    Alone eq (ps, .scan p k todo) (ps, match anyR (fun q => eq q p) (ps.drop k) with
      | .error e => .raised e
      | .ok true => .next todo
      | .ok false => .add p todo) := by
  induction hn : ps.length - k generalizing k with
  | zero =>
    have hk : ps.length ≤ k := by omega
    apply Alone.step
    simp only [threadStep, List.getElem?_eq_none hk, List.drop_eq_nil_of_le hk]
    exact .refl _
  | succ n ih =>
    have hk : k < ps.length := by omega
    apply Alone.step
    simp only [threadStep, List.getElem?_eq_getElem hk, List.drop_eq_getElem_cons hk, anyR]
    cases eq ps[k] p with
    | error e => exact .refl _
    | ok b =>
      cases b with
      | true => exact .refl _
      | false =>
        exact ih (k + 1) (by omega)

/-- The phase in which a call has ended. -/
def endedWith : Option Err → Phase α
  | none => .done
  | some e => .raised e

theorem loop_alone {β : Type} (make : β → R α) (ps : List α) (bs : List β) :
    Alone eq (ps, .next (bs.map make))
      ((forUpd (fun ps b => withR ps (make b) fun c => appendUnique eq ps c) ps bs).1,
        endedWith (forUpd (fun ps b => withR ps (make b) fun c => appendUnique eq ps c) ps bs).2) := by
  induction bs generalizing ps with
  | nil => exact .step (.refl _)
  | cons b bs ih =>
    rw [List.map_cons]
    apply Alone.step
    unfold forUpd
    cases hb : make b with
    | error e =>
      simp only [threadStep, withR]
      exact .refl _
    | ok p =>
      simp only [threadStep, withR]
      refine (scan_alone ps p _ 0).trans ?_
      rw [List.drop_zero]
      unfold appendUnique
      cases anyR (fun q => eq q p) ps with
      | error e => exact .refl _
      | ok b =>
        cases b with
        | true => exact ih ps
        | false => exact .step (ih (ps ++ [p]))

end SqlPuzzle
