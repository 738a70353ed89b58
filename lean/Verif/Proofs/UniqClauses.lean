import Verif.Proofs.UniqParts

/-!
Clauses whose texts can be read in one way only.
-/

namespace SqlPuzzle

open Spec

/-! ### Parts one after the other -/

/-- Texts that are empty or begin with a separator and one of some words. -/
def StartsT {α : Type} (T : α → Str → Prop) (ws : List Str) : Prop :=
  ∀ ⦃a t⦄, T a t → t = [] ∨ (Sep t ∧ ∃ w ∈ ws, w <+: t)

/-- Texts that are empty or end without white space. -/
def ClosedT {α : Type} (T : α → Str → Prop) : Prop := ∀ ⦃a t⦄, T a t → t = [] ∨ Ends t

/-- Two parts, one after the other. -/
def Seq {α β : Type} (T : α → Str → Prop) (U : β → Str → Prop) (p : α × β) (t : Str) : Prop :=
  ∃ s u, T p.1 s ∧ U p.2 u ∧ t = s ++ u

theorem sep_append {s : Str} (h : Sep s) (hne : s ≠ []) (r : Str) : Sep (s ++ r) := by
  rcases h with rfl | ⟨c, cs, rfl, hc⟩
  · exact absurd rfl hne
  · exact .inr ⟨c, cs ++ r, rfl, hc⟩

/-- What may follow is followed by what may follow. -/
theorem ok_append {bad ws : List Str} {u y : Str} (hu : u = [] ∨ (Sep u ∧ ∃ w ∈ ws, w <+: u))
    (hy : Ok bad y) (hd : ∀ w ∈ ws, ∀ b ∈ bad, Unlike w b) (hw : ∀ w ∈ ws, w ≠ []) : Ok bad (u ++ y) := by
  rcases hu with rfl | ⟨h1, w, hm, r, rfl⟩
  · exact hy
  · refine ⟨sep_append h1 ?_ y, fun b hb => ?_⟩
    · intro e
      exact hw w hm (List.append_eq_nil_iff.mp e).1
    · rw [List.append_assoc]
      exact (hd w hm b hb).not_prefix _

theorem seq_uniq {α β : Type} {T : α → Str → Prop} {U : β → Str → Prop} {bad bad' ws : List Str}
    (hT : Uniq T bad) (hU : Uniq U bad') (sU : StartsT U ws)
    (hd : (∀ w ∈ ws, ∀ b ∈ bad, Unlike w b) ∧ ∀ w ∈ ws, w ≠ []) : Uniq (Seq T U) (bad ++ bad') := by
  rintro ⟨a, b⟩ ⟨a', b'⟩ _ _ x y ⟨s, u, h1, h2, rfl⟩ ⟨s', u', h1', h2', rfl⟩ hx hy h
  rw [List.append_assoc, List.append_assoc] at h
  obtain ⟨h3, h4⟩ := hT h1 h1' (ok_append (sU h2) (ok_sub hx (by simp +contextual)) hd.1 hd.2)
    (ok_append (sU h2') (ok_sub hy (by simp +contextual)) hd.1 hd.2) h
  obtain ⟨h5, h6⟩ := hU h2 h2' (ok_sub hx (by simp +contextual)) (ok_sub hy (by simp +contextual)) h4
  simp only at h3 h5
  rw [h3, h5]
  exact ⟨rfl, h6⟩

theorem seq_starts {α β : Type} {T : α → Str → Prop} {U : β → Str → Prop} {ws ws' : List Str}
    (hT : StartsT T ws) (hU : StartsT U ws') (hw : ∀ w ∈ ws, w ≠ []) : StartsT (Seq T U) (ws ++ ws') := by
  rintro ⟨a, b⟩ _ ⟨s, u, h1, h2, rfl⟩
  rcases hT h1 with rfl | ⟨h3, w, h4, r, rfl⟩
  · rcases hU h2 with rfl | ⟨h5, w, h6, h7⟩
    · exact .inl rfl
    · exact .inr ⟨h5, w, by simp [h6], h7⟩
  · refine .inr ⟨sep_append h3 ?_ _, w, by simp [h4], ⟨r ++ u, by simp⟩⟩
    intro e
    exact hw w h4 (List.append_eq_nil_iff.mp e).1

theorem seq_closed {α β : Type} {T : α → Str → Prop} {U : β → Str → Prop}
    (hT : ClosedT T) (hU : ClosedT U) : ClosedT (Seq T U) := by
  rintro ⟨a, b⟩ _ ⟨s, u, h1, h2, rfl⟩
  rcases hU h2 with rfl | h
  · rw [List.append_nil]
    exact hT h1
  · exact .inr (h.append s)

/-- Something that may be absent. -/
def OptT {α : Type} (kw : Str) (T : α → Str → Prop) (o : Option α) (t : Str) : Prop :=
  (o = none ∧ t = []) ∨ ∃ a s, o = some a ∧ T a s ∧ t = kw ++ s

theorem opt_uniq {α : Type} {kw : Str} {T : α → Str → Prop} {bad : List Str} (h : Uniq T bad) :
    Uniq (OptT kw T) (kw :: bad) := by
  have sub : ∀ {x : Str}, Ok (kw :: bad) x → Ok bad x := fun h => ok_sub h fun w hw => List.mem_cons_of_mem _ hw
  rintro _ _ _ _ x y (⟨rfl, rfl⟩ | ⟨a, s, rfl, h1, rfl⟩) (⟨rfl, rfl⟩ | ⟨b, t, rfl, h2, rfl⟩) hx hy e
  · exact ⟨rfl, e⟩
  · refine (hx.2 kw (by simp) ⟨t ++ y, ?_⟩).elim
    simpa using e.symm
  · refine (hy.2 kw (by simp) ⟨s ++ x, ?_⟩).elim
    simpa using e
  · rw [List.append_assoc, List.append_assoc] at e
    obtain ⟨rfl, e⟩ := h h1 h2 (sub hx) (sub hy) (List.append_cancel_left e)
    exact ⟨rfl, e⟩

theorem opt_starts {α : Type} {kw : Str} {T : α → Str → Prop} (h : Sep kw ∧ kw ≠ []) :
    StartsT (OptT kw T) [kw] := by
  rintro _ _ (⟨_, rfl⟩ | ⟨a, s, _, _, rfl⟩)
  · exact .inl rfl
  · exact .inr ⟨sep_append h.1 h.2 s, kw, by simp, ⟨s, rfl⟩⟩

theorem opt_closed {α : Type} {kw : Str} {T : α → Str → Prop} (h : ∀ {a t}, T a t → Ends t) :
    ClosedT (OptT kw T) := by
  rintro _ _ (⟨_, rfl⟩ | ⟨a, s, _, h1, rfl⟩)
  · exact .inl rfl
  · exact .inr ((h h1).append kw)

/-- A word that is there or not. -/
def FlagT (w : Str) (b : Bool) (t : Str) : Prop := t = if b then w else []

theorem flag_uniq {w : Str} : Uniq (FlagT w) [w] := by
  rintro a b _ _ x y rfl rfl hx hy e
  cases a <;> cases b <;> simp only [Bool.false_eq_true, if_false, if_true, List.nil_append] at e
  · exact ⟨rfl, e⟩
  · exact (hx.2 w (by simp) ⟨_, e.symm⟩).elim
  · exact (hy.2 w (by simp) ⟨_, e⟩).elim
  · exact ⟨rfl, List.append_cancel_left e⟩

theorem flag_starts {w : Str} (h : Sep w) : StartsT (FlagT w) [w] := by
  rintro a _ rfl
  cases a
  · exact .inl rfl
  · exact .inr ⟨h, w, by simp, List.prefix_rfl⟩

theorem flag_closed {w : Str} (h : Ends w) : ClosedT (FlagT w) := by
  rintro a _ rfl
  cases a
  · exact .inl rfl
  · exact .inr h

/-- A word that is always there. -/
def WordT (w : Str) (_ : Unit) (t : Str) : Prop := t = w

theorem wordT_uniq {w : Str} : Uniq (WordT w) [] := by
  rintro a b _ _ x y rfl rfl hx hy e
  exact ⟨rfl, List.append_cancel_left e⟩

theorem wordT_starts {w : Str} (h : Sep w) : StartsT (WordT w) [w] := by
  rintro a _ rfl
  exact .inr ⟨h, _, by simp, List.prefix_rfl⟩

theorem wordT_closed {w : Str} (h : Ends w) : ClosedT (WordT w) := by
  rintro a _ rfl
  exact .inr h

/-- A clause with a list; the keyword has a blank before it. -/
def ClauseT {α : Type} (kw sep : Str) (T : α → Str → Prop) (xs : List α) (t : Str) : Prop :=
  (xs = [] ∧ t = []) ∨ ∃ s, ListT T sep xs s ∧ t = kw ++ s

theorem clause_uniq {α : Type} {kw sep : Str} {T : α → Str → Prop} {bad : List Str} (h : Uniq T bad)
    (hs : Sep sep ∧ sep ≠ []) (ha : ∀ w ∈ bad, Unlike sep w) : Uniq (ClauseT kw sep T) (kw :: sep :: bad) := by
  have key := opt_uniq (kw := kw) (list_uniq h hs ha)
  have conv : ∀ {xs : List α} {t}, ClauseT kw sep T xs t →
      OptT kw (ListT T sep) (if xs.isEmpty then none else some xs) t := by
    rintro xs t (⟨rfl, rfl⟩ | ⟨s, h1, rfl⟩)
    · exact .inl ⟨rfl, rfl⟩
    · refine .inr ⟨xs, s, ?_, h1, rfl⟩
      cases xs with
      | nil => exact absurd rfl h1.1
      | cons _ _ => rfl
  intro xs ys s t x y h1 h2 hx hy e
  obtain ⟨h3, h4⟩ := key (conv h1) (conv h2) hx hy e
  refine ⟨?_, h4⟩
  cases xs <;> cases ys <;> simp at h3 ⊢
  exact h3

theorem clause_starts {α : Type} {kw sep : Str} {T : α → Str → Prop} (h : Sep kw ∧ kw ≠ []) :
    StartsT (ClauseT kw sep T) [kw] := by
  rintro _ _ (⟨_, rfl⟩ | ⟨s, _, rfl⟩)
  · exact .inl rfl
  · exact .inr ⟨sep_append h.1 h.2 s, kw, by simp, ⟨s, rfl⟩⟩

theorem clause_closed {α : Type} {kw sep : Str} {T : α → Str → Prop} (h : ∀ {a t}, T a t → Ends t) :
    ClosedT (ClauseT kw sep T) := by
  rintro _ _ (⟨_, rfl⟩ | ⟨s, h1, rfl⟩)
  · exact .inl rfl
  · exact .inr ((list_ends h h1).append kw)

/-- Things one after the other, each with a blank before it. -/
def TailT {α : Type} (T : α → Str → Prop) (xs : List α) (t : Str) : Prop :=
  ∃ ts, List.Forall₂ T xs ts ∧ t = ts.flatMap fun u => ' ' :: u

theorem tail_starts {α : Type} {T : α → Str → Prop} {ws : List Str}
    (hw : ∀ ⦃a t⦄, T a t → ∃ w ∈ ws, w <+: ' ' :: t) : StartsT (TailT T) ws := by
  rintro xs _ ⟨ts, h, rfl⟩
  cases h with
  | nil => exact .inl rfl
  | @cons _ _ _ us h1 h2 =>
    obtain ⟨w, hm, r, hr⟩ := hw h1
    refine .inr ⟨sep_blank _, w, hm, r ++ us.flatMap (fun u => ' ' :: u), ?_⟩
    rw [← List.append_assoc, hr, List.flatMap_cons]

theorem tail_uniq {α : Type} {T : α → Str → Prop} {bad ws : List Str} (h : Uniq T bad)
    (hw : ∀ ⦃a t⦄, T a t → ∃ w ∈ ws, w <+: ' ' :: t)
    (hd : (∀ w ∈ ws, ∀ b ∈ bad, Unlike w b) ∧ ∀ w ∈ ws, w ≠ []) : Uniq (TailT T) (bad ++ ws) := by
  have stop : ∀ {a : α} {t r x : Str}, T a t → Ok (bad ++ ws) x → x = ' ' :: (t ++ r) → False := by
    intro a t r x h1 hx e
    obtain ⟨w, hm, u, hu⟩ := hw h1
    refine hx.2 w (by simp [hm]) ⟨u ++ r, ?_⟩
    rw [← List.append_assoc, hu, e]
    rfl
  have sub : ∀ {x : Str}, Ok (bad ++ ws) x → Ok bad x := fun h => ok_sub h (by simp +contextual)
  intro xs
  induction xs with
  | nil =>
    rintro ys _ _ x y ⟨ts, h1, rfl⟩ ⟨us, h2, rfl⟩ hx hy e
    cases h1
    cases h2 with
    | nil => exact ⟨rfl, e⟩
    | cons h3 h4 =>
      simp only [List.flatMap_nil, List.nil_append, List.flatMap_cons, List.cons_append, List.append_assoc] at e
      exact (stop h3 hx e).elim
  | cons a xs ih =>
    rintro ys _ _ x y ⟨ts, h1, rfl⟩ ⟨us, h2, rfl⟩ hx hy e
    cases h1 with
    | @cons _ t _ ts h1 h3 =>
    cases h2 with
    | nil =>
      simp only [List.flatMap_nil, List.nil_append, List.flatMap_cons, List.cons_append, List.append_assoc] at e
      exact (stop h1 hy e.symm).elim
    | @cons b u ys us h2 h4 =>
      simp only [List.flatMap_cons, List.cons_append, List.append_assoc, List.cons.injEq, true_and] at e
      obtain ⟨rfl, e⟩ := h h1 h2 (ok_append (tail_starts hw ⟨_, h3, rfl⟩) (sub hx) hd.1 hd.2)
        (ok_append (tail_starts hw ⟨_, h4, rfl⟩) (sub hy) hd.1 hd.2) e
      obtain ⟨rfl, e⟩ := ih ⟨_, h3, rfl⟩ ⟨_, h4, rfl⟩ hx hy e
      exact ⟨rfl, e⟩

theorem tail_closed {α : Type} {T : α → Str → Prop} (h : ∀ {a t}, T a t → Ends t) : ClosedT (TailT T) := by
  rintro xs _ ⟨ts, h1, rfl⟩
  induction h1 with
  | nil => exact .inl rfl
  | cons h2 h3 ih =>
    rw [List.flatMap_cons]
    rcases ih with e | h'
    · rw [e, List.append_nil]
      exact .inr ((h h2).cons _)
    · exact .inr (h'.append _)

/-! ### Joins and tables -/

/-- The words of a join as characters, with a blank after them. -/
def joinChars : JoinType → Str
  | .inner => ['J', 'O', 'I', 'N', ' ']
  | .left => ['L', 'E', 'F', 'T', ' ', 'J', 'O', 'I', 'N', ' ']
  | .right => ['R', 'I', 'G', 'H', 'T', ' ', 'J', 'O', 'I', 'N', ' ']
  | .full => ['F', 'U', 'L', 'L', ' ', 'J', 'O', 'I', 'N', ' ']

theorem join_chars (k : JoinType) : wordsOfJoin k ++ [' '] = joinChars k := by
  cases k <;> decide

/-- A join and its text. -/
def JoinT (q : Char) (T : Texts) (j : Join) (t : Str) : Prop :=
  ∃ a o, AliasT q T (j.name, j.alias) a ∧ ClauseT L!" ON " L!" AND " (OnT q) j.ons o ∧
    t = joinChars j.type ++ (a ++ o)

/-- Words that begin a join. -/
def joinStarts : List Str := [L!" JOIN ", L!" LEFT JOIN ", L!" RIGHT JOIN ", L!" FULL JOIN "]

theorem join_starts {q : Char} {T : Texts} {j : Join} {t : Str} (h : JoinT q T j t) : ∃ w ∈ joinStarts, w <+: ' ' :: t := by
  obtain ⟨a, o, _, _, rfl⟩ := h
  refine ⟨' ' :: joinChars j.type, ?_, ⟨a ++ o, rfl⟩⟩
  cases j.type <;> decide

theorem join_uniq {q : Char} (hq : q = '"' ∨ q = '`') {T : Texts} (G : Good q T) :
    Uniq (JoinT q T) [L!" AS ", L!" ON ", L!" AND "] := by
  have key := seq_uniq (alias_uniq hq G) (clause_uniq (kw := L!" ON ") (sep := L!" AND ") (on_uniq hq)
    ⟨sep_blank _, by decide⟩ (by simp)) (clause_starts ⟨sep_blank _, by decide⟩) (by decide)
  rintro ⟨k, n, al, os⟩ ⟨k', n', al', os'⟩ _ _ x y ⟨a, o, h1, h2, rfl⟩ ⟨a', o', h1', h2', rfl⟩ hx hy e
  simp only at h1 h2 h1' h2' e
  have : k = k' ∧ a ++ o ++ x = a' ++ o' ++ y := by
    simp only [List.append_assoc] at e ⊢
    revert e
    generalize a ++ (o ++ x) = u
    generalize a' ++ (o' ++ y) = v
    intro e
    cases k <;> cases k' <;> simp [joinChars] at e ⊢ <;> exact e
  obtain ⟨rfl, e'⟩ := this
  obtain ⟨h3, e⟩ := key (a := ((n, al), os)) (b := ((n', al'), os')) ⟨a, o, h1, h2, rfl⟩
    ⟨a', o', h1', h2', rfl⟩ (ok_sub hx (by simp)) (ok_sub hy (by simp)) e'
  cases h3
  exact ⟨rfl, e⟩

theorem join_ends {q : Char} (hq : q = '"' ∨ q = '`') {T : Texts} (G : Good q T) {j : Join} {t : Str}
    (h : JoinT q T j t) : Ends t := by
  obtain ⟨a, o, h1, h2, rfl⟩ := h
  refine Ends.append ?_ _
  rcases clause_closed (on_ends hq) h2 with rfl | h
  · rw [List.append_nil]
    exact alias_ends hq G h1
  · exact h.append _

/-- A table and its text. -/
def TableT (q : Char) (T : Texts) (tb : Table) (t : Str) : Prop :=
  Seq (AliasT q T) (TailT (JoinT q T)) ((tb.name, tb.alias), tb.joins) t

/-- What must not follow a table. -/
def tableStops : List Str := L!" AS " :: ([L!" AS ", L!" ON ", L!" AND "] ++ joinStarts)

theorem table_uniq {q : Char} (hq : q = '"' ∨ q = '`') {T : Texts} (G : Good q T) : Uniq (TableT q T) tableStops := by
  have key := seq_uniq (alias_uniq hq G) (tail_uniq (join_uniq hq G) (fun _ _ => join_starts) (by decide))
    (tail_starts (fun _ _ => join_starts)) (by decide)
  rintro ⟨n, al, js⟩ ⟨n', al', js'⟩ s t x y h1 h2 hx hy e
  obtain ⟨h3, e⟩ := key h1 h2 hx hy e
  cases h3
  exact ⟨rfl, e⟩

theorem table_ends {q : Char} (hq : q = '"' ∨ q = '`') {T : Texts} (G : Good q T) {tb : Table} {t : Str}
    (h : TableT q T tb t) : Ends t := by
  obtain ⟨a, o, h1, h2, rfl⟩ := h
  rcases tail_closed (join_ends hq G) h2 with rfl | h
  · rw [List.append_nil]
    exact alias_ends hq G h1
  · exact h.append _

theorem join_text {S : Shapes} {cx : Ctx} {n : Nat} {T : Texts} (hR : Read S cx n T) {j : Join} {t : Str}
    (hj : TidyJoin S cx j) (h : JoinText cx n j t) : JoinT cx.backend.quote T j t := by
  obtain ⟨a, h1, ⟨h2, rfl⟩ | ⟨h2, o, h3, rfl⟩⟩ := h
  · exact ⟨a, [], alias_text hR hj.1 h1, .inl ⟨h2, rfl⟩, by rw [join_chars, List.append_nil]⟩
  · refine ⟨a, L!" ON " ++ o, alias_text hR hj.1 h1, .inr ⟨o, ?_, rfl⟩, ?_⟩
    · have h3 : condsText cx (sem cx n) [] j.ons = .ok o := h3
      have hne : j.ons.isEmpty = false := by
        cases e : j.ons with
        | nil => exact absurd e h2
        | cons _ _ => rfl
      simp only [condsText, partsText, hne, Bool.false_eq_true, if_false] at h3
      obtain ⟨ts, h4, h3⟩ := bind_ok.mp h3
      cases h3
      exact ⟨h2, ts, forall2_tidy h4 hj.2 on_text, rfl⟩
    · rw [join_chars]
      simp only [List.append_assoc]

theorem collected_differ {cx : Ctx} {n : Nat} {js : List Join} {gs : List (List Join)}
    (h : Collected cx n js gs) (hd : js.Pairwise (JoinsDiffer cx n)) : gs = js.map fun j => [j] := by
  induction h with
  | nil => rfl
  | new h1 h2 ih =>
    rw [ih (List.pairwise_append.mp hd).1]
    simp
  | @old js pre post h j t h1 h2 h3 ih =>
    have hp := List.pairwise_append.mp hd
    have e := ih hp.1
    have hm : h :: t ∈ js.map fun j => [j] := e ▸ (by simp)
    obtain ⟨i, hi, hi'⟩ := List.mem_map.mp hm
    cases hi'
    have hdiff := hp.2.2 _ hi j (by simp)
    obtain ⟨a1, a2, a3⟩ := h3
    rcases hdiff with d | ⟨_, d | ⟨_, d⟩⟩
    · rw [a1] at d
      cases d
    · rw [a2] at d
      cases d
    · rw [a3] at d
      cases d

theorem table_text {S : Shapes} {cx : Ctx} {n : Nat} {T : Texts} (hR : Read S cx n T) {tb : Table} {t : Str}
    (hj : TidyTable S cx n tb) (h : TableText cx n tb t) : TableT cx.backend.quote T tb t := by
  obtain ⟨a, js, ts, h1, ⟨gs, h2, rfl⟩, h3, rfl⟩ := h
  obtain ⟨p1, p2, p3⟩ := hj
  rw [collected_differ h2 p3] at h3
  have e : (tb.joins.map fun j => [j]).flatMap merged = tb.joins := by
    generalize tb.joins = l
    induction l with
    | nil => rfl
    | cons j l ih => simp [merged, ih]
  rw [e] at h3
  refine ⟨a, _, alias_text hR p1 h1, ⟨ts, ?_, rfl⟩, rfl⟩
  clear h2 e p3
  revert p2 h3
  generalize tb.joins = l
  intro h3 p2
  induction h3 with
  | nil => exact .nil
  | cons h4 h5 ih => exact .cons (join_text hR (p2 _ (by simp)) h4) (ih fun j hj => p2 j (by simp [hj]))

end SqlPuzzle
