import Verif.Spec.CondTree
import Verif.Proofs.TruthFacts
import Verif.Proofs.TokensMain

/-!
Conditions of the grammar and trees of conditions.
-/

namespace SqlPuzzle

open Spec

/-- Tokens that never stand outside parentheses in an expression. -/
def breaks : List Tok :=
  [.word L!"AND", .word L!"OR", .word L!"IN", .word L!"IS", .word L!"NOT", .word L!"UNION", .word L!"JOIN",
   .word L!"ON", .sym ',', .op L!"="]

theorem whole_names {s : Tok} (hs : s ∈ breaks) : ∀ ps : List Str, Whole s (refToks ps) := by
  have hseg : ∀ p, Whole s [segmentTok p] := by
    intro p
    have h1 : segmentTok p ≠ .sym '(' ∧ segmentTok p ≠ .sym ')' ∧ segmentTok p ∉ breaks := by
      unfold segmentTok
      split <;> refine ⟨by simp, by simp, by simp [breaks]⟩
    exact .cons h1.1 h1.2.1 (fun e => h1.2.2 (e ▸ hs)) (whole_nil s)
  intro ps
  have hd : Tok.sym '.' ∉ breaks := by decide
  induction ps with
  | nil => exact whole_nil s
  | cons p ps ih =>
    cases ps with
    | nil => exact hseg p
    | cons q ps => exact (hseg p).append (.cons (by simp) (by simp) (fun e => hd (e ▸ hs)) ih)

theorem refToks_ne : ∀ {ps : List Str}, ps ≠ [] → refToks ps ≠ []
  | [], h, _ => h rfl
  | [_], _, e => by cases e
  | _ :: _ :: _, _, e => by cases e

theorem whole_word {s : Tok} {w : Str} {ts : List Tok} (hs : s ∈ breaks) (hw : Tok.word w ∉ breaks)
    (h : Whole s ts) : Whole s (.word w :: ts) :=
  .cons (by simp) (by simp) (fun e => hw (e ▸ hs)) h

theorem whole_call {s : Tok} {w : Str} {ts : List Tok} {b : Bool} (hs : s ∈ breaks)
    (hw : Tok.word w ∉ breaks) (h : Built b ts) : Whole s (.word w :: paren ts) :=
  whole_word hs hw (whole_paren h)

theorem aggregate_breaks {f : Str} (h : f ∈ aggregates) : Tok.word f ∉ breaks :=
  (by decide : ∀ f ∈ aggregates, Tok.word f ∉ breaks) f h

/-- Facts about the tokens of an expression. -/
theorem expr_facts {s : Tok} (hs : s ∈ breaks) {ts : List Tok} (h : G .expr ts) :
    Whole s ts ∧ ts ≠ [] := by
  have hb : Built false ts := g_built h trivial
  cases h with
  | name h => exact ⟨whole_names hs _, refToks_ne h⟩
  | lit h =>
    refine ⟨?_, by simp⟩
    cases h <;> first
      | exact whole_word hs (by decide) (whole_nil s)
      | exact .cons (by simp) (by simp) (fun e => by rw [← e] at hs; simp [breaks] at hs) (whole_nil s)
  | neg =>
    refine ⟨.cons (by simp) (by simp) (fun e => by rw [← e] at hs; simp [breaks] at hs) ?_, by simp⟩
    exact .cons (by simp) (by simp) (fun e => by rw [← e] at hs; simp [breaks] at hs) (whole_nil s)
  | tuple h => exact ⟨whole_paren (g_built h (by fine)), by simp [paren]⟩
  | subquery h => exact ⟨whole_paren (g_built h trivial), by simp [paren]⟩
  | aggregate hf h => exact ⟨whole_call hs (aggregate_breaks hf) (g_built h (by fine)), by simp⟩
  | aggregateDistinct hf h =>
    exact ⟨whole_call hs (aggregate_breaks hf) (Built.cons (b := false) (by decide)
      (g_built h (by fine))), by simp⟩
  | concat h => exact ⟨whole_call hs (by decide) (g_built h trivial), by simp⟩
  | groupConcat h1 h2 h3 =>
    exact ⟨whole_call hs (by decide) (.append (g_built h1 trivial)
      (.append (g_built h2 (by fine)) (g_built h3 (by fine)))), by simp⟩
  | convert hw h =>
    exact ⟨whole_call hs (by decide) (.append (g_built h (by fine)) (.cons (by decide)
      (built_one (plain_castType hw)))), by simp⟩
  | exists_ h => exact ⟨whole_call hs (by decide) (g_built h trivial), by simp⟩

theorem relation_whole {s : Tok} (hs : s = .word L!"AND" ∨ s = .word L!"OR") {r : List Tok}
    (h : r ∈ relations) : Whole s r := by
  have key : ∀ r ∈ relations, ∀ t ∈ r, t ≠ .sym '(' ∧ t ≠ .sym ')' ∧ t ≠ .word L!"AND" ∧
      t ≠ .word L!"OR" := by decide
  have hr := key r h
  clear h key
  induction r with
  | nil => exact whole_nil s
  | cons t r ih =>
    have ht := hr t (by simp)
    refine .cons ht.1 ht.2.1 ?_ (ih fun x hx => hr x (List.mem_cons_of_mem _ hx))
    rcases hs with rfl | rfl
    · exact ht.2.2.1
    · exact ht.2.2.2

theorem tight_cond {ts : List Tok} (h : G .cond ts) : Tight ts ∧ ts ≠ [] := by
  have two : (∀ s, s = .word L!"AND" ∨ s = .word L!"OR" → Whole s ts) → Tight ts := fun h =>
    ⟨h _ (Or.inl rfl), h _ (Or.inr rfl)⟩
  have hbr : ∀ s, s = .word L!"AND" ∨ s = .word L!"OR" → s ∈ breaks := by
    rintro s (rfl | rfl) <;> decide
  cases h with
  | compare h1 hr h2 =>
    refine ⟨two fun s hs => (expr_facts (hbr s hs) h1).1.append ((relation_whole hs hr).append
      (expr_facts (hbr s hs) h2).1), ?_⟩
    intro e
    exact (expr_facts (s := .word L!"AND") (by decide) h1).2 (List.append_eq_nil_iff.mp e).1
  | test h =>
    exact ⟨two fun s hs => (expr_facts (hbr s hs) h).1, (expr_facts (s := .word L!"AND") (by decide) h).2⟩
  | group h => exact ⟨two fun s _ => whole_paren (g_built h trivial), by simp [paren]⟩
  | both h1 h2 =>
    exact ⟨two fun s _ => whole_paren (.append (g_built h1 trivial) (.cons (by decide) (g_built h2 trivial))),
      by simp [paren]⟩
  | either h1 h2 =>
    exact ⟨two fun s _ => whole_paren (.append (g_built h1 trivial) (.cons (by decide) (g_built h2 trivial))),
      by simp [paren]⟩
  | not h =>
    refine ⟨two fun s hs => .cons (by simp) (by simp) ?_ (whole_paren (g_built h trivial)), by simp⟩
    rcases hs with rfl | rfl <;> simp

theorem conj_list {ts : List Tok} (h : G .conj ts) :
    ∃ xs, xs ≠ [] ∧ ts = joinT [.word L!"AND"] xs ∧ ∀ x ∈ xs, G .cond x := by
  generalize hc : Cat.conj = c at h
  induction h with
  | conjOne h => exact ⟨[_], by simp, rfl, fun x hx => by rw [List.mem_singleton.mp hx]; exact h⟩
  | @conjMore ts us h _ _ ih =>
    obtain ⟨xs, hne, rfl, hx⟩ := ih hc
    refine ⟨ts :: xs, by simp, ?_, ?_⟩
    · cases xs with
      | nil => exact absurd rfl hne
      | cons y ys => rfl
    · intro x hx'
      rcases List.mem_cons.mp hx' with rfl | hx'
      · exact h
      · exact hx x hx'
  | _ => cases hc

theorem joinT_append {t : Tok} {xs ys : List (List Tok)} (hx : xs ≠ []) (hy : ys ≠ []) :
    joinT [t] (xs ++ ys) = joinT [t] xs ++ (t :: joinT [t] ys) := by
  induction xs with
  | nil => exact absurd rfl hx
  | cons x xs ih =>
    cases xs with
    | nil =>
      cases ys with
      | nil => exact absurd rfl hy
      | cons y ys => rfl
    | cons z zs =>
      have := ih (by simp)
      simp only [List.cons_append, joinT] at this ⊢
      rw [this]
      simp

section
variable (pred : List Tok → Tri)

theorem truth_and2 {ts us : List Tok} (h : G .conj ts) (k : G .conj us) :
    truth pred (ts ++ (.word L!"AND" :: us)) = (truth pred ts).and (truth pred us) := by
  obtain ⟨xs, hx, rfl, h1⟩ := conj_list h
  obtain ⟨ys, hy, rfl, k1⟩ := conj_list k
  have hxs : ∀ x ∈ xs, Tight x ∧ x ≠ [] := fun x hx => tight_cond (h1 x hx)
  have hys : ∀ x ∈ ys, Tight x ∧ x ≠ [] := fun x hx => tight_cond (k1 x hx)
  rw [← joinT_append hx hy, truth_all pred (by simp [hx]) (fun x hm => by
    rcases List.mem_append.mp hm with hm | hm
    · exact hxs x hm
    · exact hys x hm), List.map_append, tri_all_append, truth_all pred hx hxs, truth_all pred hy hys]

theorem whole_conj {ts : List Tok} (h : G .conj ts) : Whole (.word L!"OR") ts := by
  obtain ⟨xs, _, rfl, h1⟩ := conj_list h
  exact whole_joinT (fun x hx => (tight_cond (h1 x hx)).1.2) (by simp) (by simp) (by simp)

theorem truth_or2 {ts us : List Tok} (h : G .conj ts) (k : G .conj us) :
    truth pred (ts ++ (.word L!"OR" :: us)) = (truth pred ts).or (truth pred us) :=
  truth_any2 pred (whole_conj h) (whole_conj k)

theorem built_head {ts : List Tok} (h : Built false ts) : ts.head? ≠ some (.word L!"SELECT") := by
  generalize hb : false = b at h
  induction h with
  | nil => simp
  | cons h => simpa using h.2.2.2
  | @append b ts us h1 h2 ih1 ih2 =>
    cases ts with
    | nil => exact ih2 rfl
    | cons t ts => exact ih1 hb
  | paren => simp [paren]
  | _ => cases hb

theorem conj_not_query {ts : List Tok} (h : Built false ts) : isSubquery ts = false := by
  unfold isSubquery
  exact beq_eq_false_iff_ne.mpr (built_head h)

theorem truth_group {ts : List Tok} (h : G .conj ts) : truth pred (paren ts) = truth pred ts :=
  truth_paren pred (g_built h trivial) (conj_not_query (g_built h trivial))

theorem truth_both {ts us : List Tok} (h : G .conj ts) (k : G .conj us) :
    truth pred (paren (ts ++ (.word L!"AND" :: us))) = (truth pred ts).and (truth pred us) := by
  have hb : Built false (ts ++ (.word L!"AND" :: us)) :=
    .append (g_built h trivial) (.cons (by decide) (g_built k trivial))
  rw [truth_paren pred hb (conj_not_query hb), truth_and2 pred h k]

theorem truth_either {ts us : List Tok} (h : G .conj ts) (k : G .conj us) :
    truth pred (paren (ts ++ (.word L!"OR" :: us))) = (truth pred ts).or (truth pred us) := by
  have hb : Built false (ts ++ (.word L!"OR" :: us)) :=
    .append (g_built h trivial) (.cons (by decide) (g_built k trivial))
  rw [truth_paren pred hb (conj_not_query hb), truth_or2 pred h k]

theorem truth_neg {ts : List Tok} (h : G .conj ts) :
    truth pred (.word L!"NOT" :: paren ts) = (truth pred ts).not := by
  rw [truth_not pred ⟨whole_paren (g_built h trivial), whole_paren (g_built h trivial)⟩, truth_group pred h]

/-- Conjunctions connected by `AND`. -/
theorem truth_conj {xs : List (List Tok)} (hne : xs ≠ []) (h : ∀ x ∈ xs, G .conj x) :
    truth pred (joinT [.word L!"AND"] xs) = Tri.all (xs.map (truth pred)) := by
  induction xs with
  | nil => exact absurd rfl hne
  | cons x xs ih =>
    cases xs with
    | nil => exact (tri_all_one _).symm
    | cons y ys =>
      have hxs := fun z hz => h z (List.mem_cons_of_mem x hz)
      have e : joinT [.word L!"AND"] (x :: y :: ys) =
          x ++ (.word L!"AND" :: joinT [.word L!"AND"] (y :: ys)) := rfl
      rw [e, truth_and2 pred (h x (by simp)) (g_conj (by simp) hxs), ih (by simp) hxs]
      rfl

end

/-! ### Trees -/

section
variable {cx : Ctx} {d : Dialect} {pred : List Tok → Tri} {leaf : Obj → Tri}

theorem phrases_sem (cx : Ctx) (d : Dialect) (n : Nat) :
    Phrases (toks cx d n) (Safe cx.backend.quote n) := fun _ _ h => g_main cx d n h

theorem inner_sem (hf : Fits cx d) (n : Nat) :
    Inner d (sem cx n) (toks cx d n) (Safe cx.backend.quote n) := fun _ _ _ h e => rt_main hf n h e

theorem conds_ok {n : Nat} {kw : Str} {ps : List Cond} {t : Str}
    (e : condsText cx (sem cx n) kw ps = .ok t) : ∀ p ∈ ps, ∃ u, condText cx (sem cx n) p = .ok u := by
  intro p hp
  unfold condsText partsText at e
  have hne : ps.isEmpty = false := by cases ps <;> simp_all
  rw [hne] at e
  simp only [Bool.false_eq_true, if_false, bind_ok] at e
  obtain ⟨ts, e1, e2⟩ := e
  have := mapR_ok_iff.mp e1
  clear e1 e2 hne
  induction this with
  | nil => cases hp
  | cons h1 _ ih =>
    rcases List.mem_cons.mp hp with rfl | hp
    · exact ⟨_, h1⟩
    · exact ih hp

theorem leaf_toks (hf : Fits cx d) (hl : LeafTruth cx d pred leaf) {n : Nat} {c : Cond}
    (h : safeCond cx.backend.quote (Safe cx.backend.quote n) c)
    (e : ∃ u, condText cx (sem cx n) c = .ok u) :
    truth pred (condToks cx d (toks cx d n) c) = leaf (.conds [c]) := by
  obtain ⟨u, e⟩ := e
  have e' : (sem cx (n + 1)).str (.conds [c]) = .ok u := by
    show condsText cx (sem cx n) [] [c] = .ok u
    simp [condsText, partsText, mapR, e, joinS]
  rw [hl _ _ u e', (rt_cond hf (inner_sem hf n) h e).reads.lex]

theorem truth_parts {n : Nat} {ps : List Cond} (hne : ps ≠ [])
    (h : safeConds cx.backend.quote (Safe cx.backend.quote n) ps) :
    truth pred (conjToks cx d (toks cx d n) ps) =
      Tri.all (ps.map fun c => truth pred (condToks cx d (toks cx d n) c)) := by
  unfold conjToks
  rw [truth_conj pred (by simpa using hne) (fun x hx => by
    obtain ⟨c, hc, rfl⟩ := List.mem_map.mp hx
    exact g_cond (phrases_sem cx d n) (h c hc)), List.map_map]
  rfl

theorem truth_operand {n : Nat} {o : Obj} (h : Safe cx.backend.quote n .cond o) :
    truth pred (operandToks (toks cx d n) o) = truth pred (toks cx d n o) := by
  unfold operandToks
  split
  · exact truth_group pred (g_main cx d n h)
  · rfl

theorem operand_ok {S : Sem} {o : Obj} {t : Str} (e : operandText S o = .ok t) : ∃ u, S.str o = .ok u := by
  unfold operandText at e
  rw [bind_ok] at e
  obtain ⟨u, e, _⟩ := e
  exact ⟨u, e⟩

theorem safe_pos {q : Char} {n : Nat} {k : Kind} {o : Obj} (h : Safe q n k o) : ∃ m, n = m + 1 := by
  cases n with
  | zero => exact h.elim
  | succ m => exact ⟨m, rfl⟩

/-- A tree as an argument of `Q`. -/
def CondTree.part : CondTree → Cond
  | .cond c k v => .cond false c k v
  | t => .item t.obj

theorem parts_cons (t : CondTree) (ts : List CondTree) :
    CondTree.parts (t :: ts) = CondTree.part t :: CondTree.parts ts := by
  cases t <;> simp only [CondTree.parts, CondTree.part]

mutual

/-- The tokens of a tree have the truth value of the tree. -/
theorem truth_tree (hf : Fits cx d) (hl : LeafTruth cx d pred leaf) :
    ∀ (tr : CondTree) (n : Nat), Safe cx.backend.quote n .cond tr.obj →
      (∃ t, (sem cx n).str tr.obj = .ok t) → truth pred (toks cx d n tr.obj) = tr.value leaf
  | .cond c k v, n, h, ⟨t, e⟩ => by
    obtain ⟨m, rfl⟩ := safe_pos h
    simp only [CondTree.obj] at h e ⊢
    have hs := h.2 _ (List.mem_singleton_self _)
    have e' : condsText cx (sem cx m) [] [.cond false c k v] = .ok t := e
    have he := conds_ok e' _ (List.mem_singleton_self _)
    refine Eq.trans ?_ ((leaf_toks hf hl hs he).trans (by simp only [CondTree.value]))
    rfl
  | .other o, n, h, ⟨t, e⟩ => by
    have := hl o n t e
    simp only [CondTree.value, this]
    rw [(rt_main hf n h e).reads.lex]
  | .all ts, n, h, ⟨t, e⟩ => by
    obtain ⟨m, rfl⟩ := safe_pos h
    simp only [CondTree.obj] at h e ⊢
    have he := conds_ok (e : condsText cx (sem cx m) [] _ = .ok t)
    have := truth_trees hf hl ts m h.2 he
    refine (truth_parts h.1 h.2).trans ?_
    rw [this]
    simp only [CondTree.value]
  | .both l r, n, h, ⟨t, e⟩ => by
    obtain ⟨m, rfl⟩ := safe_pos h
    simp only [CondTree.obj] at h ⊢
    simp only [CondTree.obj, sem, renderF, bind_ok] at e
    obtain ⟨x, e1, y, e2, _⟩ := e
    have hl1 := truth_tree hf hl l m h.1 (operand_ok e1)
    have hr1 := truth_tree hf hl r m h.2 (operand_ok e2)
    refine (truth_both pred (g_operand (phrases_sem cx d m) h.1) (g_operand (phrases_sem cx d m) h.2)).trans ?_
    rw [truth_operand h.1, truth_operand h.2, hl1, hr1]
    simp only [CondTree.value]
  | .either l r, n, h, ⟨t, e⟩ => by
    obtain ⟨m, rfl⟩ := safe_pos h
    simp only [CondTree.obj] at h ⊢
    simp only [CondTree.obj, sem, renderF, bind_ok] at e
    obtain ⟨x, e1, y, e2, _⟩ := e
    have hl1 := truth_tree hf hl l m h.1 (operand_ok e1)
    have hr1 := truth_tree hf hl r m h.2 (operand_ok e2)
    refine (truth_either pred (g_operand (phrases_sem cx d m) h.1) (g_operand (phrases_sem cx d m) h.2)).trans ?_
    rw [truth_operand h.1, truth_operand h.2, hl1, hr1]
    simp only [CondTree.value]
  | .neg ts, n, h, ⟨t, e⟩ => by
    obtain ⟨m, rfl⟩ := safe_pos h
    simp only [CondTree.obj] at h ⊢
    have h' : Safe cx.backend.quote m .cond (.conds (CondTree.parts ts)) := h
    simp only [CondTree.obj, sem, renderF, bind_ok] at e
    obtain ⟨x, e1, _⟩ := e
    have hg := g_main cx d m h'
    obtain ⟨k, rfl⟩ := safe_pos h'
    have he := conds_ok (e1 : condsText cx (sem cx k) [] _ = .ok x)
    have := truth_trees hf hl ts k h'.2 he
    refine (truth_neg pred hg).trans ?_
    have h2 : truth pred (toks cx d (k + 1) (.conds (CondTree.parts ts))) = Tri.all (CondTree.values leaf ts) :=
      (truth_parts h'.1 h'.2).trans (by rw [this])
    rw [h2]
    simp only [CondTree.value]

theorem truth_trees (hf : Fits cx d) (hl : LeafTruth cx d pred leaf) :
    ∀ (ts : List CondTree) (n : Nat),
      safeConds cx.backend.quote (Safe cx.backend.quote n) (CondTree.parts ts) →
      (∀ p ∈ CondTree.parts ts, ∃ u, condText cx (sem cx n) p = .ok u) →
      ((CondTree.parts ts).map fun c => truth pred (condToks cx d (toks cx d n) c)) = CondTree.values leaf ts
  | [], _, _, _ => by simp [CondTree.parts, CondTree.values]
  | t :: ts, n, h, e => by
    rw [parts_cons] at h e ⊢
    have h2 := truth_trees hf hl ts n (fun p hp => h p (List.mem_cons_of_mem _ hp))
      (fun p hp => e p (List.mem_cons_of_mem _ hp))
    have hc := h _ List.mem_cons_self
    have ec := e _ List.mem_cons_self
    simp only [CondTree.values, List.map_cons, h2]
    congr 1
    match t, hc, ec with
    | .cond c k v, hc, ec =>
      simp only [CondTree.value]
      exact leaf_toks hf hl hc ec
    | .other o, hc, ec => exact truth_tree hf hl (.other o) n hc ec
    | .all us, hc, ec => exact truth_tree hf hl (.all us) n hc ec
    | .both l r, hc, ec => exact truth_tree hf hl (.both l r) n hc ec
    | .either l r, hc, ec => exact truth_tree hf hl (.either l r) n hc ec
    | .neg us, hc, ec => exact truth_tree hf hl (.neg us) n hc ec

end

end

end SqlPuzzle
