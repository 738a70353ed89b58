import Verif.Spec.InnerQueries
import Verif.Proofs.Written
import Verif.Proofs.InList

/-!
Lemmas for C75: conditions with queries in them can be read in one way, and what a server says of a statement depends
only on what it says of shorter ones.
-/

namespace SqlPuzzle

open Spec

/-! ### Reading -/

/-- No relation sign stands in an expression, outside parentheses. -/
theorem expr_op (o : Str) {ts : List Tok} (h : G .expr ts) : Whole (.op o) ts := by
  have call : ∀ {f : Str} {us : List Tok} {b : Bool}, Built b us → Whole (.op o) (.word f :: paren us) :=
    fun h => .cons (by simp) (by simp) (by simp) (whole_paren h)
  have hseg : ∀ p, Whole (.op o) [segmentTok p] := by
    intro p
    unfold segmentTok
    split
    · exact .cons (by simp) (by simp) (by simp) (whole_nil _)
    · exact .cons (by simp) (by simp) (by simp) (whole_nil _)
  have hnames : ∀ ps : List Str, Whole (.op o) (refToks ps) := by
    intro ps
    induction ps with
    | nil => exact whole_nil _
    | cons p ps ih =>
      cases ps with
      | nil => exact hseg p
      | cons p' ps => exact (hseg p).append (.cons (by simp) (by simp) (by simp) ih)
  have hb : Built false ts := g_built h trivial
  cases h with
  | name _ => exact hnames _
  | lit h => cases h <;> exact .cons (by simp) (by simp) (by simp) (whole_nil _)
  | neg => exact .cons (by simp) (by simp) (by simp) (.cons (by simp) (by simp) (by simp) (whole_nil _))
  | tuple h => exact whole_paren (g_built h (by fine))
  | subquery h => exact whole_paren (g_built h trivial)
  | aggregate hf h => exact call (g_built h (by fine))
  | aggregateDistinct hf h => exact call (Built.cons (b := false) (by decide) (g_built h (by fine)))
  | concat h => exact call (g_built h trivial)
  | groupConcat h1 h2 h3 =>
    exact call (.append (g_built h1 trivial) (.append (g_built h2 (by fine)) (g_built h3 (by fine))))
  | convert hw h => exact call (.append (g_built h (by fine)) (.cons (by decide) (built_one (plain_castType hw))))
  | exists_ h => exact call (g_built h trivial)

theorem relationWords_tok {k : Rel} {w : Tok} (h : w ∈ relationWords k) :
    (∃ o, w = .op o) ∨ ∃ x, w = .word x ∧ x ∉ exprWords := by
  have key : ∀ k, ∀ w ∈ relationWords k, (match w with | .op _ => true | .word x => decide (x ∉ exprWords) | _ => false) = true := by
    intro k
    cases k <;> decide
  have := key k w h
  cases w <;> simp at this ⊢
  exact this

theorem relation_sym {k : Rel} {w : Tok} (h : w ∈ relationWords k) : w ≠ .sym '(' ∧ w ≠ .sym ')' := by
  rcases relationWords_tok h with ⟨o, rfl⟩ | ⟨x, rfl, _⟩ <;> simp

/-- A word or sign of a relation is in no expression, outside parentheses. -/
theorem expr_relation {k : Rel} {w : Tok} (h : w ∈ relationWords k) {ts : List Tok} (hts : G .expr ts) : Whole w ts := by
  rcases relationWords_tok h with ⟨o, rfl⟩ | ⟨x, rfl, hx⟩
  · exact expr_op o hts
  · exact (expr_word hx hts).1

theorem relationWords_ne (k : Rel) : ∃ w ws, relationWords k = w :: ws := by
  cases k <;> exact ⟨_, _, rfl⟩

private theorem no_longer {a y : List Tok} {k : Rel} {w : Tok} (hw : w ∈ relationWords k) (h1 : G .expr a)
    (h2 : G .expr (a ++ w :: y)) : False := by
  have e1 := (expr_relation hw h2).one
  rw [(expr_relation hw h1).cut (relation_sym hw).1 (relation_sym hw).2] at e1
  injection e1 with e2 _
  have := congrArg List.length e2
  simp at this

private theorem lefts {a b r s : List Tok} {k l : Rel} (h1 : G .expr a) (h2 : G .expr b)
    (e : a ++ (relationWords k ++ r) = b ++ (relationWords l ++ s)) : a = b := by
  rcases List.append_eq_append_iff.mp e with ⟨y, rfl, e'⟩ | ⟨y, rfl, e'⟩
  · cases y with
    | nil => simp
    | cons w y =>
      obtain ⟨w', ws, hk⟩ := relationWords_ne k
      rw [hk] at e'
      injection e' with e1 _
      exact (no_longer (k := k) (w := w) (by rw [hk, e1]; simp) h1 h2).elim
  · cases y with
    | nil => simp
    | cons w y =>
      obtain ⟨w', ws, hk⟩ := relationWords_ne l
      rw [hk] at e'
      injection e' with e1 _
      exact (no_longer (k := l) (w := w) (by rw [hk, e1]; simp) h2 h1).elim

theorem enclosed_injective {a b : List Tok} (h : enclosed a = enclosed b) : a = b := by
  unfold enclosed at h
  injection h with _ h
  exact List.append_cancel_right h

/-- A comparison with a query can be read in one way only. -/
theorem compare_unique {a b ts us : List Tok} {k l : Rel} (h1 : G .expr a) (h2 : G .expr b)
    (e : a ++ (relationWords k ++ enclosed ts) = b ++ (relationWords l ++ enclosed us)) : a = b ∧ k = l ∧ ts = us := by
  obtain rfl := lefts h1 h2 e
  have e := List.append_cancel_left e
  have hk : k = l := by
    unfold enclosed at e
    cases k <;> cases l <;> first | rfl | simp [relationWords] at e
  obtain rfl := hk
  exact ⟨rfl, rfl, enclosed_injective (List.append_cancel_left e)⟩

/-- EXISTS is no comparison. -/
theorem exists_no_compare {a ts us : List Tok} {k : Rel} (h1 : G .expr a) (h2 : G .select ts)
    (e : .word L!"EXISTS" :: enclosed ts = a ++ (relationWords k ++ enclosed us)) : False := by
  have h3 : G .expr (.word L!"EXISTS" :: paren ts) := .exists_ (.single h2)
  have h4 : Tok.word L!"EXISTS" :: enclosed ts = .word L!"EXISTS" :: paren ts := by simp [enclosed, paren]
  obtain ⟨w, ws, hk⟩ := relationWords_ne k
  rw [← h4, e, hk] at h3
  exact no_longer (k := k) (w := w) (by rw [hk]; simp) h1 h3

/-! ### Shorter statements -/

theorem piece_short' {s : Tok} {ts p : List Tok} (h : p ∈ pieces s ts) : p.length ≤ ts.length := by
  have h1 := splitAt_count s ts 0
  have h2 := length_le_flatten h
  have h3 := List.length_pos_of_mem h
  unfold Spec.pieces at h2 h3
  omega

private theorem before_short (ws : List Str) : ∀ (n : Nat) (ts : List Tok), (beforeAt ws n ts).length ≤ ts.length
  | _, [] => by simp [beforeAt]
  | n, t :: ts => by
    have h1 := before_short ws (n + 1) ts
    have h2 := before_short ws (n - 1) ts
    have h3 := before_short ws n ts
    unfold beforeAt
    split_ifs <;> simp only [List.length_cons, List.length_nil] <;> omega

private theorem after_short (w : Str) : ∀ (n : Nat) (ts : List Tok), (afterAt w n ts).length ≤ ts.length
  | _, [] => by simp [afterAt]
  | n, t :: ts => by
    have h1 := after_short w (n + 1) ts
    have h2 := after_short w (n - 1) ts
    have h3 := after_short w n ts
    unfold afterAt
    split_ifs <;> simp only [List.length_cons] <;> omega

private theorem body_short (ws : List Str) (w : Str) (ts : List Tok) : (clauseBody ws w ts).length ≤ ts.length :=
  Nat.le_trans (before_short _ _ _) (after_short _ _ _)

private theorem cut_short (ts : List Tok) : (cutKind ts).1.length ≤ ts.length := by
  unfold cutKind
  split_ifs <;> simp

private theorem closing_short : ∀ (n : Nat) (ts : List Tok) (p : List Tok × List Tok), closing n ts = some p →
    p.1.length ≤ ts.length
  | _, [], _, e => by cases e
  | n, t :: ts, p, e => by
    unfold closing at e
    split_ifs at e
    · obtain ⟨q, hq, rfl⟩ := Option.map_eq_some_iff.mp e
      simpa using closing_short _ ts q hq
    · cases n with
      | zero => cases e; simp
      | succ n =>
        obtain ⟨q, hq, rfl⟩ := Option.map_eq_some_iff.mp e
        simpa using closing_short _ ts q hq
    · obtain ⟨q, hq, rfl⟩ := Option.map_eq_some_iff.mp e
      simpa using closing_short _ ts q hq

private theorem inside_short {ts r : List Tok} (e : inside ts = some r) : r.length ≤ ts.length := by
  unfold inside at e
  split at e
  · next us =>
    split at e
    · next r' h =>
      cases e
      exact Nat.le_succ_of_le (closing_short _ _ _ h)
    · cases e
  · cases e

theorem truthF_congr {p p' : List Tok → Tri} {k : Nat} (h : ∀ ts, ts.length ≤ k → p ts = p' ts) :
    ∀ (n : Nat) (ts : List Tok), ts.length ≤ k → truthF p n ts = truthF p' n ts
  | 0, ts, hk => h ts hk
  | n + 1, ts, hk => by
    have hp : ∀ s, (pieces s ts).map (truthF p n) = (pieces s ts).map (truthF p' n) := fun s =>
      List.map_congr_left fun x hx => truthF_congr h n x (Nat.le_trans (piece_short' hx) hk)
    unfold truthF
    rw [hp, hp, truthF_congr h n ts.tail (by simp; omega)]
    split_ifs
    · rfl
    · rfl
    · rfl
    · split
      · next r e =>
        rw [h ts hk, truthF_congr h n r (Nat.le_trans (inside_short e) hk)]
      · exact h ts hk

theorem truth_congr {p p' : List Tok → Tri} {k : Nat} (h : ∀ ts, ts.length ≤ k → p ts = p' ts) {ts : List Tok}
    (hk : ts.length ≤ k) : truth p ts = truth p' ts := truthF_congr h _ ts hk

section
variable {V : Type}

/-- Two servers that do the same with conditions and tables of at most `k` tokens. -/
structure SameUpTo (k : Nat) (sv sv' : Server V) (s s' : Sources V) : Prop where
  predicate : ∀ row ts, ts.length ≤ k → sv.predicate row ts = sv'.predicate row ts
  join : s.join = s'.join
  product : s.product = s'.product
  table : ∀ a l, a.length ≤ k → s.table a l = s'.table a l

variable {k : Nat} {sv sv' : Server V} {s s' : Sources V}

private theorem same_table (h : SameUpTo k sv sv' s s') {ts : List Tok} (hk : ts.length ≤ k) :
    tableRows s ts = tableRows s' ts := by
  unfold tableRows
  split
  · next n a e =>
    have : n.length ≤ ts.length := piece_short' (s := .word L!"AS") (by rw [e]; simp)
    exact h.table _ _ (by omega)
  · exact h.table _ _ hk

private theorem same_truth (h : SameUpTo k sv sv' s s') {ts : List Tok} (hk : ts.length ≤ k) (row : Tuple V) :
    truth (sv.predicate row) ts = truth (sv'.predicate row) ts := truth_congr (h.predicate row) hk

private theorem same_joins (h : SameUpTo k sv sv' s s') : ∀ (ps : List (List Tok)) (rows : List (Tuple V))
    (kind : List Tok), (∀ p ∈ ps, p.length ≤ k) → joinRows sv s rows kind ps = joinRows sv' s' rows kind ps
  | [], _, _, _ => rfl
  | p :: ps, rows, kind, hp => by
    have hps := fun q hq => hp q (List.mem_cons_of_mem _ hq)
    have hc : (cutKind p).1.length ≤ k := Nat.le_trans (cut_short p) (hp p (by simp))
    unfold joinRows
    rw [h.join]
    split
    · next t c e =>
      have h1 : t.length ≤ (cutKind p).1.length := piece_short' (s := .word L!"ON") (by rw [e]; simp)
      have h2 : c.length ≤ (cutKind p).1.length := piece_short' (s := .word L!"ON") (by rw [e]; simp)
      rw [same_table h (by omega : t.length ≤ k)]
      simp only [same_truth h (by omega : c.length ≤ k)]
      exact same_joins h ps _ _ hps
    · rw [same_table h hc]
      exact same_joins h ps _ _ hps

private theorem same_from (h : SameUpTo k sv sv' s s') {ts : List Tok} (hk : ts.length ≤ k) :
    fromRows sv s ts = fromRows sv' s' ts := by
  unfold fromRows
  rw [h.product]
  congr 1
  refine List.map_congr_left fun x hx => ?_
  have hx : x.length ≤ k := Nat.le_trans (piece_short' hx) hk
  unfold itemRows
  split
  · rfl
  · next p ps e =>
    have hp : ∀ q ∈ p :: ps, q.length ≤ k := fun q hq =>
      Nat.le_trans (piece_short' (s := .word L!"JOIN") (by rw [e]; exact hq)) hx
    rw [same_table h (Nat.le_trans (cut_short p) (hp p (by simp)))]
    exact same_joins h ps _ _ fun q hq => hp q (List.mem_cons_of_mem _ hq)

/-- Two servers that do the same with conditions and tables of at most `k` tokens give the same answer to queries of at
most `k` tokens. -/
theorem same_answer (h : SameUpTo k sv sv' s s') (sort : Sorter V) (gr : Grouper V) {ts : List Tok}
    (hk : ts.length ≤ k) :
    groupedAnswer sv sort gr ts (fromRows sv s) = groupedAnswer sv' sort gr ts (fromRows sv' s') := by
  have h1 : ∀ row, chooses sv selectClauses ts row = chooses sv' selectClauses ts row := fun row => by
    unfold chooses
    simp only [same_truth h (Nat.le_trans (body_short _ _ ts) hk)]
  have h2 : ∀ row, keepsGroup sv ts row = keepsGroup sv' ts row := fun row => by
    unfold keepsGroup
    simp only [same_truth h (Nat.le_trans (body_short _ _ ts) hk)]
  unfold groupedAnswer
  rw [same_from h (Nat.le_trans (body_short _ _ ts) hk), funext h1, funext h2]

end

end SqlPuzzle
