import Verif.Proofs.UniqStatement
import Verif.Proofs.Mono
import Verif.Props.Statement
import Verif.Spec.UnionTexts

/-!
Unions are texts that can be read in one way only, except for the parentheses.
-/

namespace SqlPuzzle

open Spec

/-- The operator between two selects. -/
def unionWord (all : Bool) : Str := if all then L!" UNION ALL " else L!" UNION "

/-- The selects after the first one and their text. -/
inductive OthersT (q : Char) (T : Texts) : List (Bool × Select) → Str → Prop
  | nil : OthersT q T [] []
  | cons {all s u r w} : SubT q T s u → OthersT q T r w → OthersT q T ((all, s) :: r) (unionWord all ++ (u ++ w))

theorem OthersT.append {q : Char} {T : Texts} {r r' : List (Bool × Select)} {w w' : Str} (h : OthersT q T r w)
    (h' : OthersT q T r' w') : OthersT q T (r ++ r') (w ++ w') := by
  induction h with
  | nil => exact h'
  | @cons all s u r w h1 _ ih =>
    have := OthersT.cons (all := all) h1 ih
    simpa only [List.cons_append, List.append_assoc] using this

theorem others_ok {q : Char} {T : Texts} {r : List (Bool × Select)} {w : Str} (h : OthersT q T r w) :
    Ok selectStops w := by
  cases h with
  | nil => exact ok_end (by decide)
  | @cons all s u r w h1 h2 =>
    have : ∀ w ∈ selectStops, Unlike L!" UNION " w := by decide
    cases all with
    | false => exact ok_blank fun v hv => (this v hv).not_prefix _
    | true =>
      have h3 : unionWord true ++ (u ++ w) = L!" UNION " ++ (L!"ALL " ++ (u ++ w)) := by
        rw [← List.append_assoc]
        rfl
      rw [h3]
      exact ok_blank fun v hv => (this v hv).not_prefix _

theorem others_uniq {q : Char} (hq : q = '"' ∨ q = '`') {T : Texts} (G : Good q T) {r r' : List (Bool × Select)}
    {w : Str} (h : OthersT q T r w) (h' : OthersT q T r' w) : r = r' := by
  have word : ∀ {all all' : Bool} {s s' : Select} {u u' w w' : Str}, SubT q T s u → SubT q T s' u' →
      unionWord all ++ (u ++ w) = unionWord all' ++ (u' ++ w') → all = all' ∧ u ++ w = u' ++ w' := by
    rintro all all' s s' _ _ w w' ⟨u, rfl, _⟩ ⟨u', rfl, _⟩ e
    cases all <;> cases all'
    · exact ⟨rfl, List.append_cancel_left e⟩
    · exact (apart (u := L!" UNION SELECT") (w := L!" UNION ALL ") (x := u ++ w) (by decide) e).elim
    · exact (apart (u := L!" UNION SELECT") (w := L!" UNION ALL ") (x := u' ++ w') (by decide) e.symm).elim
    · exact ⟨rfl, List.append_cancel_left e⟩
  have none : ∀ {all : Bool} {v : Str}, unionWord all ++ v ≠ [] := by
    intro all v e
    cases all <;> cases e
  generalize hw : w = w' at h'
  induction h generalizing r' w' with
  | nil =>
    cases h' with
    | nil => rfl
    | cons _ _ => exact absurd hw.symm none
  | cons h1 h2 ih =>
    cases h' with
    | nil => exact absurd hw none
    | cons h3 h4 =>
      obtain ⟨rfl, e⟩ := word h1 h3 hw
      obtain ⟨rfl, e⟩ := sub_uniq hq G h1 h3 (others_ok h2) (others_ok h4) e
      rw [ih _ e h4]

/-- The expression and its text. -/
theorem union_text {cx : Ctx} {n k : Nat} (hk : n ≤ k) {u : UnionTree} {t : Str}
    (hu : ∀ q ∈ u.selects, TidySelect cx n q) {m : Nat} (hm : m ≤ n + 1) (h : (sem cx m).str u.obj = .ok t) :
    ∃ a w, SubT cx.backend.quote (texts cx.backend.quote k) u.first a ∧
      OthersT cx.backend.quote (texts cx.backend.quote k) u.others w ∧ t = a ++ w := by
  have G := good_texts (quote_cases cx) k
  have hR := read_all cx n k hk
  have two : ∀ {l r : UnionTree} {all : Bool} {m : Nat} {t : Str},
      (∀ {t m}, m ≤ n + 1 → (sem cx m).str l.obj = .ok t →
        ∃ a w, SubT cx.backend.quote (texts cx.backend.quote k) l.first a ∧
          OthersT cx.backend.quote (texts cx.backend.quote k) l.others w ∧ t = a ++ w) →
      (∀ {t m}, m ≤ n + 1 → (sem cx m).str r.obj = .ok t →
        ∃ a w, SubT cx.backend.quote (texts cx.backend.quote k) r.first a ∧
          OthersT cx.backend.quote (texts cx.backend.quote k) r.others w ∧ t = a ++ w) →
      m ≤ n + 1 → (sem cx m).str (.union l.obj r.obj all) = .ok t →
      ∃ a w, SubT cx.backend.quote (texts cx.backend.quote k) l.first a ∧
        OthersT cx.backend.quote (texts cx.backend.quote k) (l.others ++ (all, r.first) :: r.others) w ∧
        t = a ++ w := by
    intro l r all m t il ir hm h
    cases m with
    | zero => cases h
    | succ m =>
      obtain ⟨x, h1, h⟩ := bind_ok.mp (show ((sem cx m).str l.obj >>= fun x => (sem cx m).str r.obj >>= fun y =>
        (.ok (x ++ ' ' :: (if all then L!"UNION ALL" else L!"UNION") ++ ' ' :: y) : R Str)) = .ok t from h)
      obtain ⟨y, h2, h⟩ := bind_ok.mp h
      cases h
      obtain ⟨a, w, a1, a2, rfl⟩ := il (by omega) h1
      obtain ⟨b, v, b1, b2, rfl⟩ := ir (by omega) h2
      refine ⟨a, w ++ (unionWord all ++ (b ++ v)), a1, a2.append (.cons b1 b2), ?_⟩
      cases all <;> simp [unionWord]
  induction u generalizing t m with
  | sel q =>
    have h : (sem cx m).str (.select q) = .ok t := h
    have h' : (sem cx (n + 1)).str (.select q) = .ok t := by
      rcases (sem_le cx hm).str (.select q) with e | e
      · rw [e] at h
        cases h
      · rw [← e]
        exact h
    exact ⟨t, [], select_text G hR (hu q (by simp [UnionTree.selects])) ((C52_select cx n q t).mp h'), .nil, by simp⟩
  | all l r il ir =>
    exact two (fun hm h => il (fun q hq => hu q (by simp [UnionTree.selects, hq])) hm h)
      (fun hm h => ir (fun q hq => hu q (by simp [UnionTree.selects, hq])) hm h) hm h
  | distinct l r il ir =>
    exact two (fun hm h => il (fun q hq => hu q (by simp [UnionTree.selects, hq])) hm h)
      (fun hm h => ir (fun q hq => hu q (by simp [UnionTree.selects, hq])) hm h) hm h

end SqlPuzzle
