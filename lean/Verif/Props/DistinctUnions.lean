import Verif.Proofs.UniqUnion

/-!
C59 for unions: the text tells the selects and the operators between them.
-/

namespace SqlPuzzle

open Spec

private def cx0 : Ctx := ⟨.sql, ⟨id, id, fun _ => true, fun _ => [], fun _ => []⟩⟩

/-- C59 for unions, as stated. -/
def C59_union_claim : Prop :=
  ∀ (cx : Ctx) (n m : Nat) (u v : UnionTree) (t : Str), (∀ q ∈ u.selects, TidySelect cx n q) →
    (∀ q ∈ v.selects, TidySelect cx m q) → (sem cx (n + 1)).str u.obj = .ok t →
    (sem cx (m + 1)).str v.obj = .ok t → u = v

private theorem select_tidy (c : Str) (h : c ≠ [] ∧ '.' ∉ c ∧ '"' ∉ c) (h' : c ≠ ['*']) :
    TidySelect cx0 5 { columns := [⟨.str c, .none⟩] } := by
  refine ⟨?_, by simp, by simp, by simp, by simp, by simp, ⟨trivial, trivial, trivial, trivial⟩, fun _ => rfl⟩
  intro x hx
  rw [List.mem_singleton.mp hx]
  exact ⟨.inl (.inl ⟨c, rfl, c, [], fun x hx => List.mem_singleton.mp hx ▸ h, h', by simp [dotted]⟩), .inl rfl⟩

private def one (c : Str) : UnionTree := .sel { columns := [⟨.str c, .none⟩] }

/-- It is false: `(a & b) | c` and `a & (b | c)` have the same text, without parentheses. -/
theorem C59_refuted_union : ¬ C59_union_claim := by
  intro h
  have := h cx0 5 5 (.distinct (.all (one L!"a") (one L!"b")) (one L!"c"))
    (.all (one L!"a") (.distinct (one L!"b") (one L!"c")))
    L!"SELECT \"a\" UNION ALL SELECT \"b\" UNION SELECT \"c\""
    (by
      intro q hq
      simp only [UnionTree.selects, one, List.cons_append, List.nil_append, List.mem_cons, List.not_mem_nil,
        or_false] at hq
      rcases hq with rfl | rfl | rfl <;> exact select_tidy _ (by decide) (by decide))
    (by
      intro q hq
      simp only [UnionTree.selects, one, List.cons_append, List.nil_append, List.mem_cons, List.not_mem_nil,
        or_false] at hq
      rcases hq with rfl | rfl | rfl <;> exact select_tidy _ (by decide) (by decide))
    (by decide +kernel) (by decide +kernel)
  cases this

/-- C59 for unions: expressions with the same text have the same selects in the same order, with the same
operators between them. -/
theorem C59_union_partial (cx : Ctx) (n m : Nat) (u v : UnionTree) (t : Str)
    (hu : ∀ q ∈ u.selects, TidySelect cx n q) (hv : ∀ q ∈ v.selects, TidySelect cx m q)
    (h1 : (sem cx (n + 1)).str u.obj = .ok t) (h2 : (sem cx (m + 1)).str v.obj = .ok t) :
    u.first = v.first ∧ u.others = v.others := by
  have G := good_texts (quote_cases cx) (max n m)
  obtain ⟨a, w, a1, a2, rfl⟩ := union_text (Nat.le_max_left n m) hu (Nat.le_refl _) h1
  obtain ⟨b, v, b1, b2, e⟩ := union_text (Nat.le_max_right n m) hv (Nat.le_refl _) h2
  obtain ⟨h3, rfl⟩ := sub_uniq (quote_cases cx) G a1 b1 (others_ok a2) (others_ok b2) e
  exact ⟨h3, others_uniq (quote_cases cx) G a2 b2⟩

/-- The expression made by adding selects one by one. -/
private def build (u : UnionTree) (r : List (Bool × Select)) : UnionTree :=
  r.foldl (fun u p => if p.1 then .all u (.sel p.2) else .distinct u (.sel p.2)) u

private theorem build_oneByOne {u : UnionTree} (h : u.OneByOne) : build (.sel u.first) u.others = u := by
  induction u with
  | sel q => rfl
  | all l r ih _ =>
    obtain ⟨h1, q, rfl⟩ := h
    have := ih h1
    simp only [build] at this
    simp only [UnionTree.first, UnionTree.others, build, List.foldl_append, List.foldl_cons, List.foldl_nil, this,
      if_true]
  | distinct l r ih _ =>
    obtain ⟨h1, q, rfl⟩ := h
    have := ih h1
    simp only [build] at this
    simp only [UnionTree.first, UnionTree.others, build, List.foldl_append, List.foldl_cons, List.foldl_nil, this,
      Bool.false_eq_true, if_false]

/-- C59 for unions to which selects are added one by one, such as `a & b | c`: the text tells the union. -/
theorem C59_union_built (cx : Ctx) (n m : Nat) (u v : UnionTree) (t : Str) (hu1 : u.OneByOne) (hv1 : v.OneByOne)
    (hu : ∀ q ∈ u.selects, TidySelect cx n q) (hv : ∀ q ∈ v.selects, TidySelect cx m q)
    (h1 : (sem cx (n + 1)).str u.obj = .ok t) (h2 : (sem cx (m + 1)).str v.obj = .ok t) : u = v := by
  obtain ⟨h3, h4⟩ := C59_union_partial cx n m u v t hu hv h1 h2
  rw [← build_oneByOne hu1, ← build_oneByOne hv1, h3, h4]

/-- Such an expression. -/
example : (UnionTree.distinct (.all (one L!"a") (one L!"b")) (one L!"c")).OneByOne ∧
    ∀ q ∈ (UnionTree.distinct (.all (one L!"a") (one L!"b")) (one L!"c")).selects, TidySelect cx0 5 q := by
  refine ⟨⟨⟨trivial, _, rfl⟩, _, rfl⟩, fun q hq => ?_⟩
  simp only [UnionTree.selects, one, List.cons_append, List.nil_append, List.mem_cons, List.not_mem_nil,
    or_false] at hq
  rcases hq with rfl | rfl | rfl <;> exact select_tidy _ (by decide) (by decide)

end SqlPuzzle
