import Verif.Spec.Unions
import Verif.Proofs.TruthTree
import Verif.Proofs.ClauseBody

/-!
Tokens of unions, and the bags they denote.
-/

namespace SqlPuzzle

open Spec

/-! ### Bags -/

section
variable {Row : Type}

/-- Connect one more bag. -/
def addNext (b : Bag Row) (x : Bool × Bag Row) : Bag Row := if x.1 then b.addAll x.2 else b.addDistinct x.2

/-- The bags of the selects of an expression, in the order of the text. -/
def bagHead (leaf : Obj → Bag Row) : UnionTree → Bag Row
  | .sel q => leaf (.select q)
  | .all l _ => bagHead leaf l
  | .distinct l _ => bagHead leaf l

def bagRest (leaf : Obj → Bag Row) : UnionTree → List (Bool × Bag Row)
  | .sel _ => []
  | .all l r => bagRest leaf l ++ (true, bagHead leaf r) :: bagRest leaf r
  | .distinct l r => bagRest leaf l ++ (false, bagHead leaf r) :: bagRest leaf r

theorem add_pos (a b : Bag Row) (r : Row) :
    (0 < a.addAll b r ↔ 0 < a r ∨ 0 < b r) ∧ (0 < a.addDistinct b r ↔ 0 < a r ∨ 0 < b r) := by
  constructor
  · show 0 < a r + b r ↔ _
    omega
  · show 0 < min 1 (a r + b r) ↔ _
    omega

theorem foldl_pos (xs : List (Bool × Bag Row)) (r : Row) : ∀ b : Bag Row,
    0 < xs.foldl addNext b r ↔ 0 < b r ∨ ∃ x ∈ xs, 0 < x.2 r := by
  induction xs with
  | nil => intro b; simp
  | cons x xs ih =>
    intro b
    rw [List.foldl_cons, ih]
    have : 0 < addNext b x r ↔ 0 < b r ∨ 0 < x.2 r := by
      unfold addNext
      split
      · exact (add_pos b x.2 r).1
      · exact (add_pos b x.2 r).2
    rw [this]
    simp only [List.mem_cons, exists_eq_or_imp]
    exact or_assoc

theorem bag_pos (leaf : Obj → Bag Row) (r : Row) : ∀ tr : UnionTree,
    0 < tr.bag leaf r ↔ 0 < bagHead leaf tr r ∨ ∃ x ∈ bagRest leaf tr, 0 < x.2 r
  | .sel q => by simp [UnionTree.bag, bagHead, bagRest]
  | .all a b => by
    simp only [UnionTree.bag, bagHead, bagRest]
    rw [(add_pos _ _ r).1, bag_pos leaf r a, bag_pos leaf r b]
    simp only [List.mem_append, List.mem_cons, or_and_right, exists_or, exists_eq_left]
    exact or_assoc
  | .distinct a b => by
    simp only [UnionTree.bag, bagHead, bagRest]
    rw [(add_pos _ _ r).2, bag_pos leaf r a, bag_pos leaf r b]
    simp only [List.mem_append, List.mem_cons, or_and_right, exists_or, exists_eq_left]
    exact or_assoc

theorem foldl_distinct {xs : List (Bool × Bag Row)} {y : Bag Row} (b : Bag Row) (r : Row) :
    (xs ++ [(false, y)]).foldl addNext b r ≤ 1 := by
  rw [List.foldl_append]
  show min 1 _ ≤ 1
  omega

/-- The last operator. -/
theorem rest_last (leaf : Obj → Bag Row) : ∀ tr : UnionTree, tr.endsDistinct = true →
    bagRest leaf tr = [] ∨ ∃ xs y, bagRest leaf tr = xs ++ [(false, y)]
  | .sel q, _ => .inl rfl
  | .all l (.sel q), h => by simp [UnionTree.endsDistinct] at h
  | .all l (.all a b), h => by
    have h' : (UnionTree.all a b).endsDistinct = true := h
    rcases rest_last leaf (.all a b) h' with e | ⟨xs, y, e⟩
    · exact absurd e (by simp [bagRest])
    · exact .inr ⟨bagRest leaf l ++ (true, bagHead leaf (.all a b)) :: xs, y, by
        rw [bagRest, e]; simp⟩
  | .all l (.distinct a b), h => by
    have h' : (UnionTree.distinct a b).endsDistinct = true := h
    rcases rest_last leaf (.distinct a b) h' with e | ⟨xs, y, e⟩
    · exact absurd e (by simp [bagRest])
    · exact .inr ⟨bagRest leaf l ++ (true, bagHead leaf (.distinct a b)) :: xs, y, by
        rw [bagRest, e]; simp⟩
  | .distinct l r, h => by
    have h' : r.endsDistinct = true := h
    rcases rest_last leaf r h' with e | ⟨xs, y, e⟩
    · exact .inr ⟨bagRest leaf l, bagHead leaf r, by rw [bagRest, e]⟩
    · exact .inr ⟨bagRest leaf l ++ (false, bagHead leaf r) :: xs, y, by rw [bagRest, e]; simp⟩

theorem addAll_assoc (a b c : Bag Row) : (a.addAll b).addAll c = a.addAll (b.addAll c) := by
  funext r
  show a r + b r + c r = a r + (b r + c r)
  omega

theorem foldl_onlyAll {xs : List (Bool × Bag Row)} (h : ∀ x ∈ xs, x.1 = true) : ∀ a b : Bag Row,
    xs.foldl addNext (a.addAll b) = a.addAll (xs.foldl addNext b) := by
  induction xs with
  | nil => intro a b; rfl
  | cons x xs ih =>
    intro a b
    have hx := h x (by simp)
    simp only [List.foldl_cons, addNext, hx, if_true]
    rw [addAll_assoc, ih (fun y hy => h y (List.mem_cons_of_mem _ hy))]

theorem rest_onlyAll (leaf : Obj → Bag Row) : ∀ tr : UnionTree, tr.onlyAll = true →
    (∀ x ∈ bagRest leaf tr, x.1 = true) ∧ (bagRest leaf tr).foldl addNext (bagHead leaf tr) = tr.bag leaf
  | .sel q, _ => ⟨by simp [bagRest], rfl⟩
  | .all a b, h => by
    simp only [UnionTree.onlyAll, Bool.and_eq_true] at h
    obtain ⟨ha, ea⟩ := rest_onlyAll leaf a h.1
    obtain ⟨hb, eb⟩ := rest_onlyAll leaf b h.2
    constructor
    · intro x hx
      simp only [bagRest, List.mem_append, List.mem_cons] at hx
      rcases hx with hx | rfl | hx
      · exact ha x hx
      · rfl
      · exact hb x hx
    · simp only [bagRest, bagHead, List.foldl_append, List.foldl_cons, ea]
      show (bagRest leaf b).foldl addNext ((a.bag leaf).addAll (bagHead leaf b)) = _
      rw [foldl_onlyAll hb, eb]
      rfl

/-- Regular expressions denote what their text, read from left to right, denotes. -/
theorem regular_fold (leaf : Obj → Bag Row) : ∀ tr : UnionTree, tr.Regular →
    (bagRest leaf tr).foldl addNext (bagHead leaf tr) = tr.bag leaf
  | .sel q, _ => rfl
  | .all a b, h => by
    have ea := regular_fold leaf a h.1
    obtain ⟨hb, eb⟩ := rest_onlyAll leaf b h.2
    simp only [bagRest, bagHead, List.foldl_append, List.foldl_cons, ea]
    show (bagRest leaf b).foldl addNext ((a.bag leaf).addAll (bagHead leaf b)) = _
    rw [foldl_onlyAll hb, eb]
    rfl
  | .distinct a b, h => by
    funext r
    have hp : 0 < (bagRest leaf (.distinct a b)).foldl addNext (bagHead leaf (.distinct a b)) r ↔
        0 < (UnionTree.distinct a b).bag leaf r := by
      rw [foldl_pos, bag_pos]
    have h1 : (bagRest leaf (.distinct a b)).foldl addNext (bagHead leaf (.distinct a b)) r ≤ 1 := by
      rcases rest_last leaf (.distinct a b) h with e | ⟨xs, y, e⟩
      · exact absurd e (by simp [bagRest])
      · rw [e]; exact foldl_distinct _ r
    have h2 : (UnionTree.distinct a b).bag leaf r ≤ 1 := by
      show min 1 _ ≤ 1
      omega
    omega

end

/-! ### Tokens -/

theorem splitAt_quiet {w : Str} (ts r : List Tok) : ∀ n, clausesAt [w] n ts = [] →
    Spec.splitAt (.word w) n (ts ++ r) = fronts ts (Spec.splitAt (.word w) (depthAfter n ts) r) := by
  induction ts with
  | nil => intro n _; exact fronts_nil.symm
  | cons t ts ih =>
    intro n h
    rw [List.cons_append]
    conv => lhs; unfold Spec.splitAt
    unfold depthAfter
    by_cases h1 : t = .sym '('
    · subst h1
      rw [if_pos rfl, if_pos rfl, ih _ h, fronts_cons]
    · by_cases h2 : t = .sym ')'
      · subst h2
        rw [if_neg h1, if_pos rfl, if_neg h1, if_pos rfl, ih _ h, fronts_cons]
      · rw [if_neg h1, if_neg h2, if_neg h1, if_neg h2]
        cases n with
        | succ n =>
          rw [clausesAt_deep h1 h2] at h
          rw [if_neg (by simp), ih _ h, fronts_cons]
        | zero =>
          by_cases h3 : t = .word w
          · subst h3
            rw [clausesAt_hit (by simp)] at h
            cases h
          · have h3' : ∀ x ∈ [w], t ≠ .word x := fun x hx e => h3 (by rw [e, List.mem_singleton.mp hx])
            rw [clausesAt_other h1 h2 h3'] at h
            rw [if_neg (fun k => h3 k.2), ih _ h, fronts_cons]

theorem Quiet.whole {w : Str} {ts : List Tok} (h : Quiet [w] ts) : Whole (.word w) ts := by
  intro r
  have f := h.facts (List.mem_singleton_self w)
  rw [splitAt_quiet ts r 0 f.1, f.2]

/-- Words that stand outside parentheses in a select without tail clauses, besides options. -/
def selectHeads : List Str := [L!"SELECT", L!"FROM", L!"WHERE", L!"GROUP", L!"BY", L!"HAVING"]

section
variable {cx : Ctx} {S : Sem} {d : Dialect} {T : Obj → List Tok} {P : Kind → Obj → Prop}

theorem quiet_select (ih : Phrases T P) {ws : List Str} (hw : ∀ w ∈ ws, w ∉ innerWords)
    (hw1 : ∀ w ∈ selectWords, w ∉ ws) (hw2 : ∀ w ∈ selectHeads, w ∉ ws) {q : Select}
    (h : safeSelect cx.backend.quote P q) (ht : Select.NoTail q) : Quiet ws (selectToks cx S d T q) := by
  obtain ⟨h1, h2, h3, h4, h5, h6, h7, h8, h9, h10⟩ := h
  obtain ⟨t1, t2, t3, t4, t5⟩ := ht
  have hopt : ∀ w ∈ sortBy strLe q.opts.words, w ∉ ws := fun w hm =>
    hw1 w (words_mem q.opts ((sortBy_perm strLe q.opts.words).mem_iff.mp hm))
  have sub : ∀ {kw : List Str}, (∀ u ∈ kw, u ∈ selectHeads) → ∀ u ∈ kw, u ∉ ws :=
    fun h u hu => hw2 u (h u hu)
  have e : selectToks cx S d T q = .word L!"SELECT" :: (words (sortBy strLe q.opts.words) ++
      (columnsToks cx T q.columns ++ (tablesToks cx S d T [L!"FROM"] q.tables ++
      (condsToks cx d T [L!"WHERE"] q.where_ ++ (ordersToks cx T [L!"GROUP", L!"BY"] q.groupBy ++
      condsToks cx d T [L!"HAVING"] q.having))))) := by
    unfold selectToks
    have o1 : ordersToks cx T [L!"ORDER", L!"BY"] q.orderBy = [] := by rw [t1]; rfl
    have o2 : intOptToks [L!"LIMIT"] q.limit.limit = [] := by rw [t2]; rfl
    have o3 : intOptToks [L!"OFFSET"] q.limit.offset = [] := by rw [t3]; rfl
    have o4 : outfileToks cx d T q.outfile = [] := by unfold outfileToks; rw [t4]; rfl
    rw [o1, o2, o3, o4, t5]
    simp [optToks]
  rw [e]
  exact .word (hw2 _ (by decide)) ((quiet_words hopt).append
    ((g_quiet hw (g_columns ih h1) trivial trivial).append
    ((quiet_opt hw (g_tables ih (S := S) (d := d) [L!"FROM"] h2) (by simp [words]) (by fine) trivial
      (sub (by decide))).append ((quiet_opt hw (g_condsOpt ih (d := d) [L!"WHERE"] h3) (by simp [words])
      trivial trivial (sub (by decide))).append ((quiet_opt hw (g_orders ih [L!"GROUP", L!"BY"] h4)
      (by simp [words]) (by fine) trivial (sub (by decide))).append
      (quiet_opt hw (g_condsOpt ih (d := d) [L!"HAVING"] h5) (by simp [words])
      trivial trivial (sub (by decide))))))))

end

section
variable {cx : Ctx} {d : Dialect} {Row : Type} {sel : List Tok → Bag Row}
  {cut : List Tok → Bag Row → Bag Row} {leaf : Obj → Bag Row}

/-- What stands before a select in a union. -/
def allToks (b : Bool) : List Tok := if b then [.word L!"ALL"] else []

/-- The tokens of the selects of an expression, as they stand between the words `UNION`. -/
def toksHead (cx : Ctx) (d : Dialect) : Nat → UnionTree → List Tok
  | n, .sel q => toks cx d n (.select q)
  | n + 1, .all l _ => toksHead cx d n l
  | n + 1, .distinct l _ => toksHead cx d n l
  | 0, _ => []

def toksRest (cx : Ctx) (d : Dialect) : Nat → UnionTree → List (Bool × List Tok)
  | _, .sel _ => []
  | n + 1, .all l r => toksRest cx d n l ++ (true, toksHead cx d n r) :: toksRest cx d n r
  | n + 1, .distinct l r => toksRest cx d n l ++ (false, toksHead cx d n r) :: toksRest cx d n r
  | 0, _ => []

/-- Tokens of a rest. -/
def restToks (xs : List (Bool × List Tok)) : List Tok :=
  xs.flatMap fun x => .word L!"UNION" :: (allToks x.1 ++ x.2)

theorem safe_union {q : Char} {n : Nat} {a b : Obj} {t : Bool}
    (h : Safe q (n + 1) .query (.union a b t)) : Safe q n .query a ∧ Safe q n .query b := h

theorem toks_union (cx : Ctx) (d : Dialect) : ∀ (tr : UnionTree) (n : Nat), Safe cx.backend.quote n .query tr.obj →
    toks cx d n tr.obj = toksHead cx d n tr ++ restToks (toksRest cx d n tr)
  | .sel q, n, _ => by simp [toksHead, toksRest, restToks, UnionTree.obj]
  | .all l r, 0, h => h.elim
  | .all l r, n + 1, h => by
    have hl := toks_union cx d l n (safe_union h).1
    have hr := toks_union cx d r n (safe_union h).2
    show toks cx d n l.obj ++ (words [L!"UNION", L!"ALL"] ++ toks cx d n r.obj) = _
    rw [hl, hr]
    simp [toksHead, toksRest, restToks, words, allToks]
  | .distinct l r, 0, h => h.elim
  | .distinct l r, n + 1, h => by
    have hl := toks_union cx d l n (safe_union h).1
    have hr := toks_union cx d r n (safe_union h).2
    show toks cx d n l.obj ++ (words [L!"UNION"] ++ toks cx d n r.obj) = _
    rw [hl, hr]
    simp [toksHead, toksRest, restToks, words, allToks]

/-- A phrase that stands between the words `UNION`. -/
def Part (ts : List Tok) : Prop :=
  Quiet [L!"UNION"] ts ∧ Quiet tailWords ts ∧ ts.head? = some (.word L!"SELECT")

theorem part_select {n : Nat} {q : Select} (h : Safe cx.backend.quote n .query (.select q))
    (ht : Select.NoTail q) : Part (toks cx d n (.select q)) := by
  cases n with
  | zero => exact h.elim
  | succ n =>
    have h' : safeSelect cx.backend.quote (Safe cx.backend.quote n) q := h
    exact ⟨quiet_select (phrases_sem cx d n) (by decide) (by decide) (by decide) h' ht,
      quiet_select (phrases_sem cx d n) (by decide) (by decide) (by decide) h' ht, rfl⟩

theorem parts_union : ∀ (tr : UnionTree) (n : Nat), Safe cx.backend.quote n .query tr.obj → tr.NoTail →
    Part (toksHead cx d n tr) ∧ ∀ x ∈ toksRest cx d n tr, Part x.2
  | .sel q, n, h, ht => by
    refine ⟨?_, by intro x hx; simp [toksRest] at hx⟩
    have := part_select (d := d) h ht
    simpa [toksHead] using this
  | .all l r, 0, h, _ => h.elim
  | .all l r, n + 1, h, ht => by
    obtain ⟨l1, l2⟩ := parts_union l n (safe_union h).1 ht.1
    obtain ⟨r1, r2⟩ := parts_union r n (safe_union h).2 ht.2
    refine ⟨l1, fun x hx => ?_⟩
    simp only [toksRest, List.mem_append, List.mem_cons] at hx
    rcases hx with hx | rfl | hx
    · exact l2 x hx
    · exact r1
    · exact r2 x hx
  | .distinct l r, 0, h, _ => h.elim
  | .distinct l r, n + 1, h, ht => by
    obtain ⟨l1, l2⟩ := parts_union l n (safe_union h).1 ht.1
    obtain ⟨r1, r2⟩ := parts_union r n (safe_union h).2 ht.2
    refine ⟨l1, fun x hx => ?_⟩
    simp only [toksRest, List.mem_append, List.mem_cons] at hx
    rcases hx with hx | rfl | hx
    · exact l2 x hx
    · exact r1
    · exact r2 x hx

theorem all_quiet {ws : List Str} (b : Bool) (h : L!"ALL" ∉ ws) : Quiet ws (allToks b) := by
  cases b
  · exact quiet_nil
  · exact .word h quiet_nil

theorem rest_quiet {xs : List (Bool × List Tok)} (h : ∀ x ∈ xs, Part x.2) : Quiet tailWords (restToks xs) := by
  induction xs with
  | nil => exact quiet_nil
  | cons x xs ih =>
    have := ih fun y hy => h y (List.mem_cons_of_mem _ hy)
    show Quiet tailWords ((.word L!"UNION" :: (allToks x.1 ++ x.2)) ++ restToks xs)
    exact Quiet.append (.word (by decide) ((all_quiet _ (by decide)).append (h x (by simp)).2.1)) this

theorem pieces_rest {xs : List (Bool × List Tok)} : ∀ {ts : List Tok}, Quiet [L!"UNION"] ts →
    (∀ x ∈ xs, Part x.2) →
    pieces (.word L!"UNION") (ts ++ restToks xs) = ts :: xs.map fun x => allToks x.1 ++ x.2 := by
  induction xs with
  | nil => intro ts h _; simpa [restToks] using h.whole.one
  | cons x xs ih =>
    intro ts h hx
    have e : ts ++ restToks (x :: xs) =
        ts ++ (.word L!"UNION" :: ((allToks x.1 ++ x.2) ++ restToks xs)) := by
      simp [restToks]
    rw [e, h.whole.cut (by simp) (by simp), ih ((all_quiet _ (by decide)).append (hx x (by simp)).1)
      (fun y hy => hx y (List.mem_cons_of_mem _ hy))]
    rfl

theorem next_part (b : Bag Row) (x : Bool × List Tok) (h : Part x.2) :
    nextQuery sel b (allToks x.1 ++ x.2) = addNext b (x.1, sel x.2) := by
  obtain ⟨c, ts⟩ := x
  cases c with
  | true => rfl
  | false =>
    unfold nextQuery addNext allToks
    simp only [Bool.false_eq_true, if_false, List.nil_append]
    rw [if_neg]
    rw [h.2.2]
    simp

theorem fold_parts {xs : List (Bool × List Tok)} (h : ∀ x ∈ xs, Part x.2) : ∀ b : Bag Row,
    (xs.map fun x => allToks x.1 ++ x.2).foldl (nextQuery sel) b =
      (xs.map fun x => (x.1, sel x.2)).foldl addNext b := by
  induction xs with
  | nil => intro b; rfl
  | cons x xs ih =>
    intro b
    simp only [List.map_cons, List.foldl_cons]
    rw [next_part b x (h x (by simp)), ih fun y hy => h y (List.mem_cons_of_mem _ hy)]

/-- The bag of a union without tail clauses. -/
theorem bagOf_parts {ts : List Tok} {xs : List (Bool × List Tok)} (hc : ∀ b, cut [] b = b)
    (h : Part ts) (hx : ∀ x ∈ xs, Part x.2) :
    bagOf sel cut (ts ++ restToks xs) = (xs.map fun x => (x.1, sel x.2)).foldl addNext (sel ts) := by
  have hq : Quiet tailWords (ts ++ restToks xs) := h.2.1.append (rest_quiet hx)
  have hb : beforeAt tailWords 0 (ts ++ restToks xs) = ts ++ restToks xs := by
    have f := hq.facts (w := L!"ORDER") (by decide)
    have := beforeAt_split (ts ++ restToks xs) [] 0 f.1
    rw [List.append_nil, f.2] at this
    simpa [beforeAt] using this
  unfold bagOf
  rw [hb, List.drop_length, hc, pieces_rest h.1 hx]
  exact fold_parts hx _

/-- The selects have the bags that `leaf` gives. -/
theorem leaf_bags (hf : Fits cx d) (hc : ∀ b, cut [] b = b) (hl : LeafBag cx d sel cut leaf) :
    ∀ (tr : UnionTree) (n : Nat), Safe cx.backend.quote n .query tr.obj → tr.NoTail →
    (∃ t, (sem cx n).str tr.obj = .ok t) →
    sel (toksHead cx d n tr) = bagHead leaf tr ∧
      (toksRest cx d n tr).map (fun x => (x.1, sel x.2)) = bagRest leaf tr
  | .sel q, n, h, ht, ⟨t, e⟩ => by
    refine ⟨?_, by simp [toksRest, bagRest]⟩
    have hp := part_select (d := d) h ht
    have hb := bagOf_parts (sel := sel) (xs := []) hc hp (by simp)
    have e' : (sem cx n).str (.select q) = .ok t := e
    have := hl (.select q) n t e'
    rw [(rt_main hf n (h : Safe cx.backend.quote n .query (.select q)) e').reads.lex] at this
    simp only [toksHead, bagHead]
    rw [this]
    show _ = bagOf sel cut (toks cx d n (.select q))
    simpa [restToks] using hb.symm
  | .all l r, 0, h, _, _ => h.elim
  | .all l r, n + 1, h, ht, ⟨t, e⟩ => by
    simp only [UnionTree.obj, sem, renderF, bind_ok] at e
    obtain ⟨x, e1, y, e2, _⟩ := e
    obtain ⟨l1, l2⟩ := leaf_bags hf hc hl l n (safe_union h).1 ht.1 ⟨x, e1⟩
    obtain ⟨r1, r2⟩ := leaf_bags hf hc hl r n (safe_union h).2 ht.2 ⟨y, e2⟩
    exact ⟨l1, by simp only [toksRest, bagRest, List.map_append, List.map_cons, l2, r1, r2]⟩
  | .distinct l r, 0, h, _, _ => h.elim
  | .distinct l r, n + 1, h, ht, ⟨t, e⟩ => by
    simp only [UnionTree.obj, sem, renderF, bind_ok] at e
    obtain ⟨x, e1, y, e2, _⟩ := e
    obtain ⟨l1, l2⟩ := leaf_bags hf hc hl l n (safe_union h).1 ht.1 ⟨x, e1⟩
    obtain ⟨r1, r2⟩ := leaf_bags hf hc hl r n (safe_union h).2 ht.2 ⟨y, e2⟩
    exact ⟨l1, by simp only [toksRest, bagRest, List.map_append, List.map_cons, l2, r1, r2]⟩

end

/-! ### Exactness -/

/-- The selects of an expression, and how each but the first is connected. -/
def selHead : UnionTree → Select
  | .sel q => q
  | .all l _ => selHead l
  | .distinct l _ => selHead l

def selRest : UnionTree → List (Bool × Select)
  | .sel _ => []
  | .all l r => selRest l ++ (true, selHead r) :: selRest r
  | .distinct l r => selRest l ++ (false, selHead r) :: selRest r

theorem selects_eq : ∀ tr : UnionTree, tr.selects = selHead tr :: (selRest tr).map Prod.snd
  | .sel q => rfl
  | .all l r => by simp [UnionTree.selects, selHead, selRest, selects_eq l, selects_eq r]
  | .distinct l r => by simp [UnionTree.selects, selHead, selRest, selects_eq l, selects_eq r]

theorem bagHead_sel {Row : Type} (leaf : Obj → Bag Row) : ∀ tr : UnionTree,
    bagHead leaf tr = leaf (.select (selHead tr))
  | .sel _ => rfl
  | .all l _ => bagHead_sel leaf l
  | .distinct l _ => bagHead_sel leaf l

theorem bagRest_sel {Row : Type} (leaf : Obj → Bag Row) : ∀ tr : UnionTree,
    bagRest leaf tr = (selRest tr).map fun x => (x.1, leaf (.select x.2))
  | .sel q => rfl
  | .all l r => by simp [bagRest, selRest, bagRest_sel leaf l, bagRest_sel leaf r, bagHead_sel leaf r]
  | .distinct l r => by simp [bagRest, selRest, bagRest_sel leaf l, bagRest_sel leaf r, bagHead_sel leaf r]

/-- The last `UNION` without `ALL`. -/
theorem lastDistinct {α : Type} : ∀ xs : List (Bool × α), (∃ x ∈ xs, x.1 = false) →
    ∃ as y bs, xs = as ++ (false, y) :: bs ∧ ∀ x ∈ bs, x.1 = true
  | [], h => by obtain ⟨_, h, _⟩ := h; cases h
  | x :: xs, h => by
    by_cases hx : ∃ y ∈ xs, y.1 = false
    · obtain ⟨as, y, bs, e, hb⟩ := lastDistinct xs hx
      exact ⟨x :: as, y, bs, by rw [e]; rfl, hb⟩
    · have hb : ∀ y ∈ xs, y.1 = true := fun y hy => by
        cases e : y.1 with
        | true => rfl
        | false => exact absurd ⟨y, hy, e⟩ hx
      obtain ⟨z, hz, e⟩ := h
      rcases List.mem_cons.mp hz with rfl | hz
      · obtain ⟨c, q⟩ := z
        cases e
        exact ⟨[], q, xs, rfl, hb⟩
      · exact absurd ⟨z, hz, e⟩ hx

theorem not_onlyAll : ∀ tr : UnionTree, tr.onlyAll = false → ∃ x ∈ selRest tr, x.1 = false
  | .sel _, h => by cases h
  | .all l r, h => by
    simp only [UnionTree.onlyAll, Bool.and_eq_false_iff] at h
    rcases h with h | h
    · obtain ⟨x, hx, e⟩ := not_onlyAll l h
      exact ⟨x, by simp [selRest, hx], e⟩
    · obtain ⟨x, hx, e⟩ := not_onlyAll r h
      exact ⟨x, by simp [selRest, hx], e⟩
  | .distinct l r, _ => ⟨(false, selHead r), by simp [selRest], rfl⟩

theorem rest_all : ∀ tr : UnionTree, tr.endsDistinct = false → ∃ xs y, selRest tr = xs ++ [(true, y)]
  | .sel _, h => by cases h
  | .all l (.sel q), _ => ⟨selRest l, q, rfl⟩
  | .all l (.all a b), h => by
    obtain ⟨xs, y, e⟩ := rest_all (.all a b) h
    exact ⟨selRest l ++ (true, selHead (.all a b)) :: xs, y, by rw [selRest, e]; simp⟩
  | .all l (.distinct a b), h => by
    obtain ⟨xs, y, e⟩ := rest_all (.distinct a b) h
    exact ⟨selRest l ++ (true, selHead (.distinct a b)) :: xs, y, by rw [selRest, e]; simp⟩
  | .distinct l r, h => by
    obtain ⟨xs, y, e⟩ := rest_all r h
    exact ⟨selRest l ++ (false, selHead r) :: xs, y, by rw [selRest, e]; simp⟩

theorem foldl_zeros {xs : List (Bool × Bag Unit)} (h : ∀ x ∈ xs, x.1 = true ∧ x.2 () = 0) : ∀ b : Bag Unit,
    xs.foldl addNext b () = b () := by
  induction xs with
  | nil => intro b; rfl
  | cons x xs ih =>
    intro b
    obtain ⟨h1, h2⟩ := h x (by simp)
    rw [List.foldl_cons, ih fun y hy => h y (List.mem_cons_of_mem _ hy)]
    unfold addNext
    rw [if_pos h1]
    show b () + x.2 () = b ()
    omega

/-- An expression that denotes what its text, read from left to right, denotes, whatever its selects mean, is
regular. -/
theorem fold_regular {K : Type} [DecidableEq K] (key : Select → K) : ∀ tr : UnionTree, (tr.selects.map key).Nodup →
    (∀ v : K → Nat, ∀ leaf : Obj → Bag Unit, (∀ q ∈ tr.selects, leaf (.select q) = fun _ => v (key q)) →
      (bagRest leaf tr).foldl addNext (bagHead leaf tr) = tr.bag leaf) → tr.Regular
  | .sel _, _, _ => trivial
  | .all l r, hd, h => by
    have hd' := hd
    simp only [UnionTree.selects, List.map_append] at hd'
    have key_leaf : ∀ v : K → Nat, ∃ leaf : Obj → Bag Unit, ∀ q, leaf (.select q) = fun _ => v (key q) := fun v =>
      ⟨fun o => match o with | .select q => fun _ => v (key q) | _ => fun _ => 0, fun q => rfl⟩
    have hr : r.onlyAll = true := by
      by_contra hr
      rw [Bool.not_eq_true] at hr
      obtain ⟨as, y, bs, e, hb⟩ := lastDistinct _ (not_onlyAll r hr)
      obtain ⟨leaf, hleaf⟩ := key_leaf fun k => if k ∈ bs.map (fun x => key x.2) then 0 else 1
      have heq := congrFun (h (fun k => if k ∈ bs.map (fun x => key x.2) then 0 else 1) leaf fun q _ => hleaf q) ()
      rw [selects_eq r, e] at hd'
      simp only [List.map_cons, List.map_append, List.map_map] at hd'
      have hbs : ∀ x ∈ bs, (leaf (.select x.2) ()) = 0 := fun x hx => by
        rw [hleaf]
        exact if_pos (List.mem_map_of_mem (f := fun x : Bool × Select => key x.2) hx)
      have hl1 : leaf (.select (selHead l)) () = 1 := by
        rw [hleaf]
        refine if_neg fun hm => ?_
        obtain ⟨_, _, h3⟩ := List.nodup_append.mp hd'
        refine h3 (key (selHead l)) (by rw [selects_eq l]; simp) (key (selHead l)) ?_ rfl
        simp only [List.mem_cons, List.mem_append]
        exact .inr (.inr (.inr hm))
      have hr1 : leaf (.select (selHead r)) () = 1 := by
        rw [hleaf]
        refine if_neg fun hm => ?_
        obtain ⟨_, h2, _⟩ := List.nodup_append.mp hd'
        refine (List.nodup_cons.mp h2).1 ?_
        simp only [List.mem_append, List.mem_cons]
        exact .inr (.inr hm)
      have hbl : 0 < l.bag leaf () := (bag_pos leaf () l).mpr (.inl (by rw [bagHead_sel, hl1]; decide))
      have hbr : 0 < r.bag leaf () := (bag_pos leaf () r).mpr (.inl (by rw [bagHead_sel, hr1]; decide))
      have htree : (UnionTree.all l r).bag leaf () = l.bag leaf () + r.bag leaf () := rfl
      have htext : (bagRest leaf (.all l r)).foldl addNext (bagHead leaf (.all l r)) () ≤ 1 := by
        have e' : bagRest leaf (.all l r) = (bagRest leaf l ++ (true, bagHead leaf r) ::
            as.map (fun x => (x.1, leaf (.select x.2)))) ++ [(false, leaf (.select y))] ++
            bs.map fun x => (x.1, leaf (.select x.2)) := by
          rw [bagRest, bagRest_sel leaf r, e]
          simp
        rw [e', List.foldl_append, foldl_zeros]
        · exact foldl_distinct _ ()
        · intro x hx
          obtain ⟨z, hz, rfl⟩ := List.mem_map.mp hx
          exact ⟨hb z hz, hbs z hz⟩
      omega
    refine ⟨fold_regular key l (List.nodup_append.mp hd').1 fun v leaf hv => ?_, hr⟩
    obtain ⟨leaf', hleaf'⟩ := key_leaf v
    have same : bagRest leaf l = bagRest leaf' l ∧ bagHead leaf l = bagHead leaf' l := by
      rw [bagRest_sel, bagRest_sel, bagHead_sel, bagHead_sel]
      refine ⟨List.map_congr_left fun x hx => ?_, ?_⟩
      · rw [hv x.2 (by rw [selects_eq l]; exact List.mem_cons_of_mem _ (List.mem_map_of_mem (f := Prod.snd) hx)), hleaf']
      · rw [hv _ (by rw [selects_eq l]; simp), hleaf']
    have sameBag : ∀ tr : UnionTree, (∀ q ∈ tr.selects, leaf (.select q) = leaf' (.select q)) →
        tr.bag leaf = tr.bag leaf' := by
      intro tr
      induction tr with
      | sel q => intro h; exact h q (by simp [UnionTree.selects])
      | all a b iha ihb =>
        intro h
        simp only [UnionTree.selects, List.mem_append] at h
        simp only [UnionTree.bag, iha fun q hq => h q (.inl hq), ihb fun q hq => h q (.inr hq)]
      | distinct a b iha ihb =>
        intro h
        simp only [UnionTree.selects, List.mem_append] at h
        simp only [UnionTree.bag, iha fun q hq => h q (.inl hq), ihb fun q hq => h q (.inr hq)]
    rw [same.1, same.2, sameBag l fun q hq => by rw [hv q hq, hleaf']]
    have heq := h v leaf' fun q _ => hleaf' q
    obtain ⟨h1, h2⟩ := rest_onlyAll leaf' r hr
    simp only [bagRest, bagHead, List.foldl_append, List.foldl_cons] at heq
    have e2 : (bagRest leaf' r).foldl addNext
        (((bagRest leaf' l).foldl addNext (bagHead leaf' l)).addAll (bagHead leaf' r)) =
        (l.bag leaf').addAll (r.bag leaf') := heq
    rw [foldl_onlyAll h1, h2] at e2
    funext u
    have := congrFun e2 u
    have : (bagRest leaf' l).foldl addNext (bagHead leaf' l) u + r.bag leaf' u = l.bag leaf' u + r.bag leaf' u := this
    omega
  | .distinct l r, _, h => by
    show r.endsDistinct = true
    by_contra hr
    rw [Bool.not_eq_true] at hr
    obtain ⟨xs, y, e⟩ := rest_all r hr
    obtain ⟨leaf, hleaf⟩ : ∃ leaf : Obj → Bag Unit, ∀ o, leaf o = fun _ => 1 := ⟨fun _ _ => 1, fun _ => rfl⟩
    have heq := congrFun (h (fun _ => 1) leaf fun q _ => hleaf _) ()
    have h2 : (UnionTree.distinct l r).bag leaf () ≤ 1 := by
      show min 1 _ ≤ 1
      omega
    have e' : ∃ zs, bagRest leaf (.distinct l r) = zs ++ [(true, leaf (.select y))] :=
      ⟨bagRest leaf l ++ (false, bagHead leaf r) :: xs.map (fun x => (x.1, leaf (.select x.2))), by
        rw [bagRest, bagRest_sel _ r, e]
        simp⟩
    obtain ⟨zs, e'⟩ := e'
    rw [e', List.foldl_append] at heq
    have h1 := (foldl_pos zs () (bagHead leaf (.distinct l r))).mpr (.inl (by rw [bagHead_sel, hleaf]; decide))
    have heq : zs.foldl addNext (bagHead leaf (.distinct l r)) () + leaf (.select y) () =
      (UnionTree.distinct l r).bag leaf () := heq
    have h3 : leaf (.select y) () = 1 := by rw [hleaf]
    omega

end SqlPuzzle
