import Verif.Proofs.UnionFacts
import Verif.Props.Grammar

/-!
C37: unions keep their structure.

`bagOf sel cut ts` (`Spec/Unions.lean`) is the bag of rows of the query with the tokens `ts`; `sel`
gives the bag of each single select, `cut` the effect of a final `ORDER BY`, `LIMIT`, …
-/

namespace SqlPuzzle

open Spec

section
variable {Row : Type}

/-- C37 in full. -/
def C37_claim (Row : Type) : Prop :=
  ∀ (cx : Ctx) (d : Dialect) (sel : List Tok → Bag Row) (cut : List Tok → Bag Row → Bag Row)
    (leaf : Obj → Bag Row) (tr : UnionTree) (n : Nat) (t : Str), Fits cx d → (∀ b, cut [] b = b) →
    LeafBag cx d sel cut leaf → NoRaw cx.backend.quote .query tr.obj → (sem cx n).str tr.obj = .ok t →
    bagOf sel cut (lex d t) = tr.bag leaf

/-- C37, the part that holds: an expression denotes the same bag as its text if the right operand of
each `&` is made with `&` only and the right operand of each `|` is a select or ends with `|`, and no
select has `ORDER BY`, `LIMIT`, `INTO OUTFILE` or `FOR UPDATE`.  What is missing: the other
expressions, for which it is false (`C37_refuted`, `C37_refuted_limit`). -/
theorem C37_regular_partial {cx : Ctx} {d : Dialect} (hf : Fits cx d) {sel : List Tok → Bag Row}
    {cut : List Tok → Bag Row → Bag Row} {leaf : Obj → Bag Row} (hc : ∀ b, cut [] b = b)
    (hl : LeafBag cx d sel cut leaf) {tr : UnionTree} (hr : tr.Regular) (ht : tr.NoTail) {n : Nat} {t : Str}
    (h : NoRaw cx.backend.quote .query tr.obj) (e : (sem cx n).str tr.obj = .ok t) :
    bagOf sel cut (lex d t) = tr.bag leaf := by
  obtain ⟨N, hs, r⟩ := read_noRaw hf h e
  have h1 := safe_le (Nat.le_max_left N n) hs
  have h2 := ((sem_le cx (Nat.le_max_right N n)).str _).ok e
  obtain ⟨p1, p2⟩ := parts_union (d := d) tr _ h1 ht
  obtain ⟨l1, l2⟩ := leaf_bags hf hc hl tr _ h1 ht ⟨t, h2⟩
  rw [r (max N n) (Nat.le_max_left _ _), toks_union cx d tr _ h1, bagOf_parts hc p1 p2, l1, l2,
    regular_fold leaf tr hr]

/-- The bags of the selects, each written on its own, always exist. -/
theorem C37_leaf_exists (cx : Ctx) (d : Dialect) (sel : List Tok → Bag Row)
    (cut : List Tok → Bag Row → Bag Row) : ∃ leaf, LeafBag cx d sel cut leaf := by
  classical
  refine ⟨fun o => if h : ∃ u n, (sem cx n).str o = .ok u then bagOf sel cut (lex d h.choose) else
    fun _ => 0, ?_⟩
  intro o n u e
  have h : ∃ u n, (sem cx n).str o = .ok u := ⟨u, n, e⟩
  have h2 : h.choose = u := by
    obtain ⟨m, hm⟩ := h.choose_spec
    have a := ((sem_le cx (Nat.le_max_left m n)).str o).ok hm
    have b := ((sem_le cx (Nat.le_max_right m n)).str o).ok e
    rw [a] at b
    cases b
    rfl
  simp only [dif_pos h, h2]

/-- The selects of a safe expression with a text are safe and have texts. -/
theorem selects_safe {cx : Ctx} : ∀ (tr : UnionTree) (n : Nat), Safe cx.backend.quote n .query tr.obj →
    tr.NoTail → (∃ t, (sem cx n).str tr.obj = .ok t) → ∀ q ∈ tr.selects, Safe cx.backend.quote n .query (.select q) ∧
      Select.NoTail q ∧ ∃ u, (sem cx n).str (.select q) = .ok u
  | .sel q, n, h, ht, e, q', hq => by
    cases List.mem_singleton.mp hq
    exact ⟨h, ht, e⟩
  | .all l r, 0, h, _, _, _, _ => h.elim
  | .distinct l r, 0, h, _, _, _, _ => h.elim
  | .all l r, n + 1, h, ht, ⟨t, e⟩, q, hq => by
    simp only [UnionTree.obj, sem, renderF, bind_ok] at e
    obtain ⟨x, e1, y, e2, _⟩ := e
    obtain ⟨a, b, u, c⟩ : Safe cx.backend.quote n .query (.select q) ∧ Select.NoTail q ∧
        ∃ u, (sem cx n).str (.select q) = .ok u := by
      rcases List.mem_append.mp hq with hq | hq
      · exact selects_safe l n (safe_union h).1 ht.1 ⟨x, e1⟩ q hq
      · exact selects_safe r n (safe_union h).2 ht.2 ⟨y, e2⟩ q hq
    exact ⟨safe_le (Nat.le_succ n) a, b, u, ((sem_le cx (Nat.le_succ n)).str _).ok c⟩
  | .distinct l r, n + 1, h, ht, ⟨t, e⟩, q, hq => by
    simp only [UnionTree.obj, sem, renderF, bind_ok] at e
    obtain ⟨x, e1, y, e2, _⟩ := e
    obtain ⟨a, b, u, c⟩ : Safe cx.backend.quote n .query (.select q) ∧ Select.NoTail q ∧
        ∃ u, (sem cx n).str (.select q) = .ok u := by
      rcases List.mem_append.mp hq with hq | hq
      · exact selects_safe l n (safe_union h).1 ht.1 ⟨x, e1⟩ q hq
      · exact selects_safe r n (safe_union h).2 ht.2 ⟨y, e2⟩ q hq
    exact ⟨safe_le (Nat.le_succ n) a, b, u, ((sem_le cx (Nat.le_succ n)).str _).ok c⟩

private theorem same_leaves {Row : Type} {leaf leaf' : Obj → Bag Row} : ∀ tr : UnionTree,
    (∀ q ∈ tr.selects, leaf (.select q) = leaf' (.select q)) → tr.bag leaf = tr.bag leaf' ∧
      (bagRest leaf tr).foldl addNext (bagHead leaf tr) = (bagRest leaf' tr).foldl addNext (bagHead leaf' tr) := by
  intro tr h
  constructor
  · induction tr with
    | sel q => exact h q (by simp [UnionTree.selects])
    | all a b iha ihb =>
      simp only [UnionTree.selects, List.mem_append] at h
      simp only [UnionTree.bag, iha fun q hq => h q (.inl hq), ihb fun q hq => h q (.inr hq)]
    | distinct a b iha ihb =>
      simp only [UnionTree.selects, List.mem_append] at h
      simp only [UnionTree.bag, iha fun q hq => h q (.inl hq), ihb fun q hq => h q (.inr hq)]
  · rw [selects_eq tr] at h
    rw [bagRest_sel, bagRest_sel, bagHead_sel, bagHead_sel, h _ List.mem_cons_self]
    congr 1
    exact List.map_congr_left fun x hx => by
      rw [h x.2 (List.mem_cons_of_mem _ (List.mem_map_of_mem (f := Prod.snd) hx))]

/-- C37, the restriction can not be weakened: an expression of selects with different texts, without tail clauses, denotes
what its text denotes, for every server, if and only if it is regular. -/
theorem C37_exact {cx : Ctx} {d : Dialect} (hf : Fits cx d) {tr : UnionTree} (ht : tr.NoTail) {n : Nat} {t : Str}
    (hd : DifferentTexts cx d tr.selects) (h : NoRaw cx.backend.quote .query tr.obj)
    (e : (sem cx n).str tr.obj = .ok t) :
    tr.Regular ↔ ∀ (sel : List Tok → Bag Unit) (leaf : Obj → Bag Unit), LeafBag cx d sel (fun _ b => b) leaf →
      bagOf sel (fun _ b => b) (lex d t) = tr.bag leaf := by
  refine ⟨fun hr sel leaf hl => C37_regular_partial hf (fun _ => rfl) hl hr ht h e, fun hall => ?_⟩
  obtain ⟨N, hs, r⟩ := read_noRaw hf h e
  have h1 := safe_le (Nat.le_max_left N n) hs
  have h2 := ((sem_le cx (Nat.le_max_right N n)).str _).ok e
  have h3 := selects_safe tr _ h1 ht ⟨t, h2⟩
  have hM : N ≤ max N n := Nat.le_max_left _ _
  generalize max N n = M at *
  have hlex : ∀ q ∈ tr.selects, ∃ u, (sem cx M).str (.select q) = .ok u ∧ lex d u = toks cx d M (.select q) := by
    intro q hq
    obtain ⟨a, _, u, c⟩ := h3 q hq
    exact ⟨u, c, (rt_main hf M a c).reads.lex⟩
  refine fold_regular (fun q => toks cx d M (.select q)) tr ?_ fun v leaf hv => ?_
  · unfold DifferentTexts at hd
    rw [List.nodup_iff_pairwise_ne, List.pairwise_map]
    refine hd.imp_of_mem ?_
    intro q q' hq hq' hne
    obtain ⟨u, e1, l1⟩ := hlex q hq
    obtain ⟨u', e2, l2⟩ := hlex q' hq'
    rw [← l1, ← l2]
    exact hne M u u' e1 e2
  · obtain ⟨leaf', hl⟩ := C37_leaf_exists cx d (fun ts (_ : Unit) => v ts) fun _ b => b
    have hleaf : ∀ q ∈ tr.selects, leaf' (.select q) = fun _ => v (toks cx d M (.select q)) := by
      intro q hq
      obtain ⟨a, b, _⟩ := h3 q hq
      obtain ⟨u, e1, l1⟩ := hlex q hq
      rw [hl _ M u e1, l1]
      have := bagOf_parts (sel := fun ts (_ : Unit) => v ts) (cut := fun _ b => b) (xs := []) (fun _ => rfl)
        (part_select (d := d) a b) (by simp)
      simpa [restToks] using this
    obtain ⟨s1, s2⟩ := same_leaves (leaf := leaf) (leaf' := leaf') tr fun q hq => by rw [hv q hq, hleaf q hq]
    rw [s1, s2, ← hall _ leaf' hl]
    obtain ⟨p1, p2⟩ := parts_union (d := d) tr _ h1 ht
    obtain ⟨l1, l2⟩ := leaf_bags hf (fun _ => rfl) hl tr _ h1 ht ⟨t, h2⟩
    rw [r M hM, toks_union cx d tr _ h1, bagOf_parts (fun _ => rfl) p1 p2, l1, l2]

/-- `&` and `|` build the expressions. -/
theorem C37_api (l r : UnionTree) :
    mkUnion l.obj r.obj true = .ok (UnionTree.all l r).obj ∧
    mkUnion l.obj r.obj false = .ok (UnionTree.distinct l r).obj := by
  cases l <;> cases r <;> exact ⟨rfl, rfl⟩

end

private def cx0 : Ctx := ⟨.sql, ⟨id, id, fun _ => true, fun _ => [], fun _ => []⟩⟩

private def from_ (s : Str) : UnionTree := .sel { tables := [⟨.str s, .none, []⟩] }

/-- `(a & b) | (c | d) & (e & f)`, with the last `&` outermost. -/
private def regular0 : UnionTree :=
  .all (.distinct (.all (from_ L!"a") (from_ L!"b")) (.distinct (from_ L!"c") (from_ L!"d")))
    (.all (from_ L!"e") (from_ L!"f"))

example : regular0.Regular ∧ regular0.NoTail := by
  refine ⟨⟨?_, rfl⟩, ?_⟩
  · exact (rfl : (UnionTree.distinct (from_ L!"c") (from_ L!"d")).endsDistinct = true)
  · simp [regular0, from_, UnionTree.NoTail, Select.NoTail]

example : NoRaw cx0.backend.quote .query regular0.obj := ⟨7, by decide +kernel⟩

example : (sem cx0 7).str regular0.obj = .ok L!"SELECT * FROM \"a\" UNION ALL SELECT * FROM \"b\" UNION SELECT * FROM \"c\" UNION SELECT * FROM \"d\" UNION ALL SELECT * FROM \"e\" UNION ALL SELECT * FROM \"f\"" := by
  decide +kernel

/-- The selects of the example have different texts. -/
example : DifferentTexts cx0 standardDialect regular0.selects := by
  have text : ∀ s ∈ [L!"a", L!"b", L!"c", L!"d", L!"e", L!"f"], ∀ n u,
      (sem cx0 n).str (from_ s).obj = .ok u → u = L!"SELECT * FROM " ++ reference '"' s := by
    intro s hs n u e
    have a := ((sem_le cx0 (Nat.le_add_right n 4)).str _).ok e
    have c : ∀ s ∈ [L!"a", L!"b", L!"c", L!"d", L!"e", L!"f"],
        (sem cx0 4).str (from_ s).obj = .ok (L!"SELECT * FROM " ++ reference '"' s) := by decide +kernel
    have b := ((sem_le cx0 (Nat.le_add_left 4 n)).str _).ok (c s hs)
    rw [b] at a
    injection a with a
    exact a.symm
  show List.Pairwise _ ([L!"a", L!"b", L!"c", L!"d", L!"e", L!"f"].map fun s =>
    ({ tables := [⟨.str s, .none, []⟩] } : Select))
  rw [List.pairwise_map]
  have : [L!"a", L!"b", L!"c", L!"d", L!"e", L!"f"].Pairwise fun s s' =>
      lex standardDialect (L!"SELECT * FROM " ++ reference '"' s) ≠
        lex standardDialect (L!"SELECT * FROM " ++ reference '"' s') := by decide +kernel
  refine this.imp_of_mem fun {s s'} hs hs' h n u u' e e' => ?_
  rw [text s hs n u e, text s' hs' n u' e']
  exact h

/-- `a & (b | c)` -/
private def nested0 : UnionTree := .all (from_ L!"a") (.distinct (from_ L!"b") (from_ L!"c"))

private def nestedText : Str :=
  L!"SELECT * FROM \"a\" UNION ALL SELECT * FROM \"b\" UNION SELECT * FROM \"c\""

/-- C37 fails for `a & (b | c)`, whose text is that of `(a & b) | c`. -/
theorem C37_refuted : ¬ C37_claim Unit := by
  intro h
  obtain ⟨leaf, hl⟩ := C37_leaf_exists cx0 standardDialect (fun _ (_ : Unit) => 1) (fun _ b => b)
  have hleaf : ∀ s, s ∈ [L!"a", L!"b", L!"c"] → leaf (from_ s).obj () = 1 := by
    intro s hs
    have hs' : s = L!"a" ∨ s = L!"b" ∨ s = L!"c" := by simpa using hs
    rcases hs' with rfl | rfl | rfl
    · rw [hl _ 4 L!"SELECT * FROM \"a\"" (by decide +kernel)]; decide +kernel
    · rw [hl _ 4 L!"SELECT * FROM \"b\"" (by decide +kernel)]; decide +kernel
    · rw [hl _ 4 L!"SELECT * FROM \"c\"" (by decide +kernel)]; decide +kernel
  have key := congrFun (h cx0 standardDialect (fun _ _ => 1) (fun _ b => b) leaf nested0 6 nestedText rfl
    (fun _ => rfl) hl ⟨6, by decide +kernel⟩ (by decide +kernel)) ()
  have e : nested0.bag leaf () = leaf (from_ L!"a").obj () +
      min 1 (leaf (from_ L!"b").obj () + leaf (from_ L!"c").obj ()) := rfl
  rw [e, hleaf _ (by simp), hleaf _ (by simp), hleaf _ (by simp)] at key
  exact absurd key (by decide +kernel)

/-- `a | b.limit(0)` -/
private def limited0 : UnionTree :=
  .distinct (from_ L!"a") (.sel { tables := [⟨.str L!"b", .none, []⟩], limit := { limit := some 0 } })

/-- C37 fails for `a | b.limit(0)`: the limit of the last select applies to the whole union. -/
theorem C37_refuted_limit : ¬ C37_claim Unit := by
  intro h
  have hcut : ∀ b : Bag Unit, (fun ts (b : Bag Unit) => if ts = ([] : List Tok) then b else fun _ => 0) [] b = b := by
    intro b; simp
  obtain ⟨leaf, hl⟩ := C37_leaf_exists cx0 standardDialect (fun _ (_ : Unit) => 1)
    (fun ts b => if ts = [] then b else fun _ => 0)
  have h1 : leaf (from_ L!"a").obj () = 1 := by
    rw [hl _ 4 L!"SELECT * FROM \"a\"" (by decide +kernel)]; decide +kernel
  have key := congrFun (h cx0 standardDialect (fun _ _ => 1) _ leaf limited0 6
    L!"SELECT * FROM \"a\" UNION SELECT * FROM \"b\" LIMIT 0" rfl hcut hl ⟨6, by decide +kernel⟩
    (by decide +kernel)) ()
  have e : ∃ k, limited0.bag leaf () = min 1 (leaf (from_ L!"a").obj () + k) := ⟨_, rfl⟩
  obtain ⟨k, e⟩ := e
  rw [e, h1] at key
  have e2 : bagOf (fun _ (_ : Unit) => 1) (fun ts b => if ts = [] then b else fun _ => 0)
      (lex standardDialect L!"SELECT * FROM \"a\" UNION SELECT * FROM \"b\" LIMIT 0") () = 0 := by
    decide +kernel
  rw [e2] at key
  omega

end SqlPuzzle
